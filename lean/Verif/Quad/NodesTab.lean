import Verif.Quad.Deliver

/-! Where the tabulated points are: end points of the interval, distinct points, mirrored rules.  Checked completely by kernel
computation. -/

namespace Verif.Quad

open Verif.Typ Verif.RefTopo Verif.RefGeom
open Finset hiding ext

set_option linter.unusedSectionVars false

variable {K : Type} [Field K] [LinearOrder K] [IsStrictOrderedRing K]

/-! ### End points -/

/-- the position of a tabulated point lies between 0 and `E / D` -/
def Node.near0 (E D : Nat) (n : Node) : Bool :=
  match n.x with
  | [l] => decide (0 ≤ l.num) && decide (0 < l.den) && decide (l.num * D ≤ E * l.den)
  | _ => false

/-- the position of a tabulated point lies between `1 - E / D` and 1 -/
def Node.near1 (E D : Nat) (n : Node) : Bool :=
  match n.x with
  | [l] => decide (l.num ≤ l.den) && decide (0 < l.den) && decide ((l.den - l.num) * D ≤ E * l.den)
  | _ => false

theorem near0_sound {E D : Nat} (hD : 0 < D) {n : Node} (h : n.near0 E D = true) :
    0 ≤ (Node.point (K := K) n).position 0 ∧ (Node.point (K := K) n).position 0 ≤ E / D := by
  revert h
  obtain ⟨xs, w⟩ := n
  match xs with
  | [] => simp [Node.near0]
  | [l] =>
    simp only [Node.near0, Bool.and_eq_true, decide_eq_true_eq, Node.point]
    rintro ⟨⟨h0, h1⟩, h2⟩
    have hd : (0 : K) < l.den := by exact_mod_cast h1
    have hD' : (0 : K) < D := by exact_mod_cast hD
    simp only [List.length_singleton, Nat.lt_one_iff, dif_pos, List.getElem_cons_zero, Lit.val]
    refine ⟨div_nonneg (by exact_mod_cast h0) hd.le, ?_⟩
    rw [div_le_div_iff₀ hd hD']
    exact_mod_cast h2
  | _ :: _ :: _ => simp [Node.near0]

theorem near1_sound {E D : Nat} (hD : 0 < D) {n : Node} (h : n.near1 E D = true) :
    0 ≤ 1 - (Node.point (K := K) n).position 0 ∧ 1 - (Node.point (K := K) n).position 0 ≤ E / D := by
  revert h
  obtain ⟨xs, w⟩ := n
  match xs with
  | [] => simp [Node.near1]
  | [l] =>
    simp only [Node.near1, Bool.and_eq_true, decide_eq_true_eq, Node.point]
    rintro ⟨⟨h0, h1⟩, h2⟩
    have hd : (0 : K) < l.den := by exact_mod_cast h1
    have hD' : (0 : K) < D := by exact_mod_cast hD
    simp only [List.length_singleton, Nat.lt_one_iff, dif_pos, List.getElem_cons_zero, Lit.val]
    have e : (1 : K) - l.num / l.den = (l.den - l.num) / l.den := by field_simp
    rw [e]
    refine ⟨div_nonneg (sub_nonneg.2 (by exact_mod_cast h0)) hd.le, ?_⟩
    rw [div_le_div_iff₀ hd hD']
    exact_mod_cast h2
  | _ :: _ :: _ => simp [Node.near1]

theorem lobatto_ends : (Lobatto.table.all fun r => r.pts.any (Node.near0 1 (10 ^ 99)) && r.pts.any (Node.near1 1 (10 ^ 99))) = true := by
  decide +kernel
theorem radauLeft_ends : (RadauLeft.table.all fun r => r.pts.any (Node.near0 1 (10 ^ 99))) = true := by decide +kernel
theorem radauRight_ends : (RadauRight.table.all fun r => r.pts.any (Node.near1 1 (10 ^ 99))) = true := by decide +kernel

/-- up to these orders the end points are tabulated exactly -/
theorem lobatto_exact : ((List.range 10).all fun p => match initHelper Lobatto.table p with
    | .ok r => r.pts.any (Node.near0 0 1) && r.pts.any (Node.near1 0 1)
    | _ => false) = true := by decide +kernel
theorem radauLeft_exact : ((List.range 9).all fun p => match initHelper RadauLeft.table p with
    | .ok r => r.pts.any (Node.near0 0 1)
    | _ => false) = true := by decide +kernel
theorem radauRight_exact : ((List.range 9).all fun p => match initHelper RadauRight.table p with
    | .ok r => r.pts.any (Node.near1 0 1)
    | _ => false) = true := by decide +kernel

/-! ### Number of points -/

theorem tab_lengths : (((List.range 62).all fun p => match initHelper Gauss.table p, initHelper Jacobi1.table p, initHelper Jacobi2.table p with
      | .ok r, .ok r1, .ok r2 => decide (r.pts.length = p / 2 + 1) && decide (r1.pts.length = p / 2 + 1) && decide (r2.pts.length = p / 2 + 1)
      | _, _, _ => false) &&
    ((List.range 32).all fun p => match initHelper Lobatto.table p with
      | .ok r => decide (r.pts.length = p / 2 + 2)
      | _ => false) &&
    ((List.range 31).all fun p => match initHelper RadauLeft.table p, initHelper RadauRight.table p with
      | .ok r, .ok r' => decide (r.pts.length = (p + 1) / 2 + 1) && decide (r'.pts.length = (p + 1) / 2 + 1)
      | _, _ => false)) = true := by decide +kernel

/-! ### Distinct points -/

/-- two fractions differ -/
def Lit.differs (a b : Lit) : Bool := decide (a.num * b.den ≠ b.num * a.den) && decide (0 < a.den) && decide (0 < b.den)

/-- two positions differ in some coordinate -/
def Node.differs (a b : Node) : Bool := a.x.length == b.x.length && (a.x.zip b.x).any fun l => l.1.differs l.2

/-- all positions differ -/
def distinct : List Node → Bool
  | [] => true
  | n :: l => l.all n.differs && distinct l

theorem Lit.differs_sound {a b : Lit} (h : a.differs b = true) : (a.val : K) ≠ b.val := by
  simp only [Lit.differs, Bool.and_eq_true, decide_eq_true_eq] at h
  obtain ⟨⟨h1, h2⟩, h3⟩ := h
  have ha : (a.den : K) ≠ 0 := by exact_mod_cast h2.ne'
  have hb : (b.den : K) ≠ 0 := by exact_mod_cast h3.ne'
  rw [Lit.val, Lit.val, Ne, div_eq_div_iff ha hb]
  exact_mod_cast h1

/-- two points differ in some of the first `d` coordinates -/
def Apart (d : Nat) (p q : QPoint K) : Prop := ∃ k, k < d ∧ p.position k ≠ q.position k

theorem Node.differs_sound {a b : Node} (h : a.differs b = true) : Apart a.x.length (Node.point (K := K) a) b.point := by
  simp only [Node.differs, Bool.and_eq_true, beq_iff_eq, List.any_eq_true] at h
  obtain ⟨h1, l, hl, h2⟩ := h
  obtain ⟨i, hi, rfl⟩ := List.getElem_of_mem hl
  have hi' : i < a.x.length := by rw [List.length_zip] at hi; omega
  refine ⟨i, hi', ?_⟩
  simp only [List.getElem_zip] at h2
  simp only [Node.point]
  rw [dif_pos hi', dif_pos (h1 ▸ hi')]
  exact Lit.differs_sound h2

theorem distinct_sound {d : Nat} : ∀ {l : List Node}, (∀ n ∈ l, n.x.length = d) → distinct l = true →
    (l.map (Node.point (K := K))).Pairwise (Apart d)
  | [], _, _ => by simp
  | n :: l, hl, h => by
    simp only [distinct, Bool.and_eq_true, List.all_eq_true] at h
    rw [List.map_cons, List.pairwise_cons]
    refine ⟨fun q hq => ?_, distinct_sound (fun m hm => hl m (by simp [hm])) h.2⟩
    obtain ⟨m, hm, rfl⟩ := List.mem_map.1 hq
    have := Node.differs_sound (K := K) (h.1 m hm)
    rwa [hl n (by simp)] at this

theorem tab_distinct : ((Gauss.table ++ Jacobi1.table ++ Jacobi2.table ++ Lobatto.table ++ RadauLeft.table ++ RadauRight.table).all
    fun r => distinct r.pts && r.pts.all fun n => n.x.length == 1) = true := by decide +kernel
theorem simplex_distinct : (Simplex2.blocks.all fun r => distinct r.pts && r.pts.all fun n => n.x.length == 2) = true ∧
    (Simplex3.blocks.all fun r => distinct r.pts && r.pts.all fun n => n.x.length == 3) = true ∧
    (distinct Prism3.block1.pts && Prism3.block1.pts.all fun n => n.x.length == 3) = true := by decide +kernel

/-! ### Mirrored rules -/

/-- `b` is `a` mirrored at 1/2, up to `1 / D` in position and weight -/
def Node.mirrors (D : Nat) (a b : Node) : Bool :=
  match a.x, b.x with
  | [l], [m] => decide (0 < l.den) && decide (0 < m.den) && decide (0 < a.w.den) && decide (0 < b.w.den) &&
      decide ((l.num * m.den + m.num * l.den - l.den * m.den) * D ≤ (l.den * m.den : Int)) &&
      decide (-(l.den * m.den : Int) ≤ (l.num * m.den + m.num * l.den - l.den * m.den) * D) &&
      decide ((a.w.num * b.w.den - b.w.num * a.w.den) * D ≤ (a.w.den * b.w.den : Int)) &&
      decide (-(a.w.den * b.w.den : Int) ≤ (a.w.num * b.w.den - b.w.num * a.w.den) * D)
  | _, _ => false

theorem mirrors_sound {D : Nat} (hD : 0 < D) {a b : Node} (h : a.mirrors D b = true) :
    |(Node.point (K := K) a).position 0 + (Node.point (K := K) b).position 0 - 1| ≤ 1 / D ∧
    |(Node.point (K := K) a).weight - (Node.point (K := K) b).weight| ≤ 1 / D := by
  revert h
  obtain ⟨xs, w⟩ := a
  obtain ⟨ys, v⟩ := b
  have hD' : (0 : K) < D := by exact_mod_cast hD
  match xs, ys with
  | [l], [m] =>
    simp only [Node.mirrors, Bool.and_eq_true, decide_eq_true_eq, Node.point]
    rintro ⟨⟨⟨⟨⟨⟨⟨h1, h2⟩, h3⟩, h4⟩, h5⟩, h6⟩, h7⟩, h8⟩
    have c1 : (0 : K) < l.den := by exact_mod_cast h1
    have c2 : (0 : K) < m.den := by exact_mod_cast h2
    have c3 : (0 : K) < w.den := by exact_mod_cast h3
    have c4 : (0 : K) < v.den := by exact_mod_cast h4
    simp only [List.length_singleton, Nat.lt_one_iff, dif_pos, List.getElem_cons_zero, Lit.val]
    constructor
    · have e : (l.num : K) / l.den + m.num / m.den - 1 = (l.num * m.den + m.num * l.den - l.den * m.den) / (l.den * m.den) := by field_simp
      rw [e, abs_le, div_le_div_iff₀ (mul_pos c1 c2) hD', ← neg_div, div_le_div_iff₀ hD' (mul_pos c1 c2), one_mul, neg_one_mul]
      exact ⟨by exact_mod_cast h6, by exact_mod_cast h5⟩
    · have e : (w.num : K) / w.den - v.num / v.den = (w.num * v.den - v.num * w.den) / (w.den * v.den) := by field_simp
      rw [e, abs_le, div_le_div_iff₀ (mul_pos c3 c4) hD', ← neg_div, div_le_div_iff₀ hD' (mul_pos c3 c4), one_mul, neg_one_mul]
      exact ⟨by exact_mod_cast h8, by exact_mod_cast h7⟩
  | [], _ => simp [Node.mirrors]
  | _ :: _ :: _, _ => simp [Node.mirrors]
  | [_], [] => simp [Node.mirrors]
  | [_], _ :: _ :: _ => simp [Node.mirrors]

/-- every point of `a` has its mirror image in `b` and vice versa -/
def Row.mirrors (D : Nat) (a b : Row) : Bool :=
  a.order == b.order && a.cases == b.cases && a.pts.length == b.pts.length &&
    a.pts.all (fun n => b.pts.any (n.mirrors D)) && b.pts.all (fun n => a.pts.any (n.mirrors D))

theorem radau_mirror : (RadauLeft.table.length == RadauRight.table.length &&
    (RadauLeft.table.zip RadauRight.table).all fun r => r.1.mirrors (10 ^ 99) r.2) = true := by decide +kernel
theorem gauss_mirror : (Gauss.table.all fun r => r.mirrors (10 ^ 81) r) = true := by decide +kernel
theorem lobatto_mirror : (Lobatto.table.all fun r => r.mirrors (10 ^ 99) r) = true := by decide +kernel

/-! ### The tables in two and three dimensions -/

/-- a positive fraction -/
def Lit.pos (l : Lit) : Bool := decide (0 < l.num) && decide (0 < l.den)

/-- strictly inside the triangle -/
def Node.innerTri (n : Node) : Bool :=
  match n.x with
  | [a, b] => a.pos && b.pos && decide (a.num * b.den + b.num * a.den < (a.den * b.den : Int))
  | _ => false

/-- strictly inside the tetrahedron -/
def Node.innerTet (n : Node) : Bool :=
  match n.x with
  | [a, b, c] => a.pos && b.pos && c.pos &&
      decide (a.num * b.den * c.den + b.num * a.den * c.den + c.num * a.den * b.den < (a.den * b.den * c.den : Int))
  | _ => false

/-- strictly inside the prism -/
def Node.innerPrism (n : Node) : Bool :=
  match n.x with
  | [a, b, c] => a.pos && b.pos && c.pos && decide (a.num * b.den + b.num * a.den < (a.den * b.den : Int)) && decide (c.num < c.den)
  | _ => false

theorem Lit.pos_sound {l : Lit} (h : l.pos = true) : (0 : K) < l.num ∧ (0 : K) < l.den ∧ (0 : K) < l.val := by
  simp only [Lit.pos, Bool.and_eq_true, decide_eq_true_eq] at h
  have h1 : (0 : K) < l.num := by exact_mod_cast h.1
  have h2 : (0 : K) < l.den := by exact_mod_cast h.2
  exact ⟨h1, h2, div_pos h1 h2⟩

theorem innerTri_sound {n : Node} (h : n.innerTri = true) : Inside (0 : K) (.pyr (.prism .pt)) 1 (Node.point n).position := by
  revert h
  obtain ⟨xs, w⟩ := n
  match xs with
  | [a, b] =>
    simp only [Node.innerTri, Bool.and_eq_true, decide_eq_true_eq]
    rintro ⟨⟨h1, h2⟩, h3⟩
    obtain ⟨a1, a2, a3⟩ := Lit.pos_sound (K := K) h1
    obtain ⟨b1, b2, b3⟩ := Lit.pos_sound (K := K) h2
    have h : (a.val : K) + b.val < 1 := by
      rw [Lit.val, Lit.val, div_add_div _ _ a2.ne' b2.ne', div_lt_one (mul_pos a2 b2), mul_comm (a.den : K) (b.num : K)]
      exact_mod_cast h3
    simp only [Inside, Topo.dim, Node.point]
    simp
    exact ⟨b3, by linarith, a3, by linarith⟩
  | [] => simp [Node.innerTri]
  | [_] => simp [Node.innerTri]
  | _ :: _ :: _ :: _ => simp [Node.innerTri]

theorem innerTet_sound {n : Node} (h : n.innerTet = true) : Inside (0 : K) (.pyr (.pyr (.prism .pt))) 1 (Node.point n).position := by
  revert h
  obtain ⟨xs, w⟩ := n
  match xs with
  | [a, b, c] =>
    simp only [Node.innerTet, Bool.and_eq_true, decide_eq_true_eq]
    rintro ⟨⟨⟨h1, h2⟩, h3⟩, h4⟩
    obtain ⟨a1, a2, a3⟩ := Lit.pos_sound (K := K) h1
    obtain ⟨b1, b2, b3⟩ := Lit.pos_sound (K := K) h2
    obtain ⟨c1, c2, c3⟩ := Lit.pos_sound (K := K) h3
    have h : (a.val : K) + b.val + c.val < 1 := by
      have e : (a.val : K) + b.val + c.val = (a.num * b.den * c.den + b.num * a.den * c.den + c.num * a.den * b.den) / (a.den * b.den * c.den) := by
        rw [Lit.val, Lit.val, Lit.val]; field_simp
      rw [e, div_lt_one (by positivity)]
      exact_mod_cast h4
    simp only [Inside, Topo.dim, Node.point]
    simp
    exact ⟨c3, by linarith, b3, by linarith, a3, by linarith⟩
  | [] => simp [Node.innerTet]
  | [_] => simp [Node.innerTet]
  | [_, _] => simp [Node.innerTet]
  | _ :: _ :: _ :: _ :: _ => simp [Node.innerTet]

theorem innerPrism_sound {n : Node} (h : n.innerPrism = true) : Inside (0 : K) (.prism (.pyr (.prism .pt))) 1 (Node.point n).position := by
  revert h
  obtain ⟨xs, w⟩ := n
  match xs with
  | [a, b, c] =>
    simp only [Node.innerPrism, Bool.and_eq_true, decide_eq_true_eq]
    rintro ⟨⟨⟨⟨h1, h2⟩, h3⟩, h4⟩, h5⟩
    obtain ⟨a1, a2, a3⟩ := Lit.pos_sound (K := K) h1
    obtain ⟨b1, b2, b3⟩ := Lit.pos_sound (K := K) h2
    obtain ⟨c1, c2, c3⟩ := Lit.pos_sound (K := K) h3
    have h : (a.val : K) + b.val < 1 := by
      rw [Lit.val, Lit.val, div_add_div _ _ a2.ne' b2.ne', div_lt_one (mul_pos a2 b2), mul_comm (a.den : K) (b.num : K)]
      exact_mod_cast h4
    have hc : (c.val : K) < 1 := by rw [Lit.val, div_lt_one c2]; exact_mod_cast h5
    simp only [Inside, Topo.dim, Node.point]
    simp
    exact ⟨c3, by linarith, b3, by linarith, a3, by linarith⟩
  | [] => simp [Node.innerPrism]
  | [_] => simp [Node.innerPrism]
  | [_, _] => simp [Node.innerPrism]
  | _ :: _ :: _ :: _ :: _ => simp [Node.innerPrism]

/-- the points of all blocks lie strictly inside, except for the triangle rule of order 11 and the tetrahedron rule of order 3 -/
theorem simplex_inner : (Simplex2.blocks.all fun r => r.order == 11 || r.pts.all Node.innerTri) = true ∧
    (Simplex3.blocks.all fun r => r.order == 3 || r.pts.all Node.innerTet) = true ∧
    (Prism3.block1.pts.all Node.innerPrism) = true := by decide +kernel

end Verif.Quad
