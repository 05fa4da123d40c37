import Verif.Quad.Product

/-! The tables, checked completely by kernel computation. -/

namespace Verif.Quad

open Verif.Typ Verif.RefTopo Verif.RefGeom
open Finset hiding ext

set_option linter.unusedSectionVars false

/-- integral of `z^k` against the weight `2^α (1-z)^α` as a fraction -/
def beta1 (α : Nat) (l : List Nat) : Nat × Nat :=
  (2 ^ α * (l.sum.factorial * α.factorial), (l.sum + α + 1).factorial)

/-- all positions in the unit interval -/
def Row.in01 (r : Row) : Bool :=
  r.pts.all fun n => match n.x with
    | [l] => decide (0 ≤ l.num) && decide (l.num ≤ l.den) && decide (l.den ≠ 0)
    | _ => false

/-- all positions strictly inside the unit interval -/
def Row.inner (r : Row) : Bool :=
  r.pts.all fun n => match n.x with
    | [l] => decide (0 < l.num) && decide (l.num < l.den)
    | _ => false

/-- all weights positive -/
def Row.posW (r : Row) : Bool := r.pts.all fun n => decide (0 < n.w.num) && decide (n.w.den ≠ 0)

/-- what is checked of a one dimensional row -/
def Row.ok1 (α : Nat) (r : Row) : Bool :=
  r.momentsOK 1 (10 ^ 220) (10 ^ 79) (beta1 α) && r.in01 && r.posW

/-- every order up to `h` finds a row of at least that order -/
def coverOK (tab : List Row) (h : Nat) : Bool :=
  (List.range (h + 1)).all fun p => match initHelper tab p with
    | .ok r => decide (p ≤ r.order)
    | _ => false

/-! ### The one dimensional tables -/

theorem gauss_ok : Gauss.table.all (Row.ok1 0) = true := by decide +kernel
theorem jacobi1_ok : Jacobi1.table.all (Row.ok1 1) = true := by decide +kernel
theorem jacobi2_ok : Jacobi2.table.all (Row.ok1 2) = true := by decide +kernel
theorem lobatto_ok : Lobatto.table.all (Row.ok1 0) = true := by decide +kernel
theorem radauLeft_ok : RadauLeft.table.all (Row.ok1 0) = true := by decide +kernel
theorem radauRight_ok : RadauRight.table.all (Row.ok1 0) = true := by decide +kernel

theorem gauss_cover : coverOK Gauss.table 61 = true := by decide +kernel
theorem jacobi1_cover : coverOK Jacobi1.table 61 = true := by decide +kernel
theorem jacobi2_cover : coverOK Jacobi2.table 61 = true := by decide +kernel
theorem lobatto_cover : coverOK Lobatto.table 31 = true := by decide +kernel
theorem radauLeft_cover : coverOK RadauLeft.table 30 = true := by decide +kernel
theorem radauRight_cover : coverOK RadauRight.table 30 = true := by decide +kernel

/-- Gauss rules of order `2n-1` have `n` points, all inside; the same for Gauss-Jacobi -/
def Row.gaussShape (r : Row) : Bool := decide (r.order + 1 = 2 * r.pts.length) && r.inner

theorem gauss_shape : Gauss.table.all Row.gaussShape = true := by decide +kernel
theorem jacobi1_shape : Jacobi1.table.all Row.gaussShape = true := by decide +kernel
theorem jacobi2_shape : Jacobi2.table.all Row.gaussShape = true := by decide +kernel

/-- Lobatto rules of order `2n-3` have `n` points -/
theorem lobatto_shape : (Lobatto.table.all fun r => decide (r.order + 3 = 2 * r.pts.length)) = true := by
  decide +kernel
/-- Radau rules of order `2n-2` have `n` points -/
theorem radauLeft_shape : (RadauLeft.table.all fun r => decide (r.order + 2 = 2 * r.pts.length)) = true := by
  decide +kernel
theorem radauRight_shape : (RadauRight.table.all fun r => decide (r.order + 2 = 2 * r.pts.length)) = true := by
  decide +kernel

/-! ### Consequences -/

variable {K : Type} [Field K] [LinearOrder K] [IsStrictOrderedRing K]

theorem initHelper_mem {tab : List Row} {p : Int} {r : Row} (h : initHelper tab p = .ok r) : r ∈ tab := by
  unfold initHelper at h
  split at h
  · rename_i r' hr
    cases h
    exact List.mem_of_find?_eq_some hr
  · cases h

theorem cover_row {tab : List Row} {h : Nat} (hc : coverOK tab h = true) {p : Nat} (hp : p ≤ h) :
    ∃ r, initHelper tab p = .ok r ∧ r ∈ tab ∧ p ≤ r.order := by
  have := List.all_eq_true.mp hc p (List.mem_range.mpr (by omega))
  revert this
  cases e : initHelper tab p with
  | ok r => intro h1; exact ⟨r, rfl, initHelper_mem e, by simpa using h1⟩
  | throw => simp
  | ub => simp

theorem in01_sound {r : Row} (h : r.in01 = true) : In01 (r.pts.map (Node.point (K := K))) := by
  intro q hq
  rw [List.mem_map] at hq
  obtain ⟨n, hn, rfl⟩ := hq
  have := List.all_eq_true.mp h n hn
  revert this
  obtain ⟨xs, w⟩ := n
  match xs with
  | [] => simp
  | [l] =>
    simp only [Bool.and_eq_true, decide_eq_true_eq, Node.point]
    rintro ⟨⟨h0, h1⟩, h2⟩
    have hd : (0 : K) < l.den := by exact_mod_cast Nat.pos_of_ne_zero h2
    simp only [List.length_singleton, Nat.lt_one_iff, dif_pos, List.getElem_cons_zero, Lit.val]
    constructor
    · exact div_nonneg (by exact_mod_cast h0) hd.le
    · rw [div_le_one hd]; exact_mod_cast h1
  | _ :: _ :: _ => simp

theorem inner_sound {r : Row} (h : r.inner = true) :
    ∀ q ∈ r.pts.map (Node.point (K := K)), 0 < q.position 0 ∧ q.position 0 < 1 := by
  intro q hq
  rw [List.mem_map] at hq
  obtain ⟨n, hn, rfl⟩ := hq
  have := List.all_eq_true.mp h n hn
  revert this
  obtain ⟨xs, w⟩ := n
  match xs with
  | [] => simp
  | [l] =>
    simp only [Bool.and_eq_true, decide_eq_true_eq, Node.point]
    rintro ⟨h0, h1⟩
    have h2 : (0 : Int) < l.den := by omega
    have hd : (0 : K) < l.den := by exact_mod_cast h2
    simp only [List.length_singleton, Nat.lt_one_iff, dif_pos, List.getElem_cons_zero, Lit.val]
    constructor
    · exact div_pos (by exact_mod_cast h0) hd
    · rw [div_lt_one hd]; exact_mod_cast h1
  | _ :: _ :: _ => simp

theorem posW_sound {r : Row} (h : r.posW = true) : PosW (r.pts.map (Node.point (K := K))) := by
  intro q hq
  rw [List.mem_map] at hq
  obtain ⟨n, hn, rfl⟩ := hq
  have := List.all_eq_true.mp h n hn
  simp only [Bool.and_eq_true, decide_eq_true_eq] at this
  have hd : (0 : K) < n.w.den := by exact_mod_cast Nat.pos_of_ne_zero this.2
  exact div_pos (by exact_mod_cast this.1) hd

theorem mono_one (k : Nat) (x : Vec K) : mono 1 (fun _ => k) x = x 0 ^ k := by simp [mono]

/-- the accuracy of all one dimensional tables on `z^k (1-z)^m` -/
def eps1 (K : Type) [Field K] : K := 1 / 10 ^ 60

theorem ok1_moment {α : Nat} {r : Row} (h : r.ok1 α = true) (k : Nat) (hk : k ≤ r.order) :
    |quadSum (fun x => x 0 ^ k) (r.pts.map (Node.point (K := K))) - 2 ^ α * bet K k α| ≤ 1 / 10 ^ 79 := by
  simp only [Row.ok1, Bool.and_eq_true] at h
  have := row_moment (K := K) h.1.1 (fun _ => k) (by simpa [deg] using hk)
  have e : (fun x : Vec K => x 0 ^ k) = mono 1 (fun _ => k) := by funext x; rw [mono_one]
  rw [e]
  have e2 : (((beta1 α ((List.range 1).map fun _ => k)).1 : Nat) : K) /
      (((beta1 α ((List.range 1).map fun _ => k)).2 : Nat) : K) = 2 ^ α * bet K k α := by
    simp [beta1, bet, mul_div_assoc]
  rw [e2] at this
  refine this.trans (le_of_eq ?_)
  norm_num

theorem ok1_approx {α : Nat} {r : Row} (h : r.ok1 α = true) {p : Nat} (hp : p ≤ r.order) (h61 : p ≤ 61) :
    Approx1 α p (2 ^ α) (eps1 K) (r.pts.map (Node.point (K := K))) := by
  have h1 := approx1_of_powers (K := K) (α := α) (p := p) (c := 2 ^ α) (ε := 1 / 10 ^ 79) (by positivity)
    fun k hk => ok1_moment h k (by omega)
  intro k m hkm
  refine (h1 k m hkm).trans ?_
  calc (2 : K) ^ p * (1 / 10 ^ 79) ≤ 2 ^ 61 * (1 / 10 ^ 79) :=
        mul_le_mul_of_nonneg_right (pow_le_pow_right₀ (by norm_num) h61) (by positivity)
    _ ≤ eps1 K := by unfold eps1; norm_num

/-- what the code relies on for one of the 1D tables with weight function `(1-z)^α` -/
theorem table_facts {α h : Nat} {tab : List Row} (hok : tab.all (Row.ok1 α) = true) (hc : coverOK tab h = true)
    (h61 : h ≤ 61) {p : Nat} (hp : p ≤ h) :
    ∃ r, initHelper tab p = .ok r ∧ r ∈ tab ∧ p ≤ r.order ∧
      Approx1 α p (2 ^ α) (eps1 K) (r.pts.map (Node.point (K := K))) ∧
      In01 (r.pts.map (Node.point (K := K))) ∧ PosW (r.pts.map (Node.point (K := K))) := by
  obtain ⟨r, h1, h2, h3⟩ := cover_row hc hp
  have h4 := List.all_eq_true.mp hok r h2
  have h5 := h4
  simp only [Row.ok1, Bool.and_eq_true] at h5
  exact ⟨r, h1, h2, h3, ok1_approx h4 h3 (by omega), in01_sound h5.1.2, posW_sound h5.2⟩

/-! ### The tables in two and three dimensions -/

/-- exact moment of the simplex -/
def simplexMom (l : List Nat) : Nat × Nat := ((l.map Nat.factorial).prod, (l.sum + l.length).factorial)

/-- exact moment of the prism (triangle times interval) -/
def prismMom : List Nat → Nat × Nat
  | [a, b, c] => (a.factorial * b.factorial, (a + b + 2).factorial * (c + 1))
  | _ => (0, 0)

/-- positions in the simplex: coordinates not negative (part of `fits`), sum at most one -/
def Node.inSimplex (S : Nat) (n : Node) : Bool := decide ((n.x.map (Lit.sc S)).sum ≤ S)

/-- positions in the prism -/
def Node.inPrism (S : Nat) (n : Node) : Bool :=
  match n.x with
  | [a, b, c] => decide (a.sc S + b.sc S ≤ S) && decide (c.sc S ≤ S)
  | _ => false

/-- what is checked of a block of the triangle table; the rule of order 12 is stored with less precision -/
def Row.okTri (r : Row) : Bool :=
  r.momentsOK 2 (6 * 10 ^ 34) (if r.order = 12 then 4 * 10 ^ 14 else 10 ^ 32) simplexMom &&
    r.pts.all (Node.inSimplex (6 * 10 ^ 34))

/-- what is checked of a block of the tetrahedron table -/
def Row.okTet (r : Row) : Bool :=
  r.momentsOK 3 (15 * 10 ^ 21) (10 ^ 17) simplexMom && r.pts.all (Node.inSimplex (15 * 10 ^ 21))

/-- what is checked of the block of the prism table -/
def Row.okPrism (r : Row) : Bool :=
  r.momentsOK 3 (10 ^ 18) (10 ^ 15) prismMom && r.pts.all (Node.inPrism (10 ^ 18))

/-- all weights positive, except in the triangle rule of order 3 -/
theorem simplex_posW : (Simplex2.blocks.all fun r => r.posW || r.order == 3) = true ∧
    (Simplex3.blocks.all Row.posW) = true ∧ Prism3.block1.posW = true := by decide +kernel

/-- all positions of the rules used with cones are below one -/
def Row.below1 (r : Row) : Bool :=
  r.pts.all fun n => match n.x with
    | [l] => decide (l.num < l.den)
    | _ => false

theorem radauLeft_below1 : RadauLeft.table.all Row.below1 = true := by decide +kernel
theorem gauss_below1 : Gauss.table.all Row.below1 = true := by decide +kernel

theorem simplex2_ok : Simplex2.blocks.all Row.okTri = true := by decide +kernel
theorem simplex3_ok : Simplex3.blocks.all Row.okTet = true := by decide +kernel
theorem prism3_ok : Row.okPrism Prism3.block1 = true := by decide +kernel

end Verif.Quad
