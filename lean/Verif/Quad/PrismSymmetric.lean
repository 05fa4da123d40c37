import Verif.Quad.SimplexSymmetric

/-! Symmetries of the prism: a symmetry of the triangle and possibly a reflection. -/

namespace Verif.Quad

open Verif.Typ Verif.RefTopo Verif.RefGeom Verif.Neighbour
open Finset hiding ext

/-- the corners of the prism -/
def prismCorner (k i : Nat) : Nat := if i = 2 then k / 3 else if k % 3 = i + 1 then 1 else 0

/-- parallelograms of corners are quadrilateral faces -/
theorem parallelogram : ∀ a b c d : Fin 6, a ≠ b → a ≠ c → b ≠ c → (∀ i : Fin 3, prismCorner d i + prismCorner a i = prismCorner b i + prismCorner c i) →
    (b.val / 3 = a.val / 3 ∧ c.val % 3 = a.val % 3 ∨ c.val / 3 = a.val / 3 ∧ b.val % 3 = a.val % 3) := by decide +kernel

theorem prism_size {id : Nat} (hid : id = 4 ∨ id = 5) : refSize 3 id 3 = 6 := by rcases hid with rfl | rfl <;> decide

theorem prism_corner {id : Nat} (hid : id = 4 ∨ id = 5) {k : Nat} (hk : k < 6) {i : Nat} (hi : i < 3) :
    corner (K := ℝ) 3 id k i = prismCorner k i := by
  have e : referenceCorners (K := ℝ) 3 id = [fun _ => 0, setV (fun _ => 0) 0 1, setV (fun _ => 0) 1 1].flatMap (fun c => [c]) ++
      [setV (fun _ => 0) 2 1, setV (setV (fun _ => 0) 0 1) 2 1, setV (setV (fun _ => 0) 1 1) 2 1] := by
    rcases hid with rfl | rfl <;> simp [referenceCorners, implIsPrism, implBaseTopologyId]
  rw [corner, e]
  interval_cases k <;> interval_cases i <;> simp [prismCorner, setV]

/-- a symmetry of the prism is one of the triangle, and the third coordinate may be reflected -/
theorem prism_symmetry {id : Nat} (hid : id = 4 ∨ id = 5) {σ : Nat → Nat} {a : Vec ℝ} {M : Mat ℝ} (h : Symmetry 3 id σ a M) :
    Symmetry 2 0 (fun k => σ k % 3) a M ∧ (∀ x : Vec ℝ, ∀ i, i < 2 → affMap 3 a M x i = affMap 2 a M x i) ∧
      ((∀ x, affMap 3 a M x 2 = x 2) ∨ ∀ x, affMap 3 a M x 2 = 1 - x 2) := by
  have hsz := prism_size hid
  have lt : ∀ k < 6, σ k < 6 := fun k hk => by simpa [hsz] using h.lt k (by omega)
  have inj : ∀ k < 6, ∀ l < 6, σ k = σ l → k = l := fun k hk l hl e => h.inj k l (by omega) (by omega) e
  have cor : ∀ k < 6, ∀ i < 3, (prismCorner (σ k) i : ℝ) = a i + (M i 0 * prismCorner k 0 + M i 1 * prismCorner k 1 + M i 2 * prismCorner k 2) :=
    fun k hk i hi => by
    have := h.corner k (by omega) i hi
    rw [prism_corner hid (lt k hk) hi, affMap] at this
    rw [this, sum_range_succ, sum_range_succ, sum_range_one, prism_corner hid hk (by omega), prism_corner hid hk (by omega),
      prism_corner hid hk (by omega)]
  have c0 : ∀ i < 3, (prismCorner (σ 0) i : ℝ) = a i := fun i hi => by rw [cor 0 (by omega) i hi]; simp [prismCorner]
  have c1 : ∀ i < 3, (prismCorner (σ 1) i : ℝ) = a i + M i 0 := fun i hi => by rw [cor 1 (by omega) i hi]; simp [prismCorner]
  have c2 : ∀ i < 3, (prismCorner (σ 2) i : ℝ) = a i + M i 1 := fun i hi => by rw [cor 2 (by omega) i hi]; simp [prismCorner]
  have c3 : ∀ i < 3, (prismCorner (σ 3) i : ℝ) = a i + M i 2 := fun i hi => by rw [cor 3 (by omega) i hi]; simp [prismCorner]
  have c4 : ∀ i < 3, (prismCorner (σ 4) i : ℝ) = a i + M i 0 + M i 2 := fun i hi => by rw [cor 4 (by omega) i hi]; simp [prismCorner]; ring
  have c5 : ∀ i < 3, (prismCorner (σ 5) i : ℝ) = a i + M i 1 + M i 2 := fun i hi => by rw [cor 5 (by omega) i hi]; simp [prismCorner]; ring
  have ne : ∀ k < 6, ∀ l < 6, k ≠ l → (σ k) ≠ (σ l) := fun k hk l hl hkl e => hkl (inj k hk l hl e)
  have p1 := parallelogram ⟨σ 0, lt 0 (by omega)⟩ ⟨σ 1, lt 1 (by omega)⟩ ⟨σ 3, lt 3 (by omega)⟩ ⟨σ 4, lt 4 (by omega)⟩
    (fun e => ne 0 (by omega) 1 (by omega) (by omega) (Fin.mk.inj e)) (fun e => ne 0 (by omega) 3 (by omega) (by omega) (Fin.mk.inj e))
    (fun e => ne 1 (by omega) 3 (by omega) (by omega) (Fin.mk.inj e)) (fun i => by
      have : (prismCorner (σ 4) i + prismCorner (σ 0) i : ℝ) = prismCorner (σ 1) i + prismCorner (σ 3) i := by
        rw [c0 _ i.2, c1 _ i.2, c3 _ i.2, c4 _ i.2]; ring
      exact_mod_cast this)
  have p2 := parallelogram ⟨σ 0, lt 0 (by omega)⟩ ⟨σ 2, lt 2 (by omega)⟩ ⟨σ 3, lt 3 (by omega)⟩ ⟨σ 5, lt 5 (by omega)⟩
    (fun e => ne 0 (by omega) 2 (by omega) (by omega) (Fin.mk.inj e)) (fun e => ne 0 (by omega) 3 (by omega) (by omega) (Fin.mk.inj e))
    (fun e => ne 2 (by omega) 3 (by omega) (by omega) (Fin.mk.inj e)) (fun i => by
      have : (prismCorner (σ 5) i + prismCorner (σ 0) i : ℝ) = prismCorner (σ 2) i + prismCorner (σ 3) i := by
        rw [c0 _ i.2, c2 _ i.2, c3 _ i.2, c5 _ i.2]; ring
      exact_mod_cast this)
  simp only at p1 p2
  have l0 := lt 0 (by omega)
  have l1 := lt 1 (by omega)
  have l2 := lt 2 (by omega)
  have l3 := lt 3 (by omega)
  have n01 := ne 0 (by omega) 1 (by omega) (by omega)
  have n02 := ne 0 (by omega) 2 (by omega) (by omega)
  have n12 := ne 1 (by omega) 2 (by omega) (by omega)
  have n03 := ne 0 (by omega) 3 (by omega) (by omega)
  obtain ⟨d1, d2, d3⟩ : σ 1 / 3 = σ 0 / 3 ∧ σ 2 / 3 = σ 0 / 3 ∧ σ 3 % 3 = σ 0 % 3 := by omega
  have hs2 : IsSimplexId 2 0 := fun k _ _ => by simp
  have flat : ∀ i < 2, M i 2 = 0 := fun i hi => by
    have h1 := c3 i (by omega)
    have h2 := c0 i (by omega)
    have : prismCorner (σ 3) i = prismCorner (σ 0) i := by
      simp only [prismCorner, if_neg (show i ≠ 2 by omega), d3]
    rw [this, h2] at h1
    linarith
  refine ⟨⟨fun k hk => ?_, fun k k' hk hk' e => ?_, fun k hk i hi => ?_⟩, fun x i hi => ?_, ?_⟩
  · rw [simplex_size hs2]; exact Nat.mod_lt _ (by omega)
  · rw [simplex_size hs2] at hk hk'
    interval_cases k <;> interval_cases k' <;> (try rfl) <;> (exfalso; change σ _ % 3 = σ _ % 3 at e; omega)
  · rw [simplex_size hs2] at hk
    rw [simplex_corner hs2 (by have := Nat.mod_lt (σ k) (show 0 < 3 by omega); omega) hi, affMap, sum_range_succ, sum_range_one,
      simplex_corner hs2 (by omega) (by omega), simplex_corner hs2 (by omega) (by omega)]
    have h1 := cor k (by omega) i (by omega)
    have z : prismCorner k 2 = 0 := by simp [prismCorner]; omega
    have e0 : ∀ j < 2, ∀ l, (prismCorner l j : ℝ) = if l % 3 = j + 1 then 1 else 0 := fun j hj l => by
      simp only [prismCorner, if_neg (show j ≠ 2 by omega)]; split_ifs <;> simp
    rw [z, e0 i hi, e0 0 (by omega), e0 1 (by omega), Nat.mod_eq_of_lt hk] at h1
    rw [h1]; simp
  · rw [affMap, affMap, sum_range_succ _ 2, flat i hi]; ring
  · have h0 := c0 2 (by omega)
    have h1 := c1 2 (by omega)
    have h2 := c2 2 (by omega)
    have h3 := c3 2 (by omega)
    simp only [prismCorner, if_true] at h0 h1 h2 h3
    rw [d1] at h1
    rw [d2] at h2
    have m0 : M 2 0 = 0 := by linarith
    have m1 : M 2 1 = 0 := by linarith
    have e : ∀ x, affMap 3 a M x 2 = a 2 + M 2 2 * x 2 := fun x => by
      rw [affMap, sum_range_succ, sum_range_succ, sum_range_one, m0, m1]; ring
    rcases (show σ 0 / 3 = 0 ∧ σ 3 / 3 = 1 ∨ σ 0 / 3 = 1 ∧ σ 3 / 3 = 0 by omega) with ⟨t0, t3⟩ | ⟨t0, t3⟩
    · left; intro x
      rw [t0] at h0; rw [t3] at h3
      push_cast at h0 h3
      rw [e, ← h0, show M 2 2 = 1 by linarith]; ring
    · right; intro x
      rw [t0] at h0; rw [t3] at h3
      push_cast at h0 h3
      rw [e, ← h0, show M 2 2 = -1 by linarith]; ring

/-! ### Products -/

/-- a tensor product of a rule invariant under `A` and a rule on the interval -/
theorem tensor_rel {d : Nat} {B O : List (QPoint ℝ)} {A A' : Vec ℝ → Vec ℝ} {ρ : ℝ → ℝ} {ε δ : ℝ}
    (hB : Multiset.Rel (Close d ε A) (B : Multiset (QPoint ℝ)) (B : Multiset (QPoint ℝ)))
    (hO : Multiset.Rel (fun a b => |ρ (a.position 0) - b.position 0| ≤ δ ∧ |a.weight - b.weight| ≤ δ) (O : Multiset (QPoint ℝ))
      (O : Multiset (QPoint ℝ)))
    (hBw : ∀ b ∈ B, |b.weight| ≤ 1) (hOw : ∀ o ∈ O, |o.weight| ≤ 1) (hε : 0 ≤ ε) (hδ : 0 ≤ δ)
    (h1 : ∀ x y, (∀ i, i < d → x i = y i) → ∀ i, i < d → A' x i = A y i) (h2 : ∀ x, A' x d = ρ (x d)) :
    Multiset.Rel (Close (d + 1) (ε + δ) A') ((tensorProduct (d + 1) B O : List (QPoint ℝ)) : Multiset (QPoint ℝ))
      ((tensorProduct (d + 1) B O : List (QPoint ℝ)) : Multiset (QPoint ℝ)) := by
  have e : ((tensorProduct (d + 1) B O : List (QPoint ℝ)) : Multiset (QPoint ℝ)) = (B : Multiset (QPoint ℝ)).bind fun b =>
      (O : Multiset (QPoint ℝ)).map fun o =>
        ⟨setV (fun i => if i < d then b.position i else 0) d (o.position 0), b.weight * o.weight⟩ := by
    rw [tensorProduct, ← Multiset.coe_bind]
    rfl
  rw [e]
  have hB' : Multiset.Rel (fun a b => Close d ε A a b ∧ |b.weight| ≤ 1) (B : Multiset (QPoint ℝ)) (B : Multiset (QPoint ℝ)) :=
    hB.mono fun a _ b hb h => ⟨h, hBw b hb⟩
  have hO' : Multiset.Rel (fun a b => (|ρ (a.position 0) - b.position 0| ≤ δ ∧ |a.weight - b.weight| ≤ δ) ∧ |a.weight| ≤ 1)
      (O : Multiset (QPoint ℝ)) (O : Multiset (QPoint ℝ)) := hO.mono fun a ha b _ h => ⟨h, hOw a ha⟩
  refine Multiset.rel_bind (fun b b' hb => Multiset.rel_map.2 (hO'.mono fun o _ o' _ ho => ⟨fun i hi => ?_, ?_⟩)) hB'
  · dsimp only
    by_cases hid : i = d
    · subst hid
      rw [h2]
      simp only [setV, if_true]
      linarith [ho.1.1]
    · have hi' : i < d := by omega
      rw [h1 _ b.position (fun j hj => by simp [setV, hj, Nat.ne_of_lt hj]) i hi']
      simp only [setV, if_neg hid, if_pos hi']
      linarith [hb.1.1 i hi']
  · dsimp only
    have : b.weight * o.weight - b'.weight * o'.weight = (b.weight - b'.weight) * o.weight + b'.weight * (o.weight - o'.weight) := by ring
    rw [this]
    refine (abs_add_le _ _).trans ?_
    rw [abs_mul, abs_mul]
    have t1 : |b.weight - b'.weight| * |o.weight| ≤ ε * 1 := mul_le_mul hb.1.2 ho.2 (abs_nonneg _) hε
    have t2 : |b'.weight| * |o.weight - o'.weight| ≤ 1 * δ := mul_le_mul hb.2 ho.1.2 (abs_nonneg _) zero_le_one
    linarith

/-! ### Tables -/

/-- the image under a symmetry of the prism -/
def Node.prismImg (s : List Nat) (flip : Bool) (n : Node) : Node :=
  ⟨(Node.img 2 s ⟨n.x.take 2, n.w⟩).x ++ [let z := n.x.getD 2 ⟨0, 1⟩; if flip then z.compl else z], n.w⟩

theorem prism_sym : ((List.range 3).permutations'.all fun s => [false, true].all fun f => Prism3.block1.symOK 3 (10 ^ 14) (Node.prismImg s f)) = true := by
  decide +kernel

theorem prism_lit : (Prism3.block1.pts.all fun n => n.x.length == 3 && n.x.all fun l => l.den != 0) = true := by decide +kernel

theorem simplex2_weight : (Simplex2.blocks.all fun r => r.pts.all fun n => n.w.den != 0 && decide (n.w.num.natAbs ≤ n.w.den)) = true := by
  decide +kernel

theorem weight_le {n : Node} (h0 : n.w.den ≠ 0) (h : n.w.num.natAbs ≤ n.w.den) : |(Node.point (K := ℝ) n).weight| ≤ 1 := by
  change |(n.w.num : ℝ) / n.w.den| ≤ 1
  have hd : (0:ℝ) < n.w.den := by exact_mod_cast Nat.pos_of_ne_zero h0
  rw [abs_div, abs_of_pos hd, div_le_one hd, ← Int.cast_abs]
  have : |n.w.num| ≤ (n.w.den : ℤ) := by rw [Int.abs_eq_natAbs]; omega
  exact_mod_cast this

/-! ### Rules -/

theorem triangle_rule_id (env : Env ℝ) (p : Nat) (hp : p ≤ 12) {id : Nat} (hid : id < 2) :
    rule env 2 ⟨2, false, id⟩ p .GaussLegendre = simplex2Rule (p : Int) := by
  obtain ⟨m, hm, hs⟩ := maxOrder_tab (qt := .GaussLegendre) (h := 61) rfl (by omega) (by omega) 1 id (by omega) (by omega)
  have hpm : p ≤ m := by
    rcases hs.2.2 with rfl | ⟨k, hk1, hk2, -, hk⟩ <;> omega
  rw [rule, ruleWith_ok (by omega) (by omega) (Or.inr ⟨m, hm, by omega, by omega⟩)]
  simp only [factory]
  rw [if_pos ⟨by interval_cases id <;> decide, by simp, by simp [simplex2Highest]; omega⟩]

theorem prism_rule_low (env : Env ℝ) (p : Nat) (hp : p ≤ 2) {id : Nat} (hid : id = 4 ∨ id = 5) :
    rule env 3 ⟨3, false, id⟩ p .GaussLegendre = .ok ⟨prism, 2, Prism3.block1.pts.map Node.point⟩ := by
  obtain ⟨m, hm, hs⟩ := maxOrder_tab (qt := .GaussLegendre) (h := 61) rfl (by omega) (by omega) 2 id (by omega) (by omega)
  have hpm : p ≤ m := by
    rcases hs.2.2 with rfl | ⟨k, hk1, hk2, -, hk⟩ <;> omega
  rw [rule, ruleWith_ok (by omega) (by omega) (Or.inr ⟨m, hm, by omega, by omega⟩)]
  simp only [factory]
  rw [if_neg (fun h => by rcases hid with rfl | rfl <;> exact absurd h.1 (by decide)),
    if_pos ⟨by rcases hid with rfl | rfl <;> decide, trivial, by simp [prism3Highest]; omega⟩]
  rfl

theorem prism_rule_high (env : Env ℝ) (p : Nat) (hp : 2 < p) (hp' : p ≤ 12) {id : Nat} (hid : id = 4 ∨ id = 5) {B O : Rule ℝ}
    (hB : simplex2Rule (p : Int) = .ok B) (hO : rule1 env line p .GaussLegendre = .ok O) :
    rule env 3 ⟨3, false, id⟩ p .GaussLegendre = .ok ⟨mk2 id 3, p, tensorProduct 3 B.pts O.pts⟩ := by
  obtain ⟨m, hm, hs⟩ := maxOrder_tab (qt := .GaussLegendre) (h := 61) rfl (by omega) (by omega) 2 id (by omega) (by omega)
  have hpm : p ≤ m := by
    rcases hs.2.2 with rfl | ⟨k, hk1, hk2, -, hk⟩ <;> omega
  have hb : baseTypeOf 3 id = ⟨2, false, id % 4⟩ := by rcases hid with rfl | rfl <;> decide
  rw [rule, ruleWith_ok (by omega) (by omega) (Or.inr ⟨m, hm, by omega, by omega⟩)]
  simp only [factory]
  rw [if_neg (fun h => by rcases hid with rfl | rfl <;> exact absurd h.1 (by decide)),
    if_neg (fun h => by have := h.2.2; simp [prism3Highest] at this; omega), tensorRule, hb,
    triangle_rule_id env p hp' (by rcases hid with rfl | rfl <;> decide), hB]
  have ht : id.testBit (3 - 1) = true := by rcases hid with rfl | rfl <;> decide
  simp only [ht, if_true, hO]
  rfl

end Verif.Quad
