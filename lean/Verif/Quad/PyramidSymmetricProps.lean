import Verif.Quad.SymmetricProps

/-! Property theorems: quadrature rules on the pyramid and its symmetries (C108). -/

namespace Verif.Quad

open Verif.Typ Verif.RefTopo Verif.RefGeom Verif.Neighbour
open Finset hiding ext

/-! ### Symmetries of the pyramid -/

/-- the corners of the pyramid -/
def pyramidCorner (k i : Nat) : Nat := if k = 4 then (if i = 2 then 1 else 0) else if i < 2 ∧ k.testBit i then 1 else 0

/-- the only parallelogram of corners is the base -/
theorem pyramid_base : ∀ a b c d : Fin 5, a ≠ b → a ≠ c → b ≠ c →
    (∀ i : Fin 3, pyramidCorner d i + pyramidCorner a i = pyramidCorner b i + pyramidCorner c i) → a.val < 4 ∧ b.val < 4 ∧ c.val < 4 ∧ d.val < 4 := by
  decide +kernel

theorem pyramid_size {id : Nat} (hid : id = 2 ∨ id = 3) : refSize 3 id 3 = 5 := by rcases hid with rfl | rfl <;> decide

theorem pyramid_corner {id : Nat} (hid : id = 2 ∨ id = 3) {k : Nat} (hk : k < 5) {i : Nat} (hi : i < 3) :
    corner (K := ℝ) 3 id k i = pyramidCorner k i := by
  have e : referenceCorners (K := ℝ) 3 id = [fun _ => 0, setV (fun _ => 0) 0 1, setV (fun _ => 0) 1 1, setV (setV (fun _ => 0) 0 1) 1 1,
      setV (fun _ => 0) 2 1] := by
    rcases hid with rfl | rfl <;> simp [referenceCorners, implIsPrism, implBaseTopologyId]
  rw [corner, e]
  interval_cases k <;> interval_cases i <;> simp [pyramidCorner, setV, Nat.testBit]

theorem square_corner {id : Nat} (hid : id = 2 ∨ id = 3) {k : Nat} (hk : k < 4) {i : Nat} (hi : i < 2) :
    corner (K := ℝ) 2 id k i = pyramidCorner k i := by
  have hc : IsCubeId 2 id := fun k h1 h2 => by rcases hid with rfl | rfl <;> (obtain rfl : k = 1 := by omega) <;> decide
  rw [corner, C17_cube 2 _ hc, List.getD_eq_getElem?_getD, List.getElem?_map, List.getElem?_range (show k < 2 ^ 2 from hk)]
  simp only [Option.map_some, Option.getD_some, pyramidCorner, if_neg (show k ≠ 4 by omega), hi, true_and]
  split_ifs <;> simp

/-- a symmetry of the pyramid is one of the square, and fixes the tip -/
theorem pyramid_symmetry {id : Nat} (hid : id = 2 ∨ id = 3) {σ : Nat → Nat} {a : Vec ℝ} {M : Mat ℝ} (h : Symmetry 3 id σ a M) :
    Symmetry 2 id σ a M ∧ (∀ (b : Vec ℝ) (z : ℝ), ∀ i, i < 2 →
      affMap 3 a M (setV (fun j => if j < 2 then (1 - z) * b j else 0) 2 z) i = (1 - z) * affMap 2 a M b i) ∧
      ∀ x, affMap 3 a M x 2 = x 2 := by
  have hsz := pyramid_size hid
  have hsz2 : refSize 2 id 2 = 4 := by rcases hid with rfl | rfl <;> decide
  have lt : ∀ k < 5, σ k < 5 := fun k hk => by simpa [hsz] using h.lt k (by omega)
  have ne : ∀ k < 5, ∀ l < 5, k ≠ l → σ k ≠ σ l := fun k hk l hl hkl e => hkl (h.inj k l (by omega) (by omega) e)
  have cor : ∀ k < 5, ∀ i < 3, (pyramidCorner (σ k) i : ℝ) =
      a i + (M i 0 * pyramidCorner k 0 + M i 1 * pyramidCorner k 1 + M i 2 * pyramidCorner k 2) := fun k hk i hi => by
    have := h.corner k (by omega) i hi
    rw [pyramid_corner hid (lt k hk) hi, affMap] at this
    rw [this, sum_range_succ, sum_range_succ, sum_range_one, pyramid_corner hid hk (by omega), pyramid_corner hid hk (by omega),
      pyramid_corner hid hk (by omega)]
  have c0 : ∀ i < 3, (pyramidCorner (σ 0) i : ℝ) = a i := fun i hi => by rw [cor 0 (by omega) i hi]; simp [pyramidCorner]
  have c1 : ∀ i < 3, (pyramidCorner (σ 1) i : ℝ) = a i + M i 0 := fun i hi => by
    rw [cor 1 (by omega) i hi]; simp [pyramidCorner, Nat.testBit]
  have c2 : ∀ i < 3, (pyramidCorner (σ 2) i : ℝ) = a i + M i 1 := fun i hi => by
    rw [cor 2 (by omega) i hi]; simp [pyramidCorner, Nat.testBit]
  have c3 : ∀ i < 3, (pyramidCorner (σ 3) i : ℝ) = a i + M i 0 + M i 1 := fun i hi => by
    rw [cor 3 (by omega) i hi]; simp [pyramidCorner, Nat.testBit]; ring
  have c4 : ∀ i < 3, (pyramidCorner (σ 4) i : ℝ) = a i + M i 2 := fun i hi => by rw [cor 4 (by omega) i hi]; simp [pyramidCorner]
  obtain ⟨b0, b1, b2, b3⟩ := pyramid_base ⟨σ 0, lt 0 (by omega)⟩ ⟨σ 1, lt 1 (by omega)⟩ ⟨σ 2, lt 2 (by omega)⟩ ⟨σ 3, lt 3 (by omega)⟩
    (fun e => ne 0 (by omega) 1 (by omega) (by omega) (Fin.mk.inj e)) (fun e => ne 0 (by omega) 2 (by omega) (by omega) (Fin.mk.inj e))
    (fun e => ne 1 (by omega) 2 (by omega) (by omega) (Fin.mk.inj e)) (fun i => by
      have : (pyramidCorner (σ 3) i + pyramidCorner (σ 0) i : ℝ) = pyramidCorner (σ 1) i + pyramidCorner (σ 2) i := by
        rw [c0 _ i.2, c1 _ i.2, c2 _ i.2, c3 _ i.2]; ring
      exact_mod_cast this)
  simp only at b0 b1 b2 b3
  have b : ∀ k < 4, σ k < 4 := fun k hk => by interval_cases k <;> assumption
  have tip : σ 4 = 4 := by
    have := lt 4 (by omega)
    have := ne 0 (by omega) 1 (by omega) (by omega)
    have := ne 0 (by omega) 2 (by omega) (by omega)
    have := ne 0 (by omega) 3 (by omega) (by omega)
    have := ne 0 (by omega) 4 (by omega) (by omega)
    have := ne 1 (by omega) 2 (by omega) (by omega)
    have := ne 1 (by omega) 3 (by omega) (by omega)
    have := ne 1 (by omega) 4 (by omega) (by omega)
    have := ne 2 (by omega) 3 (by omega) (by omega)
    have := ne 2 (by omega) 4 (by omega) (by omega)
    have := ne 3 (by omega) 4 (by omega) (by omega)
    omega
  have low : ∀ k < 4, pyramidCorner k 2 = 0 := fun k hk => by simp [pyramidCorner]; omega
  have m2 : ∀ i < 2, M i 2 = - a i := fun i hi => by
    have := c4 i (by omega)
    rw [tip] at this
    simp only [pyramidCorner, if_true, if_neg (show i ≠ 2 by omega)] at this
    push_cast at this
    linarith
  have a2 : a 2 = 0 := by rw [← c0 2 (by omega), low _ b0]; simp
  have m20 : M 2 0 = 0 := by have := c1 2 (by omega); rw [low _ b1, a2] at this; push_cast at this; linarith
  have m21 : M 2 1 = 0 := by have := c2 2 (by omega); rw [low _ b2, a2] at this; push_cast at this; linarith
  have m22 : M 2 2 = 1 := by
    have := c4 2 (by omega)
    rw [tip, a2] at this
    simp [pyramidCorner] at this
    linarith
  refine ⟨⟨fun k hk => ?_, fun k k' hk hk' e => ?_, fun k hk i hi => ?_⟩, fun b z i hi => ?_, fun x => ?_⟩
  · rw [hsz2] at hk ⊢; exact b k hk
  · exact h.inj k k' (by omega) (by omega) e
  · rw [hsz2] at hk
    have h1 := cor k (by omega) i (by omega)
    rw [square_corner hid (b k hk) hi, h1, affMap, sum_range_succ, sum_range_one, square_corner hid hk (by omega),
      square_corner hid hk (by omega), low k hk]
    simp
  · rw [affMap, affMap, sum_range_succ _ 2, m2 i hi, sum_range_succ, sum_range_one, sum_range_succ, sum_range_one]
    simp [setV]
    ring
  · rw [affMap, sum_range_succ, sum_range_succ, sum_range_one, a2, m20, m21, m22]; ring

/-! ### Products -/

/-- a conical product over a rule invariant under `A` -/
theorem conical_rel {d : Nat} {B O : List (QPoint ℝ)} {A A' : Vec ℝ → Vec ℝ} {ε : ℝ}
    (hB : Multiset.Rel (Close d ε A) (B : Multiset (QPoint ℝ)) (B : Multiset (QPoint ℝ)))
    (hO : ∀ o ∈ O, 0 ≤ o.position 0 ∧ o.position 0 ≤ 1) (hOw : ∀ o ∈ O, |o.weight| ≤ 1) (hε : 0 ≤ ε)
    (h1 : ∀ (b : Vec ℝ) (z : ℝ), ∀ i, i < d → A' (setV (fun j => if j < d then (1 - z) * b j else 0) d z) i = (1 - z) * A b i)
    (h2 : ∀ x, A' x d = x d) :
    Multiset.Rel (Close (d + 1) ε A') ((conicalProduct (d + 1) false B O : List (QPoint ℝ)) : Multiset (QPoint ℝ))
      ((conicalProduct (d + 1) false B O : List (QPoint ℝ)) : Multiset (QPoint ℝ)) := by
  have e : ((conicalProduct (d + 1) false B O : List (QPoint ℝ)) : Multiset (QPoint ℝ)) = (B : Multiset (QPoint ℝ)).bind fun b =>
      (O : Multiset (QPoint ℝ)).map fun o =>
        ⟨setV (fun i => if i < d then (1 - o.position 0) * b.position i else 0) d (o.position 0),
          mulPow (b.weight * o.weight) (1 - o.position 0) d⟩ := by
    rw [conicalProduct, ← Multiset.coe_bind]
    rfl
  rw [e]
  refine Multiset.rel_bind (fun b b' hb => Multiset.rel_map.2 (Multiset.rel_refl_of_refl_on fun o ho => ⟨fun i hi => ?_, ?_⟩)) hB
  · dsimp only
    obtain ⟨z0, z1⟩ := hO o ho
    by_cases hid : i = d
    · subst hid
      rw [h2]
      simpa [setV] using hε
    · have hi' : i < d := by omega
      rw [h1 _ _ i hi']
      simp only [setV, if_neg hid, if_pos hi']
      rw [← mul_sub, abs_mul, abs_of_nonneg (by linarith)]
      have := hb.1 i hi'
      nlinarith [abs_nonneg (A b.position i - b'.position i)]
  · dsimp only
    obtain ⟨z0, z1⟩ := hO o ho
    rw [mulPow_eq, mulPow_eq, ← sub_mul, ← sub_mul, abs_mul, abs_mul, abs_of_nonneg (pow_nonneg (by linarith : (0:ℝ) ≤ 1 - o.position 0) _)]
    have t1 : |b.weight - b'.weight| * |o.weight| ≤ ε * 1 := mul_le_mul hb.2 (hOw o ho) (abs_nonneg _) hε
    have t2 : (1 - o.position 0) ^ d ≤ 1 := pow_le_one₀ (by linarith) (by linarith)
    have t3 : 0 ≤ (1 - o.position 0) ^ d := pow_nonneg (by linarith) _
    have t4 : 0 ≤ |b.weight - b'.weight| * |o.weight| := by positivity
    nlinarith

/-! ### C108 -/

/-- C108: the rules on the pyramid of the two symmetric families are invariant under all eight symmetries, up to `10^(-79)`. -/
theorem C108_pyramid_partial (env : Env ℝ) (p m id : Nat) (hid : id = 2 ∨ id = 3) (qt : QType)
    (hq : qt = .GaussLegendre ∨ qt = .GaussLobatto) (hm : maxOrder 3 ⟨3, false, id⟩ qt = .ok m) (hp : p ≤ m)
    (σ : Nat → Nat) (a : Vec ℝ) (M : Mat ℝ) (hs : Symmetry 3 id σ a M) :
    ∃ r, rule env 3 ⟨3, false, id⟩ p qt = .ok r ∧ Invariant 3 (1 / 10 ^ 79) (affMap 3 a M) r.pts := by
  obtain ⟨h2, hxy, hz⟩ := pyramid_symmetry hid hs
  have hc : IsCubeId 2 id := fun k h1 h2 => by rcases hid with rfl | rfl <;> (obtain rfl : k = 1 := by omega) <;> decide
  have hq' : IsPlain qt := by rcases hq with h | h <;> simp [IsPlain, h]
  obtain ⟨tab, h, ht, hsub⟩ : ∃ tab h, tableOf qt = some (tab, h) ∧ ∀ r ∈ tab, r ∈ Gauss.table ++ Lobatto.table := by
    rcases hq with rfl | rfl
    · exact ⟨_, _, rfl, fun r hr => List.mem_append_left _ hr⟩
    · exact ⟨_, _, rfl, fun r hr => List.mem_append_right _ hr⟩
  obtain ⟨h30, h61, -⟩ := plain_table (K := ℝ) hq' ht (p := 0) (Nat.zero_le _)
  obtain ⟨m', e1, e2⟩ := maxOrder_tab ht h30 h61 2 id (by omega) (by omega)
  rw [e1] at hm
  cases hm
  obtain ⟨m2, e3, e4⟩ := maxOrder_tab ht h30 h61 1 id (by omega) (by omega)
  have hph : p + 2 ≤ h := by
    have := e2.2.1 2 (by omega) (by omega) (by rcases hid with rfl | rfl <;> decide)
    omega
  have hm2 : p ≤ m2 := by
    rcases e4.2.2 with h' | ⟨k, k1, k2, k3, -⟩
    · omega
    · obtain rfl : k = 1 := by omega
      rw [hc 1 (by omega) (by omega)] at k3; cases k3
  obtain ⟨B, hB1, hB2⟩ := C108_cube_partial env 2 id p m2 qt (by omega) (by omega) hc hq e3 (by omega) hm2 σ a M h2
  obtain ⟨-, -, row, hrow, hone⟩ := plain_table (K := ℝ) hq' ht hph
  have hmem : row ∈ tab := by
    unfold initHelper at hrow
    split at hrow
    · rename_i r' hf; cases hrow; exact List.mem_of_find?_eq_some hf
    · cases hrow
  have hok := List.all_eq_true.1 flip_ok row (hsub _ hmem)
  rw [Bool.and_eq_true] at hok
  have hpl := List.all_eq_true.1 hok.2
  have hO : rule1 env line ((p : Int) + (3 - 1 : Nat)) qt = .ok ⟨line, row.order, row.pts.map Node.point⟩ := by
    have e : ((p : Int) + (3 - 1 : Nat)) = ((p + 2 : Nat) : Int) := by push_cast; ring
    have hl : line = ⟨1, false, 1⟩ ∨ line = ⟨1, false, 0⟩ := by decide
    rw [e]
    rcases hl with hl | hl <;> rw [hl, rule1_eq env (by omega) ht hph, rule1D, hrow] <;> rw [← hl] <;> rfl
  refine ⟨⟨mk2 id 3, p, conicalProduct 3 false B.pts (row.pts.map Node.point)⟩, ?_, ?_⟩
  · have hb : baseTypeOf 3 id = ⟨2, false, id⟩ := by rcases hid with rfl | rfl <;> decide
    rw [rule, ruleWith_ok (by omega) (by omega) (Or.inr ⟨m, e1, by omega, by omega⟩)]
    simp only [factory]
    have ht' : id.testBit (3 - 1) = false := by rcases hid with rfl | rfl <;> decide
    have hj : qt ≠ .GaussJacobi_n_0 := by rcases hq with rfl | rfl <;> decide
    rw [if_neg (fun h => by rcases hid with rfl | rfl <;> exact absurd h.1 (by decide)),
      if_neg (fun h => by rcases hid with rfl | rfl <;> exact absurd h.1 (by decide)), tensorRule, hb, hB1]
    simp only [ht', hj, ne_eq, not_false_eq_true, if_true, hO, Bool.false_eq_true, if_false]
    rfl
  · exact conical_rel (A' := affMap 3 a M) hB2 (fun o ho => hone.in01 o ho) (fun o ho => by
      obtain ⟨n, n1, rfl⟩ := List.mem_map.1 ho
      have := plain1_weight (hpl n n1)
      rw [abs_of_nonneg this.1]; exact this.2) (by positivity) hxy hz

/-- the exchange of the first two coordinates is a symmetry of the pyramid -/
example : Symmetry 3 3 (fun k => [0, 2, 1, 3, 4].getD k k) (fun _ => 0) fun i j => if i = 2 then (if j = 2 then 1 else 0) else if i + j = 1 then 1 else 0 := by
  refine ⟨fun k hk => ?_, fun k k' hk hk' e => ?_, fun k hk i hi => ?_⟩ <;> rw [pyramid_size (Or.inr rfl)] at *
  · interval_cases k <;> decide
  · interval_cases k <;> interval_cases k' <;> simp_all
  · rw [pyramid_corner (Or.inr rfl) (by interval_cases k <;> decide) hi, affMap, sum_range_succ, sum_range_succ, sum_range_one,
      pyramid_corner (Or.inr rfl) hk (by omega), pyramid_corner (Or.inr rfl) hk (by omega), pyramid_corner (Or.inr rfl) hk (by omega)]
    interval_cases k <;> interval_cases i <;> norm_num [pyramidCorner, Nat.testBit] <;> rfl

end Verif.Quad
