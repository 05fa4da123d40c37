import Verif.Quad.CompositeLemmas
import Verif.Quad.Props
import Mathlib.Topology.Algebra.MvPolynomial

/-! Property C52: the composite quadrature rule.

All theorems hold for every dimension up to 31 (the width of a topology id), every number of intervals `n > 0`, every
base rule on a simplex, every legal tolerance of the geometry class, every content of the uninitialised members of the
cached geometry and every bound `fuel` on the number of loop tests above the number of elements. -/

namespace Verif.Quad

open Verif.RefGeom Verif.RefTopo Verif.Refine Verif.Typ Verif.MultiLinear MeasureTheory Filter
open Finset hiding ext

noncomputable section

variable {d n fuel : Nat} {tol : ℝ} {jit : Mat ℝ} {detInv : ℝ} {quad r : Rule ℝ}

/-- the preconditions of the constructor -/
structure CompositeCall (d n fuel : Nat) (tol : ℝ) (quad : Rule ℝ) : Prop where
  dim_pos : 0 < d
  dim_le : d ≤ 31
  n_pos : 0 < n
  tol_pos : 0 < tol
  tol_lt : tol < 1
  fuel_lt : nElements d n < fuel
  simplex : isSimplex quad.type = true
  dim : quad.type.dim = d

theorem cells' (hd : 0 < d) (n : Nat) : ∃ c : Nat → Nat → Nat → ℝ, ∀ k, k < nElements d n → ∃ it, eAt d n k = some it ∧ Cell d n (c k) it := by
  obtain ⟨c, hc⟩ := cells d n hd
  refine ⟨c, fun k hk => ?_⟩
  obtain ⟨it, corners, h1, h2⟩ := hc k hk
  exact ⟨it, h1, corners, h2⟩

theorem integral_cells' (hd : 0 < d) (hn : 0 < n) {c : Nat → Nat → Nat → ℝ}
    (hc : ∀ k, k < nElements d n → ∃ it, eAt d n k = some it ∧ Cell d n (c k) it) {f : (Fin d → ℝ) → ℝ} (hf : Continuous f) :
    ∫ x in simplexSet d, f x = ∑ k ∈ range (nElements d n), 1 / (n : ℝ) ^ d * ∫ x in simplexSet d, f (cellMap d (c k) x) :=
  integral_cells hd hn (fun k hk => by
    obtain ⟨it, h1, corners, h2⟩ := hc k hk
    exact ⟨it, corners, h1, h2⟩) hf

theorem flatten_get {α : Type} (m : Nat) : ∀ (L : List (List α)), (∀ l ∈ L, l.length = m) → ∀ k i, i < m →
    L.flatten[k * m + i]? = L[k]?.bind fun l => l[i]?
  | [], _, k, i, _ => by simp
  | l :: L, h, 0, i, hi => by
    have := h l (by simp)
    rw [List.flatten_cons, Nat.zero_mul, Nat.zero_add, List.getElem?_append_left (by omega)]; rfl
  | l :: L, h, k + 1, i, hi => by
    have hl := h l (by simp)
    have e : (k + 1) * m + i = l.length + (k * m + i) := by rw [hl]; ring
    rw [List.flatten_cons, e, List.getElem?_append_right (by omega), Nat.add_sub_cancel_left,
      flatten_get m L (fun l' hl' => h l' (List.mem_cons_of_mem _ hl')) k i hi]; rfl

theorem simplex_refSet (h : CompositeCall d n fuel tol quad) : refSet d quad.type.id = simplexSet d := by
  have h1 : quad.type.id ||| 1 = 1 := by
    have := h.simplex
    rw [isSimplex, Bool.and_eq_true, beq_iff_eq] at this
    exact this.2
  have h2 : quad.type.id ≤ 1 := by rw [← h1]; exact Nat.left_le_or
  have hid : quad.type.id < 2 ^ d := h2.trans_lt (Nat.one_lt_two_pow h.dim_pos.ne')
  ext x
  refine mem_refSet_simplex hid (fun k hk _ => ?_) x
  exact Nat.testBit_lt_two_pow (h2.trans_lt (Nat.one_lt_two_pow (by omega)))

/-! ### Points and weights -/

/-- C52: the constructor succeeds; the rule has the type and the order of the base rule and `nElements * base size`
points -/
theorem C52_size (jit : Mat ℝ) (detInv : ℝ) (h : CompositeCall d n fuel tol quad) :
    ∃ r, compositeRule d tol jit detInv fuel quad n = some r ∧ r.type = quad.type ∧ r.order = quad.order ∧
      r.pts.length = n ^ d * quad.pts.length := by
  obtain ⟨c, hc⟩ := cells' h.dim_pos n
  obtain ⟨L, l1, l2, l3⟩ := composite_eq (jit := jit) (detInv := detInv) h.dim_pos h.dim_le h.n_pos ⟨h.tol_pos, h.tol_lt⟩ h.fuel_lt h.simplex h.dim hc
  refine ⟨_, l1, rfl, rfl, ?_⟩
  rw [List.length_flatten]
  have : L.map List.length = List.replicate (nElements d n) quad.pts.length := by
    refine List.eq_replicate_iff.2 ⟨by simp [l2], fun b hb => ?_⟩
    obtain ⟨l, hl, rfl⟩ := List.mem_map.1 hb
    obtain ⟨j, hj⟩ := List.mem_iff_getElem?.1 hl
    exact (l3 j l hj).length_eq.symm
  rw [this, List.sum_replicate, smul_eq_mul]; rfl

/-- C52: point number `k * size + i` is the image of point `i` of the base rule under the map of the sub-element `k`, and
its weight is the weight of point `i` times the part of the volume of the sub-element -/
theorem C52_points (h : CompositeCall d n fuel tol quad) (hr : compositeRule d tol jit detInv fuel quad n = some r)
    (k i : Nat) (hk : k < n ^ d) (q : QPoint ℝ) (hq : quad.pts[i]? = some q) :
    ∃ it y q', eAt d n k = some it ∧ it.global d q.position = some y ∧ r.pts[k * quad.pts.length + i]? = some q' ∧
      (∀ j, j < d → q'.position j = y j) ∧ q'.weight = q.weight / (n : ℝ) ^ d := by
  obtain ⟨c, hc⟩ := cells' h.dim_pos n
  obtain ⟨L, l1, l2, l3⟩ := composite_eq (jit := jit) (detInv := detInv) h.dim_pos h.dim_le h.n_pos ⟨h.tol_pos, h.tol_lt⟩ h.fuel_lt h.simplex h.dim hc
  obtain rfl := Option.some.inj (hr.symm.trans l1)
  obtain ⟨it, h1, corners, g2, g3, g4, g5, g6⟩ := hc k hk
  obtain ⟨y, y1, y2⟩ := g5 q.position
  have hi := (List.getElem?_eq_some_iff.1 hq).1
  obtain ⟨l, hl⟩ : ∃ l, L[k]? = some l := ⟨_, List.getElem?_eq_getElem (by rw [l2]; exact hk)⟩
  have hF := l3 k l hl
  have hlen := hF.length_eq
  obtain ⟨q', hq'⟩ : ∃ q', l[i]? = some q' := ⟨_, List.getElem?_eq_getElem (by omega)⟩
  have hcell : InCell d n (c k) q q' := by
    have := hF.get hi (by omega)
    rw [List.get_eq_getElem, List.get_eq_getElem, (List.getElem?_eq_some_iff.1 hq).2, (List.getElem?_eq_some_iff.1 hq').2] at this
    exact this
  refine ⟨it, y, q', h1, y1, ?_, fun j hj => by rw [y2 j hj, hcell.1 j hj], by rw [hcell.2]; ring⟩
  rw [flatten_get _ L (fun l hl => ?_) k i hi, hl, Option.bind_some, hq']
  obtain ⟨j, hj⟩ := List.mem_iff_getElem?.1 hl
  exact (l3 j l hj).length_eq.symm

/-- every point of the rule is one of those of `C52_points` -/
theorem C52_all (h : CompositeCall d n fuel tol quad) (hr : compositeRule d tol jit detInv fuel quad n = some r)
    (q' : QPoint ℝ) (hq' : q' ∈ r.pts) : ∃ k i, k < n ^ d ∧ i < quad.pts.length ∧ r.pts[k * quad.pts.length + i]? = some q' := by
  obtain ⟨r', h1, -, -, h4⟩ := C52_size jit detInv h
  obtain rfl := Option.some.inj (hr.symm.trans h1)
  obtain ⟨m, hm⟩ := List.mem_iff_getElem?.1 hq'
  have hlt := (List.getElem?_eq_some_iff.1 hm).1
  rw [h4] at hlt
  have hpos : 0 < quad.pts.length := Nat.pos_of_ne_zero fun h0 => by rw [h0] at hlt; omega
  refine ⟨m / quad.pts.length, m % quad.pts.length, (Nat.div_lt_iff_lt_mul hpos).2 hlt, Nat.mod_lt _ hpos, ?_⟩
  rw [Nat.div_add_mod']; exact hm

/-- C52: if the points of the base rule lie in the reference element, so do those of the composite rule -/
theorem C52_inside (h : CompositeCall d n fuel tol quad) (hr : compositeRule d tol jit detInv fuel quad n = some r)
    (hp : PointsIn d quad.type.id quad.pts) : PointsIn d quad.type.id r.pts := by
  intro q' hq'
  obtain ⟨k, i, hk, hi, hm⟩ := C52_all h hr q' hq'
  obtain ⟨it, y, q'', h1, h2, h3, h4, -⟩ := C52_points h hr k i hk _ (List.getElem?_eq_getElem hi)
  obtain rfl := Option.some.inj (hm.symm.trans h3)
  have hin := hp _ (List.getElem_mem hi)
  rw [simplex_refSet h] at hin ⊢
  have hin' := (inSimplex_congr (ext_restrict (quad.pts[i].position))).1 hin
  obtain ⟨it', y', g1, g2, g3⟩ := C60_inside (K := ℝ) d n k h.dim_pos hk _ hin'
  obtain rfl := Option.some.inj (h1.symm.trans g1)
  obtain rfl := Option.some.inj (h2.symm.trans g2)
  refine (inSimplex_congr fun j hj => ?_).2 g3
  rw [ext_restrict q'.position j hj, h4 j hj]

/-- the sum over the composite rule is the mean of the sums over the cells -/
theorem composite_quadOf (h : CompositeCall d n fuel tol quad) (hr : compositeRule d tol jit detInv fuel quad n = some r)
    {c : Nat → Nat → Nat → ℝ} (hc : ∀ k, k < nElements d n → ∃ it, eAt d n k = some it ∧ Cell d n (c k) it) (f : (Fin d → ℝ) → ℝ) :
    quadOf f r.pts = ∑ k ∈ range (nElements d n), 1 / (n : ℝ) ^ d * quadOf (fun x => f (cellMap d (c k) x)) quad.pts := by
  obtain ⟨L, l1, l2, l3⟩ := composite_eq (jit := jit) (detInv := detInv) h.dim_pos h.dim_le h.n_pos ⟨h.tol_pos, h.tol_lt⟩ h.fuel_lt h.simplex h.dim hc
  obtain rfl := Option.some.inj (hr.symm.trans l1)
  rw [quadOf_flatten f L l3, l2]

theorem mean_const (hn : 0 < n) (a : ℝ) : ∑ _k ∈ range (nElements d n), 1 / (n : ℝ) ^ d * a = a := by
  have : (n : ℝ) ^ d ≠ 0 := by positivity
  rw [sum_const, card_range, nElements, nsmul_eq_mul, Nat.cast_pow]
  field_simp

/-- C52: the sum of the weights does not change -/
theorem C52_weights (h : CompositeCall d n fuel tol quad) (hr : compositeRule d tol jit detInv fuel quad n = some r) :
    weightSum r.pts = weightSum quad.pts := by
  obtain ⟨c, hc⟩ := cells' h.dim_pos n
  have := composite_quadOf h hr hc fun _ => 1
  have e : ∀ l : List (QPoint ℝ), quadOf (fun _ : Fin d → ℝ => (1 : ℝ)) l = weightSum l := fun l => by simp [quadOf, weightSum]
  simp only [e] at this
  rw [this, mean_const h.n_pos]

/-- C52: a base rule with weights of one sign gives a composite rule with weights of this sign -/
theorem C52_sign (h : CompositeCall d n fuel tol quad) (hr : compositeRule d tol jit detInv fuel quad n = some r) :
    ((∀ q ∈ quad.pts, 0 < q.weight) → ∀ q ∈ r.pts, 0 < q.weight) ∧ ((∀ q ∈ quad.pts, 0 ≤ q.weight) → ∀ q ∈ r.pts, 0 ≤ q.weight) := by
  have hn : (0 : ℝ) < (n : ℝ) ^ d := pow_pos (Nat.cast_pos.2 h.n_pos) d
  constructor <;> intro hw q hq <;> obtain ⟨k, i, hk, hi, hm⟩ := C52_all h hr q hq <;>
    obtain ⟨it, y, q'', -, -, h3, -, h4⟩ := C52_points h hr k i hk _ (List.getElem?_eq_getElem hi) <;>
    obtain rfl := Option.some.inj (hm.symm.trans h3) <;> rw [h4]
  · exact div_pos (hw _ (List.getElem_mem hi)) hn
  · exact div_nonneg (hw _ (List.getElem_mem hi)) hn.le

/-! ### Integrals -/

/-- C52: if the base rule integrates `f` after every affine change of variables up to `ε`, the composite rule integrates `f`
up to `ε` -/
theorem C52_error (h : CompositeCall d n fuel tol quad) (hr : compositeRule d tol jit detInv fuel quad n = some r)
    (f : (Fin d → ℝ) → ℝ) (hf : Continuous f) (ε : ℝ)
    (hε : ∀ (A : Matrix (Fin d) (Fin d) ℝ) (b : Fin d → ℝ),
      |quadOf (fun x => f (b + A.mulVec x)) quad.pts - ∫ x in refSet d quad.type.id, f (b + A.mulVec x)| ≤ ε) :
    |quadOf f r.pts - ∫ x in refSet d quad.type.id, f x| ≤ ε := by
  obtain ⟨c, hc⟩ := cells' h.dim_pos n
  rw [composite_quadOf h hr hc f]
  rw [simplex_refSet h] at hε ⊢
  rw [integral_cells' h.dim_pos h.n_pos hc hf, ← sum_sub_distrib]
  refine (abs_sum_le_sum_abs _ _).trans ?_
  rw [← mean_const (d := d) h.n_pos ε]
  refine sum_le_sum fun k _ => ?_
  have hp : (0 : ℝ) ≤ 1 / (n : ℝ) ^ d := by positivity
  rw [← mul_sub, abs_mul, abs_of_nonneg hp]
  refine mul_le_mul_of_nonneg_left ?_ hp
  have := hε (cellMat d (c k)) fun i => c k 0 i
  simpa only [cellMap_eq, Matrix.toLin'_apply] using this

/-- C52: a base rule that is exact for all polynomials of degree `p` gives a composite rule that is exact for all
polynomials of degree `p` -/
theorem C52_exact (h : CompositeCall d n fuel tol quad) (hr : compositeRule d tol jit detInv fuel quad n = some r) (p : Nat)
    (hp : ExactOn d quad.type.id p quad.pts) : ExactOn d quad.type.id p r.pts := by
  intro P hP
  refine sub_eq_zero.1 (abs_nonpos_iff.1 (C52_error h hr (fun x => P.eval x) (MvPolynomial.continuous_eval P) 0 fun A b => ?_))
  let lin : Fin d → MvPolynomial (Fin d) ℝ := fun i => MvPolynomial.C (b i) + ∑ j, MvPolynomial.C (A i j) * MvPolynomial.X j
  let Q : MvPolynomial (Fin d) ℝ := ∑ s ∈ P.support, MvPolynomial.C (P.coeff s) * ∏ i, lin i ^ s i
  have hQ : ∀ x, Q.eval x = P.eval (b + A.mulVec x) := fun x => by
    rw [MvPolynomial.eval_eq' (b + A.mulVec x) P, map_sum]
    refine sum_congr rfl fun s _ => ?_
    rw [map_mul, MvPolynomial.eval_C, map_prod]
    refine congrArg _ (prod_congr rfl fun i _ => ?_)
    rw [map_pow]
    simp [lin, Matrix.mulVec, dotProduct]
  have hlin : ∀ i, (lin i).totalDegree ≤ 1 := fun i => by
    refine (MvPolynomial.totalDegree_add _ _).trans (max_le (by rw [MvPolynomial.totalDegree_C]; omega)
      (MvPolynomial.totalDegree_finsetSum_le fun j _ => ?_))
    refine (MvPolynomial.totalDegree_mul _ _).trans ?_
    rw [MvPolynomial.totalDegree_C, MvPolynomial.totalDegree_X]
  have hdeg : Q.totalDegree ≤ p := by
    refine MvPolynomial.totalDegree_finsetSum_le fun s hs => (MvPolynomial.totalDegree_mul _ _).trans ?_
    rw [MvPolynomial.totalDegree_C, Nat.zero_add]
    refine (MvPolynomial.totalDegree_finsetProd _ _).trans (le_trans ?_ ((MvPolynomial.le_totalDegree hs).trans hP))
    rw [Finsupp.sum_fintype _ _ fun _ => rfl]
    refine sum_le_sum fun i _ => (MvPolynomial.totalDegree_pow _ _).trans ?_
    exact (Nat.mul_le_mul_left _ (hlin i)).trans (Nat.mul_one _).le
  have := hp Q hdeg
  simp only [hQ] at this
  rw [this, _root_.sub_self, abs_zero]

/-- the absolute values of the weights and the volume -/
def stability (d : Nat) (quad : Rule ℝ) : ℝ := (quad.pts.map fun q => |q.weight|).sum + volume.real (refSet d quad.type.id)

theorem quadOf_sub_le (f : (Fin d → ℝ) → ℝ) (m η : ℝ) : ∀ l : List (QPoint ℝ), (∀ q ∈ l, |f (fun i => q.position i) - m| ≤ η) →
    |quadOf f l - weightSum l * m| ≤ η * (l.map fun q => |q.weight|).sum
  | [], _ => by simp [quadOf, weightSum]
  | q :: l, h => by
    have h1 := quadOf_sub_le f m η l fun q hq => h q (List.mem_cons_of_mem _ hq)
    have h2 := h q (by simp)
    have e : quadOf f (q :: l) - weightSum (q :: l) * m =
        q.weight * (f (fun i => q.position i) - m) + (quadOf f l - weightSum l * m) := by
      simp only [quadOf, weightSum, List.map_cons, List.sum_cons]; ring
    rw [e, List.map_cons, List.sum_cons, mul_add]
    refine (abs_add_le _ _).trans (add_le_add ?_ h1)
    rw [abs_mul, mul_comm]
    exact mul_le_mul_of_nonneg_right h2 (abs_nonneg _)

/-- C52: if `f` varies by at most `η` on sets of diameter `1/n`, the error is at most `η` times a constant of the base
rule -/
theorem C52_oscillation (h : CompositeCall d n fuel tol quad) (hr : compositeRule d tol jit detInv fuel quad n = some r)
    (hp : PointsIn d quad.type.id quad.pts) (hw : ExactOn d quad.type.id 0 quad.pts) (f : (Fin d → ℝ) → ℝ) (hf : Continuous f) (η : ℝ)
    (hη : ∀ x ∈ refSet d quad.type.id, ∀ y ∈ refSet d quad.type.id, (∀ i, |x i - y i| ≤ 1 / n) → |f x - f y| ≤ η) :
    |quadOf f r.pts - ∫ x in refSet d quad.type.id, f x| ≤ η * stability d quad := by
  obtain ⟨c, hc⟩ := cells' h.dim_pos n
  have hvol : weightSum quad.pts = volume.real (refSet d quad.type.id) := by
    have := hw 1 (by rw [MvPolynomial.totalDegree_one])
    simpa [quadOf, weightSum] using this
  rw [composite_quadOf h hr hc f]
  unfold stability
  rw [simplex_refSet h] at hη hvol ⊢
  have hS := isCompact_simplexSet d
  rw [integral_cells' h.dim_pos h.n_pos hc hf, ← sum_sub_distrib]
  refine (abs_sum_le_sum_abs _ _).trans ?_
  rw [← mean_const (d := d) h.n_pos (η * _)]
  refine sum_le_sum fun k hk => ?_
  have hpn : (0 : ℝ) ≤ 1 / (n : ℝ) ^ d := by positivity
  rw [← mul_sub, abs_mul, abs_of_nonneg hpn]
  refine mul_le_mul_of_nonneg_left ?_ hpn
  obtain ⟨it, e1, corners, g2, g3, g4, g5, g6⟩ := hc k (mem_range.1 hk)
  have hzero : (0 : Fin d → ℝ) ∈ simplexSet d := (mem_simplexSet _).2 ⟨fun _ => le_rfl, by simp⟩
  have hmem : ∀ x ∈ simplexSet d, cellMap d (c k) x ∈ simplexSet d := fun x hx => by
    obtain ⟨it', y, a1, a2, a3⟩ := C60_inside (K := ℝ) d n k h.dim_pos (mem_range.1 hk) (ext x) hx
    obtain rfl := Option.some.inj (e1.symm.trans a1)
    obtain ⟨y', b1, b2⟩ := g5 (ext x)
    obtain rfl := Option.some.inj (a2.symm.trans b1)
    exact (inSimplex_congr (ext_cell b2)).2 a3
  have hosc : ∀ x ∈ simplexSet d, |f (cellMap d (c k) x) - f (cellMap d (c k) 0)| ≤ η := fun x hx => by
    refine hη _ (hmem x hx) _ (hmem 0 hzero) fun i => ?_
    obtain ⟨it', y, y', a1, a2, a3, a4⟩ := C60_diameter (K := ℝ) d n k h.dim_pos (mem_range.1 hk) (ext x) (ext 0) hx hzero
    obtain rfl := Option.some.inj (e1.symm.trans a1)
    obtain ⟨z, b1, b2⟩ := g5 (ext x)
    obtain rfl := Option.some.inj (a2.symm.trans b1)
    obtain ⟨z, c1, c2⟩ := g5 (ext 0)
    obtain rfl := Option.some.inj (a3.symm.trans c1)
    have := a4 i i.2
    rwa [b2 i i.2, c2 i i.2] at this
  set m := f (cellMap d (c k) 0)
  have hfc : Continuous fun x => f (cellMap d (c k) x) := hf.comp (continuous_cellMap d (c k))
  have h1 := quadOf_sub_le (fun x => f (cellMap d (c k) x)) m η quad.pts fun q hq => hosc _ (by
    have := hp q hq
    rwa [simplex_refSet h] at this)
  have h2 : |(∫ x in simplexSet d, f (cellMap d (c k) x)) - weightSum quad.pts * m| ≤ η * volume.real (simplexSet d) := by
    have hc1 : IntegrableOn (fun x => f (cellMap d (c k) x)) (simplexSet d) := hfc.continuousOn.integrableOn_compact hS
    have hc2 : IntegrableOn (fun _ : Fin d → ℝ => m) (simplexSet d) := continuous_const.continuousOn.integrableOn_compact hS
    have e : weightSum quad.pts * m = ∫ x in simplexSet d, m := by
      rw [setIntegral_const, hvol, smul_eq_mul]
    rw [e, ← integral_sub hc1 hc2]
    exact norm_setIntegral_le_of_norm_le_const (f := fun x => f (cellMap d (c k) x) - m) hS.measure_lt_top fun x hx => hosc x hx
  rw [mul_add]
  calc _ = |(quadOf (fun x => f (cellMap d (c k) x)) quad.pts - weightSum quad.pts * m) -
      ((∫ x in simplexSet d, f (cellMap d (c k) x)) - weightSum quad.pts * m)| := by congr 1; ring
    _ ≤ _ := (abs_sub _ _).trans (add_le_add h1 h2)

/-- C52: convergence.  If the points of the base rule lie in the reference element and its weights sum to the volume, the
values of the composite rules tend to the integral, for every continuous function. -/
theorem C52_convergence (hd : 0 < d) (hd' : d ≤ 31) (ht : 0 < tol ∧ tol < 1) (hs : isSimplex quad.type = true) (hdim : quad.type.dim = d)
    (hp : PointsIn d quad.type.id quad.pts) (hw : ExactOn d quad.type.id 0 quad.pts) (f : (Fin d → ℝ) → ℝ) (hf : Continuous f)
    (ε : ℝ) (hε : 0 < ε) : ∃ N, ∀ n, N ≤ n → ∀ fuel, n ^ d < fuel → ∃ r, compositeRule d tol jit detInv fuel quad n = some r ∧
      |quadOf f r.pts - ∫ x in refSet d quad.type.id, f x| ≤ ε := by
  have hst : 0 ≤ stability d quad := add_nonneg (List.sum_nonneg fun x hx => by
    obtain ⟨q, -, rfl⟩ := List.mem_map.1 hx
    exact abs_nonneg _) measureReal_nonneg
  have hS : IsCompact (refSet d quad.type.id) := by
    rw [simplex_refSet (n := 1) (fuel := nElements d 1 + 1) ⟨hd, hd', one_pos, ht.1, ht.2, Nat.lt_succ_self _, hs, hdim⟩]
    exact isCompact_simplexSet d
  obtain ⟨δ, hδ, hu⟩ := Metric.uniformContinuousOn_iff_le.1 (hS.uniformContinuousOn_of_continuous hf.continuousOn)
    (ε / (stability d quad + 1)) (by positivity)
  obtain ⟨N, hN⟩ := exists_nat_gt (1 / δ)
  refine ⟨N + 1, fun n hn fuel hfuel => ?_⟩
  have h : CompositeCall d n fuel tol quad := ⟨hd, hd', by omega, ht.1, ht.2, hfuel, hs, hdim⟩
  obtain ⟨r, hr, -⟩ := C52_size jit detInv h
  refine ⟨r, hr, (C52_oscillation h hr hp hw f hf (ε / (stability d quad + 1)) fun x hx y hy hxy => ?_).trans ?_⟩
  · refine hu x hx y hy ?_
    have hnp : (0 : ℝ) < n := Nat.cast_pos.2 (by omega)
    have h1 : (1 : ℝ) / n ≤ δ := by
      rw [div_le_iff₀ hnp]
      rw [div_lt_iff₀ hδ] at hN
      have : (N : ℝ) ≤ n := Nat.cast_le.2 (by omega)
      nlinarith
    exact (dist_pi_le_iff hδ.le).2 fun i => (hxy i).trans h1
  · rw [div_mul_eq_mul_div, div_le_iff₀ (by positivity)]
    nlinarith

/-- C52: for a Lipschitz function the error is at most `L/n` times a constant of the base rule -/
theorem C52_rate (h : CompositeCall d n fuel tol quad) (hr : compositeRule d tol jit detInv fuel quad n = some r)
    (hp : PointsIn d quad.type.id quad.pts) (hw : ExactOn d quad.type.id 0 quad.pts) (f : (Fin d → ℝ) → ℝ) (L : NNReal)
    (hf : LipschitzWith L f) : |quadOf f r.pts - ∫ x in refSet d quad.type.id, f x| ≤ L / n * stability d quad := by
  have hnp : (0 : ℝ) < n := Nat.cast_pos.2 h.n_pos
  refine C52_oscillation h hr hp hw f hf.continuous _ fun x _ y _ hxy => ?_
  have h1 : dist x y ≤ 1 / n := (dist_pi_le_iff (by positivity)).2 hxy
  refine (hf.dist_le_mul x y).trans ?_
  rw [div_eq_mul_one_div]
  exact mul_le_mul_of_nonneg_left h1 L.2

/-- without intervals the rule is empty -/
theorem C52_zero (hd : 0 < d) (hs : isSimplex quad.type = true) (hdim : quad.type.dim = d) :
    compositeRule d tol jit detInv (fuel + 1) quad 0 = some ⟨quad.type, quad.order, []⟩ := by
  have e : (eBegin 0).size = (eEnd d 0).size ∧ (eBegin 0).index_ = (eEnd d 0).index_ :=
    ⟨rfl, (zero_pow hd.ne').symm⟩
  rw [compositeRule, if_pos ⟨hs, hdim⟩]
  change (compositeLoop d tol jit detInv quad.pts _ (eEnd d 0) (fuel + 1) (eBegin 0)).bind _ = _
  rw [compositeLoop, if_pos e]; rfl

/-- the assertion fires exactly for other types -/
theorem C52_assert (hs : ¬ (isSimplex quad.type = true ∧ quad.type.dim = d)) :
    compositeRule d tol jit detInv fuel quad n = none := by
  rw [compositeRule, if_neg hs]

/-- the hypotheses hold for the midpoint rule on the triangle with three intervals: nine points, weights 1/18 -/
example : CompositeCall 2 3 10 (1 / 1000000) ⟨Typ.simplex 2, 1, [⟨fun _ => 1 / 3, 1 / 2⟩]⟩ ∧
    ∃ r, compositeRule 2 (1 / 1000000) (fun _ _ => 7) 7 10 ⟨Typ.simplex 2, 1, [⟨fun _ => 1 / 3, 1 / 2⟩]⟩ 3 = some r ∧
      r.pts.length = 9 ∧ weightSum r.pts = 1 / 2 ∧ ∃ q, r.pts[4]? = some q ∧ q.weight = 1 / 18 := by
  have h : CompositeCall 2 3 10 (1 / 1000000) ⟨Typ.simplex 2, 1, [⟨fun _ => 1 / 3, 1 / 2⟩]⟩ :=
    ⟨by omega, by omega, by omega, by norm_num, by norm_num, by decide, by decide, rfl⟩
  obtain ⟨r, h1, -, -, h2⟩ := C52_size (fun _ _ => 7) 7 h
  refine ⟨h, r, h1, by simpa using h2, by rw [C52_weights h h1]; simp [weightSum], ?_⟩
  obtain ⟨-, -, q, -, -, h3, -, h4⟩ := C52_points h h1 4 0 (by norm_num) _ rfl
  exact ⟨q, h3, by rw [h4]; norm_num⟩

end

end Verif.Quad
