import Verif.Quad.DiscreteDivergence

/-! Property theorems: the divergence theorem of the quadrature rules (C107).

The rules are those of `QuadratureRules::rule` for the element and for the types of its facets
(quadraturerules.hh, modelled in `Quad.Model`); the points of the rule of a facet are taken to the element by the geometry of
the facet, and multiplied by `integrationOuterNormal` (referenceelementimplementation.hh, modelled in `RefGeom`). -/

namespace Verif.Quad

open Verif.Typ Verif.RefTopo Verif.RefGeom Verif.MatHelp Verif.Affine MvPolynomial MeasureTheory
open Matrix hiding vec ext
open Finset hiding ext

/-! ### Specification -/

/-- the sum over the points of a rule on facet `i` of the weight times the value of `g` -/
noncomputable def facetQuad (d id i : Nat) (g : (Fin d → ℝ) → ℝ) (l : List (QPoint ℝ)) : ℝ :=
  quadOf (fun y : Fin (refType d id i 1).dim → ℝ => g (facetPoint d id i y)) l

/-- `r` is the rule of order `p` for the element and `R i` the one for its facet `i` -/
structure Rules (env : Env ℝ) (d id p : Nat) (qt : QType) (r : Rule ℝ) (R : Nat → Rule ℝ) : Prop where
  element : rule env d ⟨d, false, id⟩ p qt = .ok r
  facet : ∀ i, i < refSize d id 1 → rule env (refType d id i 1).dim (refType d id i 1) p qt = .ok (R i)

/-! ### Lemmas -/

theorem facet_face {d id : Nat} (h0 : 0 < d) {i : Nat} (hi : i < refSize d id 1) :
    ∃ f : Face (topoOf d id), f.codim = 1 ∧ f.idx = i := by
  have h := rep_topoOf d id
  have hsz : refSize d id 1 = (topoOf d id).sz 1 := by rw [refSize, size_eq h 1 h0]
  obtain ⟨f, h1, h2⟩ := Face.idx_surj (topoOf d id) 1 i (hsz ▸ hi)
  exact ⟨f, h1, h2⟩

theorem rules_exist (env : Env ℝ) {d id p m : Nat} {qt : QType} (h0 : 0 < d) (hd : d ≤ 30) (hid : id < 2 ^ d)
    (hq : IsPlain qt) (hm : maxOrder d ⟨d, false, id⟩ qt = .ok m) (hp : p ≤ m) :
    ∃ r R, Rules env d id p qt r R ∧ ExactUpTo d id p tabTol r.pts ∧ PointsIn d id r.pts ∧
      ∀ i, i < refSize d id 1 → ExactUpTo (refType d id i 1).dim (refType d id i 1).id p tabTol (R i).pts := by
  obtain ⟨r, h1, -, h2⟩ := plain_good env hq hd hid hm hp
  have hF : ∀ i, ∃ q, i < refSize d id 1 → rule env (refType d id i 1).dim (refType d id i 1) p qt = .ok q ∧
      ExactUpTo (refType d id i 1).dim (refType d id i 1).id p tabTol q.pts := by
    intro i
    by_cases hi : i < refSize d id 1
    · obtain ⟨f, hf, rfl⟩ := facet_face h0 hi
      obtain ⟨m', a1, a2⟩ := maxOrder_sub hq hd hid hm f
      rw [hf] at a1
      have hT : refType d id f.idx 1 = ⟨d - 1, false, subTopologyId d id 1 f.idx⟩ := refType_eq d id _ _ (by omega) hid h0
      rw [hT]
      obtain ⟨q, b1, -, b2⟩ := plain_good env hq (show d - 1 ≤ 30 by omega) (subTopologyId_lt d id 1 f.idx hid h0) a1 (hp.trans a2)
      refine ⟨q, fun _ => ⟨b1, exactUpTo_of_approx (rep_topoOf _ _) (b2.approx.mono ?_ (errD_tabTol (by omega)))⟩⟩
      have := b2.order
      omega
    · exact ⟨⟨⟨0, false, 0⟩, 0, []⟩, fun h => absurd h hi⟩
  choose R hR using hF
  refine ⟨r, R, ⟨h1, fun i hi => (hR i hi).1⟩, exactUpTo_of_approx (rep_topoOf d id) (h2.approx.mono ?_ (errD_tabTol hd)),
    (pointsIn_iff (rep_topoOf d id) _).2 h2.inDom, fun i hi => (hR i hi).2⟩
  have := h2.order
  omega

/-- the embedding and the normal of a facet have entries of modulus at most 1 -/
theorem facet_entries {d id : Nat} (h0 : 0 < d) {i : Nat} (hi : i < refSize d id 1) :
    (∀ k, |normal d id i k| ≤ 1) ∧
    (∀ j, |((referenceEmbeddings (K := ℝ) d id 1).getD i (fun _ => 0, fun _ _ => 0)).1 j| ≤ 1) ∧
    ∀ r j, |((referenceEmbeddings (K := ℝ) d id 1).getD i (fun _ => 0, fun _ _ => 0)).2 r j| ≤ 1 := by
  have h := rep_topoOf d id
  obtain ⟨f, hf, rfl⟩ := facet_face h0 hi
  have he := embedding_face (K := ℝ) h f
  rw [hf] at he
  refine ⟨fun k => ?_, fun j => ?_, fun r j => ?_⟩
  · rw [normal, List.getD_eq_getElem?_getD, normal_face h f hf, Option.getD_some]
    rcases (FloatEmbed.nrm_entries f hf).1 k with e | e | e <;> rw [e] <;> norm_num
  · rw [List.getD_eq_getElem?_getD, he, Option.getD_some]
    change |orig (K := ℝ) f j| ≤ 1
    rcases orig_zero_one (K := ℝ) f j with e | e <;> rw [e] <;> norm_num
  · rw [List.getD_eq_getElem?_getD, he, Option.getD_some]
    change |RefGeom.jac (K := ℝ) f r j| ≤ 1
    rcases FloatEmbed.jac_entries f r j with e | e | e <;> rw [e] <;> norm_num

/-- the values on a facet are those of a polynomial -/
theorem facet_poly {d id p : Nat} (h0 : 0 < d) (hd : d ≤ 31) (hid : id < 2 ^ d) {i : Nat} (hi : i < refSize d id 1)
    (P : MvPolynomial (Fin d) ℝ) (hP : P.totalDegree ≤ p) :
    ∃ Q : MvPolynomial (Fin (refType d id i 1).dim) ℝ, (∀ y, Q.eval y = P.eval (facetPoint d id i y)) ∧
      Q.totalDegree ≤ p ∧ coeffSum Q ≤ d ^ p * coeffSum P := by
  have hT : refType d id i 1 = ⟨d - 1, false, subTopologyId d id 1 i⟩ := refType_eq d id _ _ hd hid h0
  rw [hT]
  set e := (referenceEmbeddings (K := ℝ) d id 1).getD i (fun _ => 0, fun _ _ => 0) with he
  obtain ⟨-, b1, b2⟩ := facet_entries h0 hi
  refine ⟨bind₁ (fun j : Fin d => affPoly (d - 1) e j) P, fun y => ?_, ?_, ?_⟩
  · rw [eval_bind]
    congr 1
    congr 1
    funext j
    rw [eval_affPoly]
    rfl
  · have := degLike_total.bind_le (fun j : Fin d => affPoly (d - 1) e j) (fun j => totalDegree_affPoly _ _ _) P
    omega
  · refine coeffSum_bind _ (by exact_mod_cast h0) (fun j => (coeffSum_affPoly _ _ _).trans ?_) P hP
    calc |e.1 j| + ∑ r : Fin (d - 1), |e.2 r j| ≤ 1 + ∑ r : Fin (d - 1), (1:ℝ) :=
          add_le_add (b1 j) (sum_le_sum fun r _ => b2 r j)
      _ = d := by
          rw [sum_const, card_univ, Fintype.card_fin, nsmul_eq_mul, mul_one, Nat.cast_sub h0]
          simp

theorem list_sum_abs_le (l : List Nat) (f g : Nat → ℝ) {c : ℝ} (h : ∀ i ∈ l, |f i - g i| ≤ c) :
    |(l.map f).sum - (l.map g).sum| ≤ l.length * c := by
  induction l with
  | nil => simp
  | cons a l ih =>
    have h1 := h a List.mem_cons_self
    have h2 := ih fun i hi => h i (List.mem_cons_of_mem _ hi)
    rw [List.map_cons, List.map_cons, List.sum_cons, List.sum_cons, List.length_cons]
    push_cast
    calc _ = |(f a - g a) + ((l.map f).sum - (l.map g).sum)| := by congr 1; ring
      _ ≤ _ := (abs_add_le _ _).trans (by linarith)

theorem divergence_aux {d id p : Nat} (h0 : 0 < d) (hd : d ≤ 31) (hid : id < 2 ^ d) {lv : List (QPoint ℝ)}
    {lf : Nat → List (QPoint ℝ)} (hv : ExactUpTo d id p tabTol lv)
    (hf : ∀ i, i < refSize d id 1 → ExactUpTo (refType d id i 1).dim (refType d id i 1).id p tabTol (lf i))
    (P : MvPolynomial (Fin d) ℝ) (hP : P.totalDegree ≤ p) (k : Fin d) :
    |quadOf (partialDeriv (fun x => P.eval x) k) lv -
      ((List.range (refSize d id 1)).map fun i => normal d id i k * facetQuad d id i (fun x => P.eval x) (lf i)).sum| ≤
      tabTol * ((p + 2 * d * d ^ p) * coeffSum P) := by
  have ht : 0 < tabTol := by unfold tabTol; norm_num
  have e1 := hv (pderiv k P) ((totalDegree_pderiv k P).trans (by omega))
  have e2 := C71_divergence d id h0 hd hid (fun x => P.eval x) (contDiff_eval P) k
  have e3 := list_sum_abs_le (List.range (refSize d id 1))
    (fun i => normal d id i k * facetIntegral d id i fun x => P.eval x)
    (fun i => normal d id i k * facetQuad d id i (fun x => P.eval x) (lf i)) (c := tabTol * (d ^ p * coeffSum P)) (fun i hi => by
      have hi' := List.mem_range.1 hi
      obtain ⟨Q, q1, q2, q3⟩ := facet_poly h0 hd hid hi' P hP
      have a1 := hf i hi' Q q2
      simp only [q1] at a1
      rw [← mul_sub, abs_mul]
      have a2 := (facet_entries (id := id) h0 hi').1 k
      rw [abs_sub_comm] at a1
      calc _ ≤ 1 * |facetIntegral d id i (fun x => P.eval x) - facetQuad d id i (fun x => P.eval x) (lf i)| :=
            mul_le_mul_of_nonneg_right a2 (abs_nonneg _)
        _ ≤ tabTol * coeffSum Q := by rw [one_mul]; exact a1
        _ ≤ _ := mul_le_mul_of_nonneg_left q3 ht.le)
  simp only [partialDeriv_eval] at e2 ⊢
  rw [show partialDeriv (fun x => P.eval x) k = fun x => (pderiv k P).eval x from funext fun x => partialDeriv_eval P k x]
  rw [e2] at e1
  have e4 : (((List.range (refSize d id 1)).length : ℕ) : ℝ) ≤ 2 * d := by
    rw [List.length_range]
    have h := rep_topoOf d id
    have := facets_le (topoOf d id)
    rw [h.dim_eq] at this
    rw [refSize, size_eq h 1 h0]
    exact_mod_cast this
  have e5 := coeffSum_pderiv k P hP
  have e6 : 0 ≤ tabTol * ((d:ℝ) ^ p * coeffSum P) := mul_nonneg ht.le (mul_nonneg (by positivity) (coeffSum_nonneg _))
  have e7 := mul_le_mul_of_nonneg_right e4 e6
  have e8 := mul_le_mul_of_nonneg_left e5 ht.le
  refine (abs_sub_le _ _ _).trans ((add_le_add e1 e3).trans ((add_le_add e8 e7).trans (le_of_eq ?_)))
  ring

/-! ### C107 -/

/-- C107: for every sub-entity there are rules of each order for which there is one for the element. -/
theorem C107_available (d id m : Nat) (qt : QType) (hd : d ≤ 30) (hid : id < 2 ^ d) (hq : IsPlain qt)
    (hm : maxOrder d ⟨d, false, id⟩ qt = .ok m) (c i : Nat) (hc : c ≤ d) (hi : i < refSize d id c) :
    ∃ m', maxOrder (refType d id i c).dim (refType d id i c) qt = .ok m' ∧ m ≤ m' := by
  have h := rep_topoOf d id
  obtain ⟨f, rfl, rfl⟩ := Face.idx_surj (topoOf d id) c i (by rw [← size_eq h c hc]; exact hi)
  rw [refType_eq d id _ _ (by omega) hid hc]
  exact maxOrder_sub hq hd hid hm f

/-- C107: the divergence theorem of the rules: for polynomials of degree at most the order of the rules, the rule of the
element applied to a derivative and the rules of the facets applied to the values times the normals agree up to the accuracy
of the tables. -/
theorem C107_divergence (env : Env ℝ) (d id p m : Nat) (qt : QType) (h0 : 0 < d) (hd : d ≤ 30) (hid : id < 2 ^ d)
    (hq : IsPlain qt) (hm : maxOrder d ⟨d, false, id⟩ qt = .ok m) (hp : p ≤ m) :
    ∃ r R, Rules env d id p qt r R ∧ ∀ P : MvPolynomial (Fin d) ℝ, P.totalDegree ≤ p → ∀ k : Fin d,
      |quadOf (partialDeriv (fun x => P.eval x) k) r.pts -
        ((List.range (refSize d id 1)).map fun i => normal d id i k * facetQuad d id i (fun x => P.eval x) (R i).pts).sum| ≤
        tabTol * ((p + 2 * d * d ^ p) * coeffSum P) := by
  obtain ⟨r, R, h1, h2, -, h3⟩ := rules_exist env h0 hd hid hq hm hp
  exact ⟨r, R, h1, fun P hP k => divergence_aux h0 (by omega) hid h2 h3 P hP k⟩

/-- C107: integration by parts with the rules. -/
theorem C107_parts (env : Env ℝ) (d id p m : Nat) (qt : QType) (h0 : 0 < d) (hd : d ≤ 30) (hid : id < 2 ^ d)
    (hq : IsPlain qt) (hm : maxOrder d ⟨d, false, id⟩ qt = .ok m) (hp : p ≤ m) :
    ∃ r R, Rules env d id p qt r R ∧ ∀ P Q : MvPolynomial (Fin d) ℝ, P.totalDegree + Q.totalDegree ≤ p → ∀ k : Fin d,
      |quadOf (fun x => partialDeriv (fun x => P.eval x) k x * Q.eval x) r.pts +
        quadOf (fun x => P.eval x * partialDeriv (fun x => Q.eval x) k x) r.pts -
        ((List.range (refSize d id 1)).map fun i =>
          normal d id i k * facetQuad d id i (fun x => P.eval x * Q.eval x) (R i).pts).sum| ≤
        tabTol * ((p + 2 * d * d ^ p) * (coeffSum P * coeffSum Q)) := by
  obtain ⟨r, R, h1, h2⟩ := C107_divergence env d id p m qt h0 hd hid hq hm hp
  refine ⟨r, R, h1, fun P Q hPQ k => ?_⟩
  have := h2 (P * Q) ((totalDegree_mul P Q).trans hPQ) k
  simp only [map_mul] at this
  have e : quadOf (fun x => partialDeriv (fun x => P.eval x) k x * Q.eval x) r.pts +
      quadOf (fun x => P.eval x * partialDeriv (fun x => Q.eval x) k x) r.pts =
      quadOf (partialDeriv (fun x => P.eval x * Q.eval x) k) r.pts := by
    unfold quadOf
    rw [← List.sum_map_add]
    congr 1
    refine List.map_congr_left fun q _ => ?_
    beta_reduce
    rw [show (fun x => P.eval x * Q.eval x) = fun x => (P * Q).eval x from funext fun x => (map_mul _ _ _).symm]
    rw [partialDeriv_eval, partialDeriv_eval, partialDeriv_eval, pderiv_mul, map_add, map_mul, map_mul]
    ring
  rw [e]
  refine this.trans ?_
  have ht : 0 < tabTol := by unfold tabTol; norm_num
  exact mul_le_mul_of_nonneg_left (mul_le_mul_of_nonneg_left (coeffSum_mul P Q) (by positivity)) ht.le

/-- C107: the normals, weighted with the sums of the weights of the rules of the facets, sum to zero: a constant flux has no
divergence. -/
theorem C107_closed (env : Env ℝ) (d id p m : Nat) (qt : QType) (h0 : 0 < d) (hd : d ≤ 30) (hid : id < 2 ^ d)
    (hq : IsPlain qt) (hm : maxOrder d ⟨d, false, id⟩ qt = .ok m) (hp : p ≤ m) :
    ∃ r R, Rules env d id p qt r R ∧ ∀ k : Fin d,
      |((List.range (refSize d id 1)).map fun i => normal d id i k * weightSum (R i).pts).sum| ≤ tabTol * (2 * d) := by
  obtain ⟨r, R, h1, h2, -, h3⟩ := rules_exist env h0 hd hid hq hm hp
  refine ⟨r, R, h1, fun k => ?_⟩
  have ht : 0 < tabTol := by unfold tabTol; norm_num
  have := divergence_aux (p := 0) h0 (by omega) hid (fun P hP => h2 P (by omega)) (fun i hi P hP => h3 i hi P (by omega))
    (C 1) (by rw [totalDegree_C]) k
  have e1 : partialDeriv (fun x : Fin d → ℝ => (C (1:ℝ) : MvPolynomial (Fin d) ℝ).eval x) k = fun _ => 0 := by
    funext x; rw [partialDeriv_eval]; simp
  have e2 : ∀ i, facetQuad d id i (fun x => (C (1:ℝ) : MvPolynomial (Fin d) ℝ).eval x) (R i).pts = weightSum (R i).pts := by
    intro i; simp [facetQuad, quadOf, weightSum]
  have e3 : quadOf (fun _ : Fin d → ℝ => (0:ℝ)) r.pts = 0 := by simp [quadOf]
  simp only [e1, e2, e3, zero_sub, abs_neg] at this
  refine this.trans (mul_le_mul_of_nonneg_left ?_ ht.le)
  have hc := coeffSum_C (d := d) 1
  rw [abs_one] at hc
  calc _ ≤ ((0:ℕ) + 2 * (d:ℝ) * d ^ 0) * 1 := mul_le_mul_of_nonneg_left hc (by positivity)
    _ = 2 * d := by simp

/-- C107: the divergence theorem of the rules on the image of the element under an affine geometry, with
`jacobianInverseTransposed * normal * integrationElement` as normals; `Q` are the values of `P` on the image. -/
theorem C107_affine (env : Env ℝ) (d id p m : Nat) (qt : QType) (h0 : 0 < d) (hd : d ≤ 30) (hid : id < 2 ^ d)
    (hq : IsPlain qt) (hm : maxOrder d ⟨d, false, id⟩ qt = .ok m) (hp : p ≤ m)
    (o : Vec ℝ) (jt : Mat ℝ) (g : AffineGeometry) (hg : AffineGeometry.ofJacobian d d id o jt = some g) :
    ∃ r R, Rules env d id p qt r R ∧ ∀ P : MvPolynomial (Fin d) ℝ, P.totalDegree ≤ p → ∃ Q : MvPolynomial (Fin d) ℝ,
      Q.totalDegree ≤ p ∧ (∀ x, Q.eval x = P.eval (affineMap d g x)) ∧ ∀ k : Fin d,
      |quadOf (fun x => partialDeriv (fun y => P.eval y) k (affineMap d g x) * g.integrationElement) r.pts -
        ((List.range (refSize d id 1)).map fun i => facetQuad d id i (fun x => P.eval (affineMap d g x) *
          ((mat d d g.jacobianInverseTransposed *ᵥ fun j => normal d id i j) k * g.integrationElement)) (R i).pts).sum| ≤
        tabTol * ((p + 2 * d * d ^ p) * coeffSum Q) * ∑ j : Fin d, |g.jacobianInverseTransposed k j * g.integrationElement| := by
  obtain ⟨r, R, h1, h2⟩ := C107_divergence env d id p m qt h0 hd hid hq hm hp
  refine ⟨r, R, h1, fun P hP => ?_⟩
  obtain ⟨rfl, hc, rfl, rfl, rfl, h⟩ := ofJacobian_good (le_refl d) hg
  have hinv := h.right_inv
  rw [hc] at hinv
  let G : Fin g.mydim → MvPolynomial (Fin g.mydim) ℝ := fun j => affPoly g.mydim (g.origin, g.jt) j
  have hG : ∀ x j, (G j).eval x = affineMap g.mydim g x j := by
    intro x j
    rw [affineMap_eq hc]
    simp only [G, affPoly, Pi.add_apply, mulVec, dotProduct, transpose_apply, map_add, map_sum, map_mul, eval_C, eval_X]
    rfl
  have hQe : ∀ x, (bind₁ G P).eval x = P.eval (affineMap g.mydim g x) := by
    intro x; rw [eval_bind]; congr 1; congr 1; exact funext fun j => hG x j
  have hQd : (bind₁ G P).totalDegree ≤ p := by
    have := degLike_total.bind_le G (fun j => totalDegree_affPoly _ _ _) P
    omega
  refine ⟨bind₁ G P, hQd, hQe, fun k => ?_⟩
  -- the chain rule
  have hchain : ∀ (j : Fin g.mydim) x, partialDeriv (fun x => (bind₁ G P).eval x) j x =
      ∑ l : Fin g.mydim, g.jt j l * partialDeriv (fun y => P.eval y) l (affineMap g.mydim g x) := by
    intro j x
    have e : (fun x => (bind₁ G P).eval x) = fun x => P.eval (affineMap g.mydim g x) := funext hQe
    have hd1 := (hasFDerivAt_eval P (affineMap g.mydim g x)).comp x (affineMap_hasFDerivAt hc x)
    rw [e, partialDeriv]
    have := hd1.fderiv
    simp only [Function.comp_def] at this
    rw [this]
    simp only [partialDeriv_eval, ContinuousLinearMap.comp_apply, _root_.sum_apply, _root_.smul_apply,
      ContinuousLinearMap.proj_apply, smul_eq_mul, LinearMap.coe_toContinuousLinearMap', toLin'_apply]
    refine sum_congr rfl fun l _ => ?_
    rw [mulVec_single_one, col_apply, transpose_apply, mul_comm]
    rfl
  have hinv' : ∀ k l : Fin g.mydim, ∑ j : Fin g.mydim, g.jacobianInverseTransposed k j * g.jt j l = if k = l then 1 else 0 := by
    intro k l
    have hJ : mat g.mydim g.mydim g.jit * mat g.mydim g.mydim g.jt = 1 := mul_eq_one_comm.1 hinv
    have := congrFun (congrFun hJ k) l
    rw [Matrix.mul_apply, Matrix.one_apply] at this
    exact this
  have hback : ∀ x, partialDeriv (fun y => P.eval y) k (affineMap g.mydim g x) * g.integrationElement =
      ∑ j : Fin g.mydim, (g.jacobianInverseTransposed k j * g.integrationElement) *
        partialDeriv (fun x => (bind₁ G P).eval x) j x := by
    intro x
    simp only [hchain, mul_sum]
    rw [sum_comm]
    calc _ = ∑ l : Fin g.mydim, (∑ j : Fin g.mydim, g.jacobianInverseTransposed k j * g.jt j l) *
          (partialDeriv (fun y => P.eval y) l (affineMap g.mydim g x) * g.integrationElement) := by
          simp only [hinv', ite_mul, one_mul, zero_mul, sum_ite_eq, mem_univ, if_true]
      _ = _ := sum_congr rfl fun l _ => by
          rw [sum_mul]
          exact sum_congr rfl fun j _ => by ring
  have hfac : ∀ i, facetQuad g.mydim g.id i (fun x => P.eval (affineMap g.mydim g x) *
        ((mat g.mydim g.mydim g.jacobianInverseTransposed *ᵥ fun j => normal g.mydim g.id i j) k * g.integrationElement)) (R i).pts =
      ∑ j : Fin g.mydim, (g.jacobianInverseTransposed k j * g.integrationElement) *
        (normal g.mydim g.id i j * facetQuad g.mydim g.id i (fun x => (bind₁ G P).eval x) (R i).pts) := by
    intro i
    simp only [hQe, facetQuad]
    rw [show (fun y : Fin (refType g.mydim g.id i 1).dim → ℝ => P.eval (affineMap g.mydim g (facetPoint g.mydim g.id i y)) *
        ((mat g.mydim g.mydim g.jacobianInverseTransposed *ᵥ fun j => normal g.mydim g.id i j) k * g.integrationElement)) =
        fun y => ((mat g.mydim g.mydim g.jacobianInverseTransposed *ᵥ fun j => normal g.mydim g.id i j) k *
          g.integrationElement) * P.eval (affineMap g.mydim g (facetPoint g.mydim g.id i y)) from funext fun y => mul_comm _ _]
    rw [quadOf_const_mul, mulVec, dotProduct, sum_mul, sum_mul]
    exact sum_congr rfl fun j _ => by
      change g.jacobianInverseTransposed k j * _ * _ * _ = _
      ring
  have hsum : ((List.range (refSize g.mydim g.id 1)).map fun i => facetQuad g.mydim g.id i (fun x => P.eval (affineMap g.mydim g x) *
        ((mat g.mydim g.mydim g.jacobianInverseTransposed *ᵥ fun j => normal g.mydim g.id i j) k * g.integrationElement)) (R i).pts).sum =
      ∑ j : Fin g.mydim, (g.jacobianInverseTransposed k j * g.integrationElement) *
        ((List.range (refSize g.mydim g.id 1)).map fun i =>
          normal g.mydim g.id i j * facetQuad g.mydim g.id i (fun x => (bind₁ G P).eval x) (R i).pts).sum := by
    simp only [hfac]
    generalize List.range (refSize g.mydim g.id 1) = l
    induction l with
    | nil => simp
    | cons a l ih => simp only [List.map_cons, List.sum_cons, ih, mul_add, sum_add_distrib]
  rw [hsum]
  simp only [hback]
  rw [quadOf_sum]
  simp only [quadOf_const_mul]
  rw [← sum_sub_distrib, mul_sum]
  refine (abs_sum_le_sum_abs _ _).trans (sum_le_sum fun j _ => ?_)
  rw [← mul_sub, abs_mul, mul_comm]
  exact mul_le_mul_of_nonneg_right (h2 _ hQd j) (abs_nonneg _)

/-- the hypotheses hold for the pyramid and order 2 -/
example : ∃ m, maxOrder 3 ⟨3, false, 3⟩ .GaussLegendre = .ok m ∧ 2 ≤ m ∧ refSize 3 3 1 = 5 := by
  obtain ⟨m, h1, h2⟩ := maxOrder_tab (qt := .GaussLegendre) (h := 61) rfl (by omega) (by omega) 2 3 (by omega) (by omega)
  refine ⟨m, h1, ?_, by decide⟩
  rcases h2.2.2 with rfl | ⟨k, -, k2, -, k4⟩ <;> omega

end Verif.Quad
