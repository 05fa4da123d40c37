import Verif.MultiLinear.Spec

/-! Interpolation, affine reproduction, restriction to faces. -/

namespace Verif.MultiLinear

open Verif.RefGeom Verif.MatHelp Verif.RefTopo Verif.Typ Finset

theorem ML_congr {tol : ℝ} : ∀ (t : Topo) {c c' : Nat → ℝ} {z z' : Vec ℝ}, (∀ k, k < nv t → c k = c' k) →
    (∀ r, r < t.dim → z r = z' r) → ML tol t c z = ML tol t c' z'
  | .pt, c, c', z, z', hc, _ => hc 0 (by simp [nv, Topo.dim])
  | .prism t, c, c', z, z', hc, hz => by
    have e := hz t.dim (by simp [Topo.dim])
    rw [nv_prism] at hc
    have hz' : ∀ r, r < t.dim → z r = z' r := fun r hr => hz r (by simp only [Topo.dim]; omega)
    rw [ML, ML, e, ML_congr t (fun k hk => hc k (by omega)) hz',
      ML_congr t (c' := fun k => c' (nv t + k)) (fun k hk => hc (nv t + k) (by omega)) hz']
  | .pyr t, c, c', z, z', hc, hz => by
    have e := hz t.dim (by simp [Topo.dim])
    rw [nv_pyr] at hc
    have hz' : ∀ r, r < t.dim → z r = z' r := fun r hr => hz r (by simp only [Topo.dim]; omega)
    rw [ML, ML, e, ML_congr t (c' := c') (z' := fun r => z' r / (1 - z' t.dim)) (fun k hk => hc k (by omega))
      (fun r hr => by rw [hz' r hr]), hc (nv t) (by omega)]

/-- the point keeps the distance `tol` from the apex in every pyramid construction -/
def Away (tol : ℝ) : Topo → Vec ℝ → Prop
  | .pt, _ => True
  | .prism t, z => Away tol t z
  | .pyr t, z => far tol (1 - z t.dim) ∧ Away tol t (fun r => z r / (1 - z t.dim))

theorem far_one {tol : ℝ} (h : tol < 1) : far tol 1 := Or.inl h

theorem not_far_zero {tol : ℝ} (h : 0 ≤ tol) : ¬ far tol 0 := by
  rintro (h1 | h1) <;> linarith

theorem far_ne {tol a : ℝ} (h : 0 ≤ tol) (hf : far tol a) : a ≠ 0 := by
  rintro rfl; exact not_far_zero h hf

/-- scaled version, the way the reference element tests for inside -/
theorem away_of_inside {tol : ℝ} (ht : 0 ≤ tol) : ∀ (t : Topo) (f : ℝ) (z : Vec ℝ), 0 < f → f ≤ 1 →
    Inside (-tol) t f z → Away tol t (fun r => z r / f)
  | .pt, _, _, _, _, _ => trivial
  | .prism t, f, z, h0, h1, ⟨_, _, h4⟩ => away_of_inside ht t f z h0 h1 h4
  | .pyr t, f, z, h0, h1, ⟨h2, h3, h4⟩ => by
    have hpos : 0 < f - z t.dim := by linarith
    have e : 1 - z t.dim / f = (f - z t.dim) / f := by field_simp
    refine ⟨Or.inl ?_, ?_⟩
    · rw [e, gt_iff_lt, lt_div_iff₀ h0]; nlinarith
    · have := away_of_inside ht t (f - z t.dim) z hpos (by linarith) h4
      have e2 : (fun r => (fun r => z r / f) r / (1 - (fun r => z r / f) t.dim)) = fun r => z r / (f - z t.dim) := by
        funext r
        simp only
        rw [e]; field_simp
      rw [e2]; exact this

theorem away_of_checkInside {tol : ℝ} (ht : 0 ≤ tol) {d id : Nat} {t : Topo} (h : Rep d id t) {z : Vec ℝ}
    (hz : checkInside d id z (-tol) 1 = true) : Away tol t z := by
  have := away_of_inside ht t 1 z one_pos (le_refl _) ((checkInside_iff h z (-tol) 1).1 hz)
  simpa using this

/-- interpolation -/
theorem ML_corner {tol : ℝ} (h0 : 0 ≤ tol) (h1 : tol < 1) : ∀ (t : Topo) (c : Nat → ℝ) (k : Nat) (p : Vec ℝ),
    (cornersOf t)[k]? = some p → ML tol t c p = c k
  | .pt, c, k, p, h => by
    have hl : (cornersOf (K := ℝ) .pt).length = 1 := rfl
    have := (List.getElem?_eq_some_iff.1 h).1
    obtain rfl : k = 0 := by omega
    rfl
  | .prism t, c, k, p, h => by
    have hl : (cornersOf (K := ℝ) t).length = nv t := by simp [cornersOf, length_faces]
    rw [cornersOf_prism] at h
    rcases Nat.lt_or_ge k (nv t) with hk | hk
    · rw [List.getElem?_append_left (by omega)] at h
      have hz := cornersOf_zero (List.mem_of_getElem? h) (le_refl t.dim)
      rw [ML, hz, ML_corner h0 h1 t c k p h]; ring
    · rw [List.getElem?_append_right (by omega), hl, List.getElem?_map] at h
      obtain ⟨q, hq, rfl⟩ := Option.map_eq_some_iff.1 h
      rw [ML, setV_same, ML_congr t (c := fun k => c (nv t + k)) (c' := fun k => c (nv t + k)) (z' := q)
        (fun _ _ => rfl) (fun r hr => setV_ne _ (by omega) _), ML_corner h0 h1 t _ _ q hq]
      rw [show nv t + (k - nv t) = k by omega]; ring
  | .pyr t, c, k, p, h => by
    have hl : (cornersOf (K := ℝ) t).length = nv t := by simp [cornersOf, length_faces]
    rw [cornersOf_pyr] at h
    rcases Nat.lt_or_ge k (nv t) with hk | hk
    · rw [List.getElem?_append_left (by omega)] at h
      have hz := cornersOf_zero (List.mem_of_getElem? h) (le_refl t.dim)
      rw [ML_pyr_far (by rw [hz, sub_zero]; exact far_one h1), hz]
      have e : (fun r => p r / (1 - 0)) = p := by funext r; simp
      rw [e, ML_corner h0 h1 t c k p h]; ring
    · rw [List.getElem?_append_right (by omega), hl] at h
      have hk' : k = nv t := by
        have := (List.getElem?_eq_some_iff.1 h).1
        simp at this; omega
      subst hk'
      rw [Nat.sub_self] at h
      have hp : p = setV (fun _ => 0) t.dim 1 := by simpa using h.symm
      rw [hp, ML_pyr_near (by rw [setV_same, _root_.sub_self]; exact not_far_zero h0), setV_same, one_mul]

/-- affine reproduction -/
theorem ML_affine {tol : ℝ} (h0 : 0 ≤ tol) : ∀ (t : Topo) (c : Nat → ℝ) (a : ℝ) (M : Nat → ℝ) (z : Vec ℝ),
    (∀ (k : Nat) (p : Vec ℝ), (cornersOf t)[k]? = some p → c k = a + ∑ r ∈ range t.dim, M r * p r) → Away tol t z →
    ML tol t c z = a + ∑ r ∈ range t.dim, M r * z r
  | .pt, c, a, M, z, hc, _ => by
    have := hc 0 (fun _ => 0) rfl
    simpa [ML, Topo.dim] using this
  | .prism t, c, a, M, z, hc, hz => by
    have hl : (cornersOf (K := ℝ) t).length = nv t := by simp [cornersOf, length_faces]
    rw [cornersOf_prism] at hc
    rw [ML, ML_affine h0 t c a M z (fun k p hp => ?_) hz,
      ML_affine h0 t (fun k => c (nv t + k)) (a + M t.dim) M z (fun k p hp => ?_) hz]
    · simp only [Topo.dim]; rw [sum_range_succ]; ring
    · have hk := (List.getElem?_eq_some_iff.1 hp).1
      have := hc (nv t + k) (setV p t.dim 1) (by
        rw [List.getElem?_append_right (by omega), hl, Nat.add_sub_cancel_left, List.getElem?_map, hp]; rfl)
      simp only [this, Topo.dim]
      rw [sum_range_succ, setV_same]
      have e : ∑ r ∈ range t.dim, M r * setV p t.dim 1 r = ∑ r ∈ range t.dim, M r * p r :=
        sum_congr rfl fun r hr => by rw [setV_ne _ (by have := mem_range.1 hr; omega)]
      rw [e]; ring
    · have hk := (List.getElem?_eq_some_iff.1 hp).1
      have := hc k p (by rw [List.getElem?_append_left hk]; exact hp)
      rw [this]
      simp only [Topo.dim]
      rw [sum_range_succ, cornersOf_zero (List.mem_of_getElem? hp) (le_refl t.dim)]; ring
  | .pyr t, c, a, M, z, hc, ⟨hf, hz⟩ => by
    have hl : (cornersOf (K := ℝ) t).length = nv t := by simp [cornersOf, length_faces]
    rw [cornersOf_pyr] at hc
    have hne := far_ne h0 hf
    rw [ML_pyr_far hf, ML_affine h0 t c a M _ (fun k p hp => ?_) hz]
    · have := hc (nv t) (setV (fun _ => 0) t.dim 1) (by
        rw [List.getElem?_append_right (by omega), hl, Nat.sub_self]; rfl)
      rw [this]
      simp only [Topo.dim]
      rw [sum_range_succ, sum_range_succ, setV_same]
      have e : ∑ r ∈ range t.dim, M r * setV (fun _ => 0) t.dim 1 r = 0 :=
        sum_eq_zero fun r hr => by rw [setV_ne _ (by have := mem_range.1 hr; omega), mul_zero]
      have e2 : (1 - z t.dim) * ∑ r ∈ range t.dim, M r * (z r / (1 - z t.dim)) = ∑ r ∈ range t.dim, M r * z r := by
        rw [mul_sum]
        exact sum_congr rfl fun r _ => by field_simp
      rw [e, mul_add, e2]; ring
    · have hk := (List.getElem?_eq_some_iff.1 hp).1
      have := hc k p (by rw [List.getElem?_append_left hk]; exact hp)
      rw [this]
      simp only [Topo.dim]
      rw [sum_range_succ, cornersOf_zero (List.mem_of_getElem? hp) (le_refl t.dim)]; ring

/-- a point of the domain scaled by 0 is the origin -/
theorem dom_scale_zero : ∀ (t : Topo) (z : Vec ℝ), Dom t 0 z → ∀ r, r < t.dim → z r = 0
  | .pt, _, _, r, hr => absurd hr (by simp [Topo.dim])
  | .prism t, z, ⟨h1, h2, h3⟩, r, hr => by
    rcases Nat.lt_or_ge r t.dim with h | h
    · exact dom_scale_zero t z h3 r h
    · obtain rfl : r = t.dim := by simp only [Topo.dim] at hr; omega
      linarith
  | .pyr t, z, ⟨h1, h2, h3⟩, r, hr => by
    have e : z t.dim = 0 := by linarith
    rcases Nat.lt_or_ge r t.dim with h | h
    · rw [e, sub_zero] at h3
      exact dom_scale_zero t z h3 r h
    · obtain rfl : r = t.dim := by simp only [Topo.dim] at hr; omega
      exact e

/-- values of an affine function on the domain are bounded by the values at the corners -/
theorem affine_bound (t : Topo) (a C : ℝ) (M : Nat → ℝ) (z : Vec ℝ)
    (hC : ∀ (k : Nat) (p : Vec ℝ), (cornersOf t)[k]? = some p → |a + ∑ r ∈ range t.dim, M r * p r| ≤ C) (hz : Dom t 1 z) :
    |a + ∑ r ∈ range t.dim, M r * z r| ≤ C := by
  obtain ⟨W, hl, hpos, hsum, hw⟩ := dom_weights t 1 z zero_le_one hz
  have key : ∀ (W : List ℝ) (L : List (Vec ℝ)), W.length = L.length → (∀ w ∈ W, 0 ≤ w) →
      (∀ p ∈ L, |a + ∑ r ∈ range t.dim, M r * p r| ≤ C) →
      |W.sum * a + ∑ r ∈ range t.dim, M r * wsum W L r| ≤ W.sum * C := by
    intro W
    induction W with
    | nil => intro L _ _ _; simp [wsum]
    | cons w W ih =>
      intro L hl hp hb
      cases L with
      | nil => simp at hl
      | cons p L =>
        have h1 := ih L (by simpa using hl) (fun w hw => hp w (List.mem_cons_of_mem _ hw))
          (fun p hp => hb p (List.mem_cons_of_mem _ hp))
        have h2 := hb p List.mem_cons_self
        have h3 := hp w List.mem_cons_self
        have e : (w :: W).sum * a + ∑ r ∈ range t.dim, M r * wsum (w :: W) (p :: L) r =
            w * (a + ∑ r ∈ range t.dim, M r * p r) + (W.sum * a + ∑ r ∈ range t.dim, M r * wsum W L r) := by
          rw [mul_add, mul_sum]
          have : ∑ r ∈ range t.dim, M r * wsum (w :: W) (p :: L) r =
              ∑ r ∈ range t.dim, w * (M r * p r) + ∑ r ∈ range t.dim, M r * wsum W L r := by
            rw [← sum_add_distrib]
            exact sum_congr rfl fun r _ => by simp only [wsum, List.zipWith_cons_cons, List.sum_cons]; ring
          rw [this, List.sum_cons]; ring
        rw [e, List.sum_cons, add_mul]
        refine (abs_add_le _ _).trans (add_le_add ?_ h1)
        rw [abs_mul, abs_of_nonneg h3]
        exact mul_le_mul_of_nonneg_left h2 h3
  have := key W (cornersOf t) hl hpos (fun p hp => by
    obtain ⟨k, hk⟩ := List.mem_iff_getElem?.1 hp
    exact hC k p hk)
  rw [hsum, one_mul, one_mul, sum_congr rfl fun r hr => by rw [hw r (mem_range.1 hr)]] at this
  exact this

/-- on the whole closed element the affine map is reproduced up to the tolerance times the size of the corners -/
theorem ML_affine_error {tol : ℝ} (h0 : 0 ≤ tol) : ∀ (t : Topo) (c : Nat → ℝ) (a C : ℝ) (M : Nat → ℝ) (z : Vec ℝ),
    (∀ (k : Nat) (p : Vec ℝ), (cornersOf t)[k]? = some p → c k = a + ∑ r ∈ range t.dim, M r * p r) →
    (∀ k, k < nv t → |c k| ≤ C) → 0 ≤ C → Dom t 1 z →
    |ML tol t c z - (a + ∑ r ∈ range t.dim, M r * z r)| ≤ tol * C
  | .pt, c, a, C, M, z, hc, _, hC0, _ => by
    have := hc 0 (fun _ => 0) rfl
    rw [ML, this]
    simp only [Topo.dim, range_zero, sum_empty, _root_.sub_self, abs_zero]
    exact mul_nonneg h0 hC0
  | .prism t, c, a, C, M, z, hc, hC, hC0, ⟨z1, z2, z3⟩ => by
    have hl : (cornersOf (K := ℝ) t).length = nv t := by simp [cornersOf, length_faces]
    rw [cornersOf_prism] at hc
    rw [nv_prism] at hC
    have h1 := ML_affine_error h0 t c a C M z (fun k p hp => by
      have hk := (List.getElem?_eq_some_iff.1 hp).1
      have := hc k p (by rw [List.getElem?_append_left hk]; exact hp)
      rw [this]
      simp only [Topo.dim]
      rw [sum_range_succ, cornersOf_zero (List.mem_of_getElem? hp) (le_refl t.dim)]; ring)
      (fun k hk => hC k (by omega)) hC0 z3
    have h2 := ML_affine_error h0 t (fun k => c (nv t + k)) (a + M t.dim) C M z (fun k p hp => by
      have hk := (List.getElem?_eq_some_iff.1 hp).1
      have := hc (nv t + k) (setV p t.dim 1) (by
        rw [List.getElem?_append_right (by omega), hl, Nat.add_sub_cancel_left, List.getElem?_map, hp]; rfl)
      simp only [this, Topo.dim]
      rw [sum_range_succ, setV_same]
      have e : ∑ r ∈ range t.dim, M r * setV p t.dim 1 r = ∑ r ∈ range t.dim, M r * p r :=
        sum_congr rfl fun r hr => by rw [setV_ne _ (by have := mem_range.1 hr; omega)]
      rw [e]; ring)
      (fun k hk => hC (nv t + k) (by omega)) hC0 z3
    have e : ML tol (.prism t) c z - (a + ∑ r ∈ range (Topo.prism t).dim, M r * z r) =
        (1 - z t.dim) * (ML tol t c z - (a + ∑ r ∈ range t.dim, M r * z r)) +
        z t.dim * (ML tol t (fun k => c (nv t + k)) z - (a + M t.dim + ∑ r ∈ range t.dim, M r * z r)) := by
      rw [ML]; simp only [Topo.dim]; rw [sum_range_succ]; ring
    rw [e]
    refine (abs_add_le _ _).trans ?_
    rw [abs_mul, abs_mul, abs_of_nonneg z1, abs_of_nonneg (show 0 ≤ 1 - z t.dim by linarith)]
    nlinarith
  | .pyr t, c, a, C, M, z, hc, hC, hC0, ⟨z1, z2, z3⟩ => by
    have hl : (cornersOf (K := ℝ) t).length = nv t := by simp [cornersOf, length_faces]
    rw [cornersOf_pyr] at hc
    rw [nv_pyr] at hC
    have hcb : ∀ k p, (cornersOf t)[k]? = some p → c k = a + ∑ r ∈ range t.dim, M r * p r := by
      intro k p hp
      have hk := (List.getElem?_eq_some_iff.1 hp).1
      have := hc k p (by rw [List.getElem?_append_left hk]; exact hp)
      rw [this]
      simp only [Topo.dim]
      rw [sum_range_succ, cornersOf_zero (List.mem_of_getElem? hp) (le_refl t.dim)]; ring
    have htip : c (nv t) = a + M t.dim := by
      have := hc (nv t) (setV (fun _ => 0) t.dim 1) (by
        rw [List.getElem?_append_right (by omega), hl, Nat.sub_self]; rfl)
      rw [this]
      simp only [Topo.dim]
      rw [sum_range_succ, setV_same]
      have e : ∑ r ∈ range t.dim, M r * setV (fun _ => 0) t.dim 1 r = 0 :=
        sum_eq_zero fun r hr => by rw [setV_ne _ (by have := mem_range.1 hr; omega), mul_zero]
      rw [e]; ring
    by_cases hz : 1 - z t.dim = 0
    · -- at the apex
      rw [hz] at z3
      have hzr := dom_scale_zero t z z3
      rw [ML_pyr_near (by rw [hz]; exact not_far_zero h0), htip]
      simp only [Topo.dim]
      rw [sum_range_succ, sum_eq_zero fun r hr => by rw [hzr r (mem_range.1 hr), mul_zero]]
      have : z t.dim = 1 := by linarith
      rw [this]
      have e : 1 * (a + M t.dim) - (a + (0 + M t.dim * 1)) = 0 := by ring
      rw [e, abs_zero]; exact mul_nonneg h0 hC0
    · have hpos : 0 < 1 - z t.dim := lt_of_le_of_ne (by linarith) (Ne.symm hz)
      have hdom : Dom t 1 (fun r => z r / (1 - z t.dim)) := by
        have := dom_smul (a := (1 - z t.dim)⁻¹) (by positivity) t _ z z3
        rw [inv_mul_cancel₀ hz] at this
        refine dom_congr t 1 (fun r _ => ?_) this
        rw [div_eq_inv_mul]
      have e2 : (1 - z t.dim) * ∑ r ∈ range t.dim, M r * (z r / (1 - z t.dim)) = ∑ r ∈ range t.dim, M r * z r := by
        rw [mul_sum]
        exact sum_congr rfl fun r _ => by field_simp
      by_cases hf : far tol (1 - z t.dim)
      · have h1 := ML_affine_error h0 t c a C M _ hcb (fun k hk => hC k (by omega)) hC0 hdom
        have e : ML tol (.pyr t) c z - (a + ∑ r ∈ range (Topo.pyr t).dim, M r * z r) =
            (1 - z t.dim) * (ML tol t c (fun r => z r / (1 - z t.dim)) -
              (a + ∑ r ∈ range t.dim, M r * (z r / (1 - z t.dim)))) := by
          rw [ML_pyr_far hf, htip, mul_sub, mul_add (1 - z t.dim) a, e2]; simp only [Topo.dim]
          rw [sum_range_succ]; ring
        rw [e, abs_mul, abs_of_pos hpos]
        have : 0 ≤ tol * C := mul_nonneg h0 hC0
        nlinarith [abs_nonneg (ML tol t c (fun r => z r / (1 - z t.dim)) -
              (a + ∑ r ∈ range t.dim, M r * (z r / (1 - z t.dim))))]
      · have hle : 1 - z t.dim ≤ tol := by
          by_contra hcon
          exact hf (Or.inl (not_le.1 hcon))
        have hb := affine_bound t a C M _ (fun k p hp => by
          rw [← hcb k p hp]
          have hk := (List.getElem?_eq_some_iff.1 hp).1
          exact hC k (by omega)) hdom
        have e : ML tol (.pyr t) c z - (a + ∑ r ∈ range (Topo.pyr t).dim, M r * z r) =
            -((1 - z t.dim) * (a + ∑ r ∈ range t.dim, M r * (z r / (1 - z t.dim)))) := by
          rw [ML_pyr_near hf, htip, mul_add (1 - z t.dim) a, e2]; simp only [Topo.dim]
          rw [sum_range_succ]; ring
        rw [e, abs_neg, abs_mul, abs_of_pos hpos]
        exact mul_le_mul hle hb (abs_nonneg _) h0

/-- two representations of the same id give the same map -/
theorem ML_rep {tol : ℝ} {d id : Nat} {t t' : Topo} (h : Rep d id t) (h' : Rep d id t') :
    ∀ {c : Nat → ℝ} {z : Vec ℝ}, Away tol t z → Away tol t' z → nv t = nv t' ∧ ML tol t c z = ML tol t' c z := by
  induction h generalizing t' with
  | pt id => cases h'; exact fun _ _ => ⟨rfl, rfl⟩
  | @prism d id t hb hr ih =>
    cases h' with
    | prism hb' hr' =>
      intro c z ha ha'
      obtain ⟨h1, h2⟩ := ih hr' (c := c) ha ha'
      have h3 := (ih hr' (c := fun k => c (nv t + k)) ha ha').2
      refine ⟨by rw [nv_prism, nv_prism, h1], ?_⟩
      rw [ML, ML, hr.dim_eq, hr'.dim_eq, h2, h3, h1]
    | pyr hb' hr' =>
      have hd : d = 0 := by
        rcases hb with h | h
        · exact h
        · rcases hb' with h' | h'
          · exact h'
          · rw [h] at h'; cases h'
      subst hd
      obtain rfl := rep_zero hr
      obtain rfl := rep_zero hr'
      intro c z ha ha'
      refine ⟨rfl, ?_⟩
      rw [ML_pyr_far ha'.1]
      rfl
  | @pyr d id t hb hr ih =>
    cases h' with
    | pyr hb' hr' =>
      intro c z ha ha'
      have e1 := hr.dim_eq
      have e2 := hr'.dim_eq
      obtain ⟨a1, a2⟩ := ha
      obtain ⟨b1, b2⟩ := ha'
      rw [e2] at b2
      rw [e1] at a2
      obtain ⟨h1, h2⟩ := ih hr' (c := c) a2 b2
      refine ⟨by rw [nv_pyr, nv_pyr, h1], ?_⟩
      rw [ML_pyr_far a1, ML_pyr_far b1, e1, e2, h2, h1]
    | prism hb' hr' =>
      have hd : d = 0 := by
        rcases hb with h | h
        · exact h
        · rcases hb' with h' | h'
          · exact h'
          · rw [h] at h'; cases h'
      subst hd
      obtain rfl := rep_zero hr
      obtain rfl := rep_zero hr'
      intro c z ha ha'
      refine ⟨rfl, ?_⟩
      rw [ML_pyr_far ha.1]
      rfl

end Verif.MultiLinear
