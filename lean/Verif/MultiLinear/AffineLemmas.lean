import Verif.MultiLinear.Lemmas

/-! `affine()`: what the recursive check establishes. -/

namespace Verif.MultiLinear

open Verif.RefGeom Verif.MatHelp Verif.RefTopo Verif.Typ Finset
open MultiLinearGeometry

/-- candidate Jacobian, one component: differences of corners -/
def ajt : Topo → (Nat → ℝ) → Nat → ℝ
  | .pt, _, _ => 0
  | .prism t, c, r => if r = t.dim then c (nv t) - c 0 else ajt t c r
  | .pyr t, c, r => if r = t.dim then c (nv t) - c 0 else ajt t c r

/-- squared distance of the candidate Jacobians of bottom and top -/
def gap (n : Nat) (t : Topo) (c c' : Nat → Vec ℝ) : ℝ :=
  ∑ i ∈ range t.dim, ∑ j ∈ range n, (ajt t (fun k => c' k j) i - ajt t (fun k => c k j) i) ^ 2

/-- the check by recursion over the topology -/
def IsAff (tol : ℝ) (n : Nat) : Topo → (Nat → Vec ℝ) → Prop
  | .pt, _ => True
  | .prism t, c => IsAff tol n t c ∧ IsAff tol n t (fun k => c (nv t + k)) ∧ gap n t c (fun k => c (nv t + k)) < tol
  | .pyr t, c => IsAff tol n t c

theorem two_norm2_eq (n : Nat) (v : Vec ℝ) : two_norm2 n v = ∑ j ∈ range n, v j ^ 2 := by
  rw [two_norm2, dot]
  exact sum_congr rfl fun j _ => (sq _).symm

theorem foldl_sum (d : Nat) (f : Nat → ℝ) (a : ℝ) :
    (List.range d).foldl (fun norm i => norm + f i) a = a + ∑ i ∈ range d, f i := by
  induction d with
  | zero => simp
  | succ d ih => rw [List.range_succ, List.foldl_append, ih, sum_range_succ, List.foldl_cons, List.foldl_nil]; ring

theorem affineS_eq (g : MultiLinearGeometry) (d : Nat) (hd : d ≤ g.mydim) : ∀ (cit : Nat) (jt : Mat ℝ),
    (IsAff g.tol g.cdim (sub g.id d) (fun k => g.corners_ (cit + k)) →
      g.affineS d cit jt = (true, cit + nv (sub g.id d),
        fun r j => if r < d then ajt (sub g.id d) (fun k => g.corners_ (cit + k) j) r else jt r j)) ∧
    (¬ IsAff g.tol g.cdim (sub g.id d) (fun k => g.corners_ (cit + k)) → (g.affineS d cit jt).1 = false) := by
  induction d with
  | zero =>
    intro cit jt
    refine ⟨fun _ => ?_, fun h => absurd trivial h⟩
    rw [affineS]
    rfl
  | succ d ih =>
    intro cit jt
    have hsd := sub_dim g.id d
    have ih := ih (by omega)
    have hs := sub_succ g.id d g.mydim (by omega)
    have hrows : ∀ (A : Nat → Nat → ℝ) (v : Vec ℝ), setRow (fun r j => if r < d then A r j else jt r j) d v =
        fun r j => if r < d + 1 then (if r = d then v j else A r j) else jt r j := by
      intro A v
      funext r j
      rcases Nat.lt_trichotomy r d with h | h | h
      · rw [setRow_ne _ _ (by omega), if_pos h, if_pos (by omega), if_neg (by omega)]
      · subst h; rw [setRow_same, if_pos (by omega), if_pos rfl]
      · rw [setRow_ne _ _ (by omega), if_neg (by omega), if_neg (by omega)]
    by_cases hp : implIsPrism g.id g.mydim (g.mydim - (d + 1)) = true
    · rw [hs.1 hp]
      have hshift : (fun k => g.corners_ (cit + (nv (sub g.id d) + k))) =
          fun k => g.corners_ (cit + nv (sub g.id d) + k) := by funext k; rw [Nat.add_assoc]
      by_cases hb : IsAff g.tol g.cdim (sub g.id d) (fun k => g.corners_ (cit + k))
      · have e1 := (ih cit jt).1 hb
        by_cases ht : IsAff g.tol g.cdim (sub g.id d) (fun k => g.corners_ (cit + nv (sub g.id d) + k))
        · have e2 := (ih (cit + nv (sub g.id d)) garbage).1 ht
          have hnorm : (List.range d).foldl (fun norm i => norm + two_norm2 g.cdim (fun j =>
              (fun r j => if r < d then ajt (sub g.id d) (fun k => g.corners_ (cit + nv (sub g.id d) + k) j) r
                else garbage r j) i j -
              (fun r j => if r < d then ajt (sub g.id d) (fun k => g.corners_ (cit + k) j) r else jt r j) i j)) 0 =
              gap g.cdim (sub g.id d) (fun k => g.corners_ (cit + k))
                (fun k => g.corners_ (cit + nv (sub g.id d) + k)) := by
            rw [foldl_sum, zero_add, gap, hsd]
            refine sum_congr rfl fun i hi => ?_
            rw [two_norm2_eq]
            refine sum_congr rfl fun j _ => ?_
            simp only [if_pos (mem_range.1 hi)]
          have hstep : g.affineS (d + 1) cit jt =
              if gap g.cdim (sub g.id d) (fun k => g.corners_ (cit + k))
                (fun k => g.corners_ (cit + nv (sub g.id d) + k)) ≥ g.tol
              then (false, cit + nv (sub g.id d) + nv (sub g.id d), fun r j => if r < d then
                ajt (sub g.id d) (fun k => g.corners_ (cit + k) j) r else jt r j)
              else (true, cit + nv (sub g.id d) + nv (sub g.id d), setRow (fun r j => if r < d then
                ajt (sub g.id d) (fun k => g.corners_ (cit + k) j) r else jt r j) d
                (fun j => g.corners_ (cit + nv (sub g.id d)) j - g.corners_ cit j)) := by
            rw [← hnorm, affineS]
            simp only [e1, e2, hp, Bool.not_true, Bool.false_eq_true, if_false, if_true]
          rw [hstep]
          constructor
          · rintro ⟨_, _, h3⟩
            rw [hshift] at h3
            rw [if_neg (not_le.2 h3), hrows, nv_prism, Nat.add_assoc]
            refine congrArg _ (congrArg _ ?_)
            funext r j
            simp only [ajt, hsd]
            rfl
          · intro h
            rw [if_pos]
            by_contra hc
            exact h ⟨hb, by rw [hshift]; exact ht, by rw [hshift]; exact not_le.1 hc⟩
        · refine ⟨fun h => absurd (hshift ▸ h.2.1) ht, fun _ => ?_⟩
          have e2 := (ih (cit + nv (sub g.id d)) garbage).2 ht
          rw [affineS]
          simp only [e1, hp, Bool.not_true, Bool.false_eq_true, if_false, if_true]
          rcases hh : g.affineS d (cit + nv (sub g.id d)) garbage with ⟨ok, c, m⟩
          rw [hh] at e2
          simp only at e2
          subst e2
          rfl
      · refine ⟨fun h => absurd h.1 hb, fun _ => ?_⟩
        have e1 := (ih cit jt).2 hb
        rw [affineS]
        rcases hh : g.affineS d cit jt with ⟨ok, c, m⟩
        rw [hh] at e1
        simp only at e1
        subst e1
        rfl
    · have hp' : implIsPrism g.id g.mydim (g.mydim - (d + 1)) = false := by simpa using hp
      rw [hs.2 hp']
      by_cases hb : IsAff g.tol g.cdim (sub g.id d) (fun k => g.corners_ (cit + k))
      · have e1 := (ih cit jt).1 hb
        refine ⟨fun _ => ?_, fun h => absurd hb h⟩
        rw [affineS]
        simp only [e1, hp', Bool.not_true, Bool.false_eq_true, if_false]
        rw [hrows, nv_pyr, Nat.add_assoc]
        refine congrArg _ (congrArg _ ?_)
        funext r j
        simp only [ajt, hsd]
        rfl
      · refine ⟨fun h => absurd h hb, fun _ => ?_⟩
        have e1 := (ih cit jt).2 hb
        rw [affineS]
        rcases hh : g.affineS d cit jt with ⟨ok, c, m⟩
        rw [hh] at e1
        simp only at e1
        subst e1
        rfl

/-- class level -/
theorem affine_iff (g : MultiLinearGeometry) (hid : g.id < 2 ^ g.mydim) :
    g.affine = true ↔ IsAff g.tol g.cdim (topoOf g.mydim g.id) g.corners_ := by
  have h := affineS_eq g g.mydim (le_refl _) 0 garbage
  rw [sub_self hid] at h
  simp only [zero_add] at h
  rw [affine, affineJ]
  constructor
  · intro ha
    by_contra hc
    have := h.2 hc
    simp only at ha
    rw [this] at ha; cases ha
  · intro ha
    rw [h.1 ha]

theorem affineJ_jt (g : MultiLinearGeometry) (hid : g.id < 2 ^ g.mydim) (ha : g.affine = true) (jt : Mat ℝ) :
    (g.affineJ jt).1 = true ∧ ∀ r j, r < g.mydim →
      (g.affineJ jt).2 r j = ajt (topoOf g.mydim g.id) (fun k => g.corners_ k j) r := by
  have h := (affineS_eq g g.mydim (le_refl _) 0 jt).1
  rw [sub_self hid] at h
  simp only [zero_add] at h
  have := h ((affine_iff g hid).1 ha)
  rw [affineJ, this]
  exact ⟨rfl, fun r j hr => if_pos hr⟩

theorem affineJ_fst (g : MultiLinearGeometry) (jt : Mat ℝ) :
    (g.affineJ jt).1 = g.affine := by
  have h := affineS_eq g g.mydim (le_refl _) 0 jt
  have h' := affineS_eq g g.mydim (le_refl _) 0 garbage
  rw [affine, affineJ, affineJ]
  simp only
  by_cases hc : IsAff g.tol g.cdim (sub g.id g.mydim) (fun k => g.corners_ (0 + k))
  · rw [h.1 hc, h'.1 hc]
  · rw [h.2 hc, h'.2 hc]

/-! ### exactly affine corners -/

/-- the components of the corners are values of an affine function at the reference corners -/
def Exact (t : Topo) (c : Nat → ℝ) (a : ℝ) (M : Nat → ℝ) : Prop :=
  ∀ (k : Nat) (p : Vec ℝ), (cornersOf t)[k]? = some p → c k = a + ∑ r ∈ range t.dim, M r * p r

theorem cornersOf_head : ∀ t : Topo, (cornersOf (K := ℝ) t)[0]? = some fun _ => 0
  | .pt => rfl
  | .prism t => by
    rw [cornersOf_prism, List.getElem?_append_left, cornersOf_head t]
    exact (List.getElem?_eq_some_iff.1 (cornersOf_head t)).1
  | .pyr t => by
    rw [cornersOf_pyr, List.getElem?_append_left, cornersOf_head t]
    exact (List.getElem?_eq_some_iff.1 (cornersOf_head t)).1

theorem length_cornersOf (t : Topo) : (cornersOf (K := ℝ) t).length = nv t := by simp [cornersOf, length_faces]

theorem exact_zero {t : Topo} {c a M} (h : Exact t c a M) : c 0 = a := by
  rw [h 0 _ (cornersOf_head t)]; simp

theorem exact_bot {t : Topo} {c a M} (h : Exact (.prism t) c a M) : Exact t c a M := by
  intro k p hp
  have hk := (List.getElem?_eq_some_iff.1 hp).1
  have := h k p (by rw [cornersOf_prism, List.getElem?_append_left hk]; exact hp)
  rw [this]
  simp only [Topo.dim]
  rw [sum_range_succ, cornersOf_zero (List.mem_of_getElem? hp) (le_refl t.dim)]; ring

theorem exact_base {t : Topo} {c a M} (h : Exact (.pyr t) c a M) : Exact t c a M := by
  intro k p hp
  have hk := (List.getElem?_eq_some_iff.1 hp).1
  have := h k p (by rw [cornersOf_pyr, List.getElem?_append_left hk]; exact hp)
  rw [this]
  simp only [Topo.dim]
  rw [sum_range_succ, cornersOf_zero (List.mem_of_getElem? hp) (le_refl t.dim)]; ring

theorem exact_top {t : Topo} {c a M} (h : Exact (.prism t) c a M) :
    Exact t (fun k => c (nv t + k)) (a + M t.dim) M := by
  intro k p hp
  have hl := length_cornersOf t
  have hk := (List.getElem?_eq_some_iff.1 hp).1
  have := h (nv t + k) (setV p t.dim 1) (by
    rw [cornersOf_prism, List.getElem?_append_right (by omega), hl, Nat.add_sub_cancel_left, List.getElem?_map, hp]; rfl)
  simp only [this, Topo.dim]
  rw [sum_range_succ, setV_same]
  have e : ∑ r ∈ range t.dim, M r * setV p t.dim 1 r = ∑ r ∈ range t.dim, M r * p r :=
    sum_congr rfl fun r hr => by rw [setV_ne _ (by have := mem_range.1 hr; omega)]
  rw [e]; ring

theorem exact_apex {t : Topo} {c a M} (h : Exact (.pyr t) c a M) : c (nv t) = a + M t.dim := by
  have hl := length_cornersOf t
  have := h (nv t) (setV (fun _ => 0) t.dim 1) (by
    rw [cornersOf_pyr, List.getElem?_append_right (by omega), hl, Nat.sub_self]; rfl)
  rw [this]
  simp only [Topo.dim]
  rw [sum_range_succ, setV_same]
  have e : ∑ r ∈ range t.dim, M r * setV (fun _ => 0) t.dim 1 r = 0 :=
    sum_eq_zero fun r hr => by rw [setV_ne _ (by have := mem_range.1 hr; omega), mul_zero]
  rw [e]; ring

theorem ajt_exact : ∀ (t : Topo) (c : Nat → ℝ) (a : ℝ) (M : Nat → ℝ), Exact t c a M → ∀ r, r < t.dim → ajt t c r = M r
  | .pt, _, _, _, _, r, hr => absurd hr (by simp [Topo.dim])
  | .prism t, c, a, M, h, r, hr => by
    rw [ajt]
    split_ifs with he
    · rw [exact_zero h, he]
      have := exact_zero (exact_top h)
      simp only [add_zero] at this
      rw [this]; ring
    · exact ajt_exact t c a M (exact_bot h) r (by simp only [Topo.dim] at hr; omega)
  | .pyr t, c, a, M, h, r, hr => by
    rw [ajt]
    split_ifs with he
    · rw [exact_zero h, he, exact_apex h]; ring
    · exact ajt_exact t c a M (exact_base h) r (by simp only [Topo.dim] at hr; omega)

theorem isAff_exact {tol : ℝ} (ht : 0 < tol) (n : Nat) : ∀ (t : Topo) (c : Nat → Vec ℝ) (a : Vec ℝ) (M : Nat → Vec ℝ),
    (∀ j, j < n → Exact t (fun k => c k j) (a j) (fun r => M r j)) → IsAff tol n t c
  | .pt, _, _, _, _ => trivial
  | .prism t, c, a, M, h => by
    refine ⟨isAff_exact ht n t c a M fun j hj => exact_bot (h j hj),
      isAff_exact ht n t _ (fun j => a j + M t.dim j) M fun j hj => exact_top (h j hj), ?_⟩
    refine lt_of_eq_of_lt (sum_eq_zero fun i hi => sum_eq_zero fun j hj => ?_) ht
    have h1 := ajt_exact t _ _ _ (exact_bot (h j (mem_range.1 hj))) i (mem_range.1 hi)
    have h2 := ajt_exact t _ _ _ (exact_top (h j (mem_range.1 hj))) i (mem_range.1 hi)
    rw [h1, h2, _root_.sub_self]; norm_num
  | .pyr t, c, a, M, h => isAff_exact ht n t c a M fun j hj => exact_base (h j hj)

theorem MLd_exact {tol : ℝ} (h0 : 0 ≤ tol) : ∀ (t : Topo) (c : Nat → ℝ) (a : ℝ) (M : Nat → ℝ) (z : Vec ℝ),
    Exact t c a M → Away tol t z → ∀ r, r < t.dim → MLd tol t c z r = M r
  | .pt, _, _, _, _, _, _, r, hr => absurd hr (by simp [Topo.dim])
  | .prism t, c, a, M, z, h, ha, r, hr => by
    rw [MLd]
    split_ifs with he
    · rw [ML_affine h0 t _ _ M z (exact_top h) ha, ML_affine h0 t _ _ M z (exact_bot h) ha, he]; ring
    · have hr' : r < t.dim := by simp only [Topo.dim] at hr; omega
      rw [MLd_exact h0 t _ _ M z (exact_bot h) ha r hr', MLd_exact h0 t _ _ M z (exact_top h) ha r hr']; ring
  | .pyr t, c, a, M, z, h, ⟨hf, ha⟩, r, hr => by
    have hne := far_ne h0 hf
    have hsc : scale tol (z t.dim) = (1 - z t.dim)⁻¹ := by rw [scale, if_pos hf, one_div]
    have hzz : (fun r => scale tol (z t.dim) * z r) = fun r => z r / (1 - z t.dim) := by
      funext r; rw [hsc, div_eq_inv_mul]
    rw [MLd]
    simp only [hzz]
    split_ifs with he
    · rw [ML_affine h0 t _ _ M _ (exact_base h) ha, exact_apex h, he]
      have e : ∀ j ∈ range t.dim, scale tol (z t.dim) * z j * MLd tol t c (fun r => z r / (1 - z t.dim)) j =
          M j * (z j / (1 - z t.dim)) := fun j hj => by
        rw [MLd_exact h0 t _ _ M _ (exact_base h) ha j (mem_range.1 hj), hsc, ← div_eq_inv_mul, mul_comm]
      rw [sum_congr rfl e]
      ring
    · exact MLd_exact h0 t _ _ M _ (exact_base h) ha r (by simp only [Topo.dim] at hr; omega)

/-! ### reported affine, with tolerance -/

theorem dom_bounds : ∀ (t : Topo) (f : ℝ) (z : Vec ℝ), Dom t f z → f ≤ 1 → ∀ r, r < t.dim → 0 ≤ z r ∧ z r ≤ 1
  | .pt, _, _, _, _, r, hr => absurd hr (by simp [Topo.dim])
  | .prism t, f, z, ⟨h1, h2, h3⟩, hf, r, hr => by
    rcases Nat.lt_or_ge r t.dim with h | h
    · exact dom_bounds t f z h3 hf r h
    · obtain rfl : r = t.dim := by simp only [Topo.dim] at hr; omega
      exact ⟨h1, h2.trans hf⟩
  | .pyr t, f, z, ⟨h1, h2, h3⟩, hf, r, hr => by
    rcases Nat.lt_or_ge r t.dim with h | h
    · exact dom_bounds t _ z h3 (by linarith) r h
    · obtain rfl : r = t.dim := by simp only [Topo.dim] at hr; omega
      exact ⟨h1, h2.trans hf⟩

theorem gap_entry {tol : ℝ} {n : Nat} {t : Topo} {c c' : Nat → Vec ℝ} (h : gap n t c c' < tol) (i j : Nat)
    (hi : i < t.dim) (hj : j < n) :
    |ajt t (fun k => c' k j) i - ajt t (fun k => c k j) i| ≤ Real.sqrt tol := by
  apply Real.abs_le_sqrt
  refine le_trans ?_ h.le
  refine le_trans ?_ (single_le_sum (f := fun i => ∑ j ∈ range n, (ajt t (fun k => c' k j) i - ajt t (fun k => c k j) i) ^ 2)
    (fun i _ => sum_nonneg fun j _ => sq_nonneg _) (mem_range.2 hi))
  exact single_le_sum (f := fun j => (ajt t (fun k => c' k j) i - ajt t (fun k => c k j) i) ^ 2)
    (fun j _ => sq_nonneg _) (mem_range.2 hj)

theorem sum_bound (d : Nat) (δ z : Nat → ℝ) (s : ℝ) (h1 : ∀ i, i < d → |δ i| ≤ s) (h2 : ∀ i, i < d → 0 ≤ z i ∧ z i ≤ 1) :
    |∑ i ∈ range d, δ i * z i| ≤ d * s := by
  refine (abs_sum_le_sum_abs _ _).trans ?_
  refine (sum_le_sum (g := fun _ => s) fun i hi => ?_).trans (by simp)
  have hb := h2 i (mem_range.1 hi)
  rw [abs_mul, abs_of_nonneg hb.1]
  exact (mul_le_of_le_one_right (abs_nonneg _) hb.2).trans (h1 i (mem_range.1 hi))

theorem dom_div {t : Topo} {z : Vec ℝ} (hne : 1 - z t.dim ≠ 0) (hd : Dom (.pyr t) 1 z) :
    0 < 1 - z t.dim ∧ Dom t 1 (fun r => z r / (1 - z t.dim)) := by
  obtain ⟨z1, z2, z3⟩ := hd
  have hpos : 0 < 1 - z t.dim := lt_of_le_of_ne (by linarith) (Ne.symm hne)
  refine ⟨hpos, ?_⟩
  have := dom_smul (a := (1 - z t.dim)⁻¹) (by positivity) t _ z z3
  rw [inv_mul_cancel₀ hne] at this
  refine dom_congr t 1 (fun r _ => ?_) this
  rw [div_eq_inv_mul]

/-- bound for the map -/
theorem ML_dev {tol : ℝ} (h0 : 0 ≤ tol) (n : Nat) : ∀ (t : Topo) (c : Nat → Vec ℝ) (z : Vec ℝ) (j : Nat), j < n →
    IsAff tol n t c → Dom t 1 z → Away tol t z →
    |ML tol t (fun k => c k j) z - (c 0 j + ∑ r ∈ range t.dim, ajt t (fun k => c k j) r * z r)| ≤
      (t.dim * (t.dim - 1) / 2 : ℝ) * Real.sqrt tol
  | .pt, c, z, j, hj, _, _, _ => by simp [ML, Topo.dim]
  | .prism t, c, z, j, hj, ⟨a1, a2, a3⟩, ⟨z1, z2, z3⟩, hw => by
    have h1 := ML_dev h0 n t c z j hj a1 z3 hw
    have h2 := ML_dev h0 n t _ z j hj a2 z3 hw
    have h3 := sum_bound t.dim _ z _ (fun i hi => gap_entry a3 i j hi hj) (fun i hi => dom_bounds t 1 z z3 (le_refl _) i hi)
    have e : ML tol (.prism t) (fun k => c k j) z -
        (c 0 j + ∑ r ∈ range (Topo.prism t).dim, ajt (.prism t) (fun k => c k j) r * z r) =
        (1 - z t.dim) * (ML tol t (fun k => c k j) z - (c 0 j + ∑ r ∈ range t.dim, ajt t (fun k => c k j) r * z r)) +
        z t.dim * (ML tol t (fun k => c (nv t + k) j) z -
          (c (nv t + 0) j + ∑ r ∈ range t.dim, ajt t (fun k => c (nv t + k) j) r * z r)) +
        z t.dim * ∑ r ∈ range t.dim, (ajt t (fun k => c (nv t + k) j) r - ajt t (fun k => c k j) r) * z r := by
      simp only [Topo.dim]
      rw [sum_range_succ]
      have e1 : ∀ r ∈ range t.dim, ajt (.prism t) (fun k => c k j) r * z r = ajt t (fun k => c k j) r * z r := by
        intro r hr
        rw [ajt, if_neg (by have := mem_range.1 hr; omega)]
      have e2 : ajt (.prism t) (fun k => c k j) t.dim = c (nv t) j - c 0 j := by rw [ajt, if_pos rfl]
      have e3 : ∑ r ∈ range t.dim, (ajt t (fun k => c (nv t + k) j) r - ajt t (fun k => c k j) r) * z r =
          ∑ r ∈ range t.dim, ajt t (fun k => c (nv t + k) j) r * z r - ∑ r ∈ range t.dim, ajt t (fun k => c k j) r * z r := by
        rw [← sum_sub_distrib]; exact sum_congr rfl fun r _ => by ring
      rw [sum_congr rfl e1, e2, e3, ML, add_zero]; ring
    rw [e]
    refine (abs_add_le _ _).trans (le_trans (add_le_add (abs_add_le _ _) (le_refl _)) ?_)
    rw [abs_mul, abs_mul, abs_mul, abs_of_nonneg z1, abs_of_nonneg (show 0 ≤ 1 - z t.dim by linarith)]
    have h4 := abs_nonneg (∑ r ∈ range t.dim, (ajt t (fun k => c (nv t + k) j) r - ajt t (fun k => c k j) r) * z r)
    have hs := Real.sqrt_nonneg tol
    have hcast : ((Topo.prism t).dim : ℝ) = t.dim + 1 := by simp [Topo.dim]
    rw [hcast]
    generalize |ML tol t (fun k => c k j) z - (c 0 j + ∑ r ∈ range t.dim, ajt t (fun k => c k j) r * z r)| = A at h1 ⊢
    generalize |ML tol t (fun k => c (nv t + k) j) z -
          (c (nv t + 0) j + ∑ r ∈ range t.dim, ajt t (fun k => c (nv t + k) j) r * z r)| = B at h2 ⊢
    generalize |∑ r ∈ range t.dim, (ajt t (fun k => c (nv t + k) j) r - ajt t (fun k => c k j) r) * z r| = C at h3 h4 ⊢
    have p1 := mul_le_mul_of_nonneg_left h1 (show 0 ≤ 1 - z t.dim by linarith)
    have p2 := mul_le_mul_of_nonneg_left h2 z1
    have p3 : z t.dim * C ≤ C := mul_le_of_le_one_left h4 z2
    linarith
  | .pyr t, c, z, j, hj, ha, hd, ⟨hf, hw⟩ => by
    have hne := far_ne h0 hf
    obtain ⟨hpos, hdom⟩ := dom_div hne hd
    have h1 := ML_dev h0 n t c _ j hj ha hdom hw
    have e : ML tol (.pyr t) (fun k => c k j) z -
        (c 0 j + ∑ r ∈ range (Topo.pyr t).dim, ajt (.pyr t) (fun k => c k j) r * z r) =
        (1 - z t.dim) * (ML tol t (fun k => c k j) (fun r => z r / (1 - z t.dim)) -
          (c 0 j + ∑ r ∈ range t.dim, ajt t (fun k => c k j) r * (z r / (1 - z t.dim)))) := by
      simp only [Topo.dim]
      rw [sum_range_succ]
      have e1 : ∀ r ∈ range t.dim, ajt (.pyr t) (fun k => c k j) r * z r = ajt t (fun k => c k j) r * z r := by
        intro r hr
        rw [ajt, if_neg (by have := mem_range.1 hr; omega)]
      have e2 : ajt (.pyr t) (fun k => c k j) t.dim = c (nv t) j - c 0 j := by rw [ajt, if_pos rfl]
      have e3 : (1 - z t.dim) * ∑ r ∈ range t.dim, ajt t (fun k => c k j) r * (z r / (1 - z t.dim)) =
          ∑ r ∈ range t.dim, ajt t (fun k => c k j) r * z r := by
        rw [mul_sum]; exact sum_congr rfl fun r _ => by field_simp
      rw [sum_congr rfl e1, e2, ML_pyr_far hf, mul_sub, mul_add, e3]; ring
    rw [e, abs_mul, abs_of_pos hpos]
    have hs := Real.sqrt_nonneg tol
    have hcast : ((Topo.pyr t).dim : ℝ) = t.dim + 1 := by simp [Topo.dim]
    rw [hcast]
    have hz1 := hd.1
    have h2 : (1 - z t.dim) * |ML tol t (fun k => c k j) (fun r => z r / (1 - z t.dim)) -
          (c 0 j + ∑ r ∈ range t.dim, ajt t (fun k => c k j) r * (z r / (1 - z t.dim)))| ≤
          |ML tol t (fun k => c k j) (fun r => z r / (1 - z t.dim)) -
          (c 0 j + ∑ r ∈ range t.dim, ajt t (fun k => c k j) r * (z r / (1 - z t.dim)))| :=
      mul_le_of_le_one_left (abs_nonneg _) (by linarith)
    have h3 : 0 ≤ (t.dim : ℝ) * Real.sqrt tol := mul_nonneg (Nat.cast_nonneg _) hs
    linarith

/-- constant of the bound for the Jacobian -/
def devC : Nat → ℝ
  | 0 => 0
  | d + 1 => devC d + 1 + d * (d - 1) + d + d * devC d

theorem devC_nonneg : ∀ d, 0 ≤ devC d
  | 0 => le_refl _
  | d + 1 => by
    have h := devC_nonneg d
    have h2 : (0 : ℝ) ≤ d * (d - 1) := by
      rcases Nat.eq_zero_or_pos d with rfl | hd
      · simp
      · have : (1 : ℝ) ≤ d := by exact_mod_cast hd
        nlinarith
    have h3 : (0 : ℝ) ≤ d * devC d := mul_nonneg (Nat.cast_nonneg _) h
    have h4 : (0 : ℝ) ≤ d := Nat.cast_nonneg _
    rw [devC]; linarith

/-- bound for the Jacobian -/
theorem MLd_dev {tol : ℝ} (h0 : 0 ≤ tol) (n : Nat) : ∀ (t : Topo) (c : Nat → Vec ℝ) (z : Vec ℝ) (j : Nat), j < n →
    IsAff tol n t c → Dom t 1 z → Away tol t z → ∀ r, r < t.dim →
    |MLd tol t (fun k => c k j) z r - ajt t (fun k => c k j) r| ≤ devC t.dim * Real.sqrt tol
  | .pt, _, _, _, _, _, _, _, r, hr => absurd hr (by simp [Topo.dim])
  | .prism t, c, z, j, hj, ⟨a1, a2, a3⟩, ⟨z1, z2, z3⟩, hw, r, hr => by
    have hs := Real.sqrt_nonneg tol
    have hC := devC_nonneg t.dim
    have hdd : (0 : ℝ) ≤ t.dim * (t.dim - 1) * Real.sqrt tol := by
      refine mul_nonneg ?_ hs
      rcases Nat.eq_zero_or_pos t.dim with h | hd
      · simp [h]
      · have : (1 : ℝ) ≤ t.dim := by exact_mod_cast hd
        nlinarith
    have hd0 : (0 : ℝ) ≤ t.dim * Real.sqrt tol := mul_nonneg (Nat.cast_nonneg _) hs
    have hCs := mul_nonneg hC hs
    have hdCs : (0 : ℝ) ≤ t.dim * (devC t.dim * Real.sqrt tol) := mul_nonneg (Nat.cast_nonneg _) hCs
    have hdim : devC (Topo.prism t).dim =
      devC t.dim + 1 + t.dim * (t.dim - 1) + t.dim + t.dim * devC t.dim := rfl
    rw [hdim, MLd, ajt]
    split_ifs with he
    · have h1 := ML_dev h0 n t c z j hj a1 z3 hw
      have h2 := ML_dev h0 n t _ z j hj a2 z3 hw
      have h3 := sum_bound t.dim _ z _ (fun i hi => gap_entry a3 i j hi hj)
        (fun i hi => dom_bounds t 1 z z3 (le_refl _) i hi)
      have e3 : ∑ r ∈ range t.dim, (ajt t (fun k => c (nv t + k) j) r - ajt t (fun k => c k j) r) * z r =
          ∑ r ∈ range t.dim, ajt t (fun k => c (nv t + k) j) r * z r - ∑ r ∈ range t.dim, ajt t (fun k => c k j) r * z r := by
        rw [← sum_sub_distrib]; exact sum_congr rfl fun r _ => by ring
      rw [e3] at h3
      simp only [add_zero] at h2
      rw [abs_le] at h1 h2 h3 ⊢
      constructor <;> linarith [h1.1, h1.2, h2.1, h2.2, h3.1, h3.2]
    · have hr' : r < t.dim := by simp only [Topo.dim] at hr; omega
      have h1 := MLd_dev h0 n t c z j hj a1 z3 hw r hr'
      have h2 := MLd_dev h0 n t _ z j hj a2 z3 hw r hr'
      have h3 := gap_entry a3 r j hr' hj
      have e : (1 - z t.dim) * MLd tol t (fun k => c k j) z r + z t.dim * MLd tol t (fun k => c (nv t + k) j) z r -
          ajt t (fun k => c k j) r = (1 - z t.dim) * (MLd tol t (fun k => c k j) z r - ajt t (fun k => c k j) r) +
          z t.dim * (MLd tol t (fun k => c (nv t + k) j) z r - ajt t (fun k => c (nv t + k) j) r) +
          z t.dim * (ajt t (fun k => c (nv t + k) j) r - ajt t (fun k => c k j) r) := by ring
      rw [e]
      refine (abs_add_le _ _).trans (le_trans (add_le_add (abs_add_le _ _) (le_refl _)) ?_)
      rw [abs_mul, abs_mul, abs_mul, abs_of_nonneg z1, abs_of_nonneg (show 0 ≤ 1 - z t.dim by linarith)]
      have p1 := mul_le_mul_of_nonneg_left h1 (show 0 ≤ 1 - z t.dim by linarith)
      have p2 := mul_le_mul_of_nonneg_left h2 z1
      have p3 := mul_le_mul_of_nonneg_left h3 z1
      have p4 : z t.dim * Real.sqrt tol ≤ Real.sqrt tol := mul_le_of_le_one_left hs z2
      linarith
  | .pyr t, c, z, j, hj, ha, hd, ⟨hf, hw⟩, r, hr => by
    have hne := far_ne h0 hf
    obtain ⟨hpos, hdom⟩ := dom_div hne hd
    have hsc : scale tol (z t.dim) = (1 - z t.dim)⁻¹ := by rw [scale, if_pos hf, one_div]
    have hzz : (fun r => scale tol (z t.dim) * z r) = fun r => z r / (1 - z t.dim) := by
      funext r; rw [hsc, div_eq_inv_mul]
    have hs := Real.sqrt_nonneg tol
    have hC := devC_nonneg t.dim
    have hdd : (0 : ℝ) ≤ t.dim * (t.dim - 1) * Real.sqrt tol := by
      refine mul_nonneg ?_ hs
      rcases Nat.eq_zero_or_pos t.dim with h | hd
      · simp [h]
      · have : (1 : ℝ) ≤ t.dim := by exact_mod_cast hd
        nlinarith
    have hd0 : (0 : ℝ) ≤ t.dim * Real.sqrt tol := mul_nonneg (Nat.cast_nonneg _) hs
    have hCs := mul_nonneg hC hs
    have hdCs : (0 : ℝ) ≤ t.dim * (devC t.dim * Real.sqrt tol) := mul_nonneg (Nat.cast_nonneg _) hCs
    have hdim : devC (Topo.pyr t).dim =
      devC t.dim + 1 + t.dim * (t.dim - 1) + t.dim + t.dim * devC t.dim := rfl
    rw [hdim, MLd, ajt]
    simp only [hzz]
    split_ifs with he
    · have h1 := ML_dev h0 n t c _ j hj ha hdom hw
      have h2 := sum_bound t.dim _ (fun r => z r / (1 - z t.dim)) _
        (fun i hi => MLd_dev h0 n t c _ j hj ha hdom hw i hi)
        (fun i hi => dom_bounds t 1 _ hdom (le_refl _) i hi)
      have e3 : ∑ x ∈ range t.dim, scale tol (z t.dim) * z x * MLd tol t (fun k => c k j) (fun r => z r / (1 - z t.dim)) x =
          ∑ i ∈ range t.dim, (MLd tol t (fun k => c k j) (fun r => z r / (1 - z t.dim)) i - ajt t (fun k => c k j) i) *
            (z i / (1 - z t.dim)) + ∑ r ∈ range t.dim, ajt t (fun k => c k j) r * (z r / (1 - z t.dim)) := by
        rw [← sum_add_distrib]
        exact sum_congr rfl fun i _ => by rw [hsc, div_eq_inv_mul]; ring
      rw [e3]
      rw [abs_le] at h1 h2 ⊢
      constructor <;> linarith [h1.1, h1.2, h2.1, h2.2]
    · have := MLd_dev h0 n t c _ j hj ha hdom hw r (by simp only [Topo.dim] at hr; omega)
      linarith

/-- the check passes for the smaller tolerance, the map is the same as long as the guards answer alike -/
theorem ML_tol {tol tol' : ℝ} : ∀ (t : Topo) (c : Nat → ℝ) (z : Vec ℝ), Away tol t z → Away tol' t z →
    ML tol t c z = ML tol' t c z
  | .pt, _, _, _, _ => rfl
  | .prism t, c, z, h, h' => by rw [ML, ML, ML_tol t c z h h', ML_tol t _ z h h']
  | .pyr t, c, z, ⟨h1, h2⟩, ⟨h3, h4⟩ => by rw [ML_pyr_far h1, ML_pyr_far h3, ML_tol t c _ h2 h4]

theorem MLd_tol {tol tol' : ℝ} : ∀ (t : Topo) (c : Nat → ℝ) (z : Vec ℝ) (r : Nat), Away tol t z → Away tol' t z →
    MLd tol t c z r = MLd tol' t c z r
  | .pt, _, _, _, _, _ => rfl
  | .prism t, c, z, r, h, h' => by
    rw [MLd, MLd, ML_tol t c z h h', ML_tol t _ z h h', MLd_tol t c z r h h', MLd_tol t _ z r h h']
  | .pyr t, c, z, r, ⟨h1, h2⟩, ⟨h3, h4⟩ => by
    have hsc : scale tol (z t.dim) = (1 - z t.dim)⁻¹ := by rw [scale, if_pos h1, one_div]
    have hsc' : scale tol' (z t.dim) = (1 - z t.dim)⁻¹ := by rw [scale, if_pos h3, one_div]
    have hzz : (fun r => (1 - z t.dim)⁻¹ * z r) = fun r => z r / (1 - z t.dim) := by
      funext r; rw [div_eq_inv_mul]
    rw [MLd, MLd]
    simp only [hsc, hsc', hzz]
    rw [ML_tol t c _ h2 h4, MLd_tol t c _ r h2 h4, sum_congr rfl fun j _ => by rw [MLd_tol t c _ j h2 h4]]

theorem away_mono {tol tol' : ℝ} (h : tol' ≤ tol) : ∀ (t : Topo) (z : Vec ℝ), Away tol t z → Away tol' t z
  | .pt, _, _ => trivial
  | .prism t, z, ha => away_mono h t z ha
  | .pyr t, z, ⟨h1, h2⟩ => ⟨h1.imp (fun h' => lt_of_le_of_lt h h') (fun h' => lt_of_lt_of_le h' (by linarith)),
      away_mono h t _ h2⟩

end Verif.MultiLinear
