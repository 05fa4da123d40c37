import Verif.VertexOrder.Chart
import Verif.Refine.ConformProps
import Verif.RefGeom.StrataProps

/-! Lemmas for `GlueProps.lean`: lattice points of reference elements, on faces and under multilinear maps. -/

namespace Verif.Refine.Glue

open Verif.Typ Verif.RefTopo Verif.RefGeom Verif.Neighbour Verif.MultiLinear Verif.Quad
open Finset hiding ext

/-! ### Numbers with denominator `n` -/

/-- a multiple of `1/n` -/
def Gr (n : Nat) (v : ℝ) : Prop := ∃ q : ℤ, v = q / n

theorem Gr.add {n : Nat} {v w : ℝ} (hv : Gr n v) (hw : Gr n w) : Gr n (v + w) := by
  obtain ⟨p, rfl⟩ := hv
  obtain ⟨q, rfl⟩ := hw
  exact ⟨p + q, by push_cast; ring⟩

theorem Gr.sub {n : Nat} {v w : ℝ} (hv : Gr n v) (hw : Gr n w) : Gr n (v - w) := by
  obtain ⟨p, rfl⟩ := hv
  obtain ⟨q, rfl⟩ := hw
  exact ⟨p - q, by push_cast; ring⟩

theorem Gr.zero (n : Nat) : Gr n 0 := ⟨0, by simp⟩

theorem Gr.one {n : Nat} (hn : 0 < n) : Gr n 1 := ⟨n, by
  have : (n : ℝ) ≠ 0 := by positivity
  field_simp
  push_cast
  rfl⟩

theorem Gr.orig {n : Nat} (hn : 0 < n) {t : Topo} (f : Face t) (j : Nat) : Gr n (orig (K := ℝ) f j) := by
  rcases orig_zero_one (K := ℝ) f j with h | h <;> rw [h]
  · exact Gr.zero n
  · exact Gr.one hn

theorem Gr.mul_orig {n : Nat} {t : Topo} (f : Face t) (j : Nat) {v : ℝ} (hv : Gr n v) : Gr n (v * RefGeom.orig (K := ℝ) f j) := by
  rcases orig_zero_one (K := ℝ) f j with h | h <;> rw [h]
  · rw [mul_zero]; exact Gr.zero n
  · rwa [mul_one]

theorem Gr.sum {n : Nat} {ι : Type} (s : Finset ι) (f : ι → ℝ) (h : ∀ i ∈ s, Gr n (f i)) : Gr n (∑ i ∈ s, f i) := by
  classical
  induction s using Finset.induction_on with
  | empty => rw [sum_empty]; exact Gr.zero n
  | insert a s ha ih =>
    rw [sum_insert ha]
    exact (h a (mem_insert_self _ _)).add (ih fun i hi => h i (mem_insert_of_mem hi))

theorem Gr.pos {n : Nat} (hn : 0 < n) {v : ℝ} (hv : Gr n v) (h : 0 < v) : 1 / n ≤ v := by
  obtain ⟨q, rfl⟩ := hv
  have hn' : (0:ℝ) < n := by exact_mod_cast hn
  have hq : (0:ℝ) < q := by
    by_contra hc
    exact absurd h (not_lt.2 (div_nonpos_of_nonpos_of_nonneg (not_lt.1 hc) hn'.le))
  have : (1:ℝ) ≤ q := by exact_mod_cast (show 0 < q by exact_mod_cast hq)
  exact div_le_div_of_nonneg_right this hn'.le

/-- embeddings of faces preserve and reflect lattice points -/
theorem gr_emb {n : Nat} (hn : 0 < n) {t : Topo} (f : Face t) : ∀ x : Vec ℝ,
    (∀ j, Gr n (emb f x j)) ↔ ∀ r, r < f.shape.dim → Gr n (x r) := by
  induction f with
  | pt =>
    intro x
    refine ⟨fun _ r hr => by simp [Face.shape, Topo.dim] at hr, fun _ j => ?_⟩
    rw [emb_zero _ _ j (Nat.zero_le _)]
    exact Gr.zero n
  | @edge t f ih =>
    intro x
    have key : (∀ j, Gr n (emb (.edge f) x j)) ↔ Gr n (x f.shape.dim) ∧ ∀ j, Gr n (emb f x j) := by
      rw [emb_edge]
      constructor
      · intro h
        refine ⟨by simpa using h t.dim, fun j => ?_⟩
        by_cases hj : j = t.dim
        · rw [emb_zero f x j (by omega)]; exact Gr.zero n
        · simpa [hj] using h j
      · rintro ⟨h1, h2⟩ j
        by_cases hj : j = t.dim
        · simpa [hj] using h1
        · simpa [hj] using h2 j
    rw [key, ih]
    simp only [Face.shape, Topo.dim]
    exact ⟨fun h r hr => by
      by_cases he : r = f.shape.dim
      · rw [he]; exact h.1
      · exact h.2 r (by omega), fun h => ⟨h _ (by omega), fun r hr => h r (by omega)⟩⟩
  | bot f ih => intro x; rw [emb_bot]; exact ih x
  | @top t f ih =>
    intro x
    rw [emb_top, Face.shape, ← ih]
    refine forall_congr' fun j => ?_
    by_cases hj : j = t.dim
    · subst hj
      rw [setV_same, emb_zero f x _ le_rfl]
      exact ⟨fun _ => Gr.zero n, fun _ => Gr.one hn⟩
    · rw [setV_ne _ hj]
  | base f ih => intro x; rw [emb_base]; exact ih x
  | @cone t f ih =>
    intro x
    have key : (∀ j, Gr n (emb (.cone f) x j)) ↔ Gr n (x f.shape.dim) ∧ ∀ j, Gr n (emb f x j) := by
      rw [emb_cone]
      constructor
      · intro h
        have h1 : Gr n (x f.shape.dim) := by simpa using h t.dim
        refine ⟨h1, fun j => ?_⟩
        by_cases hj : j = t.dim
        · rw [emb_zero f x j (by omega)]; exact Gr.zero n
        · have h2 := (h j).add (Gr.mul_orig f j h1)
          simpa [hj] using h2
      · rintro ⟨h1, h2⟩ j
        by_cases hj : j = t.dim
        · simpa [hj] using h1
        · have h3 := (h2 j).sub (Gr.mul_orig f j h1)
          simpa [hj] using h3
    rw [key, ih]
    simp only [Face.shape, Topo.dim]
    exact ⟨fun h r hr => by
      by_cases he : r = f.shape.dim
      · rw [he]; exact h.1
      · exact h.2 r (by omega), fun h => ⟨h _ (by omega), fun r hr => h r (by omega)⟩⟩
  | @apex t =>
    intro x
    refine ⟨fun _ r hr => by simp [Face.shape, Topo.dim] at hr, fun _ j => ?_⟩
    rw [emb_apex]
    by_cases hj : j = t.dim
    · subst hj; rw [setV_same]; exact Gr.one hn
    · rw [setV_ne _ hj]; exact Gr.zero n

/-! ### Points where the multilinear map is not cut off -/

/-- in every pyramid the point is at a distance from the apex or the apex itself -/
def Tidy (tol : ℝ) : Topo → Vec ℝ → Prop
  | .pt, _ => True
  | .prism t, z => Tidy tol t z
  | .pyr t, z => (far tol (1 - z t.dim) ∧ Tidy tol t (fun r => z r / (1 - z t.dim))) ∨
      (z t.dim = 1 ∧ ∀ r, r < t.dim → z r = 0)

theorem dom_zero : ∀ (t : Topo) {w : Vec ℝ}, Dom t 0 w → ∀ r, r < t.dim → w r = 0
  | .pt, _, _, r, hr => by simp [Topo.dim] at hr
  | .prism t, w, ⟨h1, h2, h3⟩, r, hr => by
    by_cases he : r = t.dim
    · subst he; exact le_antisymm h2 h1
    · exact dom_zero t h3 r (by simp only [Topo.dim] at hr; omega)
  | .pyr t, w, ⟨h1, h2, h3⟩, r, hr => by
    have e : w t.dim = 0 := le_antisymm h2 h1
    by_cases he : r = t.dim
    · subst he; exact e
    · rw [e, sub_zero] at h3
      exact dom_zero t h3 r (by simp only [Topo.dim] at hr; omega)

theorem tidy_lattice {tol : ℝ} {n : Nat} (hn : 0 < n) (hnt : n * tol < 1) : ∀ (t : Topo) (F : ℝ) (w : Vec ℝ),
    0 < F → F ≤ 1 → Gr n F → Dom t F w → (∀ r, r < t.dim → Gr n (w r)) → Tidy tol t (fun r => w r / F)
  | .pt, _, _, _, _, _, _, _ => trivial
  | .prism t, F, w, h0, h1, hF, hD, hw => tidy_lattice hn hnt t F w h0 h1 hF hD.2.2 fun r hr =>
      hw r (by simp only [Topo.dim]; omega)
  | .pyr t, F, w, h0, h1, hF, ⟨d1, d2, d3⟩, hw => by
    have hd : Gr n (w t.dim) := hw _ (by simp only [Topo.dim]; omega)
    have hn' : (0:ℝ) < n := by exact_mod_cast hn
    have e : 1 - w t.dim / F = (F - w t.dim) / F := by field_simp
    rcases d2.lt_or_eq with hlt | heq
    · left
      have hpos : 0 < F - w t.dim := by linarith
      have hge := (hF.sub hd).pos hn hpos
      refine ⟨Or.inl ?_, ?_⟩
      · have h3 : tol < 1 / n := by rw [lt_div_iff₀ hn']; linarith
        change tol < 1 - w t.dim / F
        rw [e, lt_div_iff₀ h0]
        rcases le_total tol 0 with ht | ht
        · nlinarith
        · nlinarith
      · have := tidy_lattice hn hnt t (F - w t.dim) w hpos (by linarith) (hF.sub hd) d3 fun r hr =>
          hw r (by simp only [Topo.dim]; omega)
        have e2 : (fun r => w r / F / (1 - w t.dim / F)) = fun r => w r / (F - w t.dim) := by
          funext r
          rw [e]
          have := h0.ne'
          have := hpos.ne'
          field_simp
        change Tidy tol t (fun r => w r / F / (1 - w t.dim / F))
        rw [e2]
        exact this
    · right
      rw [heq, _root_.sub_self] at d3
      refine ⟨?_, fun r hr => ?_⟩
      · change w t.dim / F = 1
        rw [heq, div_self h0.ne']
      · change w r / F = 0
        rw [dom_zero t d3 r hr, zero_div]

theorem tidy_congr {tol : ℝ} : ∀ (t : Topo) {z z' : Vec ℝ}, (∀ r, r < t.dim → z r = z' r) → Tidy tol t z → Tidy tol t z'
  | .pt, _, _, _, _ => trivial
  | .prism t, z, z', h, ht => tidy_congr (z := z) t (fun r hr => h r (by simp only [Topo.dim]; omega)) ht
  | .pyr t, z, z', h, ht => by
    have hd := h t.dim (by simp only [Topo.dim]; omega)
    rcases ht with ⟨h1, h2⟩ | ⟨h1, h2⟩
    · exact Or.inl ⟨hd ▸ h1, tidy_congr t (fun r hr => by rw [hd, h r (by simp only [Topo.dim]; omega)]) h2⟩
    · exact Or.inr ⟨hd ▸ h1, fun r hr => by rw [← h r (by simp only [Topo.dim]; omega)]; exact h2 r hr⟩

theorem ML_tip {tol : ℝ} (h0 : 0 ≤ tol) {t : Topo} {c : Nat → ℝ} {z : Vec ℝ} (h : z t.dim = 1) :
    ML tol (.pyr t) c z = c (nv t) := by
  rw [ML_pyr_near (by rw [h, _root_.sub_self]; exact not_far_zero h0), h, one_mul]

/-- two representations of the same id give the same map -/
theorem ML_rep_tidy {tol : ℝ} (h0 : 0 ≤ tol) {d id : Nat} {t t' : Topo} (h : Rep d id t) (h' : Rep d id t') :
    ∀ {c : Nat → ℝ} {z : Vec ℝ}, Tidy tol t z → Tidy tol t' z → nv t = nv t' ∧ ML tol t c z = ML tol t' c z := by
  have line : ∀ (c : Nat → ℝ) (z : Vec ℝ), Tidy tol (.pyr .pt) z → ML tol (.pyr .pt) c z = ML tol (.prism .pt) c z := by
    intro c z ht
    rcases ht with ⟨h1, -⟩ | ⟨h1, -⟩
    · rw [ML_pyr_far h1]; rfl
    · rw [ML_tip h0 h1, ML, h1]
      rw [_root_.sub_self, zero_mul, zero_add, one_mul]
      rfl
  induction h generalizing t' with
  | pt id => cases h'; intro c z _ _; exact ⟨rfl, rfl⟩
  | @prism d id t hb hr ih =>
    cases h' with
    | prism hb' hr' =>
      intro c z ha ha'
      obtain ⟨h1, h2⟩ := ih hr' (c := c) ha ha'
      have h3 := (ih hr' (c := fun k => c (nv t + k)) ha ha').2
      refine ⟨by rw [nv_prism, nv_prism, h1], ?_⟩
      rw [ML, ML, hr.dim_eq, hr'.dim_eq, h2, h3, h1]
    | pyr hb' hr' =>
      have hd : d = 0 := by
        rcases hb with h | h
        · exact h
        · rcases hb' with h' | h'
          · exact h'
          · rw [h] at h'; cases h'
      subst hd
      obtain rfl := rep_zero hr
      obtain rfl := rep_zero hr'
      intro c z ha ha'
      exact ⟨rfl, (line c z ha').symm⟩
  | @pyr d id t hb hr ih =>
    cases h' with
    | @pyr _ _ t' hb' hr' =>
      intro c z ha ha'
      have e1 := hr.dim_eq
      have e2 := hr'.dim_eq
      have hnv : nv t = nv t' := by
        have a1 := size_eq hr d le_rfl
        have a2 := size_eq hr' d le_rfl
        rw [nv, nv, e1, e2, ← a1, ← a2]
      rcases ha with ⟨a1, a2⟩ | ⟨a1, -⟩
      · rcases ha' with ⟨b1, b2⟩ | ⟨b1, -⟩
        · rw [e2] at b2
          rw [e1] at a2
          obtain ⟨h1, h2⟩ := ih hr' (c := c) a2 b2
          refine ⟨by rw [nv_pyr, nv_pyr, h1], ?_⟩
          rw [ML_pyr_far a1, ML_pyr_far b1, e1, e2, h2, h1]
        · rw [e1, ← e2, b1, _root_.sub_self] at a1
          exact absurd a1 (not_far_zero h0)
      · have b1 : z _ = 1 := (congrArg z (e2.trans e1.symm)).trans a1
        exact ⟨by rw [nv_pyr, nv_pyr, hnv], by rw [ML_tip h0 a1, ML_tip h0 b1, hnv]⟩
    | prism hb' hr' =>
      have hd : d = 0 := by
        rcases hb with h | h
        · exact h
        · rcases hb' with h' | h'
          · exact h'
          · rw [h] at h'; cases h'
      subst hd
      obtain rfl := rep_zero hr
      obtain rfl := rep_zero hr'
      intro c z ha ha'
      exact ⟨rfl, line c z ha⟩

/-- affine reproduction, also at the tips of pyramids -/
theorem ML_affine_tidy {tol : ℝ} (h0 : 0 ≤ tol) : ∀ (t : Topo) (c : Nat → ℝ) (a : ℝ) (M : Nat → ℝ) (z : Vec ℝ),
    (∀ (k : Nat) (p : Vec ℝ), (cornersOf t)[k]? = some p → c k = a + ∑ r ∈ range t.dim, M r * p r) → Tidy tol t z →
    ML tol t c z = a + ∑ r ∈ range t.dim, M r * z r
  | .pt, c, a, M, z, hc, _ => by
    have := hc 0 (fun _ => 0) rfl
    simpa [ML, Topo.dim] using this
  | .prism t, c, a, M, z, hc, hz => by
    have hl : (cornersOf (K := ℝ) t).length = nv t := by simp [cornersOf, length_faces]
    rw [cornersOf_prism] at hc
    rw [ML, ML_affine_tidy h0 t c a M z (fun k p hp => ?_) hz,
      ML_affine_tidy h0 t (fun k => c (nv t + k)) (a + M t.dim) M z (fun k p hp => ?_) hz]
    · simp only [Topo.dim]; rw [sum_range_succ]; ring
    · have hk := (List.getElem?_eq_some_iff.1 hp).1
      have := hc (nv t + k) (setV p t.dim 1) (by
        rw [List.getElem?_append_right (by omega), hl, Nat.add_sub_cancel_left, List.getElem?_map, hp]; rfl)
      simp only [this, Topo.dim]
      rw [sum_range_succ, setV_same]
      have e : ∑ r ∈ range t.dim, M r * setV p t.dim 1 r = ∑ r ∈ range t.dim, M r * p r :=
        sum_congr rfl fun r hr => by rw [setV_ne _ (by have := mem_range.1 hr; omega)]
      rw [e]; ring
    · have hk := (List.getElem?_eq_some_iff.1 hp).1
      have := hc k p (by rw [List.getElem?_append_left hk]; exact hp)
      rw [this]
      simp only [Topo.dim]
      rw [sum_range_succ, cornersOf_zero (List.mem_of_getElem? hp) (le_refl t.dim)]; ring
  | .pyr t, c, a, M, z, hc, ht => by
    have hl : (cornersOf (K := ℝ) t).length = nv t := by simp [cornersOf, length_faces]
    rw [cornersOf_pyr] at hc
    have htip := hc (nv t) (setV (fun _ => 0) t.dim 1) (by
      rw [List.getElem?_append_right (by omega), hl, Nat.sub_self]; rfl)
    have e : ∑ r ∈ range t.dim, M r * setV (fun _ => 0) t.dim 1 r = 0 :=
      sum_eq_zero fun r hr => by rw [setV_ne _ (by have := mem_range.1 hr; omega), mul_zero]
    simp only [Topo.dim] at htip
    rw [sum_range_succ, setV_same, e, zero_add, mul_one] at htip
    rcases ht with ⟨hf, hz⟩ | ⟨h1, h2⟩
    · have hne := far_ne h0 hf
      rw [ML_pyr_far hf, ML_affine_tidy h0 t c a M _ (fun k p hp => ?_) hz]
      · rw [htip]
        simp only [Topo.dim]
        rw [sum_range_succ]
        have e2 : (1 - z t.dim) * ∑ r ∈ range t.dim, M r * (z r / (1 - z t.dim)) = ∑ r ∈ range t.dim, M r * z r := by
          rw [mul_sum]
          exact sum_congr rfl fun r _ => by field_simp
        rw [mul_add, e2]; ring
      · have hk := (List.getElem?_eq_some_iff.1 hp).1
        have := hc k p (by rw [List.getElem?_append_left hk]; exact hp)
        rw [this]
        simp only [Topo.dim]
        rw [sum_range_succ, cornersOf_zero (List.mem_of_getElem? hp) (le_refl t.dim)]; ring
    · rw [ML_tip h0 h1, htip]
      simp only [Topo.dim]
      rw [sum_range_succ, h1, mul_one, sum_eq_zero fun r hr => by rw [h2 r (mem_range.1 hr), mul_zero], zero_add]

/-! ### Vertices of refinements -/

theorem gr_nat {n : Nat} (hn : 0 < n) {v : ℝ} (h : Gr n v) (h0 : 0 ≤ v) : ∃ q : Nat, v = q / n := by
  obtain ⟨q, rfl⟩ := h
  have hn' : (0:ℝ) < n := by exact_mod_cast hn
  have hq : 0 ≤ q := by
    by_contra hc
    have : (q:ℝ) < 0 := by exact_mod_cast not_le.1 hc
    exact absurd h0 (not_le.2 (div_neg_of_neg_of_pos this hn'))
  obtain ⟨m, rfl⟩ := Int.eq_ofNat_of_zero_le hq
  exact ⟨m, by push_cast; rfl⟩

/-- `x` is one of the vertices of the refined simplex -/
theorem simplex_vertices (d n : Nat) (hd : 0 < d) (hn : 0 < n) (x : Vec ℝ) :
    (∃ k, k < nVertices d n ∧ ∃ it x', vAt d n k = some it ∧ it.coords (K := ℝ) d = some x' ∧ ∀ i, i < d → x' i = x i) ↔
      (InSimplex d x ∧ ∀ i, i < d → Gr n (x i)) := by
  have hn' : (0:ℝ) < n := by exact_mod_cast hn
  constructor
  · rintro ⟨k, hk, it, x', h1, h2, h3⟩
    obtain ⟨it', y, q, g1, g2, g3, g4⟩ := C40_inside (K := ℝ) d n hd k hk
    obtain rfl := Option.some.inj (h1.symm.trans g1)
    obtain rfl := Option.some.inj (h2.symm.trans g2)
    have e : ∀ i, i < d → x i = (q i : ℝ) / n := fun i hi => (h3 i hi).symm.trans (g4 i hi)
    refine ⟨⟨fun i hi => ?_, ?_⟩, fun i hi => ⟨q i, by rw [e i hi]; push_cast; rfl⟩⟩
    · rw [e i hi]; positivity
    · rw [sum_congr rfl fun i hi => e i (mem_range.1 hi), ← sum_div, div_le_one hn', ← Nat.cast_sum]
      exact_mod_cast g3
  · rintro ⟨⟨h1, h2⟩, h3⟩
    have hq : ∀ i, ∃ q : Nat, i < d → x i = q / n := fun i => by
      by_cases hi : i < d
      · obtain ⟨q, hq⟩ := gr_nat hn (h3 i hi) (h1 i hi)
        exact ⟨q, fun _ => hq⟩
      · exact ⟨0, fun h => absurd h hi⟩
    choose q hq using hq
    have hL : Lattice d n q := by
      rw [sum_congr rfl fun i hi => hq i (mem_range.1 hi), ← sum_div, div_le_one hn', ← Nat.cast_sum] at h2
      exact_mod_cast h2
    obtain ⟨k, ⟨hk, it, x', g1, g2, g3⟩, -⟩ := C40_lattice (K := ℝ) d n hd hn q hL
    exact ⟨k, hk, it, x', g1, g2, fun i hi => by rw [g3 i hi, hq i hi]⟩

/-- `x` is one of the vertices of the refined cube -/
theorem cube_vertices (d n : Nat) (hn : 0 < n) (x : Vec ℝ) :
    (∃ k, k < HCube.nVertices d n ∧ ∃ x', (HCube.at' (HCube.vBegin n) k).vCoords d = some x' ∧ ∀ i, i < d → x' i = x i) ↔
      (Triang.InCube d x ∧ ∀ i, i < d → Gr n (x i)) := by
  have hn' : (0:ℝ) < n := by exact_mod_cast hn
  constructor
  · rintro ⟨k, hk, x', h1, h2⟩
    obtain ⟨v, g1, g2⟩ := HCube.idx2coord_eq d k (n + 1) (by omega)
    rw [HCube.at_eq, HCube.Iterator.vCoords, HCube.Iterator.vertexCoord] at h1
    simp only [HCube.vBegin, Nat.zero_add, g1, Option.map_some, Option.some.injEq] at h1
    have e : ∀ i, i < d → x i = (v i : ℝ) / n := fun i hi => by
      rw [← h2 i hi, ← h1]
      simp only [if_pos hi]
      rw [show (1.0 : ℝ) = 1 by norm_num, mul_one]
    refine ⟨fun i hi => ?_, fun i hi => ⟨v i, by rw [e i hi]; push_cast; rfl⟩⟩
    rw [e i hi]
    have hle : v i ≤ n := by
      rw [g2 i hi]
      have := Nat.mod_lt (k / (n + 1) ^ i) (show 0 < n + 1 by omega)
      omega
    exact ⟨by positivity, by rw [div_le_one hn']; exact_mod_cast hle⟩
  · rintro ⟨h1, h3⟩
    have hq : ∀ i, ∃ q : Nat, i < d → x i = q / n := fun i => by
      by_cases hi : i < d
      · obtain ⟨q, hq⟩ := gr_nat hn (h3 i hi) (h1 i hi).1
        exact ⟨q, fun _ => hq⟩
      · exact ⟨0, fun h => absurd h hi⟩
    choose q hq using hq
    have hL : HCube.Grid d (n + 1) q := fun i hi => by
      have := (h1 i hi).2
      rw [hq i hi, div_le_one hn'] at this
      have : q i ≤ n := by exact_mod_cast this
      omega
    obtain ⟨k, ⟨hk, x', g1, g2⟩, -⟩ := HCube.C43_vertices d n hn q hL
    exact ⟨k, hk, x', g1, fun i hi => by rw [g2 i hi, hq i hi]⟩

theorem gr_r2k {d n : Nat} {q : Equiv.Perm Nat} (hq : ∀ k, d ≤ k → q k = k) {x : Nat → ℝ} (h : ∀ i, i < d → Gr n (x i)) :
    ∀ i, i < d → Gr n (referenceToKuhn d x q i) := by
  intro i hi
  rw [show i = q (q.symm i) by simp, referenceToKuhn_eq d q x _ (symm_lt hq hi)]
  exact Gr.sum _ _ fun k hk => h _ (perm_lt hq (mem_Ico.1 hk).2)

theorem gr_k2r {d n : Nat} {q : Equiv.Perm Nat} (hq : ∀ k, d ≤ k → q k = k) {x : Nat → ℝ} (h : ∀ i, i < d → Gr n (x i)) :
    ∀ i, i < d → Gr n (kuhnToReference d x q i) := by
  intro i hi
  rw [show i = q (q.symm i) by simp, kuhnToReference_eq d q x _]
  have hs := symm_lt hq hi
  split_ifs with hlt
  · exact (h _ (perm_lt hq hs)).sub (h _ (perm_lt hq hlt))
  · exact h _ (perm_lt hq hs)

/-- `x` is one of the vertices of a triangulated element -/
theorem triang_vertices {s : Triang.Scheme ℝ} {dom : (Nat → ℝ) → Prop} (h : Triang.Fits s dom) (n : Nat) (hn : 0 < n)
    (hT : ∀ y : Nat → ℝ, (∀ i, i < s.dimension → Gr n (s.transform y i)) ↔ ∀ i, i < s.dimension → Gr n (y i))
    (hdom : ∀ x y : Nat → ℝ, (∀ i, i < s.dimension → x i = y i) → dom x → dom y) (x : Vec ℝ) :
    (∃ k, k < Triang.nVertices s n ∧ ∃ it x', Triang.vAt s n k = some it ∧ it.coords s = some x' ∧
      ∀ i, i < s.dimension → x' i = x i) ↔ (dom x ∧ ∀ i, i < s.dimension → Gr n (x i)) := by
  constructor
  · rintro ⟨k, hk, it, x', a1, a2, a3⟩
    obtain ⟨hN, h1, h2⟩ := Triang.kuhn_lt hk
    obtain ⟨it', x'', b1, b2, b3⟩ := Triang.C44_inside h n k hn hk
    obtain rfl := Option.some.inj (a1.symm.trans b1)
    obtain rfl := Option.some.inj (a2.symm.trans b2)
    refine ⟨hdom _ _ a3 b3, ?_⟩
    obtain ⟨b, h3, h4⟩ := Triang.vAt_eq s h.pos n k
    obtain ⟨q, h5, h6, h7⟩ := h.kuhn _ h1
    obtain ⟨b', y, p, h8, h9, h10, h11⟩ := C40_inside (K := ℝ) s.dimension n h.pos _ h2
    obtain rfl := Option.some.inj (h3.symm.trans h8)
    obtain rfl := Option.some.inj (a1.symm.trans h4)
    rw [Triang.VIterator.coords, h9] at a2
    have e : s.transform (referenceToKuhn s.dimension y q) = x' :=
      Option.some.inj ((congrArg (fun o => o.bind fun y => some (s.transform y)) (h7 y)).symm.trans a2)
    intro i hi
    rw [← a3 i hi, ← e]
    exact (hT _).2 (gr_r2k h5 fun i hi => ⟨p i, by rw [h11 i hi]; push_cast; rfl⟩) i hi
  · rintro ⟨hx, hg⟩
    obtain ⟨κ, p, y, h1, h2, h3, h4⟩ := h.onto x hx
    obtain ⟨q, h5, h6, h7⟩ := h.kuhn κ h1
    obtain rfl := Option.some.inj (h2.symm.trans h6)
    have hgy := (hT y).1 fun i hi => by rw [h4 i hi]; exact hg i hi
    have hm := h.perm_lt κ h1
    have hz := ((C59_image (K := ℝ) _ _ _ hm h2).2 y).2 h3
    have hinv := (C59_inverse _ _ _ hm h2 y).2
    obtain ⟨k, hk, it, z', g1, g2, g3⟩ := (simplex_vertices s.dimension n h.pos hn _).2 ⟨hz, gr_k2r h5 hgy⟩
    have hN : 0 < Refine.nVertices s.dimension n := by omega
    refine ⟨Refine.nVertices s.dimension n * κ + k, ?_, ?_⟩
    · rw [Triang.nVertices]
      calc _ < Refine.nVertices s.dimension n * κ + Refine.nVertices s.dimension n := by omega
        _ = Refine.nVertices s.dimension n * (κ + 1) := by ring
        _ ≤ _ := Nat.mul_le_mul_left _ h1
    · obtain ⟨b, c1, c2⟩ := Triang.vAt_eq s h.pos n (Refine.nVertices s.dimension n * κ + k)
      rw [Nat.mul_add_mod, Nat.mod_eq_of_lt hk] at c1
      obtain rfl := Option.some.inj (g1.symm.trans c1)
      rw [Nat.mul_add_div hN, Nat.div_eq_of_lt hk, Nat.add_zero] at c2
      refine ⟨_, s.transform (referenceToKuhn s.dimension z' q), c2, ?_, fun i hi => ?_⟩
      · rw [Triang.VIterator.coords, g2]
        exact (congrArg (fun o => o.bind fun y => some (s.transform y)) (h7 z'))
      · rw [← h4 i hi]
        refine h.congr _ _ (fun j hj => ?_) i hi
        rw [r2k_congr h5 g3 j hj, hinv]

theorem gr_one_sub {n : Nat} (hn : 0 < n) {v : ℝ} : Gr n (1 - v) ↔ Gr n v :=
  ⟨fun h => by simpa using (Gr.one hn).sub h, fun h => (Gr.one hn).sub h⟩

theorem lt_three {P : Nat → Prop} : (∀ i, i < 3 → P i) ↔ P 0 ∧ P 1 ∧ P 2 :=
  ⟨fun h => ⟨h 0 (by norm_num), h 1 (by norm_num), h 2 (by norm_num)⟩, fun ⟨h0, h1, h2⟩ i hi => by interval_cases i <;> assumption⟩

theorem gr_prism {n : Nat} (hn : 0 < n) (y : Nat → ℝ) :
    (∀ i, i < (Triang.prism : Triang.Scheme ℝ).dimension → Gr n ((Triang.prism : Triang.Scheme ℝ).transform y i)) ↔
      ∀ i, i < (Triang.prism : Triang.Scheme ℝ).dimension → Gr n (y i) := by
  simp only [Triang.prism, lt_three, Triang.prismTransform, gr_one_sub hn]
  tauto

theorem gr_pyramid {n : Nat} (hn : 0 < n) (y : Nat → ℝ) :
    (∀ i, i < (Triang.pyramid : Triang.Scheme ℝ).dimension → Gr n ((Triang.pyramid : Triang.Scheme ℝ).transform y i)) ↔
      ∀ i, i < (Triang.pyramid : Triang.Scheme ℝ).dimension → Gr n (y i) := by
  simp only [Triang.pyramid, lt_three, Triang.pyramidTransform, gr_one_sub hn]

end Verif.Refine.Glue
