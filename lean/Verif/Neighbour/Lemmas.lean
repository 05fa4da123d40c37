import Verif.Neighbour.Spec
import Verif.MultiLinear.Props

/-! Lemmas for property C97: the multilinear map under symmetries of the reference element. -/

namespace Verif.Neighbour

open Verif.RefGeom Verif.RefTopo Verif.MatHelp Verif.MultiLinear Verif.Typ Finset
open Matrix hiding vec

noncomputable section

/-! ### functions that are affine in each coordinate -/

/-- the function is affine in each of the first `d` coordinates -/
def MultiAff (d : Nat) (F : Vec ℝ → ℝ) : Prop :=
  ∀ r, r < d → ∀ (z : Vec ℝ) (t : ℝ), F (setV z r t) = (1 - t) * F (setV z r 0) + t * F (setV z r 1)

/-- the corner with the bits of `k`, other coordinates as in `z` -/
def pt (d k : Nat) (z : Vec ℝ) : Vec ℝ := fun r => if r < d then (if k.testBit r then 1 else 0) else z r

theorem multiAff_eq {tol : ℝ} : ∀ (d : Nat) (F : Vec ℝ → ℝ), MultiAff d F → ∀ z,
    F z = ML tol (Topo.cube d) (fun k => F (pt d k z)) z
  | 0, F, _, z => by
    rw [Topo.cube, ML]
    congr 1
  | d + 1, F, h, z => by
    have hF : MultiAff d F := fun r hr => h r (by omega)
    have h1 := h d (by omega) z (z d)
    have hz : setV z d (z d) = z := by
      funext r
      by_cases hr : r = d
      · subst hr; simp [setV]
      · simp [setV, hr]
    rw [hz] at h1
    rw [h1, multiAff_eq d F hF (setV z d 0), multiAff_eq d F hF (setV z d 1), Topo.cube, ML, dim_cube]
    have hc : ∀ t : ℝ, ∀ r, r < (Topo.cube d).dim → setV z d t r = z r := by
      intro t r hr
      rw [dim_cube] at hr
      simp [setV, Nat.ne_of_lt hr]
    congr 2
    · refine ML_congr _ (fun k hk => ?_) (hc 0)
      rw [nv_cube] at hk
      congr 1
      funext r
      by_cases hr : r < d
      · simp [pt, hr, Nat.lt_succ_of_lt hr]
      · by_cases hr' : r = d
        · subst hr'
          simp [pt, setV, Nat.testBit_lt_two_pow hk]
        · have : ¬ r < d + 1 := by omega
          simp [pt, hr, this, setV, hr']
    · refine ML_congr _ (fun k hk => ?_) (hc 1)
      rw [nv_cube] at hk ⊢
      congr 1
      funext r
      by_cases hr : r < d
      · simp [pt, hr, Nat.lt_succ_of_lt hr, Nat.testBit_two_pow_add_gt hr]
      · by_cases hr' : r = d
        · subst hr'
          simp [pt, setV, Nat.testBit_two_pow_add_eq, Nat.testBit_lt_two_pow hk]
        · have : ¬ r < d + 1 := by omega
          simp [pt, hr, this, setV, hr']

theorem ML_cube_multiAff {tol : ℝ} (d : Nat) (c : Nat → ℝ) : MultiAff d (fun z => ML tol (Topo.cube d) c z) := by
  intro r hr z t
  simp only [ML_cube]
  rw [mul_sum, mul_sum, ← sum_add_distrib]
  refine sum_congr rfl fun k _ => ?_
  rw [← mul_prod_erase _ _ (mem_range.2 hr), ← mul_prod_erase _ _ (mem_range.2 hr), ← mul_prod_erase _ _ (mem_range.2 hr)]
  have e : ∀ t : ℝ, ∏ s ∈ (range d).erase r, (if k.testBit s then setV z r t s else 1 - setV z r t s) =
      ∏ s ∈ (range d).erase r, if k.testBit s then z s else 1 - z s := by
    intro t
    refine prod_congr rfl fun s hs => ?_
    have : s ≠ r := (mem_erase.1 hs).1
    simp [setV, this]
  rw [e, e, e]
  split_ifs <;> simp [setV] <;> ring

/-! ### symmetries of cubes -/

theorem cube_size (d id : Nat) (hc : IsCubeId d id) : refSize d id d = 2 ^ d := by
  rw [← C17_count (K := ℝ), C17_cube _ _ hc, List.length_map, List.length_range]

theorem cube_corner (d id : Nat) (hc : IsCubeId d id) (k : Nat) (hk : k < 2 ^ d) (r : Nat) :
    corner (K := ℝ) d id k r = if k.testBit r then 1 else 0 := by
  rw [RefGeom.corner, C17_cube _ _ hc]
  simp [hk]

theorem cube_row {d id : Nat} {σ : Nat → Nat} {a : Vec ℝ} {M : Mat ℝ} (hc : IsCubeId d id) (h : Symmetry d id σ a M)
    {i r r' : Nat} (hi : i < d) (hr : r < d) (hr' : r' < d) (hne : r ≠ r') : M i r = 0 ∨ M i r' = 0 := by
  have hs := cube_size d id hc
  have val : ∀ k, k < 2 ^ d → (a i + ∑ s ∈ range d, M i s * (if k.testBit s then 1 else 0) = 0 ∨
      a i + ∑ s ∈ range d, M i s * (if k.testBit s then 1 else 0) = 1) := by
    intro k hk
    have h1 := h.corner k (by rw [hs]; exact hk) i hi
    have hl := h.lt k (by rw [hs]; exact hk)
    rw [hs] at hl
    rw [cube_corner d id hc _ hl, affMap] at h1
    simp only [cube_corner d id hc k hk] at h1
    rw [← h1]
    split_ifs
    · right; rfl
    · left; rfl
  have one : ∀ s, s < d → ∑ q ∈ range d, M i q * (if (2 ^ s).testBit q then (1 : ℝ) else 0) = M i s := by
    intro s hs
    rw [sum_eq_single_of_mem s (mem_range.2 hs)]
    · simp
    · intro q _ hq
      simp [Nat.testBit_two_pow, Ne.symm hq]
  have two : ∑ q ∈ range d, M i q * (if (2 ^ r ||| 2 ^ r').testBit q then (1 : ℝ) else 0) = M i r + M i r' := by
    rw [← one r hr, ← one r' hr', ← sum_add_distrib]
    refine sum_congr rfl fun q _ => ?_
    rw [Nat.testBit_or, Nat.testBit_two_pow, Nat.testBit_two_pow]
    by_cases e1 : r = q
    · have e2 : ¬ r' = q := by omega
      simp [e1, e2]
    · by_cases e2 : r' = q <;> simp [e1, e2]
  have v0 := val 0 (by positivity)
  have v1 := val (2 ^ r) (Nat.pow_lt_pow_right (by norm_num) hr)
  have v2 := val (2 ^ r') (Nat.pow_lt_pow_right (by norm_num) hr')
  have v3 := val (2 ^ r ||| 2 ^ r') (Nat.or_lt_two_pow (Nat.pow_lt_pow_right (by norm_num) hr)
    (Nat.pow_lt_pow_right (by norm_num) hr'))
  rw [one r hr] at v1
  rw [one r' hr'] at v2
  rw [two] at v3
  simp at v0
  by_contra hcon
  push Not at hcon
  obtain ⟨n1, n2⟩ := hcon
  rcases v0 with v0 | v0
  · rw [v0] at v1 v2 v3
    have u1 : M i r = 1 := by rcases v1 with v | v <;> [exact absurd (by linarith) n1; linarith]
    have u2 : M i r' = 1 := by rcases v2 with v | v <;> [exact absurd (by linarith) n2; linarith]
    rw [u1, u2] at v3
    norm_num at v3
  · rw [v0] at v1 v2 v3
    have u1 : M i r = -1 := by rcases v1 with v | v <;> [linarith; exact absurd (by linarith) n1]
    have u2 : M i r' = -1 := by rcases v2 with v | v <;> [linarith; exact absurd (by linarith) n2]
    rw [u1, u2] at v3
    norm_num at v3

/-- every corner is the image of a corner -/
theorem Symmetry.surj {d id : Nat} {σ : Nat → Nat} {a : Vec ℝ} {M : Mat ℝ} (h : Symmetry d id σ a M) (k : Nat)
    (hk : k < refSize d id d) : ∃ k', k' < refSize d id d ∧ σ k' = k := by
  have hi : Function.Injective fun k : Fin (refSize d id d) => (⟨σ k, h.lt k k.2⟩ : Fin (refSize d id d)) := by
    intro x y hxy
    exact Fin.ext (h.inj x y x.2 y.2 (Fin.mk.inj_iff.1 hxy))
  obtain ⟨x, hx⟩ := (Finite.injective_iff_surjective.1 hi) ⟨k, hk⟩
  exact ⟨x, x.2, Fin.mk.inj_iff.1 hx⟩

theorem cube_column {d id : Nat} {σ : Nat → Nat} {a : Vec ℝ} {M : Mat ℝ} (hc : IsCubeId d id) (h : Symmetry d id σ a M)
    {i i' r : Nat} (hi : i < d) (hi' : i' < d) (hr : r < d) (hne : i ≠ i') : M i r = 0 ∨ M i' r = 0 := by
  by_contra hcon
  push Not at hcon
  obtain ⟨n1, n2⟩ := hcon
  have hs := cube_size d id hc
  -- the rows depend on the coordinate `r` only
  have row : ∀ j, j < d → M j r ≠ 0 → ∀ k, k < 2 ^ d →
      corner (K := ℝ) d id (σ k) j = a j + M j r * (if k.testBit r then 1 else 0) := by
    intro j hj hn k hk
    rw [h.corner k (by rw [hs]; exact hk) j hj, affMap, sum_eq_single_of_mem r (mem_range.2 hr), cube_corner d id hc k hk]
    intro q hq hqr
    rcases cube_row hc h hj (mem_range.1 hq) hr hqr with e | e
    · rw [e, MulZeroClass.zero_mul]
    · exact absurd e hn
  have v0 : ∀ j, j < d → M j r ≠ 0 → (a j = 0 ∧ M j r = 1) ∨ (a j = 1 ∧ M j r = -1) := by
    intro j hj hn
    have h0 := row j hj hn 0 (by positivity)
    have h1 := row j hj hn (2 ^ r) (Nat.pow_lt_pow_right (by norm_num) hr)
    have l0 := h.lt 0 (by rw [hs]; positivity)
    have l1 := h.lt (2 ^ r) (by rw [hs]; exact Nat.pow_lt_pow_right (by norm_num) hr)
    rw [hs] at l0 l1
    rw [cube_corner d id hc _ l0] at h0
    rw [cube_corner d id hc _ l1] at h1
    simp only [Nat.zero_testBit, Bool.false_eq_true, if_false, MulZeroClass.mul_zero, add_zero] at h0
    simp only [Nat.testBit_two_pow_self, if_true, mul_one] at h1
    split_ifs at h0 h1
    · exact absurd (by linarith) hn
    · right; constructor <;> linarith
    · left; constructor <;> linarith
    · exact absurd (by linarith) hn
  -- a corner that agrees with the image at 0 in the row `i` and at 1 in the row `i'`
  obtain ⟨k, hk, hb, hb'⟩ : ∃ k, k < 2 ^ d ∧ (if k.testBit i then (1 : ℝ) else 0) = a i ∧
      (if k.testBit i' then (1 : ℝ) else 0) = a i' + M i' r := by
    have p1 := Nat.pow_lt_pow_right (a := 2) (by norm_num) hi
    have p2 := Nat.pow_lt_pow_right (a := 2) (by norm_num) hi'
    have hn' := Ne.symm hne
    rcases v0 i hi n1 with ⟨e1, _⟩ | ⟨e1, _⟩ <;> rcases v0 i' hi' n2 with ⟨e2, e3⟩ | ⟨e2, e3⟩ <;> rw [e1, e2, e3]
    · exact ⟨2 ^ i', p2, by simp [Nat.testBit_two_pow, hn'], by simp⟩
    · exact ⟨0, by positivity, by simp, by simp⟩
    · exact ⟨2 ^ i ||| 2 ^ i', Nat.or_lt_two_pow p1 p2, by simp [Nat.testBit_or], by simp [Nat.testBit_or]⟩
    · exact ⟨2 ^ i, p1, by simp, by simp [Nat.testBit_two_pow, hne]⟩
  obtain ⟨k', hk', rfl⟩ := h.surj k (by rw [hs]; exact hk)
  rw [hs] at hk'
  have r1 := row i hi n1 k' hk'
  have r2 := row i' hi' n2 k' hk'
  rw [cube_corner d id hc _ hk, hb] at r1
  rw [cube_corner d id hc _ hk, hb'] at r2
  by_cases hbit : k'.testBit r = true
  · rw [if_pos hbit] at r1
    exact n1 (by linarith)
  · rw [if_neg hbit] at r2
    exact n2 (by linarith)

/-- the map respects the renumbering -/
def Respects (tol : ℝ) (t : Topo) (σ : Nat → Nat) (a : Vec ℝ) (M : Mat ℝ) : Prop :=
  ∀ (c : Nat → ℝ) (z : Vec ℝ), Away tol t z → Away tol t (affMap t.dim a M z) →
    ML tol t (fun k => c (σ k)) z = ML tol t c (affMap t.dim a M z)

theorem corner_get (d id k : Nat) (hk : k < refSize d id d) :
    (cornersOf (K := ℝ) (topoOf d id))[k]? = some (corner d id k) := by
  rw [← cornersOf_eq (rep_topoOf d id), RefGeom.corner, List.getD_eq_getElem?_getD]
  rw [← C17_count (K := ℝ)] at hk
  rw [List.getElem?_eq_getElem hk]
  rfl

theorem nv_topo (d id : Nat) : nv (topoOf d id) = refSize d id d := by
  rw [refSize, size_eq (rep_topoOf d id) _ (le_refl _), nv, (rep_topoOf d id).dim_eq]

theorem get_lt {d id k : Nat} {p : Vec ℝ} (h : (cornersOf (K := ℝ) (topoOf d id))[k]? = some p) : k < refSize d id d := by
  rw [← nv_topo, ← length_cornersOf (topoOf d id)]
  exact (List.getElem?_eq_some_iff.1 h).1

theorem respects_cube {tol : ℝ} (h0 : 0 ≤ tol) (h1 : tol < 1) {d id : Nat} {σ : Nat → Nat} {a : Vec ℝ} {M : Mat ℝ}
    (hc : IsCubeId d id) (h : Symmetry d id σ a M) : Respects tol (topoOf d id) σ a M := by
  intro c z _ _
  have hs := cube_size d id hc
  have ht := topoOf_cube d id hc
  rw [(rep_topoOf d id).dim_eq]
  -- the function on the right is affine in each coordinate
  have hF : MultiAff d fun z => ML tol (topoOf d id) c (affMap d a M z) := by
    intro r hr z t
    by_cases hcol : ∃ i, i < d ∧ M i r ≠ 0
    · obtain ⟨i, hi, hn⟩ := hcol
      have hz : ∀ q, q < d → q ≠ i → M q r = 0 := by
        intro q hq hqi
        rcases cube_column hc h hq hi hr hqi with e | e
        · exact e
        · exact absurd e hn
      have hrow : ∀ q, q < d → q ≠ r → M i q = 0 := by
        intro q hq hqr
        rcases cube_row hc h hi hq hr hqr with e | e
        · exact e
        · exact absurd e hn
      have key : ∀ s : ℝ, ML tol (topoOf d id) c (affMap d a M (setV z r s)) =
          ML tol (topoOf d id) c (setV (affMap d a M z) i (a i + M i r * s)) := by
        intro s
        refine ML_congr _ (fun _ _ => rfl) fun q hq => ?_
        rw [(rep_topoOf d id).dim_eq] at hq
        by_cases hqi : q = i
        · subst hqi
          simp only [affMap, setV, if_true]
          congr 1
          rw [sum_eq_single_of_mem r (mem_range.2 hr)]
          · simp
          · intro p hp hpr
            rw [hrow p (mem_range.1 hp) hpr, MulZeroClass.zero_mul]
        · simp only [affMap, setV, if_neg hqi]
          congr 1
          refine sum_congr rfl fun p hp => ?_
          by_cases hpr : p = r
          · rw [hpr, hz q hq hqi, MulZeroClass.zero_mul, MulZeroClass.zero_mul]
          · rw [if_neg hpr]
      have hm := ML_cube_multiAff (tol := tol) d c i hi (affMap d a M z)
      rw [← ht] at hm
      simp only at hm ⊢
      rw [key t, key 0, key 1, hm (a i + M i r * t), hm (a i + M i r * 0), hm (a i + M i r * 1)]
      ring
    · push Not at hcol
      have key : ∀ s : ℝ, ML tol (topoOf d id) c (affMap d a M (setV z r s)) = ML tol (topoOf d id) c (affMap d a M z) := by
        intro s
        refine ML_congr _ (fun _ _ => rfl) fun q hq => ?_
        rw [(rep_topoOf d id).dim_eq] at hq
        simp only [affMap]
        congr 1
        refine sum_congr rfl fun p hp => ?_
        by_cases hpr : p = r
        · rw [hpr, hcol q hq, MulZeroClass.zero_mul, MulZeroClass.zero_mul]
        · simp [setV, hpr]
      simp only
      rw [key, key, key]
      ring
  have hu := multiAff_eq (tol := tol) d _ hF z
  rw [hu, ht]
  refine ML_congr _ (fun k hk => ?_) fun _ _ => rfl
  rw [nv_cube] at hk
  have hk' : k < refSize d id d := by rw [hs]; exact hk
  have hcor : ML tol (topoOf d id) c (affMap d a M (pt d k z)) = ML tol (topoOf d id) c (corner d id (σ k)) := by
    refine ML_congr _ (fun _ _ => rfl) fun q hq => ?_
    rw [(rep_topoOf d id).dim_eq] at hq
    rw [h.corner k hk' q hq, affMap, affMap]
    congr 1
    refine sum_congr rfl fun p hp => ?_
    rw [cube_corner d id hc k hk, pt, if_pos (mem_range.1 hp)]
  rw [← ht, hcor, ML_corner h0 h1 _ c (σ k) _ (corner_get d id _ (h.lt k hk'))]

/-! ### affine values -/

theorem respects_exact {tol : ℝ} (h0 : 0 ≤ tol) {d id : Nat} {σ : Nat → Nat} {a : Vec ℝ} {M : Mat ℝ}
    (h : Symmetry d id σ a M) (c : Nat → ℝ) (α : ℝ) (N : Nat → ℝ) (hex : Exact (topoOf d id) c α N) (z : Vec ℝ)
    (hz : Away tol (topoOf d id) z) (hz' : Away tol (topoOf d id) (affMap (topoOf d id).dim a M z)) :
    ML tol (topoOf d id) (fun k => c (σ k)) z = ML tol (topoOf d id) c (affMap (topoOf d id).dim a M z) := by
  have hd := (rep_topoOf d id).dim_eq
  rw [ML_affine h0 _ c α N _ hex hz']
  rw [ML_affine h0 _ (fun k => c (σ k)) (α + ∑ r ∈ range d, N r * a r) (fun s => ∑ r ∈ range d, N r * M r s) z ?_ hz]
  · rw [hd]
    simp only [affMap, mul_add, mul_sum, sum_mul, sum_add_distrib]
    rw [sum_comm, add_assoc]
    congr 2
    exact sum_congr rfl fun _ _ => sum_congr rfl fun _ _ => by ring
  · intro k p hp
    have hk := get_lt hp
    have hpk : p = corner d id k := by
      rw [corner_get d id k hk] at hp
      exact (Option.some.inj hp).symm
    have hex' := hex (σ k) _ (corner_get d id _ (h.lt k hk))
    rw [hex', hd, hpk]
    have e : ∀ r ∈ range d, N r * corner (K := ℝ) d id (σ k) r = N r * affMap d a M (corner d id k) r := by
      intro r hr
      rw [h.corner k hk r (mem_range.1 hr)]
    rw [sum_congr rfl e]
    simp only [affMap, mul_add, mul_sum, sum_mul, sum_add_distrib]
    rw [sum_comm, add_assoc]
    congr 2
    exact sum_congr rfl fun _ _ => sum_congr rfl fun _ _ => by ring

/-! ### prisms and pyramids -/

/-- the corners of the prism over a triangle -/
def prismCorner (k i : Nat) : Int := [[0, 0, 0], [1, 0, 0], [0, 1, 0], [0, 0, 1], [1, 0, 1], [0, 1, 1]][k]!.getD i 0

/-- the corners of the pyramid over a square -/
def pyrCorner (k i : Nat) : Int := [[0, 0, 0], [1, 0, 0], [0, 1, 0], [1, 1, 0], [0, 0, 1]][k]!.getD i 0

theorem prism_table : ∀ s0 s1 s3 s4 : Fin 6, (∀ i : Fin 3, prismCorner s4 i = prismCorner s1 i + prismCorner s3 i - prismCorner s0 i) →
    s0 ≠ s1 → s0 ≠ s3 → s1 ≠ s3 → ∀ s2 s5 : Fin 6,
    (∀ i : Fin 3, prismCorner s5 i = prismCorner s2 i + prismCorner s3 i - prismCorner s0 i) →
    s0 ≠ s2 → s1 ≠ s2 → s2 ≠ s3 → s2 ≠ s4 →
    [s0, s1, s2, s3, s4, s5] ∈ ([[0, 1, 2, 3, 4, 5], [0, 2, 1, 3, 5, 4], [1, 0, 2, 4, 3, 5], [1, 2, 0, 4, 5, 3], [2, 0, 1, 5, 3, 4], [2, 1, 0, 5, 4, 3], [3, 4, 5, 0, 1, 2], [3, 5, 4, 0, 2, 1], [4, 3, 5, 1, 0, 2], [4, 5, 3, 1, 2, 0], [5, 3, 4, 2, 0, 1], [5, 4, 3, 2, 1, 0]] : List (List (Fin 6))) := by
  decide +kernel

theorem pyr_table : ∀ s0 s1 s2 s3 : Fin 5, (∀ i : Fin 3, pyrCorner s3 i = pyrCorner s1 i + pyrCorner s2 i - pyrCorner s0 i) →
    s0 ≠ s1 → s0 ≠ s2 → s1 ≠ s2 → ∀ s4 : Fin 5, s0 ≠ s4 → s1 ≠ s4 → s2 ≠ s4 → s3 ≠ s4 →
    [s0, s1, s2, s3, s4] ∈ ([[0, 1, 2, 3, 4], [0, 2, 1, 3, 4], [1, 0, 3, 2, 4], [1, 3, 0, 2, 4], [2, 0, 3, 1, 4], [2, 3, 0, 1, 4], [3, 1, 2, 0, 4], [3, 2, 1, 0, 4]] : List (List (Fin 5))) := by
  decide +kernel

theorem topo_prism {id : Nat} (h : id = 4 ∨ id = 5) : topoOf 3 id = .prism (.pyr (.prism .pt)) := by
  rcases h with rfl | rfl <;> rfl

theorem topo_pyr {id : Nat} (h : id = 2 ∨ id = 3) : topoOf 3 id = .pyr (.prism (.prism .pt)) := by
  rcases h with rfl | rfl <;> rfl

theorem prism_size {id : Nat} (h : id = 4 ∨ id = 5) : refSize 3 id 3 = 6 := by
  rcases h with rfl | rfl <;> decide +kernel

theorem pyr_size {id : Nat} (h : id = 2 ∨ id = 3) : refSize 3 id 3 = 5 := by
  rcases h with rfl | rfl <;> decide +kernel

theorem cornersOf_pt : cornersOf (K := ℝ) .pt = [fun _ => 0] := rfl

theorem prism_corner {id : Nat} (h : id = 4 ∨ id = 5) (k : Fin 6) (i : Fin 3) :
    corner (K := ℝ) 3 id k i = (prismCorner k i : ℝ) := by
  have hk := corner_get 3 id k (by rw [prism_size h]; exact k.2)
  rw [topo_prism h] at hk
  fin_cases k <;> fin_cases i <;> simp [cornersOf_prism, cornersOf_pyr, cornersOf_pt] at hk <;> rw [← hk] <;>
    simp [prismCorner, setV, Topo.dim]

theorem pyr_corner {id : Nat} (h : id = 2 ∨ id = 3) (k : Fin 5) (i : Fin 3) :
    corner (K := ℝ) 3 id k i = (pyrCorner k i : ℝ) := by
  have hk := corner_get 3 id k (by rw [pyr_size h]; exact k.2)
  rw [topo_pyr h] at hk
  fin_cases k <;> fin_cases i <;> simp [cornersOf_prism, cornersOf_pyr, cornersOf_pt] at hk <;> rw [← hk] <;>
    simp [pyrCorner, setV, Topo.dim]

theorem ML_prism_eq {tol : ℝ} (h0 : 0 ≤ tol) (c : Nat → ℝ) (z : Vec ℝ) (hz : Away tol (.prism (.pyr (.prism .pt))) z) :
    ML tol (.prism (.pyr (.prism .pt))) c z = (1 - z 2) * ((1 - z 0 - z 1) * c 0 + z 0 * c 1 + z 1 * c 2) +
      z 2 * ((1 - z 0 - z 1) * c 3 + z 0 * c 4 + z 1 * c 5) := by
  have hf : far tol (1 - z 1) := hz.1
  have hn := far_ne h0 hf
  simp only [ML]
  rw [if_pos (show far tol (1 - z (Topo.prism .pt).dim) from hf), if_pos (show far tol (1 - z (Topo.prism .pt).dim) from hf)]
  norm_num [Topo.sz, Topo.dim, nv]
  field_simp
  ring

theorem ML_pyr_eq {tol : ℝ} (h0 : 0 ≤ tol) (c : Nat → ℝ) (z : Vec ℝ) (hz : Away tol (.pyr (.prism (.prism .pt))) z) :
    ML tol (.pyr (.prism (.prism .pt))) c z = ((1 - z 2 - z 0) * (1 - z 2 - z 1) * c 0 + z 0 * (1 - z 2 - z 1) * c 1 +
      (1 - z 2 - z 0) * z 1 * c 2 + z 0 * z 1 * c 3) / (1 - z 2) + z 2 * c 4 := by
  have hf : far tol (1 - z 2) := hz.1
  have hn := far_ne h0 hf
  simp only [ML]
  rw [if_pos (show far tol (1 - z (Topo.prism (.prism .pt)).dim) from hf)]
  norm_num [Topo.sz, Topo.dim, nv]
  field_simp
  ring

theorem prism_rel {id : Nat} (hid : id = 4 ∨ id = 5) {σ : Nat → Nat} {a : Vec ℝ} {M : Mat ℝ} (h : Symmetry 3 id σ a M)
    (k : Fin 6) (i : Fin 3) : (prismCorner (σ k) i : ℝ) =
      a i + M i 0 * prismCorner k 0 + M i 1 * prismCorner k 1 + M i 2 * prismCorner k 2 := by
  have hk : (k : Nat) < refSize 3 id 3 := by rw [prism_size hid]; exact k.2
  have hl := h.lt k hk
  rw [prism_size hid] at hl
  have h1 := h.corner k hk i i.2
  rw [prism_corner hid ⟨σ k, hl⟩ i, affMap, sum_range_succ, sum_range_succ, sum_range_succ, sum_range_zero] at h1
  have e0 := prism_corner hid k 0
  have e1 := prism_corner hid k 1
  have e2 := prism_corner hid k 2
  simp only [Fin.val_zero, Fin.val_one, Fin.val_two] at e0 e1 e2
  rw [e0, e1, e2] at h1
  rw [h1]
  ring

theorem pyr_rel {id : Nat} (hid : id = 2 ∨ id = 3) {σ : Nat → Nat} {a : Vec ℝ} {M : Mat ℝ} (h : Symmetry 3 id σ a M)
    (k : Fin 5) (i : Fin 3) : (pyrCorner (σ k) i : ℝ) =
      a i + M i 0 * pyrCorner k 0 + M i 1 * pyrCorner k 1 + M i 2 * pyrCorner k 2 := by
  have hk : (k : Nat) < refSize 3 id 3 := by rw [pyr_size hid]; exact k.2
  have hl := h.lt k hk
  rw [pyr_size hid] at hl
  have h1 := h.corner k hk i i.2
  rw [pyr_corner hid ⟨σ k, hl⟩ i, affMap, sum_range_succ, sum_range_succ, sum_range_succ, sum_range_zero] at h1
  have e0 := pyr_corner hid k 0
  have e1 := pyr_corner hid k 1
  have e2 := pyr_corner hid k 2
  simp only [Fin.val_zero, Fin.val_one, Fin.val_two] at e0 e1 e2
  rw [e0, e1, e2] at h1
  rw [h1]
  ring

theorem respects_prism {tol : ℝ} (h0 : 0 ≤ tol) {id : Nat} (hid : id = 4 ∨ id = 5) {σ : Nat → Nat} {a : Vec ℝ}
    {M : Mat ℝ} (h : Symmetry 3 id σ a M) : Respects tol (topoOf 3 id) σ a M := by
  intro c z hz hz'
  rw [topo_prism hid] at hz hz' ⊢
  have hr := prism_rel hid h
  have hlt : ∀ k, k < 6 → σ k < 6 := by
    intro k hk
    have := h.lt k (by rw [prism_size hid]; exact hk)
    rwa [prism_size hid] at this
  have hne : ∀ k k', k < 6 → k' < 6 → k ≠ k' → ∀ (hk : σ k < 6) (hk' : σ k' < 6),
      (⟨σ k, hk⟩ : Fin 6) ≠ ⟨σ k', hk'⟩ := by
    intro k k' hk hk' hkk _ _ he
    exact hkk (h.inj k k' (by rw [prism_size hid]; exact hk) (by rw [prism_size hid]; exact hk') (Fin.mk.inj_iff.1 he))
  have r4 : ∀ i : Fin 3, prismCorner (σ 4) i = prismCorner (σ 1) i + prismCorner (σ 3) i - prismCorner (σ 0) i := by
    intro i
    have a0 := hr 0 i
    have a1 := hr 1 i
    have a3 := hr 3 i
    have a4 := hr 4 i
    norm_num [prismCorner] at a0 a1 a3 a4
    have : (prismCorner (σ 4) i : ℝ) = prismCorner (σ 1) i + prismCorner (σ 3) i - prismCorner (σ 0) i := by
      simp only [prismCorner]
      norm_num
      linarith
    exact_mod_cast this
  have r5 : ∀ i : Fin 3, prismCorner (σ 5) i = prismCorner (σ 2) i + prismCorner (σ 3) i - prismCorner (σ 0) i := by
    intro i
    have a0 := hr 0 i
    have a2 := hr 2 i
    have a3 := hr 3 i
    have a5 := hr 5 i
    norm_num [prismCorner] at a0 a2 a3 a5
    have : (prismCorner (σ 5) i : ℝ) = prismCorner (σ 2) i + prismCorner (σ 3) i - prismCorner (σ 0) i := by
      simp only [prismCorner]
      norm_num
      linarith
    exact_mod_cast this
  have hm := prism_table ⟨σ 0, hlt 0 (by norm_num)⟩ ⟨σ 1, hlt 1 (by norm_num)⟩ ⟨σ 3, hlt 3 (by norm_num)⟩
    ⟨σ 4, hlt 4 (by norm_num)⟩ r4 (hne 0 1 (by norm_num) (by norm_num) (by norm_num) _ _)
    (hne 0 3 (by norm_num) (by norm_num) (by norm_num) _ _) (hne 1 3 (by norm_num) (by norm_num) (by norm_num) _ _)
    ⟨σ 2, hlt 2 (by norm_num)⟩ ⟨σ 5, hlt 5 (by norm_num)⟩ r5 (hne 0 2 (by norm_num) (by norm_num) (by norm_num) _ _)
    (hne 1 2 (by norm_num) (by norm_num) (by norm_num) _ _) (hne 2 3 (by norm_num) (by norm_num) (by norm_num) _ _)
    (hne 2 4 (by norm_num) (by norm_num) (by norm_num) _ _)
  rw [ML_prism_eq h0 _ z hz, ML_prism_eq h0 _ _ hz']
  have hA : ∀ i, affMap 3 a M z i = a i + M i 0 * z 0 + M i 1 * z 1 + M i 2 * z 2 := by
    intro i
    rw [affMap, sum_range_succ, sum_range_succ, sum_range_succ, sum_range_zero]
    ring
  change _ = (1 - affMap 3 a M z 2) * ((1 - affMap 3 a M z 0 - affMap 3 a M z 1) * c 0 + affMap 3 a M z 0 * c 1 +
    affMap 3 a M z 1 * c 2) + affMap 3 a M z 2 * ((1 - affMap 3 a M z 0 - affMap 3 a M z 1) * c 3 +
    affMap 3 a M z 0 * c 4 + affMap 3 a M z 1 * c 5)
  rw [hA, hA, hA]
  have col : ∀ i : Fin 3, a i = prismCorner (σ 0) i ∧ M i 0 = prismCorner (σ 1) i - prismCorner (σ 0) i ∧
      M i 1 = prismCorner (σ 2) i - prismCorner (σ 0) i ∧ M i 2 = prismCorner (σ 3) i - prismCorner (σ 0) i := by
    intro i
    have a0 := hr 0 i
    have a1 := hr 1 i
    have a2 := hr 2 i
    have a3 := hr 3 i
    generalize hx : (fun k => (prismCorner (σ k) i : ℝ)) = f at *
    have f0 : (prismCorner (σ 0) i : ℝ) = f 0 := by rw [← hx]
    have f1 : (prismCorner (σ 1) i : ℝ) = f 1 := by rw [← hx]
    have f2 : (prismCorner (σ 2) i : ℝ) = f 2 := by rw [← hx]
    have f3 : (prismCorner (σ 3) i : ℝ) = f 3 := by rw [← hx]
    simp only [Fin.val_zero, Fin.val_one, Fin.val_two] at a0 a1 a2 a3
    rw [show ((3 : Fin 6) : Nat) = 3 from rfl] at a3
    rw [f0] at a0
    rw [f1] at a1
    rw [f2] at a2
    rw [f3] at a3
    rw [f0, f1, f2, f3]
    norm_num [prismCorner] at a0 a1 a2 a3
    refine ⟨?_, ?_, ?_, ?_⟩ <;> linarith
  obtain ⟨c00, c01, c02, c03⟩ := col 0
  obtain ⟨c10, c11, c12, c13⟩ := col 1
  obtain ⟨c20, c21, c22, c23⟩ := col 2
  simp only [Fin.val_zero, Fin.val_one, Fin.val_two] at c00 c01 c02 c03 c10 c11 c12 c13 c20 c21 c22 c23
  rw [c00, c01, c02, c03, c10, c11, c12, c13, c20, c21, c22, c23]
  clear c00 c01 c02 c03 c10 c11 c12 c13 c20 c21 c22 c23 col hA r4 r5 hr hne hz hz'
  simp only [List.mem_cons, List.not_mem_nil, or_false, List.cons.injEq, and_true, Fin.ext_iff] at hm
  rcases hm with hm | hm | hm | hm | hm | hm | hm | hm | hm | hm | hm | hm <;>
  · obtain ⟨m0, m1, m2, m3, m4, m5⟩ := hm
    have m0' : σ 0 = _ := m0
    have m1' : σ 1 = _ := m1
    have m2' : σ 2 = _ := m2
    have m3' : σ 3 = _ := m3
    have m4' : σ 4 = _ := m4
    have m5' : σ 5 = _ := m5
    rw [m0', m1', m2', m3', m4', m5']
    norm_num [prismCorner]
    try ring

theorem respects_pyr {tol : ℝ} (h0 : 0 ≤ tol) {id : Nat} (hid : id = 2 ∨ id = 3) {σ : Nat → Nat} {a : Vec ℝ}
    {M : Mat ℝ} (h : Symmetry 3 id σ a M) : Respects tol (topoOf 3 id) σ a M := by
  intro c z hz hz'
  rw [topo_pyr hid] at hz hz' ⊢
  have hr := pyr_rel hid h
  have hlt : ∀ k, k < 5 → σ k < 5 := by
    intro k hk
    have := h.lt k (by rw [pyr_size hid]; exact hk)
    rwa [pyr_size hid] at this
  have hne : ∀ k k', k < 5 → k' < 5 → k ≠ k' → ∀ (hk : σ k < 5) (hk' : σ k' < 5),
      (⟨σ k, hk⟩ : Fin 5) ≠ ⟨σ k', hk'⟩ := by
    intro k k' hk hk' hkk _ _ he
    exact hkk (h.inj k k' (by rw [pyr_size hid]; exact hk) (by rw [pyr_size hid]; exact hk') (Fin.mk.inj_iff.1 he))
  have r3 : ∀ i : Fin 3, pyrCorner (σ 3) i = pyrCorner (σ 1) i + pyrCorner (σ 2) i - pyrCorner (σ 0) i := by
    intro i
    have a0 := hr 0 i
    have a1 := hr 1 i
    have a2 := hr 2 i
    have a3 := hr 3 i
    norm_num [pyrCorner] at a0 a1 a2 a3
    have : (pyrCorner (σ 3) i : ℝ) = pyrCorner (σ 1) i + pyrCorner (σ 2) i - pyrCorner (σ 0) i := by
      simp only [pyrCorner]
      norm_num
      linarith
    exact_mod_cast this
  have hm := pyr_table ⟨σ 0, hlt 0 (by norm_num)⟩ ⟨σ 1, hlt 1 (by norm_num)⟩ ⟨σ 2, hlt 2 (by norm_num)⟩
    ⟨σ 3, hlt 3 (by norm_num)⟩ r3 (hne 0 1 (by norm_num) (by norm_num) (by norm_num) _ _)
    (hne 0 2 (by norm_num) (by norm_num) (by norm_num) _ _) (hne 1 2 (by norm_num) (by norm_num) (by norm_num) _ _)
    ⟨σ 4, hlt 4 (by norm_num)⟩ (hne 0 4 (by norm_num) (by norm_num) (by norm_num) _ _)
    (hne 1 4 (by norm_num) (by norm_num) (by norm_num) _ _) (hne 2 4 (by norm_num) (by norm_num) (by norm_num) _ _)
    (hne 3 4 (by norm_num) (by norm_num) (by norm_num) _ _)
  have hn : (1 : ℝ) - z 2 ≠ 0 := far_ne h0 hz.1
  rw [ML_pyr_eq h0 _ z hz, ML_pyr_eq h0 _ _ hz']
  have hA : ∀ i, affMap 3 a M z i = a i + M i 0 * z 0 + M i 1 * z 1 + M i 2 * z 2 := by
    intro i
    rw [affMap, sum_range_succ, sum_range_succ, sum_range_succ, sum_range_zero]
    ring
  have col : ∀ i : Fin 3, a i = pyrCorner (σ 0) i ∧ M i 0 = pyrCorner (σ 1) i - pyrCorner (σ 0) i ∧
      M i 1 = pyrCorner (σ 2) i - pyrCorner (σ 0) i ∧ M i 2 = pyrCorner (σ 4) i - pyrCorner (σ 0) i := by
    intro i
    have a0 := hr 0 i
    have a1 := hr 1 i
    have a2 := hr 2 i
    have a4 := hr 4 i
    generalize hx : (fun k => (pyrCorner (σ k) i : ℝ)) = f at *
    have f0 : (pyrCorner (σ 0) i : ℝ) = f 0 := by rw [← hx]
    have f1 : (pyrCorner (σ 1) i : ℝ) = f 1 := by rw [← hx]
    have f2 : (pyrCorner (σ 2) i : ℝ) = f 2 := by rw [← hx]
    have f4 : (pyrCorner (σ 4) i : ℝ) = f 4 := by rw [← hx]
    simp only [Fin.val_zero, Fin.val_one, Fin.val_two] at a0 a1 a2 a4
    rw [show ((4 : Fin 5) : Nat) = 4 from rfl] at a4
    rw [f0] at a0
    rw [f1] at a1
    rw [f2] at a2
    rw [f4] at a4
    rw [f0, f1, f2, f4]
    norm_num [pyrCorner] at a0 a1 a2 a4
    refine ⟨?_, ?_, ?_, ?_⟩ <;> linarith
  obtain ⟨c00, c01, c02, c03⟩ := col 0
  obtain ⟨c10, c11, c12, c13⟩ := col 1
  obtain ⟨c20, c21, c22, c23⟩ := col 2
  simp only [Fin.val_zero, Fin.val_one, Fin.val_two] at c00 c01 c02 c03 c10 c11 c12 c13 c20 c21 c22 c23
  have A0 := hA 0
  have A1 := hA 1
  have A2 := hA 2
  rw [c00, c01, c02, c03] at A0
  rw [c10, c11, c12, c13] at A1
  rw [c20, c21, c22, c23] at A2
  clear c00 c01 c02 c03 c10 c11 c12 c13 c20 c21 c22 c23 col hA r3 hr hne hz hz'
  change _ = ((1 - affMap 3 a M z 2 - affMap 3 a M z 0) * (1 - affMap 3 a M z 2 - affMap 3 a M z 1) * c 0 +
    affMap 3 a M z 0 * (1 - affMap 3 a M z 2 - affMap 3 a M z 1) * c 1 +
    (1 - affMap 3 a M z 2 - affMap 3 a M z 0) * affMap 3 a M z 1 * c 2 + affMap 3 a M z 0 * affMap 3 a M z 1 * c 3) /
    (1 - affMap 3 a M z 2) + affMap 3 a M z 2 * c 4
  generalize affMap 3 a M z 0 = y0 at *
  generalize affMap 3 a M z 1 = y1 at *
  generalize affMap 3 a M z 2 = y2 at *
  simp only [List.mem_cons, List.not_mem_nil, or_false, List.cons.injEq, and_true, Fin.ext_iff,
    Fin.val_zero, Fin.val_one, Fin.val_two, show ((3 : Fin 5) : Nat) = 3 from rfl,
    show ((4 : Fin 5) : Nat) = 4 from rfl] at hm
  rcases hm with hm | hm | hm | hm | hm | hm | hm | hm <;>
  · obtain ⟨m0, m1, m2, m3, m4⟩ := hm
    have m0' : σ 0 = _ := m0
    have m1' : σ 1 = _ := m1
    have m2' : σ 2 = _ := m2
    have m3' : σ 3 = _ := m3
    have m4' : σ 4 = _ := m4
    rw [m0', m1', m2', m4'] at A0 A1 A2
    rw [m0', m1', m2', m3', m4']
    norm_num [pyrCorner] at A0 A1 A2
    subst A2
    rw [A0, A1]
    try field_simp
    try ring

theorem respects_simplex {tol : ℝ} (h0 : 0 ≤ tol) {d id : Nat} (hs : IsSimplexId d id) {σ : Nat → Nat} {a : Vec ℝ}
    {M : Mat ℝ} (h : Symmetry d id σ a M) : Respects tol (topoOf d id) σ a M := by
  intro c z hz hz'
  exact respects_exact h0 h c _ _ (exact_of_imageOf (imageOf_simplex ⟨d, 1, id, fun k _ => c k, tol⟩ hs) 0 one_pos)
    z hz hz'

/-- the topologies for which the symmetries are understood: simplices and cubes of all dimensions, and everything up to
dimension 3 -/
def Covered (d id : Nat) : Prop := IsSimplexId d id ∨ IsCubeId d id ∨ d ≤ 3

theorem respects_covered {tol : ℝ} (h0 : 0 ≤ tol) (h1 : tol < 1) {d id : Nat} (hid : id < 2 ^ d) (hc : Covered d id)
    {σ : Nat → Nat} {a : Vec ℝ} {M : Mat ℝ} (h : Symmetry d id σ a M) : Respects tol (topoOf d id) σ a M := by
  rcases hc with hc | hc | hc
  · exact respects_simplex h0 hc h
  · exact respects_cube h0 h1 hc h
  · have : IsSimplexId d id ∨ IsCubeId d id ∨ (d = 3 ∧ (id = 2 ∨ id = 3)) ∨ (d = 3 ∧ (id = 4 ∨ id = 5)) := by
      have hf : ∀ d : Fin 4, ∀ id : Fin 8, id.1 < 2 ^ d.1 →
          (∀ k : Fin 4, 1 ≤ k.1 → k.1 < d.1 → id.1.testBit k = false) ∨
          (∀ k : Fin 4, 1 ≤ k.1 → k.1 < d.1 → id.1.testBit k = true) ∨
          (d.1 = 3 ∧ (id.1 = 2 ∨ id.1 = 3)) ∨ (d.1 = 3 ∧ (id.1 = 4 ∨ id.1 = 5)) := by decide +kernel
      have hid8 : id < 8 := lt_of_lt_of_le hid (by
        calc 2 ^ d ≤ 2 ^ 3 := Nat.pow_le_pow_right (by norm_num) hc
          _ = 8 := by norm_num)
      rcases hf ⟨d, by omega⟩ ⟨id, hid8⟩ hid with h | h | h | h
      · exact Or.inl fun k h1 h2 => h ⟨k, by omega⟩ h1 h2
      · exact Or.inr (Or.inl fun k h1 h2 => h ⟨k, by omega⟩ h1 h2)
      · exact Or.inr (Or.inr (Or.inl h))
      · exact Or.inr (Or.inr (Or.inr h))
    rcases this with hc | hc | ⟨rfl, hi⟩ | ⟨rfl, hi⟩
    · exact respects_simplex h0 hc h
    · exact respects_cube h0 h1 hc h
    · exact respects_pyr h0 hi h
    · exact respects_prism h0 hi h

/-! ### symmetries form a group -/

theorem symmetry_comp {d id : Nat} {σ τ : Nat → Nat} {a b : Vec ℝ} {M N : Mat ℝ} (h : Symmetry d id σ a M)
    (h' : Symmetry d id τ b N) :
    Symmetry d id (σ ∘ τ) (affMap d a M b) (fun i s => ∑ r ∈ range d, M i r * N r s) where
  lt k hk := h.lt _ (h'.lt k hk)
  inj k k' hk hk' e := h'.inj k k' hk hk' (h.inj _ _ (h'.lt k hk) (h'.lt k' hk') e)
  corner k hk i hi := by
    have h1 := h.corner _ (h'.lt k hk) i hi
    change corner (K := ℝ) d id (σ (τ k)) i = _
    rw [h1, affMap, affMap, affMap]
    have e : ∀ r ∈ range d, M i r * corner (K := ℝ) d id (τ k) r = M i r * affMap d b N (corner d id k) r := by
      intro r hr
      rw [h'.corner k hk r (mem_range.1 hr)]
    rw [sum_congr rfl e]
    simp only [affMap, mul_add, mul_sum, sum_mul, sum_add_distrib]
    rw [sum_comm, add_assoc]
    congr 2
    exact sum_congr rfl fun _ _ => sum_congr rfl fun _ _ => by ring

theorem symmetry_id (d id : Nat) : Symmetry d id (fun k => k) (fun _ => 0) (fun i r => if i = r then 1 else 0) where
  lt _ hk := hk
  inj _ _ _ _ e := e
  corner k _ i hi := by
    rw [affMap, sum_eq_single_of_mem i (mem_range.2 hi) (fun b _ hb => by rw [if_neg (Ne.symm hb), MulZeroClass.zero_mul])]
    simp

/-- the matrix of a symmetry is determined by the permutation -/
theorem symmetry_unique {d id : Nat} {σ τ : Nat → Nat} {a b : Vec ℝ} {M N : Mat ℝ} (h : Symmetry d id σ a M)
    (h' : Symmetry d id τ b N) (hst : ∀ k, k < refSize d id d → σ k = τ k) : mat d d M = mat d d N := by
  have hd := (rep_topoOf d id).dim_eq
  have key : ∀ (σ : Nat → Nat) (a : Vec ℝ) (M : Mat ℝ), Symmetry d id σ a M → ∀ i, i < d →
      Exact (topoOf d id) (fun k => corner (K := ℝ) d id (σ k) i) (a i) (M i) := by
    intro σ a M h i hi k p hp
    have hk := get_lt hp
    have hpk : p = corner d id k := by
      rw [corner_get d id k hk] at hp
      exact (Option.some.inj hp).symm
    rw [hd, hpk]
    exact h.corner k hk i hi
  ext i r
  change M i r = N i r
  have h1 := key σ a M h i i.2
  have h2 := key τ b N h' i i.2
  have h3 : Exact (topoOf d id) (fun k => corner (K := ℝ) d id (τ k) i) (a i) (M i) := by
    intro k p hp
    have := h1 k p hp
    simp only [hst k (get_lt hp)] at this
    exact this
  rw [← ajt_exact _ _ _ _ h3 r (by rw [hd]; exact r.2), ← ajt_exact _ _ _ _ h2 r (by rw [hd]; exact r.2)]

theorem symmetry_pow {d id : Nat} {σ : Nat → Nat} {a : Vec ℝ} {M : Mat ℝ} (h : Symmetry d id σ a M) :
    ∀ n, ∃ b N, Symmetry d id σ^[n] b N ∧ mat d d N = (mat d d M) ^ n
  | 0 => by
    refine ⟨_, _, symmetry_id d id, ?_⟩
    rw [pow_zero]
    ext i r
    simp [mat, Matrix.one_apply, Fin.ext_iff]
  | n + 1 => by
    obtain ⟨b, N, h1, h2⟩ := symmetry_pow h n
    refine ⟨_, _, symmetry_comp h1 h, ?_⟩
    rw [pow_succ, ← h2]
    ext i r
    rw [Matrix.mul_apply]
    simp only [mat, of_apply]
    exact Finset.sum_range fun q => N i q * M q r

/-- symmetries preserve volumes -/
theorem symmetry_det {d id : Nat} {σ : Nat → Nat} {a : Vec ℝ} {M : Mat ℝ} (h : Symmetry d id σ a M) :
    |(mat d d M).det| = 1 := by
  let N := refSize d id d
  let f : Fin N → Fin N := fun k => ⟨σ k, h.lt k k.2⟩
  have hi : Function.Injective f := fun x y hxy => Fin.ext (h.inj x y x.2 y.2 (Fin.mk.inj_iff.1 hxy))
  let e : Equiv.Perm (Fin N) := Equiv.ofBijective f (Finite.injective_iff_bijective.1 hi)
  have he : ∀ n (k : Fin N), ((e ^ n) k : Nat) = σ^[n] k := by
    intro n
    induction n with
    | zero => intro k; rfl
    | succ n ih =>
      intro k
      rw [pow_succ, Equiv.Perm.mul_apply, ih, Function.iterate_succ_apply]
      rfl
  have hpos := orderOf_pos e
  obtain ⟨b, N', h1, h2⟩ := symmetry_pow h (orderOf e)
  have hid := symmetry_unique h1 (symmetry_id d id) (fun k hk => by
    rw [← he (orderOf e) ⟨k, hk⟩, pow_orderOf_eq_one]
    rfl)
  have hone : mat d d (fun i r : Nat => if i = r then (1 : ℝ) else 0) = 1 := by
    ext i r
    simp [mat, Matrix.one_apply, Fin.ext_iff]
  rw [h2, hone] at hid
  have hdet := congrArg Matrix.det hid
  rw [det_pow, det_one] at hdet
  have habs : |(mat d d M).det| ^ orderOf e = 1 := by rw [← abs_pow, hdet, abs_one]
  exact (pow_eq_one_iff_of_nonneg (abs_nonneg _) hpos.ne').1 habs

/-! ### the points away from the apexes are an open set -/

theorem far_eventually {E : Type*} [TopologicalSpace E] {tol : ℝ} {u : E → ℝ} {x : E} (hu : ContinuousAt u x)
    (h : far tol (u x)) : ∀ᶠ y in nhds x, far tol (u y) := by
  rcases h with h | h
  · exact (hu.eventually (lt_mem_nhds h)).mono fun y hy => Or.inl hy
  · exact (hu.eventually (gt_mem_nhds h)).mono fun y hy => Or.inr hy

theorem away_eventually {E : Type*} [TopologicalSpace E] {tol : ℝ} (h0 : 0 ≤ tol) : ∀ (t : Topo) (u : Nat → E → ℝ) (x : E),
    (∀ r, r < t.dim → ContinuousAt (u r) x) → Away tol t (fun r => u r x) → ∀ᶠ y in nhds x, Away tol t fun r => u r y
  | .pt, _, _, _, _ => Filter.Eventually.of_forall fun _ => trivial
  | .prism t, u, x, hu, h => away_eventually h0 t u x (fun r hr => hu r (by simp only [Topo.dim]; omega)) h
  | .pyr t, u, x, hu, h => by
    have hd : ContinuousAt (fun y => 1 - u t.dim y) x :=
      continuousAt_const.sub (hu t.dim (by simp [Topo.dim]))
    have h1 := far_eventually hd h.1
    have h2 := away_eventually h0 t (fun r y => u r y / (1 - u t.dim y)) x
      (fun r hr => (hu r (by simp only [Topo.dim]; omega)).div hd (far_ne h0 h.1)) h.2
    exact (h1.and h2).mono fun y hy => hy

end

end Verif.Neighbour
