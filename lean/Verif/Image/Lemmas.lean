import Verif.Image.Model
import Verif.Refine.MeshProps
import Verif.Hull.CubeLemmas
import Verif.Hull.Props
import Verif.Neighbour.Props

/-! Helper lemmas for C113. -/

namespace Verif.Image

open Verif.RefGeom Verif.MatHelp Verif.RefTopo Verif.MultiLinear Verif.Neighbour Verif.Hull Verif.Quad Verif.Refine Verif.Refine.Mesh
open Verif.Refine.Glue
open Finset hiding ext

noncomputable section

/-! ### cubes -/

/-- the multilinear map restricted to a box is the multilinear map of the images of the corners of the box -/
theorem ML_box {tol : ℝ} (d : Nat) (c lo : Nat → ℝ) (h : ℝ) (p : Nat → Vec ℝ)
    (hp : ∀ a, a < 2 ^ d → ∀ i, i < d → p a i = lo i + h * (if a.testBit i then 1 else 0)) (z : Vec ℝ) :
    ML tol (Topo.cube d) (fun a => ML tol (Topo.cube d) c (p a)) z = ML tol (Topo.cube d) c fun i => lo i + h * z i := by
  have hF : MultiAff d fun z => ML tol (Topo.cube d) c fun i => lo i + h * z i := by
    intro r hr z t
    have key : ∀ (z : Vec ℝ) (t : ℝ), ML tol (Topo.cube d) c (setV z r t) = (1 - t) * ML tol (Topo.cube d) c (setV z r 0) +
      t * ML tol (Topo.cube d) c (setV z r 1) := ML_cube_multiAff (tol := tol) d c r hr
    have e : ∀ s : ℝ, (fun i => lo i + h * setV z r s i) = setV (fun i => lo i + h * z i) r (lo r + h * s) := fun s => by
      funext i
      by_cases hi : i = r
      · subst hi; simp [setV]
      · simp [setV, hi]
    simp only [e]
    rw [key _ (lo r + h * t), key _ (lo r + h * 0), key _ (lo r + h * 1)]
    ring
  rw [multiAff_eq (tol := tol) d _ hF z]
  refine ML_congr _ (fun a ha => ?_) fun _ _ => rfl
  rw [nv_cube] at ha
  refine ML_congr _ (fun _ _ => rfl) fun i hi => ?_
  rw [dim_cube] at hi
  rw [hp a ha i hi, pt, if_pos hi]

/-- the derivative on cubes is a difference -/
theorem MLd_diff {tol : ℝ} (d : Nat) (c : Nat → ℝ) (z : Vec ℝ) (k : Nat) (hk : k < d) (t : ℝ) (ht : t ≠ 0) :
    MLd tol (Topo.cube d) c z k = (ML tol (Topo.cube d) c z - ML tol (Topo.cube d) c (fun i => if i = k then z k - t else z i)) / t := by
  have := cube_step tol d c z (fun i => if i = k then z k - t else z i) k hk fun r _ hr => by rw [if_neg hr]
  rw [if_pos rfl] at this
  rw [this]
  field_simp
  ring_nf

theorem MLd_box {tol : ℝ} (d : Nat) (c lo : Nat → ℝ) (h : ℝ) (h0 : h ≠ 0) (p : Nat → Vec ℝ)
    (hp : ∀ a, a < 2 ^ d → ∀ i, i < d → p a i = lo i + h * (if a.testBit i then 1 else 0)) (z : Vec ℝ) (k : Nat) (hk : k < d) :
    MLd tol (Topo.cube d) (fun a => ML tol (Topo.cube d) c (p a)) z k = h * MLd tol (Topo.cube d) c (fun i => lo i + h * z i) k := by
  rw [MLd_diff d _ z k hk 1 one_ne_zero, MLd_diff d c _ k hk h h0, ML_box d c lo h p hp, ML_box d c lo h p hp, div_one, mul_div_cancel₀ _ h0]
  congr 2
  funext i
  by_cases hi : i = k
  · subst hi; simp; ring
  · simp [hi]

/-- coordinates of the box -/
theorem ML_coord {tol : ℝ} (d : Nat) (lo : Nat → ℝ) (h : ℝ) (p : Nat → Vec ℝ)
    (hp : ∀ a, a < 2 ^ d → ∀ i, i < d → p a i = lo i + h * (if a.testBit i then 1 else 0)) (z : Vec ℝ) (s : Nat) (hs : s < d) :
    ML tol (Topo.cube d) (fun a => p a s) z = lo s + h * z s := by
  have hF : MultiAff d fun z => lo s + h * z s := by
    intro r hr z t
    by_cases hi : s = r
    · subst hi; simp [setV]; ring
    · simp [setV, hi]; ring
  rw [multiAff_eq (tol := tol) d _ hF z]
  refine ML_congr _ (fun a ha => ?_) fun _ _ => rfl
  rw [nv_cube] at ha
  rw [hp a ha s hs, pt, if_pos hs]

theorem MLd_coord {tol : ℝ} (d : Nat) (lo : Nat → ℝ) (h : ℝ) (p : Nat → Vec ℝ)
    (hp : ∀ a, a < 2 ^ d → ∀ i, i < d → p a i = lo i + h * (if a.testBit i then 1 else 0)) (z : Vec ℝ) (k s : Nat) (hk : k < d) (hs : s < d) :
    MLd tol (Topo.cube d) (fun a => p a s) z k = if s = k then h else 0 := by
  rw [MLd_diff d _ z k hk 1 one_ne_zero, ML_coord d lo h p hp z s hs, ML_coord d lo h p hp _ s hs]
  split_ifs with hi
  · subst hi; ring
  · ring

/-! ### lattice points and tips -/

/-- an affine map is reproduced exactly at lattice points: they are at a tip or keep the distance `1 / n` -/
theorem ML_lattice {tol : ℝ} (h0 : 0 ≤ tol) : ∀ (t : Topo) (n : Nat) (c : Nat → ℝ) (a : ℝ) (M : Nat → ℝ) (z : Vec ℝ), tol * n < 1 → 0 < n →
    Exact t c a M → Dom t 1 z → (∀ r, r < t.dim → ∃ q : ℤ, z r = q / n) → ML tol t c z = a + ∑ r ∈ range t.dim, M r * z r
  | .pt, n, c, a, M, z, _, _, he, _, _ => by
    have := exact_zero he
    simpa [ML, Topo.dim] using this
  | .prism t, n, c, a, M, z, hn, hn0, he, hd, hq => by
    have hq' : ∀ r, r < t.dim → ∃ q : ℤ, z r = q / n := fun r hr => hq r (by simp only [Topo.dim]; omega)
    rw [ML, ML_lattice h0 t n c a M z hn hn0 (exact_bot he) hd.2.2 hq',
      ML_lattice h0 t n _ _ M z hn hn0 (exact_top he) hd.2.2 hq']
    simp only [Topo.dim]
    rw [sum_range_succ]
    ring
  | .pyr t, n, c, a, M, z, hn, hn0, he, hd, hq => by
    obtain ⟨d1, d2, d3⟩ := hd
    obtain ⟨q, hqd⟩ := hq t.dim (by simp only [Topo.dim]; omega)
    have hn' : (0 : ℝ) < n := Nat.cast_pos.2 hn0
    simp only [Topo.dim]
    rw [sum_range_succ]
    have hq0 : 0 ≤ q := by
      by_contra hc
      have : (q : ℝ) ≤ -1 := by exact_mod_cast (by omega : q ≤ -1)
      rw [hqd, le_div_iff₀ hn'] at d1
      linarith
    have hqn : q ≤ n := by
      rw [hqd, div_le_one hn'] at d2
      exact_mod_cast d2
    rcases eq_or_lt_of_le hqn with e | hlt
    · have h1 : z t.dim = 1 := by rw [hqd, e]; push_cast; exact div_self hn'.ne'
      rw [h1, _root_.sub_self] at d3
      have hz := dom_scale_zero t z d3
      rw [ML_pyr_near (by rw [h1, _root_.sub_self]; exact not_far_zero h0), h1, exact_apex he,
        sum_eq_zero fun r hr => by rw [hz r (mem_range.1 hr), mul_zero]]
      ring
    · obtain ⟨m, hm⟩ : ∃ m : Nat, (m : ℤ) = n - q := ⟨(n - q).toNat, Int.toNat_of_nonneg (by omega)⟩
      have hm0 : 0 < m := by omega
      have hm' : (0 : ℝ) < m := Nat.cast_pos.2 hm0
      have hmn : m ≤ n := by omega
      have hmn' : (m : ℝ) ≤ n := by exact_mod_cast hmn
      have hmr : (m : ℝ) = n - q := by exact_mod_cast hm
      have h1 : 1 - z t.dim = m / n := by rw [hqd, hmr]; field_simp
      have hpos : 0 < 1 - z t.dim := by rw [h1]; positivity
      have hfar : far tol (1 - z t.dim) := by
        left
        rw [h1, gt_iff_lt, lt_div_iff₀ hn']
        exact hn.trans_le (by exact_mod_cast hm0)
      have hdiv := Hull.dom_div hpos d3
      rw [ML_pyr_far hfar, ML_lattice h0 t m c a M _ ((mul_le_mul_of_nonneg_left hmn' h0).trans_lt hn) hm0 (exact_base he) hdiv
        (fun r hr => ?_), exact_apex he]
      · have e : (1 - z t.dim) * ∑ r ∈ range t.dim, M r * (z r / (1 - z t.dim)) = ∑ r ∈ range t.dim, M r * z r := by
          rw [mul_sum]
          exact sum_congr rfl fun r _ => by field_simp
        rw [mul_add, e]
        ring
      · obtain ⟨q', hq'⟩ := hq r (by simp only [Topo.dim]; omega)
        exact ⟨q', by rw [hq', h1]; field_simp⟩

end

end Verif.Image
