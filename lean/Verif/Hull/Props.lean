import Verif.Hull.Lemmas
import Verif.Affine.Props
import Mathlib.Analysis.Convex.Mul

/-! Property theorems: an element lies in the convex hull of its corners (C99). -/

namespace Verif.Hull

open Verif.Typ Verif.RefTopo Verif.RefGeom Verif.MatHelp Verif.MultiLinear Verif.Affine
open Finset

/-! ### Specification -/

/-- the corners, as points of the space of dimension `cdim` -/
def cornerSet (g : MultiLinearGeometry) : Set (Fin g.cdim → ℝ) := {p | ∃ i c, g.corner i = some c ∧ p = vec g.cdim c}

/-- the point is more than `tol` away from the tip wherever the element is a cone (distances relative to the section through the
point) -/
def TipsClear (tol : ℝ) : Nat → Nat → Vec ℝ → Prop
  | 0, _, _ => True
  | d + 1, id, x =>
    if d = 0 ∨ id.testBit d = true then TipsClear tol d (id % 2 ^ d) x
    else tol < 1 - x d ∧ TipsClear tol d (id % 2 ^ d) (fun r => x r / (1 - x d))

/-! ### MultiLinearGeometry -/

theorem away_of_clear {tol : ℝ} : ∀ (d id : Nat) (x : Vec ℝ), TipsClear tol d id x → Away tol (topoOf d id) x
  | 0, _, _, _ => trivial
  | d + 1, id, x, h => by
    rw [TipsClear] at h
    rw [topoOf]
    split
    · rename_i hb
      rw [if_pos hb] at h
      exact away_of_clear d _ x h
    · rename_i hb
      rw [if_neg hb] at h
      have hd : (topoOf d (id % 2 ^ d)).dim = d := (rep_topoOf d _).dim_eq
      rw [Away, hd]
      exact ⟨Or.inl h.1, away_of_clear d _ _ h.2⟩

theorem clear_cube (tol : ℝ) : ∀ (d id : Nat) (x : Vec ℝ), IsCubeId d id → TipsClear tol d id x
  | 0, _, _, _ => trivial
  | d + 1, i, x, h => by
    have hc : d = 0 ∨ i.testBit d = true := by
      rcases Nat.eq_zero_or_pos d with h0 | h0
      · exact Or.inl h0
      · exact Or.inr (h d h0 (by omega))
    rw [TipsClear, if_pos hc]
    refine clear_cube tol d _ x fun k h1 h2 => ?_
    rw [Nat.testBit_mod_two_pow, h k h1 (by omega)]; simp [h2]

theorem size_nv (d id : Nat) : refSize d id d = nv (topoOf d id) := by
  rw [refSize, size_eq (rep_topoOf _ _) _ (le_refl _), nv, (rep_topoOf d id).dim_eq]

/-- C99: shape functions.  For every type and every point of the closed reference element there are weights, the same for all
geometries, that are not negative and express `global` by the corners; their sum is at most one, at least `1 - tolerance`, and one
away from the tips. -/
theorem C99_shape_functions (d id : Nat) (hid : id < 2 ^ d) (tol : ℝ) (h0 : 0 < tol) (h1 : tol < 1) (x : Vec ℝ)
    (hx : x ∈ domain ℝ d id) :
    ∃ w : Nat → ℝ, (∀ k, 0 ≤ w k) ∧ 1 - tol ≤ ∑ k ∈ range (refSize d id d), w k ∧ ∑ k ∈ range (refSize d id d), w k ≤ 1 ∧
      (TipsClear tol d id x → ∑ k ∈ range (refSize d id d), w k = 1) ∧
      ∀ g : MultiLinearGeometry, g.mydim = d → g.id = id → g.tol = tol →
        ∀ j, g.global x j = ∑ k ∈ range (refSize d id d), w k * g.corners_ k j := by
  obtain ⟨w, a1, a2, a3, a4, a5⟩ := shape h0.le h1 (topoOf d id) x ((mem_domain (rep_topoOf d id) x (domain_zero hx)).1 hx)
  rw [size_nv]
  refine ⟨w, a1, a2, a3, fun h => a4 (away_of_clear d id x h), ?_⟩
  rintro g rfl rfl rfl j
  rw [MultiLinear.global_eq g hid, a5]

/-- C99, full statement: all points of the closed reference element are mapped into the convex hull of the corners. -/
def C99_hull_full : Prop := ∀ g : MultiLinearGeometry, Legal g → ∀ x ∈ domain ℝ g.mydim g.id,
  vec g.cdim (g.global x) ∈ convexHull ℝ (cornerSet g)

theorem mem_hull (g : MultiLinearGeometry) (w : Nat → ℝ) (h0 : ∀ k, 0 ≤ w k) (h1 : ∑ k ∈ range g.corners, w k = 1) (y : Vec ℝ)
    (hy : ∀ j, y j = ∑ k ∈ range g.corners, w k * g.corners_ k j) : vec g.cdim y ∈ convexHull ℝ (cornerSet g) := by
  have e : vec g.cdim y = ∑ k ∈ range g.corners, w k • vec g.cdim (g.corners_ k) := by
    funext j
    rw [Finset.sum_apply]
    simp only [vec, Pi.smul_apply, smul_eq_mul, hy]
  rw [e]
  refine (convex_convexHull ℝ _).sum_mem (fun k _ => h0 k) h1 fun k hk => subset_convexHull ℝ _ ⟨k, g.corners_ k, ?_, rfl⟩
  rw [MultiLinearGeometry.corner, if_pos (mem_range.1 hk)]

/-- C99: away from the tips, for every type.  Missing: points within the tolerance of a tip, where the code is wrong
(`C99_hull_counterexample`). -/
theorem C99_hull_partial (g : MultiLinearGeometry) (hg : Legal g) (x : Vec ℝ) (hx : x ∈ domain ℝ g.mydim g.id)
    (ht : TipsClear g.tol g.mydim g.id x) : vec g.cdim (g.global x) ∈ convexHull ℝ (cornerSet g) := by
  obtain ⟨w, a1, -, -, a4, a5⟩ := C99_shape_functions g.mydim g.id hg.id_lt g.tol hg.tol_pos hg.tol_lt x hx
  exact mem_hull g w a1 (a4 ht) _ (a5 g rfl rfl rfl)

/-- C99: cubes have no tips. -/
theorem C99_hull_cube (g : MultiLinearGeometry) (hg : Legal g) (hc : IsCubeId g.mydim g.id) (x : Vec ℝ)
    (hx : x ∈ domain ℝ g.mydim g.id) : vec g.cdim (g.global x) ∈ convexHull ℝ (cornerSet g) :=
  C99_hull_partial g hg x hx (clear_cube _ _ _ _ hc)

/-- C99: in any case the distance to the hull is at most the tolerance times the largest coordinate. -/
theorem C99_hull_closed (g : MultiLinearGeometry) (hg : Legal g) (C : ℝ)
    (hC : ∀ k j, k < g.corners → j < g.cdim → |g.corners_ k j| ≤ C) (x : Vec ℝ) (hx : x ∈ domain ℝ g.mydim g.id) :
    ∃ q ∈ convexHull ℝ (cornerSet g), ∀ j, |vec g.cdim (g.global x) j - q j| ≤ g.tol * C := by
  obtain ⟨w, a1, a2, a3, -, a5⟩ := C99_shape_functions g.mydim g.id hg.id_lt g.tol hg.tol_pos hg.tol_lt x hx
  change 1 - g.tol ≤ ∑ k ∈ range g.corners, w k at a2
  change ∑ k ∈ range g.corners, w k ≤ 1 at a3
  have a5 : ∀ j, g.global x j = ∑ k ∈ range g.corners, w k * g.corners_ k j := a5 g rfl rfl rfl
  set S := ∑ k ∈ range g.corners, w k with hS
  have hpos : 0 < S := by linarith [hg.tol_lt]
  have e : ∀ j, g.global x j / S = ∑ k ∈ range g.corners, w k / S * g.corners_ k j := by
    intro j
    rw [a5, sum_div]
    exact sum_congr rfl fun k _ => by ring
  refine ⟨vec g.cdim fun j => g.global x j / S, mem_hull g (fun k => w k / S) (fun k => div_nonneg (a1 k) hpos.le) ?_ _ e, fun j => ?_⟩
  · rw [← sum_div, ← hS, div_self hpos.ne']
  · change |g.global x j - g.global x j / S| ≤ _
    have hb : |g.global x j| ≤ S * C := by
      rw [a5, hS, sum_mul]
      refine (abs_sum_le_sum_abs _ _).trans (sum_le_sum fun k hk => ?_)
      rw [abs_mul, abs_of_nonneg (a1 k)]
      exact mul_le_mul_of_nonneg_left (hC k j (mem_range.1 hk) j.2) (a1 k)
    have hC0 : 0 ≤ C := by
      by_contra hn
      have := abs_nonneg (g.global x j)
      nlinarith
    rw [show g.global x j - g.global x j / S = -((1 - S) * (g.global x j / S)) by field_simp; ring, abs_neg, abs_mul,
      abs_of_nonneg (by linarith : 0 ≤ 1 - S), abs_div, abs_of_pos hpos]
    have h2 : |g.global x j| / S ≤ C := by rw [div_le_iff₀ hpos]; linarith
    calc (1 - S) * (|g.global x j| / S) ≤ (1 - S) * C := mul_le_mul_of_nonneg_left h2 (by linarith)
      _ ≤ g.tol * C := mul_le_mul_of_nonneg_right (by linarith) hC0

/-- C99: the bounding box of the corners contains the element, up to the tolerance near tips. -/
theorem C99_box (g : MultiLinearGeometry) (hg : Legal g) (j : Nat) (lo hi : ℝ)
    (hc : ∀ k, k < g.corners → lo ≤ g.corners_ k j ∧ g.corners_ k j ≤ hi) (x : Vec ℝ) (hx : x ∈ domain ℝ g.mydim g.id) :
    lo - g.tol * |lo| ≤ g.global x j ∧ g.global x j ≤ hi + g.tol * |hi| ∧
    (TipsClear g.tol g.mydim g.id x → lo ≤ g.global x j ∧ g.global x j ≤ hi) := by
  obtain ⟨w, a1, a2, a3, a4, a5⟩ := C99_shape_functions g.mydim g.id hg.id_lt g.tol hg.tol_pos hg.tol_lt x hx
  change 1 - g.tol ≤ ∑ k ∈ range g.corners, w k at a2
  change ∑ k ∈ range g.corners, w k ≤ 1 at a3
  change _ → ∑ k ∈ range g.corners, w k = 1 at a4
  have a5 : g.global x j = ∑ k ∈ range g.corners, w k * g.corners_ k j := a5 g rfl rfl rfl j
  set S := ∑ k ∈ range g.corners, w k with hS
  have b1 : S * lo ≤ g.global x j := by
    rw [a5, hS, sum_mul]
    exact sum_le_sum fun k hk => mul_le_mul_of_nonneg_left (hc k (mem_range.1 hk)).1 (a1 k)
  have b2 : g.global x j ≤ S * hi := by
    rw [a5, hS, sum_mul]
    exact sum_le_sum fun k hk => mul_le_mul_of_nonneg_left (hc k (mem_range.1 hk)).2 (a1 k)
  refine ⟨?_, ?_, fun ht => ?_⟩
  · have := le_abs_self lo
    nlinarith [abs_nonneg lo]
  · have := neg_abs_le hi
    nlinarith [abs_nonneg hi]
  · rw [a4 ht] at b1 b2
    constructor <;> linarith

/-- Jensen's inequality for squares -/
theorem sq_mean_le {ι : Type} (s : Finset ι) (p a : ι → ℝ) (h0 : ∀ i ∈ s, 0 ≤ p i) (h1 : ∑ i ∈ s, p i = 1) :
    (∑ i ∈ s, p i * a i) ^ 2 ≤ ∑ i ∈ s, p i * a i ^ 2 := by
  have := (even_two.convexOn_pow (𝕜 := ℝ)).map_sum_le (t := s) (w := p) (p := a) h0 h1 fun _ _ => Set.mem_univ _
  simpa [smul_eq_mul] using this

/-- C99: the diameter of the element is the largest distance of two corners. -/
theorem C99_diameter (g : MultiLinearGeometry) (hg : Legal g) (D : ℝ)
    (hD : ∀ k l, k < g.corners → l < g.corners → ∑ j ∈ range g.cdim, (g.corners_ k j - g.corners_ l j) ^ 2 ≤ D)
    (x y : Vec ℝ) (hx : x ∈ domain ℝ g.mydim g.id) (hy : y ∈ domain ℝ g.mydim g.id)
    (htx : TipsClear g.tol g.mydim g.id x) (hty : TipsClear g.tol g.mydim g.id y) :
    ∑ j ∈ range g.cdim, (g.global x j - g.global y j) ^ 2 ≤ D := by
  obtain ⟨w, a1, -, -, a4, a5⟩ := C99_shape_functions g.mydim g.id hg.id_lt g.tol hg.tol_pos hg.tol_lt x hx
  obtain ⟨v, b1, -, -, b4, b5⟩ := C99_shape_functions g.mydim g.id hg.id_lt g.tol hg.tol_pos hg.tol_lt y hy
  have a4 : ∑ k ∈ range g.corners, w k = 1 := a4 htx
  have b4 : ∑ k ∈ range g.corners, v k = 1 := b4 hty
  have a5 : ∀ j, g.global x j = ∑ k ∈ range g.corners, w k * g.corners_ k j := a5 g rfl rfl rfl
  have b5 : ∀ j, g.global y j = ∑ k ∈ range g.corners, v k * g.corners_ k j := b5 g rfl rfl rfl
  set n := g.corners
  have hsum : ∑ p ∈ range n ×ˢ range n, w p.1 * v p.2 = 1 := by
    rw [sum_product, ← sum_mul_sum, a4, b4, one_mul]
  have e : ∀ j, g.global x j - g.global y j =
      ∑ p ∈ range n ×ˢ range n, w p.1 * v p.2 * (g.corners_ p.1 j - g.corners_ p.2 j) := by
    intro j
    simp only [mul_sub, sum_sub_distrib]
    rw [sum_product, sum_product, a5, b5]
    congr 1
    · refine sum_congr rfl fun k _ => ?_
      rw [sum_congr rfl fun l _ => by rw [show w (k, l).1 * v (k, l).2 * g.corners_ (k, l).1 j = v l * (w k * g.corners_ k j) by ring],
        ← sum_mul, b4, one_mul]
    · rw [sum_comm]
      refine sum_congr rfl fun l _ => ?_
      rw [sum_congr rfl fun k _ => by rw [show w (k, l).1 * v (k, l).2 * g.corners_ (k, l).2 j = w k * (v l * g.corners_ l j) by ring],
        ← sum_mul, a4, one_mul]
  calc ∑ j ∈ range g.cdim, (g.global x j - g.global y j) ^ 2
      ≤ ∑ j ∈ range g.cdim, ∑ p ∈ range n ×ˢ range n, w p.1 * v p.2 * (g.corners_ p.1 j - g.corners_ p.2 j) ^ 2 := by
        refine sum_le_sum fun j _ => ?_
        rw [e]
        exact sq_mean_le _ _ _ (fun p _ => mul_nonneg (a1 _) (b1 _)) hsum
    _ = ∑ p ∈ range n ×ˢ range n, w p.1 * v p.2 * ∑ j ∈ range g.cdim, (g.corners_ p.1 j - g.corners_ p.2 j) ^ 2 := by
        rw [sum_comm]
        exact sum_congr rfl fun p _ => by rw [mul_sum]
    _ ≤ ∑ p ∈ range n ×ˢ range n, w p.1 * v p.2 * D := by
        refine sum_le_sum fun p hp => mul_le_mul_of_nonneg_left ?_ (mul_nonneg (a1 _) (b1 _))
        rw [mem_product, mem_range, mem_range] at hp
        exact hD _ _ hp.1 hp.2
    _ = D := by rw [← sum_mul, hsum, one_mul]

/-- a triangle away from the origin -/
def farTriangle (tol : ℝ) : MultiLinearGeometry where
  mydim := 2
  cdim := 2
  id := 0
  corners_ := fun k j => if k = 1 ∧ j = 0 ∨ k = 2 ∧ j = 1 then 2 else 1
  tol := tol

theorem farTriangle_legal {tol : ℝ} (h0 : 0 < tol) (h1 : tol < 1) : Legal (farTriangle tol) :=
  ⟨by norm_num [farTriangle], h0, h1⟩

theorem farTriangle_corners (tol : ℝ) : (farTriangle tol).corners = 3 := by
  change refSize 2 0 2 = 3
  decide

/-- C99: next to the tip of a triangle, for every tolerance: the point is mapped out of the triangle. -/
theorem C99_tip (tol : ℝ) (h0 : 0 < tol) (h1 : tol < 1) :
    (fun k => if k = 1 then 1 - tol else 0) ∈ domain ℝ (farTriangle tol).mydim (farTriangle tol).id ∧
    (farTriangle tol).global (fun k => if k = 1 then 1 - tol else 0) 0 = 1 - tol ∧
    (∀ k, k < (farTriangle tol).corners → 1 ≤ (farTriangle tol).corners_ k 0) := by
  have ht : topoOf 2 0 = .pyr (.prism .pt) := by decide
  refine ⟨?_, ?_, fun k _ => ?_⟩
  · change _ ∈ domain ℝ 2 0
    rw [mem_domain (rep_topoOf 2 0) _ (fun k hk => if_neg (by omega)), ht]
    refine ⟨?_, ?_, ?_, ?_, trivial⟩ <;> norm_num [Topo.dim] <;> linarith
  · rw [MultiLinear.global_eq _ (farTriangle_legal h0 h1).id_lt]
    change ML tol (topoOf 2 0) _ _ = _
    rw [ht, ML_pyr_near]
    · have hnv : nv (.prism .pt) = 2 := rfl
      simp [Topo.dim, hnv, farTriangle]
    · simp only [Topo.dim, far]
      norm_num
      linarith
  · simp only [farTriangle]
    split <;> norm_num

/-- C99: the full statement is wrong. -/
theorem C99_hull_counterexample : ¬ C99_hull_full := by
  intro h
  obtain ⟨a1, a2, a3⟩ := C99_tip (1 / 2) (by norm_num) (by norm_num)
  have := h (farTriangle (1 / 2)) (farTriangle_legal (by norm_num) (by norm_num)) _ a1
  have hs : convexHull ℝ (cornerSet (farTriangle (1 / 2))) ⊆ {p | (1 : ℝ) ≤ p ⟨0, by norm_num [farTriangle]⟩} := by
    refine convexHull_min ?_ ?_
    · rintro p ⟨i, c, hc, rfl⟩
      rw [MultiLinearGeometry.corner] at hc
      split at hc
      · rename_i hi
        obtain rfl := Option.some.inj hc
        exact a3 i hi
      · cases hc
    · intro p hp q hq a b ha hb hab
      simp only [Set.mem_ofPred_eq, Pi.add_apply, Pi.smul_apply, smul_eq_mul] at hp hq ⊢
      nlinarith
  have := hs this
  simp only [Set.mem_ofPred_eq, vec] at this
  rw [a2] at this
  norm_num at this

/-- a pyramid with a bent base and a point of it that is neither on the base nor at the tip -/
example : Legal samplePyramid ∧ (fun k => if k < 3 then 1 / 4 else 0) ∈ domain ℝ samplePyramid.mydim samplePyramid.id ∧
    TipsClear samplePyramid.tol samplePyramid.mydim samplePyramid.id (fun k => if k < 3 then 1 / 4 else 0) := by
  refine ⟨samplePyramid_legal, ?_, ?_⟩
  · rw [mem_domain (rep_topoOf _ _) _ (fun k hk => if_neg (by change 3 ≤ k at hk; omega))]
    have : topoOf samplePyramid.mydim samplePyramid.id = .pyr (.prism (.prism .pt)) := by decide
    rw [this]
    refine ⟨?_, ?_, ?_, ?_, ?_, ?_, trivial⟩ <;> norm_num [Topo.dim]
  · have h1 : ¬ (2 = 0 ∨ (3 : Nat).testBit 2 = true) := by decide
    have h2 : 1 = 0 ∨ (3 % 2 ^ 2 : Nat).testBit 1 = true := by decide
    change TipsClear (1 / 1000) 3 3 _
    rw [TipsClear, if_neg h1, TipsClear, if_pos h2, TipsClear, if_pos (Or.inl rfl), TipsClear]
    norm_num

/-! ### AffineGeometry -/

/-- the corners of an affine geometry -/
def affineCorners (g : AffineGeometry) : Set (Fin g.cdim → ℝ) := {p | ∃ i c, g.corner i = some c ∧ p = vec g.cdim c}

/-- C99: affine geometries of any type, in any space: the image of the reference element is the convex hull of the corners. -/
theorem C99_affine (g : AffineGeometry) :
    (fun x => vec g.cdim (g.global x)) '' domain ℝ g.mydim g.id = convexHull ℝ (affineCorners g) := by
  let L : Vec ℝ →ₗ[ℝ] (Fin g.cdim → ℝ) :=
    { toFun := fun x j => ∑ i ∈ range g.mydim, g.jt i j * x i
      map_add' := fun x y => by funext j; simp only [Pi.add_apply, mul_add, sum_add_distrib]
      map_smul' := fun a x => by
        funext j
        simp only [Pi.smul_apply, smul_eq_mul, RingHom.id_apply, mul_sum]
        exact sum_congr rfl fun i _ => by ring }
  have e : (fun x => vec g.cdim (g.global x)) = ⇑(L.toAffineMap + AffineMap.const ℝ (Vec ℝ) (vec g.cdim g.origin)) := by
    funext x j
    simp only [vec, AffineGeometry.global, addLoop_eq, AffineMap.add_linear, AffineMap.coe_add, Pi.add_apply, LinearMap.coe_toAffineMap,
      AffineMap.const_apply, ← range_eq_Ico]
    exact add_comm _ _
  rw [e, domain, AffineMap.image_convexHull, ← e]
  congr 1
  ext p
  simp only [Set.mem_image, Set.mem_ofPred_eq, affineCorners, AffineGeometry.corner, C21_vertex, Option.map_eq_some_iff]
  constructor
  · rintro ⟨c, hc, rfl⟩
    obtain ⟨i, hi⟩ := List.getElem?_of_mem hc
    exact ⟨i, _, ⟨c, hi, rfl⟩, rfl⟩
  · rintro ⟨i, _, ⟨c, hc, rfl⟩, rfl⟩
    exact ⟨c, List.mem_of_getElem? hc, rfl⟩

/-- the triangle with corners (1,1), (3,1), (1,2) -/
example : ∃ g : AffineGeometry, AffineGeometry.ofJacobian 2 2 0 (fun _ => 1) (fun i j => if i = 0 ∧ j = 0 then 2 else if i = 1 ∧ j = 1 then 1 else 0) =
    some g ∧ (fun j : Fin 2 => if j = 0 then (1 : ℝ) else 3 / 2) ∈ (fun x (j : Fin 2) => g.global x j) '' domain ℝ 2 0 := by
  have hli : LinearIndependent ℝ (mat 2 2 (fun i j => if i = 0 ∧ j = 0 then (2 : ℝ) else if i = 1 ∧ j = 1 then 1 else 0)).row := by
    rw [Matrix.linearIndependent_rows_iff_isUnit, Matrix.isUnit_iff_isUnit_det, isUnit_iff_ne_zero, Matrix.det_fin_two]
    norm_num [mat]
  obtain ⟨g, hg⟩ := (C28_constructible 2 2 0 (fun _ => 1) _ (le_refl _)).2 hli
  refine ⟨g, hg, fun k => if k = 1 then 1 / 2 else 0, ?_, ?_⟩
  · rw [mem_domain (rep_topoOf 2 0) _ (fun k hk => if_neg (by omega))]
    have ht : topoOf 2 0 = .pyr (.prism .pt) := by decide
    rw [ht]
    refine ⟨?_, ?_, ?_, ?_, trivial⟩ <;> norm_num [Topo.dim]
  · funext j
    beta_reduce
    rw [C28_global 2 2 0 _ _ (le_refl _) g hg]
    fin_cases j <;> norm_num [sum_range_succ]

end Verif.Hull
