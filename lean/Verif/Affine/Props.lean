import Verif.Affine.Lemmas

/-!
Properties C28 and C29 of AffineGeometry.

`vec`, `mat` read Mathlib vectors and matrices off the C++ arrays, `corner d id k` is the k-th corner of the
reference element, `domain` its closed domain.
-/

namespace Verif.Affine

open Verif.RefGeom Verif.MatHelp Verif.RefTopo Verif.Typ Finset
open Matrix hiding vec

/-! ### C28 -/

/-- C28: construction succeeds exactly for Jacobians of full rank -/
theorem C28_constructible (m n id : Nat) (o : Vec ℝ) (jt : Mat ℝ) (hmn : m ≤ n) :
    (∃ g, AffineGeometry.ofJacobian m n id o jt = some g) ↔ LinearIndependent ℝ (mat m n jt).row := by
  constructor
  · rintro ⟨g, hg⟩
    by_contra h
    rw [ofJacobian_none hmn h] at hg
    simp at hg
  · intro h
    obtain ⟨g, hg, _⟩ := ofJacobian_eq (id := id) (o := o) hmn h
    exact ⟨g, hg⟩

/-- C28: `global` is the affine map -/
theorem C28_global (m n id : Nat) (o : Vec ℝ) (jt : Mat ℝ) (hmn : m ≤ n) (g : AffineGeometry)
    (hg : AffineGeometry.ofJacobian m n id o jt = some g) (x : Vec ℝ) (j : Nat) :
    g.global x j = o j + ∑ i ∈ range m, jt i j * x i := by
  obtain ⟨rfl, rfl, rfl, rfl, rfl, h⟩ := ofJacobian_good hmn hg
  rw [AffineGeometry.global, addLoop_eq, range_eq_Ico]

/-- C28: `local` inverts `global` -/
theorem C28_local_global (m n id : Nat) (o : Vec ℝ) (jt : Mat ℝ) (hmn : m ≤ n) (g : AffineGeometry)
    (hg : AffineGeometry.ofJacobian m n id o jt = some g) (x : Vec ℝ) :
    vec m (g.local_ (g.global x)) = vec m x := by
  obtain ⟨rfl, rfl, rfl, rfl, rfl, h⟩ := ofJacobian_good hmn hg
  rw [local_eq, global_eq, add_sub_cancel_left, mulVec_mulVec, ← transpose_mul, h.right_inv, transpose_one, one_mulVec]

/-- C28: `global(local(y))` is the orthogonal projection: the difference to `y` is orthogonal to every tangent (row of
the transposed Jacobian), and no point of the image is closer to `y` -/
theorem C28_projection (m n id : Nat) (o : Vec ℝ) (jt : Mat ℝ) (hmn : m ≤ n) (g : AffineGeometry)
    (hg : AffineGeometry.ofJacobian m n id o jt = some g) (y : Vec ℝ) :
    (∀ i, i < m → ∑ j ∈ range n, jt i j * (g.global (g.local_ y) j - y j) = 0) ∧
    ∀ x : Vec ℝ, ∑ j ∈ range n, (g.global (g.local_ y) j - y j) ^ 2 ≤ ∑ j ∈ range n, (g.global x j - y j) ^ 2 := by
  obtain ⟨rfl, rfl, rfl, rfl, rfl, h⟩ := ofJacobian_good hmn hg
  have ho := h.orthogonal y
  constructor
  · intro i hi
    have := congrFun ho ⟨i, hi⟩
    rw [mulVec, dotProduct] at this
    rw [← sum_fin g.cdim fun j => g.jt i j * (g.global (g.local_ y) j - y j)]
    exact this
  · intro x
    have hl := least_squares (mat g.mydim g.cdim g.jt)ᵀ (vec g.cdim y - vec g.cdim g.origin)
      (vec g.mydim (g.local_ y)) (by
        rw [transpose_transpose]
        have e : (mat g.mydim g.cdim g.jt)ᵀ *ᵥ vec g.mydim (g.local_ y) - (vec g.cdim y - vec g.cdim g.origin) =
          vec g.cdim (g.global (g.local_ y)) - vec g.cdim y := by rw [global_eq]; abel
        rw [e]; exact ho) (vec g.mydim x)
    have e : ∀ z : Vec ℝ, ∑ j ∈ range g.cdim, (g.global z j - y j) ^ 2 =
        ((mat g.mydim g.cdim g.jt)ᵀ *ᵥ vec g.mydim z - (vec g.cdim y - vec g.cdim g.origin)) ⬝ᵥ
        ((mat g.mydim g.cdim g.jt)ᵀ *ᵥ vec g.mydim z - (vec g.cdim y - vec g.cdim g.origin)) := by
      intro z
      have e : (mat g.mydim g.cdim g.jt)ᵀ *ᵥ vec g.mydim z - (vec g.cdim y - vec g.cdim g.origin) =
          vec g.cdim (g.global z) - vec g.cdim y := by rw [global_eq]; abel
      rw [e, dotProduct, ← sum_fin g.cdim fun j => (g.global z j - y j) ^ 2]
      exact sum_congr rfl fun j _ => pow_two _
    rw [e, e]
    exact hl

/-- C28: points of the image are reproduced -/
theorem C28_global_local (m n id : Nat) (o : Vec ℝ) (jt : Mat ℝ) (hmn : m ≤ n) (g : AffineGeometry)
    (hg : AffineGeometry.ofJacobian m n id o jt = some g) (x y : Vec ℝ) (hy : vec n y = vec n (g.global x)) :
    vec n (g.global (g.local_ y)) = vec n y := by
  obtain ⟨rfl, rfl, rfl, rfl, rfl, h⟩ := ofJacobian_good hmn hg
  have e : vec g.mydim (g.local_ y) = vec g.mydim x := by
    rw [local_eq, hy, ← local_eq, C28_local_global _ _ _ _ _ hmn g hg]
  rw [global_eq, e, ← global_eq, hy]

/-- C28: `corner(i)` is the image of the i-th reference corner, `center()` of the mean of the reference corners -/
theorem C28_corner_center (m n id : Nat) (o : Vec ℝ) (jt : Mat ℝ) (hmn : m ≤ n) (hid : id < 2 ^ m)
    (g : AffineGeometry) (hg : AffineGeometry.ofJacobian m n id o jt = some g) :
    g.corners = refSize m id m ∧
    (∀ i, i < g.corners → g.corner i = some (g.global (corner m id i))) ∧
    ∃ b : Vec ℝ, g.center = some (g.global b) ∧
      ∀ r, (g.corners : ℝ) * b r = ∑ k ∈ range g.corners, corner m id k r := by
  obtain ⟨rfl, rfl, rfl, rfl, rfl, h⟩ := ofJacobian_good hmn hg
  refine ⟨rfl, fun i hi => ?_, ?_⟩
  · rw [AffineGeometry.corner, C21_vertex, corner, List.getD_eq_getElem?_getD]
    have : i < (referenceCorners (K := ℝ) g.mydim g.id).length := by rw [C17_count]; exact hi
    rw [List.getElem?_eq_getElem this]; rfl
  · have h0 : 0 < refSize g.mydim g.id 0 := by
      rw [refSize, size_eq (rep_topoOf g.mydim g.id) 0 (Nat.zero_le _)]
      exact Topo.sz_pos _ _ (Nat.zero_le _)
    obtain ⟨p, h1, h2⟩ := C21_mean (K := ℝ) g.mydim g.id 0 0 hid (Nat.zero_le _) h0
    refine ⟨p, by rw [AffineGeometry.center, h1]; rfl, fun r => ?_⟩
    have hpos : 0 < refSize g.mydim g.id g.mydim := by
      rw [refSize, size_eq (rep_topoOf g.mydim g.id) g.mydim (le_refl _)]
      exact Topo.sz_pos _ _ (by rw [(rep_topoOf g.mydim g.id).dim_eq])
    have hsz := (C13_whole g.mydim g.id 0 g.mydim hid (le_refl _) hpos).2
    have h3 := h2 r
    rw [hsz] at h3
    change (refSize g.mydim g.id g.mydim : ℝ) * p r = ∑ k ∈ range (refSize g.mydim g.id g.mydim), _
    rw [h3]
    have hr := C15_range g.mydim g.id 0 0 g.mydim hid (Nat.zero_le _) (le_refl _) h0
    rw [hsz] at hr
    have : subEntities g.mydim g.id 0 0 g.mydim = List.range (refSize g.mydim g.id g.mydim) := by
      apply List.ext_getElem?
      intro k
      by_cases hk : k < refSize g.mydim g.id g.mydim
      · rw [hr.2 k hk, (C13_whole g.mydim g.id k g.mydim hid (le_refl _) hk).1, List.getElem?_range hk]
      · rw [List.getElem?_eq_none (by rw [hr.1]; omega), List.getElem?_eq_none (by rw [List.length_range]; omega)]
    rw [this]
    generalize refSize g.mydim g.id g.mydim = n
    induction n with
    | zero => rfl
    | succ n ih => rw [List.range_succ, List.map_append, List.sum_append, ih, sum_range_succ]; simp

/-- the line from (1,1) to (4,5) -/
example : ∃ g, AffineGeometry.ofJacobian 1 2 0 (fun _ => 1) sampleRow = some g :=
  (C28_constructible 1 2 0 _ _ (by norm_num)).2 sampleRow_li

/-! ### C29 -/

/-- C29: the four Jacobian methods are transposes and one-sided inverses of each other -/
theorem C29_jacobians (m n id : Nat) (o : Vec ℝ) (jt : Mat ℝ) (hmn : m ≤ n) (g : AffineGeometry)
    (hg : AffineGeometry.ofJacobian m n id o jt = some g) :
    mat m n g.jacobianTransposed = mat m n jt ∧
    mat n m g.jacobian = (mat m n g.jacobianTransposed)ᵀ ∧
    mat m n g.jacobianInverse = (mat n m g.jacobianInverseTransposed)ᵀ ∧
    mat m n g.jacobianInverse * mat n m g.jacobian = 1 ∧
    mat m n g.jacobianTransposed * mat n m g.jacobianInverseTransposed = 1 := by
  obtain ⟨rfl, rfl, rfl, rfl, rfl, h⟩ := ofJacobian_good hmn hg
  have hr := h.right_inv
  refine ⟨rfl, rfl, rfl, ?_, hr⟩
  change (mat g.cdim g.mydim g.jit)ᵀ * (mat g.mydim g.cdim g.jt)ᵀ = 1
  rw [← transpose_mul, hr, transpose_one]

/-- C29: the Jacobian is the derivative: differences of images are the Jacobian applied to the difference -/
theorem C29_derivative (m n id : Nat) (o : Vec ℝ) (jt : Mat ℝ) (hmn : m ≤ n) (g : AffineGeometry)
    (hg : AffineGeometry.ofJacobian m n id o jt = some g) (x y : Vec ℝ) :
    vec n (g.global y) - vec n (g.global x) = mat n m g.jacobian *ᵥ (vec m y - vec m x) := by
  obtain ⟨rfl, rfl, rfl, rfl, rfl, h⟩ := ofJacobian_good hmn hg
  change _ = (mat g.mydim g.cdim g.jt)ᵀ *ᵥ _
  rw [global_eq, global_eq, mulVec_sub]; abel

/-- C29: integration element `sqrt(det(JᵀJ))`, positive; the volume is its product with the reference volume -/
theorem C29_integrationElement (m n id : Nat) (o : Vec ℝ) (jt : Mat ℝ) (hmn : m ≤ n) (g : AffineGeometry)
    (hg : AffineGeometry.ofJacobian m n id o jt = some g) :
    g.integrationElement = Real.sqrt ((mat n m g.jacobian)ᵀ * mat n m g.jacobian).det ∧
    0 < g.integrationElement ∧ g.volume = g.integrationElement * referenceVolume m id := by
  obtain ⟨rfl, rfl, rfl, rfl, rfl, h⟩ := ofJacobian_good hmn hg
  refine ⟨h.det, ?_, rfl⟩
  rw [h.det, Real.sqrt_pos]
  exact ((aat_posDef_iff _).2 h.li).det_pos

open MeasureTheory in
/-- C29: in full dimension the volume is the Lebesgue measure of the image of the reference element (up to dimension
13, see C19) -/
theorem C29_volume_lebesgue (m id : Nat) (o : Vec ℝ) (jt : Mat ℝ) (g : AffineGeometry) (hm : m ≤ 13)
    (hg : AffineGeometry.ofJacobian m m id o jt = some g) :
    volume ((fun x : Fin m → ℝ => vec m (g.global (ext x))) '' {x | ext x ∈ domain ℝ m id}) =
      ENNReal.ofReal g.volume := by
  obtain ⟨h1, h2, h3, h4, h5, h⟩ := ofJacobian_good (le_refl m) hg
  obtain ⟨m0, m', id', o', jt', jit, ie⟩ := g
  simp only at h1 h2 h3 h4 h5
  subst h1; subst h2; subst h3; subst h4; subst h5
  have hie : ie = |(mat m' m' jt').det| := by
    refine h.det.trans ?_
    rw [det_mul, det_transpose, Real.sqrt_mul_self_eq_abs]
  have hf : (fun x : Fin m' → ℝ => vec m' (AffineGeometry.global ⟨m', m', id', o', jt', jit, ie⟩ (ext x))) =
      (fun z => vec m' o' + z) ∘ (Matrix.toLin' (mat m' m' jt')ᵀ) := by
    funext x
    have e := global_eq ⟨m', m', id', o', jt', jit, ie⟩ (ext x)
    simp only at e
    rw [e]
    simp only [Function.comp, toLin'_apply]
    congr 2
    funext i
    simp [vec, RefGeom.ext]
  rw [hf, Set.image_comp, Set.image_add_left, measure_preimage_add, Measure.addHaar_image_linearMap,
    LinearMap.det_toLin', det_transpose, C19_lebesgue_partial m' id' hm, AffineGeometry.volume]
  simp only
  rw [hie, ENNReal.ofReal_mul (abs_nonneg _)]

/-! #### Construction from corners -/

/-- the corners of the image of the reference element under `x ↦ o + jtᵀ x` -/
noncomputable def images (m id : Nat) (o : Vec ℝ) (jt : Mat ℝ) : List (Vec ℝ) :=
  (List.range (refSize m id m)).map fun k j => o j + ∑ i ∈ range m, jt i j * corner m id k i

/-- C29 as stated: constructing from the corners of an affine image is the same as constructing from the Jacobian,
for every type -/
def C29_corners_full : Prop := ∀ (m n id : Nat) (o : Vec ℝ) (jt : Mat ℝ), m ≤ n → id < 2 ^ m →
  LinearIndependent ℝ (mat m n jt).row →
  AffineGeometry.ofCorners m n id (images m id o jt) = AffineGeometry.ofJacobian m n id o jt

theorem mapM_range {β : Type} (n : Nat) (F : Nat → Option β) (G : Nat → β) (h : ∀ i, i < n → F i = some (G i)) :
    (List.range n).mapM F = some ((List.range n).map G) :=
  mapM_some _ _ _ fun a ha => h a (List.mem_range.1 ha)

theorem corner_zero (m id : Nat) : corner (K := ℝ) m id 0 = fun _ => 0 := by
  obtain ⟨v, h1, h2, h3⟩ := first_vertex (K := ℝ) (topoOf m id)
  have hr := rep_topoOf m id
  have := corner_eq_face (K := ℝ) hr v (by rw [h1, hr.dim_eq])
  rw [h2, h3] at this
  exact this

/-- what the constructor does with the corners -/
theorem ofCorners_rows (m n id : Nat) (o : Vec ℝ) (jt jt' : Mat ℝ) (hm : m < refSize m id m)
    (hrow : ∀ i, i < m → ∀ j, jt' i j = ∑ k ∈ range m, jt k j * corner m id (i + 1) k)
    (hz : ∀ i, m ≤ i → ∀ j, jt' i j = 0) :
    AffineGeometry.ofCorners m n id (images m id o jt) = AffineGeometry.ofJacobian m n id o jt' := by
  have h0 : (images m id o jt)[0]? = some o := by
    rw [images, List.getElem?_map, List.getElem?_range (by omega)]
    simp [corner_zero]
  have hi : ∀ i, i < m → (images m id o jt)[i + 1]? = some (fun j => o j + ∑ k ∈ range m, jt k j * corner m id (i + 1) k) := by
    intro i hi
    rw [images, List.getElem?_map, List.getElem?_range (by omega)]; rfl
  have hmap := mapM_range m (fun i => do
      let c ← (images m id o jt)[i + 1]?
      return fun j => c j - o j) (fun i => jt' i) (by
    intro i him
    rw [hi i him]
    simp only [Option.pure_def, Option.bind_eq_bind, Option.bind_some]
    congr 1
    funext j
    rw [hrow i him j]; ring)
  have hjt : (fun i => ((List.range m).map fun i => jt' i).getD i (fun _ => 0)) = jt' := by
    funext i
    rw [List.getD_eq_getElem?_getD, List.getElem?_map]
    by_cases him : i < m
    · rw [List.getElem?_range him]; rfl
    · rw [List.getElem?_eq_none (by rw [List.length_range]; omega)]
      funext j
      exact (hz i (by omega) j).symm
  simp only [AffineGeometry.ofCorners, AffineGeometry.ofJacobian]
  rw [h0]
  simp only [Option.bind_eq_bind, Option.bind_some]
  simp only [Option.bind_eq_bind] at hmap
  rw [hmap]
  simp only [Option.bind_some]
  rw [hjt]

/-- C29 for every type whose corners 1,…,m are the unit vectors (entries of `jt` past row `m` are never read; they are
zero here so that the two records are equal) -/
theorem C29_corners_partial (m n id : Nat) (o : Vec ℝ) (jt : Mat ℝ) (hz : ∀ i, m ≤ i → ∀ j, jt i j = 0)
    (hsz : m < refSize m id m)
    (hunit : ∀ i, i < m → ∀ k, k < m → corner (K := ℝ) m id (i + 1) k = if k = i then 1 else 0) :
    AffineGeometry.ofCorners m n id (images m id o jt) = AffineGeometry.ofJacobian m n id o jt := by
  apply ofCorners_rows m n id o jt jt hsz _ hz
  intro i hi j
  rw [sum_congr rfl fun k hk => by rw [hunit i hi k (mem_range.1 hk)]]
  simp [hi]

/-- C29: this covers simplices of every dimension -/
theorem C29_corners_simplex (m n id : Nat) (o : Vec ℝ) (jt : Mat ℝ) (hz : ∀ i, m ≤ i → ∀ j, jt i j = 0)
    (hs : IsSimplexId m id) :
    AffineGeometry.ofCorners m n id (images m id o jt) = AffineGeometry.ofJacobian m n id o jt := by
  have hc := C17_simplex (K := ℝ) m id hs
  apply C29_corners_partial m n id o jt hz
  · rw [← C17_count (K := ℝ), hc]; simp
  · intro i hi k _
    rw [corner, hc, List.getD_eq_getElem?_getD, List.getElem?_cons_succ, List.getElem?_map, List.getElem?_range hi]
    rfl

/-- C29: it covers every type up to dimension 2 and the prism -/
theorem C29_corners_low (m n id : Nat) (o : Vec ℝ) (jt : Mat ℝ) (hz : ∀ i, m ≤ i → ∀ j, jt i j = 0)
    (hs : m ≤ 2 ∧ id < 2 ^ m ∨ m = 3 ∧ (id = 4 ∨ id = 5)) :
    AffineGeometry.ofCorners m n id (images m id o jt) = AffineGeometry.ofJacobian m n id o jt := by
  have : (m = 0 ∧ id = 0) ∨ (m = 1 ∧ id = 0) ∨ (m = 1 ∧ id = 1) ∨ (m = 2 ∧ id = 0) ∨ (m = 2 ∧ id = 1) ∨
      (m = 2 ∧ id = 2) ∨ (m = 2 ∧ id = 3) ∨ (m = 3 ∧ id = 4) ∨ (m = 3 ∧ id = 5) := by
    rcases hs with ⟨h1, h2⟩ | ⟨rfl, h⟩
    · have : m = 0 ∨ m = 1 ∨ m = 2 := by omega
      rcases this with rfl | rfl | rfl <;> omega
    · omega
  apply C29_corners_partial m n id o jt hz
  · rcases this with ⟨rfl, rfl⟩ | ⟨rfl, rfl⟩ | ⟨rfl, rfl⟩ | ⟨rfl, rfl⟩ | ⟨rfl, rfl⟩ | ⟨rfl, rfl⟩ | ⟨rfl, rfl⟩ | ⟨rfl, rfl⟩ | ⟨rfl, rfl⟩ <;> decide
  · intro i hi k hk
    have h3 : i = 0 ∨ i = 1 ∨ i = 2 := by omega
    have h4 : k = 0 ∨ k = 1 ∨ k = 2 := by omega
    rcases this with ⟨rfl, rfl⟩ | ⟨rfl, rfl⟩ | ⟨rfl, rfl⟩ | ⟨rfl, rfl⟩ | ⟨rfl, rfl⟩ | ⟨rfl, rfl⟩ | ⟨rfl, rfl⟩ | ⟨rfl, rfl⟩ | ⟨rfl, rfl⟩ <;>
    rcases h3 with rfl | rfl | rfl <;> rcases h4 with rfl | rfl | rfl <;>
      first
      | omega
      | simp [corner, referenceCorners, implIsPrism, implBaseTopologyId, setV]

/-- C29 fails for the cube in dimension 3: corner 3 is (1,1,0), not the third unit vector, and the constructor reads
the third row of the Jacobian off it.  For the unit cube the rows are linearly dependent and construction aborts. -/
theorem C29_corners_counterexample : ¬ C29_corners_full := by
  intro h
  have hli : LinearIndependent ℝ (mat 3 3 (fun i j => if i = j ∧ i < 3 then (1 : ℝ) else 0)).row := by
    have : mat 3 3 (fun i j => if i = j ∧ i < 3 then (1 : ℝ) else 0) = 1 := by
      ext i j
      have := i.2
      simp [mat, Matrix.one_apply, Fin.ext_iff]
    rw [this, ← aat_posDef_iff, transpose_one, Matrix.one_mul]
    exact PosDef.one
  have h1 := h 3 3 7 (fun _ => 0) (fun i j => if i = j ∧ i < 3 then 1 else 0) (le_refl _) (by norm_num) hli
  rw [ofCorners_rows 3 3 7 (fun _ => 0) _ (fun i j => if i = 0 ∧ j = 0 then 1 else if i = 1 ∧ j = 1 then 1
    else if i = 2 ∧ j = 0 then 1 else if i = 2 ∧ j = 1 then 1 else 0) (by decide), ofJacobian_none (le_refl _)] at h1
  · obtain ⟨g, hg⟩ := (C28_constructible 3 3 7 (fun _ => 0) _ (le_refl _)).2 hli
    rw [hg] at h1
    simp at h1
  · rw [← aat_posDef_iff]
    intro hp
    have := hp.det_pos
    rw [det_mul, det_transpose, det_fin_three] at this
    simp [mat] at this
  · intro i hi j
    have h3 : i = 0 ∨ i = 1 ∨ i = 2 := by omega
    rcases h3 with rfl | rfl | rfl
    · simp [corner, referenceCorners, implIsPrism, implBaseTopologyId, setV, sum_range_succ]
      by_cases hj : j = 0
      · simp [hj]
      · simp [hj, Ne.symm hj]
    · simp [corner, referenceCorners, implIsPrism, implBaseTopologyId, setV, sum_range_succ]
      by_cases hj : j = 1
      · simp [hj]
      · simp [hj, Ne.symm hj]
    · simp [corner, referenceCorners, implIsPrism, implBaseTopologyId, setV, sum_range_succ]
      rcases Nat.lt_or_ge 1 j with hj | hj
      · have h0 : j ≠ 0 := by omega
        have h1 : j ≠ 1 := by omega
        simp [h0, h1, Ne.symm h0, Ne.symm h1]
      · have : j = 0 ∨ j = 1 := by omega
        rcases this with rfl | rfl <;> simp
  · intro i hi j
    have h0 : i ≠ 0 := by omega
    have h1 : i ≠ 1 := by omega
    have h2 : i ≠ 2 := by omega
    simp [h0, h1, h2]

example : IsSimplexId 3 0 ∧ 3 < refSize 3 0 3 := by
  refine ⟨?_, by decide⟩
  intro k _ _; exact Nat.zero_testBit k

end Verif.Affine
