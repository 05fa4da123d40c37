import Verif.Lfe.Model
import Verif.Mapped.Props
import Verif.Affine.Props
import Mathlib.Analysis.Calculus.FDeriv.Add
import Mathlib.Analysis.Calculus.FDeriv.Mul

/-! Property C38: LocalFiniteElementGeometry. -/

namespace Verif.Lfe

open Verif.RefGeom Verif.MatHelp Verif.GaussNewton Verif.Typ Verif.RefTopo Verif.Mapped Verif.Affine Finset
open Matrix hiding vec
open LFEGeometry

noncomputable section

variable {m n N : Nat}

/-! ### specification -/

/-- the finite element evaluates the functions `ψ`, with gradients `dψ` -/
structure Evaluates (fe : LocalFE m) (ψ : Fin N → (Fin m → ℝ) → ℝ) (dψ : Fin N → (Fin m → ℝ) → (Fin m → ℝ)) : Prop where
  size : fe.size = N
  fn : ∀ x, fe.evaluateFunction x = List.ofFn fun i => ψ i x
  jac : ∀ x, fe.evaluateJacobian x = List.ofFn fun i => dψ i x

/-- the finite element function with coefficients `v` -/
def combination (ψ : Fin N → (Fin m → ℝ) → ℝ) (v : Fin N → (Fin n → ℝ)) (x : Fin m → ℝ) : Fin n → ℝ :=
  ∑ i, ψ i x • v i

/-- `v ↦ w ⬝ v` -/
def dotL (w : Fin m → ℝ) : (Fin m → ℝ) →L[ℝ] ℝ := ∑ r, w r • ContinuousLinearMap.proj r

theorem dotL_apply (w v : Fin m → ℝ) : dotL w v = w ⬝ᵥ v := by
  rw [dotL, _root_.sum_apply, dotProduct]
  exact sum_congr rfl fun r _ => rfl

/-! ### helper lemmas -/

theorem zip_ofFn {α β : Type} (a : Fin N → α) (b : Fin N → β) :
    List.zip (List.ofFn a) (List.ofFn b) = List.ofFn fun i => (a i, b i) := by
  refine List.ext_getElem (by simp) fun i h1 h2 => ?_
  simp

theorem foldl_ofFn {α : Type} (F : Fin N → α) (c : α → ℝ) (init : ℝ) :
    (List.ofFn F).foldl (fun s a => s + c a) init = init + ∑ i, c (F i) := by
  have : ∀ (l : List α) (s : ℝ), l.foldl (fun s a => s + c a) s = s + (l.map c).sum := by
    intro l
    induction l with
    | nil => intro s; simp
    | cons a l ih => intro s; rw [List.foldl_cons, ih, List.map_cons, List.sum_cons, add_assoc]
  rw [this, List.map_ofFn, List.sum_ofFn]
  rfl

theorem foldl_point {α : Type} (l : List α) (c : α → Fin n → ℝ) (init : Fin n → ℝ) (j : Fin n) :
    (l.foldl (fun s a => fun j => s j + c a j) init) j = l.foldl (fun s a => s + c a j) (init j) := by
  induction l generalizing init with
  | nil => rfl
  | cons a l ih => rw [List.foldl_cons, List.foldl_cons, ih]

theorem foldl_point2 {α : Type} (l : List α) (c : α → Nat → Nat → ℝ) (init : Mat ℝ) (j k : Nat) :
    (l.foldl (fun s a => fun j k => s j k + c a j k) init) j k = l.foldl (fun s a => s + c a j k) (init j k) := by
  induction l generalizing init with
  | nil => rfl
  | cons a l ih => rw [List.foldl_cons, List.foldl_cons, ih]

variable {fe : LocalFE m} {ψ : Fin N → (Fin m → ℝ) → ℝ} {dψ : Fin N → (Fin m → ℝ) → (Fin m → ℝ)}

/-! ### C38 -/

/-- C38: `global` is the linear combination of the coefficients with the shape functions -/
theorem C38_global (g : LFEGeometry m n) (he : Evaluates g.localFE ψ dψ) (v : Fin N → (Fin n → ℝ))
    (hv : g.vertices = List.ofFn v) (x : Fin m → ℝ) : g.global x = some (∑ i, ψ i x • v i) := by
  rw [LFEGeometry.global, he.fn, hv, zip_ofFn]
  simp only [List.length_ofFn, if_true]
  congr 1
  funext j
  refine (foldl_point _ (fun (p : ℝ × (Fin n → ℝ)) j => p.1 * p.2 j) _ j).trans ?_
  rw [foldl_ofFn, zero_add, Finset.sum_apply]
  rfl

/-- C38: the constructor from coefficients accepts exactly one coefficient per shape function -/
theorem C38_construct (id : Nat) (fe : LocalFE m) (vs : List (Fin n → ℝ)) (tol : ℝ) :
    (vs.length = fe.size ∧ ∃ g, ofVertices id fe vs tol = some g ∧ g.vertices = vs ∧ g.localFE = fe ∧ g.id = id) ∨
    (vs.length ≠ fe.size ∧ ofVertices id fe vs tol = none) := by
  by_cases h : fe.size = vs.length
  · exact Or.inl ⟨h.symm, _, if_pos h, rfl, rfl, rfl⟩
  · exact Or.inr ⟨fun h' => h h'.symm, if_neg h⟩

theorem jacobian_mat (g : LFEGeometry m n) (he : Evaluates g.localFE ψ dψ) (v : Fin N → (Fin n → ℝ))
    (hv : g.vertices = List.ofFn v) (x : Fin m → ℝ) : ∃ J, g.jacobian x = some J ∧
      ∀ (j : Fin n) (k : Fin m), mat n m J j k = ∑ i, dψ i x k * v i j := by
  rw [LFEGeometry.jacobian, he.jac, hv, zip_ofFn]
  simp only [List.length_ofFn, if_true]
  refine ⟨_, rfl, fun j k => ?_⟩
  refine (foldl_point2 _ (fun (p : (Fin m → ℝ) × (Fin n → ℝ)) j k =>
    if h : j < n ∧ k < m then p.1 ⟨k, h.2⟩ * p.2 ⟨j, h.1⟩ else 0) _ j k).trans ?_
  rw [foldl_ofFn, zero_add]
  refine sum_congr rfl fun i _ => ?_
  rw [dif_pos ⟨j.2, k.2⟩]

/-- C38: `jacobian` is the derivative of `global`, `jacobianTransposed` its transpose -/
theorem C38_derivative (g : LFEGeometry m n) (he : Evaluates g.localFE ψ dψ) (v : Fin N → (Fin n → ℝ))
    (hv : g.vertices = List.ofFn v) (x : Fin m → ℝ) (hd : ∀ i, HasFDerivAt (ψ i) (dotL (dψ i x)) x) :
    ∃ J, g.jacobian x = some J ∧ HasFDerivAt (fun z => ∑ i, ψ i z • v i) (lin n m J) x ∧
      ∃ T, g.jacobianTransposed x = some T ∧ mat m n T = (mat n m J)ᵀ := by
  obtain ⟨J, h1, h2⟩ := jacobian_mat g he v hv x
  refine ⟨J, h1, ?_, fun i j => J j i, by rw [jacobianTransposed, h1]; rfl, rfl⟩
  have h3 := HasFDerivAt.fun_sum (u := univ) fun i _ => (hd i).smul_const (v i)
  have e : lin n m J = ∑ i, (dotL (dψ i x)).smulRight (v i) := by
    refine ContinuousLinearMap.ext fun w => ?_
    funext j
    rw [lin_apply, mulVec, dotProduct, _root_.sum_apply, Finset.sum_apply]
    simp only [h2, sum_mul, ContinuousLinearMap.smulRight_apply, dotL_apply, Pi.smul_apply, smul_eq_mul, dotProduct]
    rw [sum_comm]
    exact sum_congr rfl fun i _ => sum_congr rfl fun k _ => by ring
  rw [e]
  exact h3

/-- C38: the inverse Jacobian and the integration element belong to the Jacobian, where it has full rank -/
theorem C38_inverse (g : LFEGeometry m n) (x : Fin m → ℝ) (J : Mat ℝ) (hJ : g.jacobian x = some J)
    (h : LinearIndependent ℝ (mat n m J).col) :
    (∃ B, g.jacobianInverse x = some B ∧ mat m n B * mat n m J = 1 ∧
      ∃ C, g.jacobianInverseTransposed x = some C ∧ mat n m C = (mat m n B)ᵀ) ∧
    g.integrationElement x = some (Real.sqrt ((mat n m J)ᵀ * mat n m J).det) := by
  obtain ⟨B, h1, h2, _⟩ := C26_leftInvA n m J h
  refine ⟨⟨B, by rw [jacobianInverse, hJ]; simp [h1], h2, fun i j => B j i, ?_, rfl⟩, ?_⟩
  · rw [jacobianInverseTransposed, jacobianInverse, hJ]; simp [h1]
  · have e : mat m n (fun i j => J j i) = (mat n m J)ᵀ := rfl
    rw [integrationElement, jacobianTransposed, hJ]
    simp only [Option.map_some, Option.bind_some]
    rw [C27_sqrtDetAAT_partial m n _ (Or.inl (by rw [e]; exact h)), e, transpose_transpose]

/-- C38: affine maps are reproduced: if the shape functions add up to one and reproduce the coordinates from the nodes
`p`, and the coefficients are the images of the nodes under `x ↦ a + M x`, then `global` is that map. -/
theorem C38_affine (g : LFEGeometry m n) (he : Evaluates g.localFE ψ dψ) (p : Fin N → (Fin m → ℝ)) (a : Fin n → ℝ)
    (M : Matrix (Fin n) (Fin m) ℝ) (x : Fin m → ℝ) (h1 : ∑ i, ψ i x = 1) (h2 : ∑ i, ψ i x • p i = x)
    (hv : g.vertices = List.ofFn fun i => a + M *ᵥ p i) : g.global x = some (a + M *ᵥ x) := by
  rw [C38_global g he _ hv]
  congr 1
  have e : M *ᵥ x = ∑ i, ψ i x • (M *ᵥ p i) := by
    conv_lhs => rw [← h2]
    rw [mulVec_sum]
    exact sum_congr rfl fun i _ => by rw [mulVec_smul]
  rw [e]
  simp only [smul_add, sum_add_distrib]
  rw [← sum_smul, h1, one_smul]

/-- C38, constructor from a function: if interpolation evaluates at nodes, the same holds -/
theorem C38_affine_function (id : Nat) (tol : ℝ) (he : Evaluates fe ψ dψ) (p : Fin N → (Fin m → ℝ)) (a : Fin n → ℝ)
    (M : Matrix (Fin n) (Fin m) ℝ) (x : Fin m → ℝ) (h1 : ∑ i, ψ i x = 1) (h2 : ∑ i, ψ i x • p i = x)
    (hi : ∀ f : (Fin m → ℝ) → (Fin n → ℝ), fe.interpolate f = List.ofFn fun i => f (p i)) :
    (ofFunction id fe (fun z => a + M *ᵥ z) tol).global x = some (a + M *ᵥ x) :=
  C38_affine (ofFunction id fe (fun z => a + M *ᵥ z) tol) he p a M x h1 h2 (hi _)

/-- C38: corners and centre are images of the reference corners and the reference centre under `global` -/
theorem C38_corner (g : LFEGeometry m n) (i : Nat) (hi : i < refSize m g.id m) :
    ∃ p, (referenceCorners (K := ℝ) m g.id)[i]? = some p ∧ g.corner i = g.global (vec m p) := by
  have hl := C17_count (K := ℝ) m g.id
  have hi' : i < (referenceCorners (K := ℝ) m g.id).length := by rw [hl]; exact hi
  refine ⟨_, List.getElem?_eq_getElem hi', ?_⟩
  rw [LFEGeometry.corner, LFEGeometry.corners, if_pos hi, position, if_pos rfl, List.getElem?_eq_getElem hi']
  rfl

/-- C38: the centre is the image of the mean of the corners of the reference element -/
theorem C38_center (g : LFEGeometry m n) (hid : g.id < 2 ^ m) :
    ∃ p : Vec ℝ, g.center = g.global (vec m p) ∧
      ∀ r, (refSize3 m g.id 0 0 m : ℝ) * p r = ((subEntities m g.id 0 0 m).map fun k => RefGeom.corner m g.id k r).sum := by
  have h0 : 0 < refSize m g.id 0 := by
    have : refSize m g.id 0 = 1 := by simp [refSize, size]
    omega
  obtain ⟨p, h1, h2⟩ := C21_mean (K := ℝ) m g.id 0 0 hid (Nat.zero_le _) h0
  exact ⟨p, by rw [LFEGeometry.center, h1]; rfl, h2⟩

/-- C38: for a Lagrange basis with the reference corner `i` as node `k`, the corner is the coefficient `k` -/
theorem C38_corner_lagrange (g : LFEGeometry m n) (he : Evaluates g.localFE ψ dψ) (v : Fin N → (Fin n → ℝ))
    (hv : g.vertices = List.ofFn v) (i : Nat) (hi : i < refSize m g.id m) (k : Fin N)
    (hk : ∀ l, ψ l (vec m (RefGeom.corner m g.id i)) = if l = k then 1 else 0) : g.corner i = some (v k) := by
  obtain ⟨p, h1, h2⟩ := C38_corner g i hi
  have hp : RefGeom.corner m g.id i = p := by rw [RefGeom.corner, List.getD_eq_getElem?_getD, h1]; rfl
  rw [h2, C38_global g he v hv, ← hp]
  congr 1
  simp [hk]

/-! #### first order Lagrange elements -/

/-- tensor product basis of first order on the cube -/
def q1 (m : Nat) (k : Nat) (x : Fin m → ℝ) : ℝ := ∏ r : Fin m, if k.testBit r then x r else 1 - x r

/-- C38: with the tensor product basis on a cube `global` is the map of the multi-linear geometry on the same corners -/
theorem C38_q1 (b : MultiLinear.MultiLinearGeometry) (hb : MultiLinear.Legal b) (hc : IsCubeId b.mydim b.id)
    (g : LFEGeometry b.mydim b.cdim) (dψ : Fin (2 ^ b.mydim) → (Fin b.mydim → ℝ) → (Fin b.mydim → ℝ))
    (he : Evaluates g.localFE (fun k : Fin (2 ^ b.mydim) => q1 b.mydim k) dψ)
    (hv : g.vertices = List.ofFn fun k : Fin (2 ^ b.mydim) => vec b.cdim (b.corners_ k)) (x : Fin b.mydim → ℝ) :
    g.global x = some (vec b.cdim (b.global (RefGeom.ext x))) := by
  rw [C38_global g he _ hv]
  congr 1
  funext j
  have e : ∀ k : Nat, q1 b.mydim k x = ∏ r ∈ range b.mydim, if k.testBit r then RefGeom.ext x r else 1 - RefGeom.ext x r := by
    intro k
    rw [q1, ← Fin.prod_univ_eq_prod_range (fun r => if k.testBit r then RefGeom.ext x r else 1 - RefGeom.ext x r)]
    exact prod_congr rfl fun r _ => by simp [RefGeom.ext]
  rw [vec, MultiLinear.C31_cube_formula b hb hc, Finset.sum_apply]
  simp only [← e]
  rw [← Fin.sum_univ_eq_sum_range (fun k => q1 b.mydim k x * b.corners_ k j)]
  rfl

/-- linear basis on the simplex: `1 - ∑ x`, then the coordinates -/
def p1 (m : Nat) (k : Fin (m + 1)) (x : Fin m → ℝ) : ℝ := Fin.cases (1 - ∑ r, x r) (fun r => x r) k

/-- C38: with the linear basis on a simplex `global` is the map of the multi-linear geometry on the same corners -/
theorem C38_p1 (b : MultiLinear.MultiLinearGeometry) (hb : MultiLinear.Legal b) (hs : IsSimplexId b.mydim b.id)
    (g : LFEGeometry b.mydim b.cdim) (dψ : Fin (b.mydim + 1) → (Fin b.mydim → ℝ) → (Fin b.mydim → ℝ))
    (he : Evaluates g.localFE (p1 b.mydim) dψ)
    (hv : g.vertices = List.ofFn fun k : Fin (b.mydim + 1) => vec b.cdim (b.corners_ k)) (x : Fin b.mydim → ℝ)
    (hx : MultiLinear.Inner b (RefGeom.ext x)) : g.global x = some (vec b.cdim (b.global (RefGeom.ext x))) := by
  rw [C38_global g he _ hv]
  congr 1
  funext j
  rw [vec, MultiLinear.C31_simplex_formula b hb hs _ hx _ j.2, Finset.sum_apply, Fin.sum_univ_succ]
  have e : ∀ r : Fin b.mydim, RefGeom.ext x r = x r := fun r => by simp [RefGeom.ext]
  rw [← Fin.sum_univ_eq_sum_range (fun r => RefGeom.ext x r), ← Fin.sum_univ_eq_sum_range
    (fun r => RefGeom.ext x r * b.corners_ (r + 1) j)]
  simp only [e, p1]
  rfl

/-! #### `affine()` -/

theorem foldlM_all (l : List Nat) (F : Nat → Option Bool) (P : Nat → Bool) (h : ∀ i ∈ l, F i = some (P i)) (b : Bool) :
    l.foldlM (fun ok i => if !ok then some false else F i) b = some (b && l.all P) := by
  induction l generalizing b with
  | nil => simp
  | cons a l ih =>
    have hl : ∀ i ∈ l, F i = some (P i) := fun i hi => h i (List.mem_cons_of_mem _ hi)
    rw [List.foldlM_cons]
    cases b
    · simp only [Bool.not_false, if_true, Option.bind_eq_bind, Option.bind_some, ih hl]
      simp
    · simp only [Bool.not_true, Bool.false_eq_true, if_false, h a List.mem_cons_self, Option.bind_eq_bind, Option.bind_some,
        ih hl]
      simp

/-- the affine map through the images of the `m + 1` corners of the reference simplex -/
def through (G : (Fin m → ℝ) → (Fin n → ℝ)) (x : Fin m → ℝ) : Fin n → ℝ :=
  G 0 + ∑ r : Fin m, x r • (G (Pi.single r 1) - G 0)

theorem simplexCorners_vec : (referenceCorners (K := ℝ) m 0).map (vec m) =
    0 :: List.ofFn fun r : Fin m => (Pi.single r 1 : Fin m → ℝ) := by
  rw [C17_simplex m 0 (fun k _ _ => by simp), List.map_cons, List.map_map]
  congr 1
  refine List.ext_getElem (by simp) fun i h1 h2 => ?_
  simp only [List.getElem_map, List.getElem_range, List.getElem_ofFn, Function.comp]
  funext k
  simp [vec, Pi.single_apply, Fin.ext_iff]

/-- the geometry `affineImpl` builds is `through` -/
theorem ofCorners_through (hmn : m ≤ n) (G : (Fin m → ℝ) → (Fin n → ℝ))
    (hli : LinearIndependent ℝ (fun r : Fin m => G (Pi.single r 1) - G 0)) :
    ∃ A, AffineGeometry.ofCorners m n 0
        (((0 :: List.ofFn fun r : Fin m => (Pi.single r 1 : Fin m → ℝ)).map G).map RefGeom.ext) = some A ∧
      ∀ x : Vec ℝ, vec n (A.global x) = through G (vec m x) := by
  let o : Vec ℝ := RefGeom.ext (G 0)
  let jt : Mat ℝ := fun i j => if h : i < m then RefGeom.ext (G (Pi.single ⟨i, h⟩ 1)) j - o j else 0
  have hs : IsSimplexId m 0 := fun k _ _ => by simp
  have hsz : refSize m 0 m = m + 1 := by
    rw [← C17_count (K := ℝ), C17_simplex m 0 hs]; simp
  have himg : ((0 :: List.ofFn fun r : Fin m => (Pi.single r 1 : Fin m → ℝ)).map G).map RefGeom.ext = images m 0 o jt := by
    refine List.ext_getElem (by simp [images, hsz]) fun i h1 h2 => ?_
    simp only [images, List.getElem_map, List.getElem_range]
    funext j
    rw [RefGeom.corner, C17_simplex m 0 hs, List.getD_eq_getElem?_getD]
    cases i with
    | zero => simp [o]
    | succ i =>
      have hi : i < m := by simpa using h1
      simp [hi, jt, o]
  rw [himg, C29_corners_simplex m n 0 o jt (fun i hi j => dif_neg (by omega)) hs]
  have hrow : mat m n jt = Matrix.of fun r : Fin m => G (Pi.single r 1) - G 0 := by
    funext r j
    change (if h : (r : Nat) < m then _ else _) = _
    rw [dif_pos r.2]
    simp [o, RefGeom.ext]
  have hL : LinearIndependent ℝ (mat m n jt).row := by rw [hrow]; exact hli
  obtain ⟨A, hA⟩ := (C28_constructible m n 0 o jt hmn).2 hL
  refine ⟨A, hA, fun x => ?_⟩
  funext j
  rw [vec, C28_global m n 0 o jt hmn A hA, through, Pi.add_apply, Finset.sum_apply,
    ← Fin.sum_univ_eq_sum_range (fun i => jt i j * x i)]
  congr 1
  · simp [o, RefGeom.ext]
  · refine sum_congr rfl fun r _ => ?_
    have : jt r j = mat m n jt r j := rfl
    rw [this, hrow]
    simp [vec, mul_comm]

theorem one_bit {k : Nat} (h : k ≠ 0) : Nat.testBit 1 k = false :=
  Nat.testBit_lt_two_pow (Nat.one_lt_two_pow h)

/-- C38, `affine()`: dimensions 0 and 1, simplices and higher order elements are decided without looking at the map;
otherwise (map of full rank at the simplex corners) the answer is whether the affine map through the simplex corners
meets the images of all corners up to the tolerance. -/
theorem C38_affineImpl (g : LFEGeometry m n) (hmn : m ≤ n) (hm : m < 256) (hid : g.id < 2 ^ m) (hid' : g.id < 2 ^ 32)
    (G : (Fin m → ℝ) → (Fin n → ℝ)) (hG : ∀ x, g.global x = some (G x))
    (hli : LinearIndependent ℝ (fun r : Fin m => G (Pi.single r 1) - G 0)) :
    ∃ b, g.affineImpl = some b ∧ (b = true ↔ m = 0 ∨ g.localFE.order ≤ 1 ∧ (m = 1 ∨ IsSimplexId m g.id ∨
      ∀ i, i < refSize m g.id m → Real.sqrt (∑ j, (through G (vec m (RefGeom.corner m g.id i)) j -
        G (vec m (RefGeom.corner m g.id i)) j) ^ 2) ≤ g.tol)) := by
  rw [LFEGeometry.affineImpl]
  by_cases h0 : m = 0
  · exact ⟨true, if_pos h0, by simp [h0]⟩
  rw [if_neg h0]
  by_cases h1 : g.order > 1
  · refine ⟨false, if_pos h1, ?_⟩
    have : ¬ g.localFE.order ≤ 1 := not_le.2 h1
    simp [h0, this]
  rw [if_neg h1]
  have h1' : g.localFE.order ≤ 1 := not_lt.1 h1
  by_cases h2 : m = 1
  · exact ⟨true, if_pos h2, by simp [h1', h2]⟩
  rw [if_neg h2]
  have hsimp : isSimplex (mk2 g.id m) = true ↔ IsSimplexId m g.id := by
    have e : mk2 g.id m = ⟨m, false, g.id⟩ := by
      rw [mk2, mk3, Nat.mod_eq_of_lt hid', Nat.mod_eq_of_lt (by norm_num; exact hm)]
    rw [e, isSimplex]
    simp only [Bool.not_false, Bool.true_and, beq_iff_eq]
    constructor
    · intro h k hk1 hk2
      have := congrArg (fun z => z.testBit k) h
      simp only [Nat.testBit_or] at this
      have hk0 : Nat.testBit 1 k = false := one_bit (by omega)
      rw [hk0] at this
      simpa using this
    · intro h
      refine Nat.eq_of_testBit_eq fun k => ?_
      rw [Nat.testBit_or]
      by_cases hk : k = 0
      · subst hk; simp
      · have hk0 : Nat.testBit 1 k = false := one_bit hk
        rw [hk0, Bool.or_false]
        by_cases hkm : k < m
        · exact h k (by omega) hkm
        · exact Nat.testBit_lt_two_pow (lt_of_lt_of_le hid (Nat.pow_le_pow_right (by norm_num) (by omega)))
  by_cases h3 : isSimplex (mk2 g.id m) = true
  · exact ⟨true, if_pos h3, by simp [h1', hsimp.1 h3]⟩
  rw [if_neg h3]
  have hm1 : (referenceCorners (K := ℝ) m 0).mapM (fun p => g.global (vec m p)) =
      some (((0 :: List.ofFn fun r : Fin m => (Pi.single r 1 : Fin m → ℝ)).map G)) := by
    rw [mapM_some _ _ (fun p => G (vec m p)) fun p _ => hG _, ← simplexCorners_vec, List.map_map]
    rfl
  obtain ⟨A, hA, hA2⟩ := ofCorners_through hmn G hli
  let P : Nat → Bool := fun i => decide ¬ (two_norm (vec n (A.global (RefGeom.corner m g.id i)) -
    G (vec m (RefGeom.corner m g.id i))) > g.tol)
  refine ⟨(List.range g.corners).all P, ?_, ?_⟩
  · simp only [Option.bind_eq_bind]
    rw [hm1]
    simp only [Option.bind_some]
    rw [hA]
    simp only [Option.bind_some]
    have := foldlM_all (List.range g.corners) (fun i => (position (K := ℝ) m g.id i m).bind fun corner =>
      (g.global (vec m corner)).bind fun y => some (decide ¬ (two_norm (vec n (A.global corner) - y) > g.tol))) P ?_ true
    · rw [Bool.true_and] at this
      exact this
    · intro i hi
      have hi' : i < (referenceCorners (K := ℝ) m g.id).length := by
        rw [C17_count]; exact List.mem_range.1 hi
      have hc : RefGeom.corner m g.id i = (referenceCorners (K := ℝ) m g.id)[i] := by
        rw [RefGeom.corner, List.getD_eq_getElem?_getD, List.getElem?_eq_getElem hi']; rfl
      rw [position, if_pos rfl, List.getElem?_eq_getElem hi', ← hc]
      simp only [Option.bind_some, hG]
      rfl
  · have hns : ¬ IsSimplexId m g.id := fun h => h3 (hsimp.2 h)
    simp only [h0, h2, hns, h1', true_and, false_or, List.all_eq_true, List.mem_range, P, decide_eq_true_eq, not_lt, gt_iff_lt,
      hA2]
    refine forall_congr' fun i => forall_congr' fun _ => ?_
    rw [two_norm]
    have : ∀ a b : Fin n → ℝ, ∑ j, (a - b) j * (a - b) j = ∑ j, (a j - b j) ^ 2 := fun a b =>
      sum_congr rfl fun j _ => by rw [Pi.sub_apply, sq]
    rw [this]

/-- C38: `affine()` stores its first answer and repeats it -/
theorem C38_affine_cached (g g' : LFEGeometry m n) (b : Bool) (h : g.affine = some (b, g')) :
    g'.affine = some (b, g') ∧ g'.vertices = g.vertices ∧ g'.localFE = g.localFE ∧ g'.id = g.id := by
  rw [LFEGeometry.affine] at h
  split at h
  · rename_i b' hb
    obtain ⟨rfl, rfl⟩ := Prod.mk.inj (Option.some.inj h)
    exact ⟨by rw [LFEGeometry.affine, hb], rfl, rfl, rfl⟩
  · rcases hi : g.affineImpl with _ | b'
    · rw [hi] at h; simp at h
    · rw [hi] at h
      simp only [Option.bind_eq_bind, Option.bind_some, Option.pure_def, Option.some.injEq, Prod.mk.injEq] at h
      obtain ⟨rfl, rfl⟩ := h
      exact ⟨rfl, rfl, rfl, rfl⟩

/-- C38: the first answer of `affine()` of a new geometry comes from looking at the map: neither constructor presets the flag -/
theorem C38_affine_fresh (id : Nat) (fe : LocalFE m) (vertices : List (Fin n → ℝ)) (param : (Fin m → ℝ) → (Fin n → ℝ)) (tol : ℝ) :
    (∀ g, ofVertices id fe vertices tol = some g → g.affine.map Prod.fst = g.affineImpl) ∧
    (ofFunction id fe param tol).affine.map Prod.fst = (ofFunction id fe param tol).affineImpl := by
  have key : ∀ g : LFEGeometry m n, g.affine_ = none → g.affine.map Prod.fst = g.affineImpl := by
    intro g hg
    rw [LFEGeometry.affine, hg]
    cases h : g.affineImpl <;> simp [h]
  refine ⟨fun g hg => key g ?_, key _ rfl⟩
  rw [ofVertices] at hg
  split at hg
  · cases hg; rfl
  · cases hg

theorem through_affine (a : Fin n → ℝ) (M : Matrix (Fin n) (Fin m) ℝ) (x : Fin m → ℝ) :
    through (fun z => a + M *ᵥ z) x = a + M *ᵥ x := by
  rw [through]
  simp only [mulVec_zero, add_zero, mulVec_single_one, add_sub_cancel_left]
  congr 1
  funext j
  rw [Finset.sum_apply, mulVec, dotProduct]
  exact sum_congr rfl fun r _ => by rw [Pi.smul_apply, smul_eq_mul, mul_comm]; rfl

/-- C38: an exactly affine map of full rank and order at most one is reported affine, for every topology -/
theorem C38_affine_complete (g : LFEGeometry m n) (hmn : m ≤ n) (hm : m < 256) (hid : g.id < 2 ^ m) (hid' : g.id < 2 ^ 32)
    (ho : g.localFE.order ≤ 1) (a : Fin n → ℝ) (M : Matrix (Fin n) (Fin m) ℝ) (hM : LinearIndependent ℝ M.col)
    (ht : 0 ≤ g.tol) (hG : ∀ x, g.global x = some (a + M *ᵥ x)) : g.affineImpl = some true := by
  obtain ⟨b, h1, h2⟩ := C38_affineImpl g hmn hm hid hid' _ hG (by
    simp only [mulVec_zero, add_zero, mulVec_single_one, add_sub_cancel_left]
    exact hM)
  rw [h1]
  congr 1
  refine h2.2 (Or.inr ⟨ho, Or.inr (Or.inr fun i _ => ?_)⟩)
  simp only [through_affine, _root_.sub_self]
  simpa using ht

theorem sum_bits (a b : Nat → ℝ) (d : Nat) :
    ∑ k ∈ range (2 ^ d), ∏ r ∈ range d, (if k.testBit r then a r else b r) = ∏ r ∈ range d, (a r + b r) := by
  induction d with
  | zero => simp
  | succ d ih =>
    rw [pow_succ, mul_two, sum_range_add, prod_range_succ, mul_add, ← ih, sum_mul, sum_mul, add_comm]
    congr 1
    · refine sum_congr rfl fun k hk => ?_
      rw [prod_range_succ, Nat.testBit_two_pow_add_eq, Nat.testBit_lt_two_pow (mem_range.1 hk)]
      congr 1
      exact prod_congr rfl fun r hr => by rw [Nat.testBit_two_pow_add_gt (mem_range.1 hr)]
    · refine sum_congr rfl fun k hk => ?_
      rw [prod_range_succ, Nat.testBit_lt_two_pow (mem_range.1 hk)]
      simp

theorem q1_eq (k : Nat) (x : Fin m → ℝ) :
    q1 m k x = ∏ r ∈ range m, if k.testBit r then RefGeom.ext x r else 1 - RefGeom.ext x r := by
  rw [q1, ← Fin.prod_univ_eq_prod_range (fun r => if k.testBit r then RefGeom.ext x r else 1 - RefGeom.ext x r)]
  exact prod_congr rfl fun r _ => by simp [RefGeom.ext]

theorem q1_sum (x : Fin m → ℝ) : ∑ k : Fin (2 ^ m), q1 m k x = 1 := by
  rw [Fin.sum_univ_eq_sum_range (fun k => q1 m k x)]
  simp only [q1_eq]
  rw [sum_bits]
  exact prod_eq_one fun r _ => by ring

/-- the corner `k` of the unit cube -/
def cubeCorner (m k : Nat) : Fin m → ℝ := fun r => if k.testBit r then 1 else 0

theorem q1_coord (x : Fin m → ℝ) : ∑ k : Fin (2 ^ m), q1 m k x • cubeCorner m k = x := by
  funext r
  rw [Finset.sum_apply]
  simp only [Pi.smul_apply, smul_eq_mul]
  rw [Fin.sum_univ_eq_sum_range (fun k => q1 m k x * cubeCorner m k r)]
  have e : ∀ k : Nat, q1 m k x * cubeCorner m k r = ∏ s ∈ range m, if k.testBit s then RefGeom.ext x s else
      if s = r then 0 else 1 - RefGeom.ext x s := by
    intro k
    rw [q1_eq, cubeCorner]
    by_cases h : k.testBit r = true
    · rw [if_pos h, mul_one]
      refine prod_congr rfl fun s _ => ?_
      by_cases hs : s = r
      · subst hs; rw [if_pos h, if_pos h]
      · rw [if_neg hs]
    · rw [if_neg h, mul_zero]
      refine (prod_eq_zero (mem_range.2 r.2) ?_).symm
      rw [if_neg h, if_pos rfl]
  simp only [e]
  rw [sum_bits, prod_eq_single (r : Nat)]
  · simp [RefGeom.ext]
  · intro s _ hs
    rw [if_neg hs]; ring
  · intro h; exact absurd (mem_range.2 r.2) h

theorem q1_nonneg (k : Nat) (x : Fin m → ℝ) (hx : ∀ r, 0 ≤ x r ∧ x r ≤ 1) : 0 ≤ q1 m k x :=
  prod_nonneg fun r _ => by
    split
    · exact (hx r).1
    · linarith [(hx r).2]

theorem cubeCorner_eq {id k : Nat} (hc : IsCubeId m id) (hk : k < 2 ^ m) :
    vec m (RefGeom.corner (K := ℝ) m id k) = cubeCorner m k := by
  rw [RefGeom.corner, C17_cube m id hc, List.getD_eq_getElem?_getD, List.getElem?_map, List.getElem?_range hk]
  rfl

theorem q1_nodal (k l : Nat) (hk : k < 2 ^ m) (hl : l < 2 ^ m) : q1 m k (cubeCorner m l) = if k = l then 1 else 0 := by
  split
  · rename_i h; subst h
    refine prod_eq_one fun r _ => ?_
    rw [cubeCorner]
    cases k.testBit r <;> simp
  · rename_i h
    obtain ⟨r, hr⟩ : ∃ r, k.testBit r ≠ l.testBit r := by
      by_contra hh
      push Not at hh
      exact h (Nat.eq_of_testBit_eq hh)
    have hrm : r < m := by
      by_contra hh
      have h2 : 2 ^ m ≤ 2 ^ r := Nat.pow_le_pow_right (by norm_num) (by omega)
      rw [Nat.testBit_lt_two_pow (by omega), Nat.testBit_lt_two_pow (by omega)] at hr
      exact hr rfl
    refine prod_eq_zero (mem_univ (⟨r, hrm⟩ : Fin m)) ?_
    rw [cubeCorner]
    simp only
    cases h1 : k.testBit r <;> cases h2 : l.testBit r <;> simp [h1, h2] at hr ⊢

theorem through_comb {ψ : Fin N → ℝ} (G : (Fin m → ℝ) → (Fin n → ℝ)) (p : Fin N → (Fin m → ℝ)) (x : Fin m → ℝ)
    (h1 : ∑ i, ψ i = 1) (h2 : ∑ i, ψ i • p i = x) : through G x = ∑ i, ψ i • through G (p i) := by
  simp only [through, smul_add, sum_add_distrib]
  rw [← sum_smul, h1, one_smul]
  congr 1
  simp only [smul_sum]
  rw [sum_comm]
  refine sum_congr rfl fun r _ => ?_
  have : x r = ∑ i, ψ i * p i r := by rw [← h2, Finset.sum_apply]; rfl
  rw [this, sum_smul]
  exact sum_congr rfl fun i _ => by rw [smul_smul]

/-- C38: on a cube with the tensor product basis, `affine()` means that the map is affine up to the tolerance in every
coordinate, on the whole element. -/
theorem C38_affine_q1 (g : LFEGeometry m n) (hmn : m ≤ n) (hm : 2 ≤ m) (hm' : m ≤ 31) (hid : g.id < 2 ^ m)
    (hc : IsCubeId m g.id) (dψ : Fin (2 ^ m) → (Fin m → ℝ) → (Fin m → ℝ))
    (he : Evaluates g.localFE (fun k : Fin (2 ^ m) => q1 m k) dψ) (v : Fin (2 ^ m) → (Fin n → ℝ))
    (hv : g.vertices = List.ofFn v)
    (hli : LinearIndependent ℝ (fun r : Fin m => combination (fun k : Fin (2 ^ m) => q1 m k) v (Pi.single r 1) -
      combination (fun k : Fin (2 ^ m) => q1 m k) v 0))
    (ha : g.affineImpl = some true) (x : Fin m → ℝ) (hx : ∀ r, 0 ≤ x r ∧ x r ≤ 1) (j : Fin n) :
    |combination (fun k : Fin (2 ^ m) => q1 m k) v x j -
      through (combination (fun k : Fin (2 ^ m) => q1 m k) v) x j| ≤ g.tol := by
  obtain ⟨b, h1, h2⟩ := C38_affineImpl g hmn (by omega) hid
    (lt_of_lt_of_le hid (Nat.pow_le_pow_right (by norm_num) (by omega))) _ (fun x => C38_global g he v hv x) hli
  rw [ha] at h1
  have hb := (h2.1 (Option.some.inj h1).symm).resolve_left (by omega)
  have hcor := (hb.2.resolve_left (by omega)).resolve_left (by
    intro hs
    have := hs 1 (by omega) (by omega)
    rw [hc 1 (by omega) (by omega)] at this
    exact absurd this (by simp))
  have hsz : refSize m g.id m = 2 ^ m := by rw [← C17_count (K := ℝ), C17_cube m g.id hc]; simp
  set ψ : Fin (2 ^ m) → (Fin m → ℝ) → ℝ := fun k => q1 m k with hψ
  set G := combination ψ v with hGdef
  have hk : ∀ k : Fin (2 ^ m), |v k j - through G (cubeCorner m k) j| ≤ g.tol := by
    intro k
    have h3 := hcor k (by rw [hsz]; exact k.2)
    rw [cubeCorner_eq hc k.2] at h3
    have h4 : G (cubeCorner m k) = v k := by
      rw [hGdef, combination]
      simp only [hψ, q1_nodal _ _ (Fin.is_lt _) k.2, ← Fin.ext_iff]
      simp
    have h5 : ∑ i, ψ i (cubeCorner m k) • v i = v k := h4
    rw [h5] at h3
    refine le_trans ?_ h3
    refine Real.le_sqrt_of_sq_le ?_
    rw [sq_abs, ← neg_sub, neg_sq]
    exact single_le_sum (f := fun j => (through G (cubeCorner m k) j - v k j) ^ 2) (fun j _ => sq_nonneg _) (mem_univ j)
  have e : G x j - through G x j = ∑ k, ψ k x * (v k j - through G (cubeCorner m k) j) := by
    rw [through_comb G (fun k : Fin (2 ^ m) => cubeCorner m k) x (q1_sum x) (q1_coord x), hGdef, combination,
      Finset.sum_apply, Finset.sum_apply, ← sum_sub_distrib]
    exact sum_congr rfl fun k _ => by simp only [Pi.smul_apply, smul_eq_mul, hψ]; ring
  rw [e]
  refine (abs_sum_le_sum_abs _ _).trans ?_
  calc ∑ k, |ψ k x * (v k j - through G (cubeCorner m k) j)| ≤ ∑ k, ψ k x * g.tol := sum_le_sum fun k _ => by
        rw [abs_mul, abs_of_nonneg (q1_nonneg _ x hx)]
        exact mul_le_mul_of_nonneg_left (hk k) (q1_nonneg _ x hx)
    _ = g.tol := by rw [← sum_mul, q1_sum, one_mul]

/-- C38: a point returned by `local` is a pre-image up to the tolerance -/
theorem C38_local (g : LFEGeometry m n) (hmn : m ≤ n) (G : (Fin m → ℝ) → (Fin n → ℝ)) (hG : ∀ x, g.global x = some (G x))
    (y : Fin n → ℝ) (opts : Options) (h1 : 0 < opts.maxIt) (h2 : 0 < opts.maxInnerIt) (x : Fin m → ℝ)
    (h : g.local_ y opts = some (.ok x)) : residual G y x < opts.absTol := by
  have hG' : (fun x => (g.global x).getD fun _ => 0) = G := by funext x; rw [hG]; rfl
  rw [LFEGeometry.local_, hG'] at h
  rcases hc : position (K := ℝ) m g.id 0 0 with _ | c
  · rw [hc] at h; simp at h
  · rw [hc] at h
    rcases hg : gaussNewton G (fun x => (g.jacobianTransposed x).getD fun _ _ => 0) y opts (vec m c) with _ | ⟨err, x'⟩
    · simp [hg] at h
    · simp only [hg, Option.bind_eq_bind, Option.bind_some, ne_eq] at h
      split at h
      · simp at h
      · rename_i he
        rw [not_not] at he
        subst he
        obtain rfl : x' = x := by simpa using h
        exact (C36_ok G _ y opts hmn h1 h2 _ _ hg).1

/-! #### example: the bilinear element on the square -/

/-- gradients of the bilinear shape functions -/
def dq1 (k : Nat) (x : Fin 2 → ℝ) : Fin 2 → ℝ :=
  ![(if k.testBit 0 then 1 else -1) * (if k.testBit 1 then x 1 else 1 - x 1),
    (if k.testBit 0 then x 0 else 1 - x 0) * (if k.testBit 1 then 1 else -1)]

/-- the bilinear element -/
def feQ1 : LocalFE 2 where
  size := 4
  order := 1
  evaluateFunction := fun x => List.ofFn fun k : Fin 4 => q1 2 k x
  evaluateJacobian := fun x => List.ofFn fun k : Fin 4 => dq1 k x
  interpolate := fun f => List.ofFn fun k : Fin 4 => f (cubeCorner 2 k)

theorem feQ1_evaluates : Evaluates feQ1 (fun k : Fin 4 => q1 2 k) (fun k => dq1 k) := ⟨rfl, fun _ => rfl, fun _ => rfl⟩

theorem feQ1_gradient (k : Nat) (x : Fin 2 → ℝ) : HasFDerivAt (q1 2 k) (dotL (dq1 k x)) x := by
  have hp : ∀ r : Fin 2, HasFDerivAt (fun z : Fin 2 → ℝ => z r) (ContinuousLinearMap.proj (R := ℝ) (φ := fun _ : Fin 2 => ℝ) r) x :=
    fun r => hasFDerivAt_apply r x
  have hf : ∀ r : Fin 2, HasFDerivAt (fun z : Fin 2 → ℝ => if k.testBit r then z r else 1 - z r)
      ((if k.testBit r then (1 : ℝ) else -1) • ContinuousLinearMap.proj (R := ℝ) (φ := fun _ : Fin 2 => ℝ) r) x := by
    intro r
    cases k.testBit r
    · simp only [Bool.false_eq_true, if_false]
      have e : (-1 : ℝ) • ContinuousLinearMap.proj (R := ℝ) (φ := fun _ : Fin 2 => ℝ) r =
          -ContinuousLinearMap.proj (R := ℝ) (φ := fun _ : Fin 2 => ℝ) r :=
        ContinuousLinearMap.ext fun w => by simp
      rw [e]
      exact (hp r).const_sub 1
    · simp only [if_true, one_smul]
      exact hp r
  have e : q1 2 k = fun z => (if k.testBit (0 : Fin 2) then z 0 else 1 - z 0) * (if k.testBit (1 : Fin 2) then z 1 else 1 - z 1) := by
    funext z; rw [q1, Fin.prod_univ_two]
  rw [e]
  have h := (hf 0).mul (hf 1)
  have e2 : dotL (dq1 k x) = (if k.testBit (0 : Fin 2) then x 0 else 1 - x 0) • ((if k.testBit (1 : Fin 2) then (1 : ℝ) else -1) •
      ContinuousLinearMap.proj (R := ℝ) (φ := fun _ : Fin 2 => ℝ) 1) + (if k.testBit (1 : Fin 2) then x 1 else 1 - x 1) •
      ((if k.testBit (0 : Fin 2) then (1 : ℝ) else -1) • ContinuousLinearMap.proj (R := ℝ) (φ := fun _ : Fin 2 => ℝ) 0) := by
    refine ContinuousLinearMap.ext fun w => ?_
    rw [dotL_apply, dotProduct, Fin.sum_univ_two, _root_.add_apply, _root_.smul_apply, _root_.smul_apply, _root_.smul_apply,
      _root_.smul_apply,
      ContinuousLinearMap.proj_apply, ContinuousLinearMap.proj_apply]
    simp only [dq1, smul_eq_mul, Matrix.cons_val_zero, Matrix.cons_val_one, Fin.val_zero, Fin.val_one]
    ring
  rw [e2]
  exact h

/-- a geometry on the square: the corner (1,1) moved to (3,2) -/
def quad : LFEGeometry 2 2 := ⟨3, feQ1, List.ofFn fun k : Fin 4 => ![![0, 0], ![1, 0], ![0, 1], ![3, 2]] k, none, 1 / 100⟩

example : quad.global ![1/2, 1/2] = some ![1, 3/4] := by
  rw [C38_global quad feQ1_evaluates _ rfl]
  congr 1
  funext j
  rw [Finset.sum_apply, Fin.sum_univ_four]
  fin_cases j <;> simp [q1, Fin.prod_univ_two, Nat.testBit] <;> norm_num

example (x : Fin 2 → ℝ) : ∃ J, quad.jacobian x = some J ∧
    HasFDerivAt (fun z => ∑ i : Fin 4, q1 2 i z • (![![0, 0], ![1, 0], ![0, 1], ![3, 2]] : Fin 4 → Fin 2 → ℝ) i) (lin 2 2 J) x := by
  obtain ⟨J, h1, h2, _⟩ := C38_derivative quad feQ1_evaluates _ rfl x fun i => feQ1_gradient i x
  exact ⟨J, h1, h2⟩

example (a : Fin 3 → ℝ) (M : Matrix (Fin 3) (Fin 2) ℝ) (x : Fin 2 → ℝ) :
    (ofFunction 3 feQ1 (fun z => a + M *ᵥ z) 0).global x = some (a + M *ᵥ x) :=
  C38_affine_function 3 0 feQ1_evaluates (fun k : Fin 4 => cubeCorner 2 k) a M x (q1_sum x) (q1_coord x) fun _ => rfl

/-- the moved corner is noticed: `affine()` is false -/
example : quad.affineImpl = some false := by
  have hG : ∀ x, quad.global x = some (combination (fun k : Fin 4 => q1 2 k) (fun k : Fin 4 => ![![0, 0], ![1, 0], ![0, 1], ![3, 2]] k) x) :=
    fun x => C38_global quad feQ1_evaluates _ rfl x
  have h0 : combination (fun k : Fin 4 => q1 2 k) (fun k : Fin 4 => ![![0, 0], ![1, 0], ![0, 1], ![3, 2]] k) 0 = ![0, 0] := by
    funext j
    rw [combination, Finset.sum_apply, Fin.sum_univ_four]
    fin_cases j <;> simp [q1, Fin.prod_univ_two, Nat.testBit]
  have h1 : combination (fun k : Fin 4 => q1 2 k) (fun k : Fin 4 => ![![0, 0], ![1, 0], ![0, 1], ![3, 2]] k) (Pi.single 0 1) = ![1, 0] := by
    funext j
    rw [combination, Finset.sum_apply, Fin.sum_univ_four]
    fin_cases j <;> simp [q1, Fin.prod_univ_two, Nat.testBit]
  have h2 : combination (fun k : Fin 4 => q1 2 k) (fun k : Fin 4 => ![![0, 0], ![1, 0], ![0, 1], ![3, 2]] k) (Pi.single 1 1) = ![0, 1] := by
    funext j
    rw [combination, Finset.sum_apply, Fin.sum_univ_four]
    fin_cases j <;> simp [q1, Fin.prod_univ_two, Nat.testBit]
  obtain ⟨b, hb, hb2⟩ := C38_affineImpl quad le_rfl (by norm_num) (by decide) (by decide) _ hG (by
    rw [linearIndependent_fin2, h0, h1, h2]
    refine ⟨fun h => ?_, fun a h => ?_⟩
    · simpa using congrFun h 1
    · simpa using congrFun h 0)
  rw [hb]
  congr 1
  rw [← Bool.not_eq_true, hb2]
  rintro (h | ⟨_, h | h | h⟩)
  · exact absurd h (by norm_num)
  · exact absurd h (by norm_num)
  · exact absurd (h 1 (by norm_num) (by norm_num)) (by decide)
  · have hc : IsCubeId 2 3 := fun k h1 h2 => by obtain rfl : k = 1 := by omega
                                                decide
    have := h 3 (by rw [← C17_count (K := ℝ)]; change 3 < (referenceCorners 2 3).length; rw [C17_cube 2 3 hc]; simp)
    have e : vec 2 (RefGeom.corner (K := ℝ) 2 quad.id 3) = ![1, 1] := by
      refine (cubeCorner_eq hc (by norm_num)).trans ?_
      funext r; fin_cases r <;> simp [cubeCorner, Nat.testBit]
    rw [e] at this
    have h3 : combination (fun k : Fin 4 => q1 2 k) (fun k : Fin 4 => ![![0, 0], ![1, 0], ![0, 1], ![3, 2]] k) ![1, 1] = ![3, 2] := by
      funext j
      rw [combination, Finset.sum_apply, Fin.sum_univ_four]
      fin_cases j <;> simp [q1, Fin.prod_univ_two, Nat.testBit]
    rw [Fin.sum_univ_two, through, Fin.sum_univ_two, h0, h1, h2, h3, Real.sqrt_le_left (by norm_num [quad])] at this
    simp [quad] at this
    norm_num at this

end

end Verif.Lfe
