import Verif.Compare.Lemmas

/-! C82: the geometry classes are interchangeable. -/

namespace Verif.Compare

open Verif.RefGeom Verif.MatHelp Verif.Typ Verif.RefTopo Verif.Lfe Verif.Mapped Verif.GaussNewton Finset
open Matrix hiding vec

noncomputable section

variable {m n : Nat}

/-! ### the comparison -/

/-- C82: `compareGeometries` answers true exactly if all calls are defined, the flags, types and numbers of corners are equal
and all other answers differ by at most the tolerance -/
theorem C82_compare (g h : Methods m n) (tol : ℝ) (points : List (Fin m → ℝ)) :
    compareGeometries g h tol points = some true ↔
      Both g.affine h.affine ∧ eq g.type h.type = true ∧ g.corners = h.corners ∧
      (∀ i, i < g.corners → Near euclid tol (g.corner i) (h.corner i)) ∧ Near euclid tol g.center h.center ∧
      Near absDiff tol g.volume h.volume ∧ ∀ x ∈ points, NearAt g h tol x := by
  have h1 : (do return (← g.affine) == (← h.affine) : Option Bool) = some true ↔ Both g.affine h.affine := by
    rcases g.affine with _ | a
    · simp [Both]
    · rcases h.affine with _ | b
      · simp [Both]
      · cases a <;> cases b <;> simp [Both]
  rw [compareGeometries, andThen_true, andThen_true, andThen_true, andThen_true, andThen_true, andThen_true,
    closeBy_true (farVec_eq tol), closeBy_true (farNum_eq tol), foldr_andThen, foldr_andThen, h1]
  simp only [Option.some.injEq, beq_iff_eq, List.mem_range, comparePoint_true, closeBy_true (farVec_eq tol)]

/-- C82: interchangeable geometries pass the comparison, whatever the tolerance -/
theorem C82_passes (X : Set (Fin m → ℝ)) (g h : Methods m n) (hs : Same X g h) (tol : ℝ) (ht : 0 ≤ tol)
    (points : List (Fin m → ℝ)) (hp : ∀ x ∈ points, x ∈ X) : compareGeometries g h tol points = some true := by
  have e : ∀ {k : Nat} (x : Fin k → ℝ), euclid x x ≤ tol := fun x => by simpa [euclid] using ht
  have f : ∀ {k l : Nat} (x : Matrix (Fin k) (Fin l) ℝ), frobenius x x ≤ tol := fun x => by simpa [frobenius] using ht
  have a : ∀ x, absDiff x x ≤ tol := fun x => by simpa [absDiff] using ht
  rw [C82_compare]
  refine ⟨hs.affine, hs.type, hs.corners, fun i hi => (hs.corner i hi).near e, hs.center.near e, hs.volume.near a, fun x hx => ?_⟩
  have := hs.at_ x (hp x hx)
  exact ⟨this.1.near e, this.2.near f, this.3.near f, this.4.near f, this.5.near f, this.6.near a⟩

/-- C82: a geometry that passes for every tolerance has the same answers -/
theorem C82_complete (g h : Methods m n) (points : List (Fin m → ℝ))
    (hc : ∀ tol, 0 < tol → compareGeometries g h tol points = some true) : Same {x | x ∈ points} g h := by
  simp only [C82_compare] at hc
  have key : ∀ {α : Type} (d : α → α → ℝ) (_ : ∀ x y, d x y ≤ 0 → x = y) (a b : Option α), (∀ tol, 0 < tol → Near d tol a b) → Both a b := by
    intro α d hd a b hn
    obtain ⟨x, y, rfl, rfl, _⟩ := hn 1 one_pos
    have : x = y := by
      refine hd x y (le_of_forall_pos_le_add fun ε hε => ?_)
      obtain ⟨x', y', h1, h2, h3⟩ := hn ε hε
      rw [zero_add, Option.some.inj h1, Option.some.inj h2]
      exact h3
    exact ⟨x, rfl, by rw [this]⟩
  have e : ∀ {k : Nat} (x y : Fin k → ℝ), euclid x y ≤ 0 → x = y := by
    intro k x y h
    have h0 := Real.sqrt_eq_zero'.1 (le_antisymm h (Real.sqrt_nonneg _))
    funext i
    have := single_le_sum (f := fun i => (x i - y i) ^ 2) (fun i _ => sq_nonneg _) (mem_univ i)
    have h2 : (x i - y i) ^ 2 = 0 := le_antisymm (this.trans h0) (sq_nonneg _)
    exact sub_eq_zero.1 (pow_eq_zero_iff two_ne_zero |>.1 h2)
  have f : ∀ {k l : Nat} (x y : Matrix (Fin k) (Fin l) ℝ), frobenius x y ≤ 0 → x = y := by
    intro k l x y h
    have h0 := Real.sqrt_eq_zero'.1 (le_antisymm h (Real.sqrt_nonneg _))
    ext i j
    have h1 := single_le_sum (f := fun i => ∑ j, (x i j - y i j) ^ 2) (fun i _ => sum_nonneg fun j _ => sq_nonneg _) (mem_univ i)
    have h2 := single_le_sum (f := fun j => (x i j - y i j) ^ 2) (fun j _ => sq_nonneg _) (mem_univ j)
    have h3 : (x i j - y i j) ^ 2 = 0 := le_antisymm ((h2.trans h1).trans h0) (sq_nonneg _)
    exact sub_eq_zero.1 (pow_eq_zero_iff two_ne_zero |>.1 h3)
  have a : ∀ x y : ℝ, absDiff x y ≤ 0 → x = y := fun x y h => sub_eq_zero.1 (abs_nonpos_iff.1 h)
  obtain ⟨h1, h2, h3, _⟩ := hc 1 one_pos
  refine ⟨⟨h2, h3, fun i hi => key _ e _ _ fun tol ht => (hc tol ht).2.2.2.1 i hi,
    key _ e _ _ fun tol ht => (hc tol ht).2.2.2.2.1, fun x hx => ?_⟩, h1, key _ a _ _ fun tol ht => (hc tol ht).2.2.2.2.2.1⟩
  have hx' : ∀ tol, 0 < tol → NearAt g h tol x := fun tol ht => (hc tol ht).2.2.2.2.2.2 x hx
  exact ⟨key _ e _ _ fun tol ht => (hx' tol ht).1, key _ f _ _ fun tol ht => (hx' tol ht).2, key _ f _ _ fun tol ht => (hx' tol ht).3,
    key _ f _ _ fun tol ht => (hx' tol ht).4, key _ f _ _ fun tol ht => (hx' tol ht).5, key _ a _ _ fun tol ht => (hx' tol ht).6⟩

/-! ### AffineGeometry and MultiLinearGeometry -/

/-- C82: on every reference element, a `MultiLinearGeometry` whose corners are an affine image of full rank and the
`AffineGeometry` of this map give the same answers; `local` too, after a single pass -/
theorem C82_multilinear (g : MultiLinear.MultiLinearGeometry) (hg : MultiLinear.Legal g) (htol : g.tol * g.corners < 1)
    (a : Vec ℝ) (M : Mat ℝ) (hi : MultiLinear.ImageOf g a M) (hM : LinearIndependent ℝ (mat g.cdim g.mydim M).col) :
    ∃ A, Affine.AffineGeometry.ofJacobian g.mydim g.cdim g.id a (fun i j => M j i) = some A ∧
      Same {x | MultiLinear.Inner g (RefGeom.ext x)} (ofAffine g.mydim g.cdim A) (ofMultiLinear g.mydim g.cdim g) ∧
      ∀ (y : Vec ℝ) (fuel : Nat), ∃ x, g.local_ (fuel + 1) y = some (some (.point x)) ∧ vec g.mydim x = vec g.mydim (A.local_ y) := by
  have hr : MultiLinear.FullRank g M := hM
  have hmn := MultiLinear.fullRank_le hr
  have hT : mat g.mydim g.cdim (fun i j => M j i) = (mat g.cdim g.mydim M)ᵀ := rfl
  obtain ⟨A, hA⟩ := (Affine.C28_constructible g.mydim g.cdim g.id a (fun i j => M j i) hmn).2 hM
  obtain ⟨p, hp, hin⟩ := center_inner g.mydim g.id hg.id_lt
  have hin : MultiLinear.Inner g p := hin g.tol hg.tol_pos.le htol
  obtain ⟨e1, e2, e3, e4, e5, e6⟩ := Affine.ofJacobian_good hmn hA
  have hext : ∀ x : Vec ℝ, vec g.mydim (RefGeom.ext (vec g.mydim x)) = vec g.mydim x := fun x => by
    funext i; simp [vec, RefGeom.ext]
  have hglob : ∀ x, MultiLinear.Inner g x → vec g.cdim (g.global x) = vec g.cdim (A.global x) := by
    intro x hx
    rw [MultiLinear.global_exact hg hi hx]
    have := (affine_answers hmn hA (vec g.mydim x)).global
    have h2 : vec g.cdim (A.global x) = vec g.cdim (A.global (RefGeom.ext (vec g.mydim x))) := by
      rw [← e2, Affine.global_eq, Affine.global_eq, e1, hext]
    rw [h2, Option.some.inj this, hT, transpose_transpose, vecMul_transpose]
  have hJ : ∀ x, MultiLinear.Inner g x → mat g.cdim g.mydim (g.jacobian x) = mat g.cdim g.mydim M := by
    intro x hx
    have := MultiLinear.jt_mat_exact hg hi hx
    have h2 : mat g.cdim g.mydim (g.jacobian x) = (mat g.mydim g.cdim (g.jacobianTransposed x))ᵀ := rfl
    rw [h2, this, transpose_transpose]
  have hat : ∀ x : Fin g.mydim → ℝ, MultiLinear.Inner g (RefGeom.ext x) →
      SameAt (ofAffine g.mydim g.cdim A) (ofMultiLinear g.mydim g.cdim g) x := by
    intro x hx
    have h1 := affine_answers hmn hA x
    have h2 := multiLinear_answers g hmn x (by rw [hJ _ hx]; exact hM)
    rw [hJ _ hx] at h2
    rw [hT, transpose_transpose] at h1
    have : vec g.cdim (g.global (RefGeom.ext x)) = vec g.cdim a + mat g.cdim g.mydim M *ᵥ x := by
      rw [hglob _ hx]; exact Option.some.inj h1.global
    rw [this] at h2
    exact h1.same h2
  have hpos : position A.mydim A.id 0 0 = some p := by rw [e1, e3]; exact hp
  refine ⟨A, hA, ⟨⟨?_, ?_, ?_, ?_, hat⟩, ?_, ?_⟩, ?_⟩
  · change eq (mk2 A.id A.mydim) (mk2 g.id g.mydim) = true
    rw [e1, e3]; exact eq_self _
  · change A.corners = g.corners
    rw [Affine.AffineGeometry.corners, e1, e3]; rfl
  · intro i hi'
    obtain ⟨q, h1, h2⟩ := MultiLinear.C31_interpolation g hg i (by
      change i < A.corners at hi'
      rw [Affine.AffineGeometry.corners, e1, e3] at hi'; exact hi')
    refine ⟨vec g.cdim (g.global q), ?_, ?_⟩
    · change (A.corner i).map _ = _
      rw [Affine.AffineGeometry.corner, e1, e3, C21_vertex, h1]
      change some _ = some _
      congr 1
      have h3 : g.corner i = some (g.corners_ i) := by
        rw [MultiLinear.MultiLinearGeometry.corner] at h2 ⊢
        split at h2
        · rename_i hlt; rw [if_pos hlt]
        · exact absurd h2 (by simp)
      rw [h3] at h2
      rw [← Option.some.inj h2]
      have hA2 := (affine_answers hmn hA (vec g.mydim q)).global
      have h4 : vec g.cdim (A.global q) = vec g.cdim (A.global (RefGeom.ext (vec g.mydim q))) := by
        rw [← e2, Affine.global_eq, Affine.global_eq, e1, hext]
      rw [h4, Option.some.inj hA2]
      funext j
      have := hi i q h1 j j.2
      rw [vec, this, hT, transpose_transpose, Pi.add_apply, mulVec, dotProduct,
        ← Fin.sum_univ_eq_sum_range (fun r => M j r * q r)]
      rfl
    · change (g.corner i).map _ = _
      rw [h2]; rfl
  · refine ⟨vec g.cdim (g.global p), ?_, ?_⟩
    · change (A.center).map _ = _
      rw [Affine.AffineGeometry.center, hpos, hglob p hin]; rfl
    · change (g.center).map _ = _
      rw [MultiLinear.MultiLinearGeometry.center, hp]; rfl
  · exact ⟨true, rfl, congrArg some (MultiLinear.C33_complete g hg a M hi).1⟩
  · refine ⟨A.volume, rfl, ?_⟩
    change g.volume = _
    have hs := sqrtDet_answers (A := g.jacobianTransposed p) (J := mat g.cdim g.mydim M)
      (MultiLinear.jt_mat_exact hg hi hin) hM
    have hie : g.integrationElement p = _ := hs
    rw [MultiLinear.MultiLinearGeometry.volume, hp]
    change (g.integrationElement p).bind _ = _
    rw [hie]
    have h3 := (affine_answers hmn hA (vec g.mydim p)).integrationElement
    rw [hT, transpose_transpose] at h3
    rw [Affine.AffineGeometry.volume, e1, e3, Option.some.inj h3]
    rfl
  · intro y fuel
    obtain ⟨x, h1, h2, _⟩ := MultiLinear.C35_affine g hg a M hi hr p hp hin y fuel
    refine ⟨x, h1, ?_⟩
    have h3 := Affine.local_eq A y
    rw [e1, e2, e4] at h3
    have h4 := e6.inv
    rw [e1, e2, e5, hT, transpose_transpose] at h4
    rw [h2, h3, mulVec_transpose, h4]
    rfl

theorem simplex_images (m id : Nat) (hs : IsSimplexId m id) (jt : Mat ℝ) (c : Nat → Vec ℝ)
    (h : ∀ i, i < m → ∀ j, jt i j = c (i + 1) j - c 0 j) : Affine.images m id (c 0) jt = (List.range (m + 1)).map c := by
  have hsz : refSize m id m = m + 1 := by
    rw [← C17_count (K := ℝ), C17_simplex m id hs]; simp
  rw [Affine.images, hsz]
  refine List.map_congr_left fun k hk => ?_
  have hk := List.mem_range.1 hk
  have hc := C17_simplex (K := ℝ) m id hs
  funext j
  rw [RefGeom.corner, hc]
  cases k with
  | zero => simp
  | succ i =>
    rw [List.getD_cons_succ, List.getD_eq_getElem?_getD, List.getElem?_map, List.getElem?_range (by omega)]
    simp only [Option.map_some, Option.getD_some]
    rw [sum_eq_single i]
    · rw [h i (by omega) j]; simp
    · intro r _ hr; simp [hr]
    · intro hi; exact absurd (mem_range.2 (by omega)) hi

/-- C82: for simplices this covers all corners in general position, and `AffineGeometry` may be built from the corners -/
theorem C82_simplex (g : MultiLinear.MultiLinearGeometry) (hg : MultiLinear.Legal g) (htol : g.tol * g.corners < 1)
    (hs : IsSimplexId g.mydim g.id)
    (hl : LinearIndependent ℝ fun r : Fin g.mydim => vec g.cdim (g.corners_ (r + 1)) - vec g.cdim (g.corners_ 0)) :
    ∃ A, Affine.AffineGeometry.ofCorners g.mydim g.cdim g.id ((List.range (g.mydim + 1)).map g.corners_) = some A ∧
      Same {x | MultiLinear.Inner g (RefGeom.ext x)} (ofAffine g.mydim g.cdim A) (ofMultiLinear g.mydim g.cdim g) := by
  obtain ⟨A, h1, h2, _⟩ := C82_multilinear g hg htol (g.corners_ 0)
    (fun j r => if r < g.mydim then g.corners_ (r + 1) j - g.corners_ 0 j else 0) (by
      intro k p hp j hj
      rw [MultiLinear.imageOf_simplex g hs k p hp j hj]
      congr 1
      exact sum_congr rfl fun r hr => by beta_reduce; rw [if_pos (mem_range.1 hr)]) (by
      have : (mat g.cdim g.mydim fun j r => if r < g.mydim then g.corners_ (r + 1) j - g.corners_ 0 j else 0).col =
          fun r : Fin g.mydim => vec g.cdim (g.corners_ (r + 1)) - vec g.cdim (g.corners_ 0) := by
        funext r j; simp [Matrix.col, mat, vec]
      rw [this]; exact hl)
  refine ⟨A, ?_, h2⟩
  rw [← h1, ← Affine.C29_corners_simplex _ _ _ _ _ (fun i hi j => if_neg (by omega)) hs]
  rw [simplex_images _ _ hs _ g.corners_ fun i hi j => if_pos hi]

/-! ### AxisAlignedCubeGeometry -/

/-- C82: `AxisAlignedCubeGeometry` and the `AffineGeometry` with the same map -/
theorem C82_cube (g : Cube.AxisAlignedCubeGeometry) (hb : Cube.Built g) (ho : Cube.Ordered g) :
    ∃ A, Affine.AffineGeometry.ofJacobian g.dim g.coorddim (2 ^ g.dim - 1) g.lower g.jacobianTransposed = some A ∧
      Same Set.univ (ofCube g.dim g.coorddim g) (ofAffine g.dim g.coorddim A) ∧
      ∀ y : Vec ℝ, vec g.dim (g.local_ y) = vec g.dim (A.local_ y) := by
  obtain ⟨A, h1, h2, h3, h4, h5, h6, h7, h8, h9, h10, c, h11, h12⟩ := Cube.C30_affine g hb ho
  have hmn : g.dim ≤ g.coorddim := by
    have := hb.valid.count
    rw [← this]; exact Cube.count_le _ _
  obtain ⟨e1, e2, e3, e4, e5, e6⟩ := Affine.ofJacobian_good hmn h1
  refine ⟨A, h1, ⟨⟨?_, h9, ?_, ?_, fun x _ => ⟨?_, ?_, ?_, ?_, ?_, ?_⟩⟩, ?_, ?_⟩, h3⟩
  · change eq (mk2 _ g.dim) (mk2 A.id A.mydim) = true
    rw [e1, e3]
    split
    · exact eq_self _
    · have : g.dim = 0 ∨ g.dim = 1 := by omega
      rcases this with h | h <;> rw [h] <;> decide
  · intro i hi
    obtain ⟨c, h, h'⟩ := h10 i hi
    exact ⟨_, rfl, by change (A.corner i).map _ = _; rw [h, h']; rfl⟩
  · exact ⟨_, rfl, by change A.center.map _ = _; rw [h11, h12]; rfl⟩
  · exact ⟨_, rfl, congrArg some (h2 _).symm⟩
  · exact ⟨_, rfl, congrArg some h5.symm⟩
  · refine ⟨_, rfl, congrArg some ?_⟩
    rw [Affine.AffineGeometry.jacobianTransposed, e5]
  · exact ⟨_, rfl, congrArg some h6.symm⟩
  · exact ⟨_, rfl, congrArg some h4.symm⟩
  · exact ⟨_, rfl, congrArg some h7.symm⟩
  · exact ⟨true, rfl, rfl⟩
  · exact ⟨_, rfl, congrArg some h8.symm⟩

/-! ### LocalFiniteElementGeometry -/

theorem volumeOf_const (g : LFEGeometry m n) (c : ℝ) (hc : ∀ x, g.integrationElement x = some c) (rule : Rule m) :
    g.volumeOf rule = some (c * (rule.map (·.2)).sum) := by
  have : ∀ (l : Rule m) (v : ℝ),
      l.foldlM (fun vol qp => do return vol + (← g.integrationElement qp.1) * qp.2) v = some (v + c * (l.map (·.2)).sum) := by
    intro l
    induction l with
    | nil => intro v; simp
    | cons q l ih =>
      intro v
      rw [List.foldlM_cons, hc]
      change List.foldlM _ (v + c * q.2) l = _
      rw [ih, List.map_cons, List.sum_cons]
      congr 1; ring
  rw [LFEGeometry.volumeOf, this, zero_add]

/-- C82: a `LocalFiniteElementGeometry` of order at most one whose map is affine of full rank and the `AffineGeometry` of this
map.  `volume()` uses the quadrature rule of order 1; the volumes agree if its weights sum to the volume of the reference
element. -/
theorem C82_lfe_affine (g : LFEGeometry m n) (hm : m < 256) (hid : g.id < 2 ^ m) (hid' : g.id < 2 ^ 32)
    (ho : g.localFE.order ≤ 1) (ht : 0 ≤ g.tol) (hf : g.affine_ = none) (a : Vec ℝ) (M : Mat ℝ)
    (hM : LinearIndependent ℝ (mat n m M).col) (hG : ∀ x, g.global x = some (vec n a + mat n m M *ᵥ x))
    (hJ : ∀ x, ∃ J, g.jacobian x = some J ∧ mat n m J = mat n m M) (rules : Nat → Option (Rule m)) (rule : Rule m)
    (hr : rules 1 = some rule) (opts : ConvergenceOptions) :
    ∃ A, Affine.AffineGeometry.ofJacobian m n g.id a (fun i j => M j i) = some A ∧
      SameMap Set.univ (ofAffine m n A) (ofLfe g rules opts) ∧ (ofLfe g rules opts).affine = some true ∧
      (ofLfe g rules opts).volume = some (A.integrationElement * (rule.map (·.2)).sum) ∧
      ((rule.map (·.2)).sum = referenceVolume m g.id → Same Set.univ (ofAffine m n A) (ofLfe g rules opts)) := by
  have hmn : m ≤ n := by simpa using hM.fintype_card_le_finrank
  have hT : mat m n (fun i j => M j i) = (mat n m M)ᵀ := rfl
  obtain ⟨A, hA⟩ := (Affine.C28_constructible m n g.id a (fun i j => M j i) hmn).2 hM
  obtain ⟨e1, e2, e3, e4, e5, e6⟩ := Affine.ofJacobian_good hmn hA
  have hA' : ∀ x, Answers (ofAffine m n A) x (vec n a + mat n m M *ᵥ x) (mat n m M) := fun x => by
    have := affine_answers hmn hA x
    rwa [hT, transpose_transpose] at this
  have hL : ∀ x, Answers (ofLfe g rules opts) x (vec n a + mat n m M *ᵥ x) (mat n m M) := fun x => by
    obtain ⟨J, h1, h2⟩ := hJ x
    have := lfe_answers g rules opts x (hG x) h1 (by rw [h2]; exact hM)
    rwa [h2] at this
  have hglob : ∀ x : Vec ℝ, vec n (A.global x) = vec n a + mat n m M *ᵥ vec m x := fun x => by
    have := Affine.global_eq A x
    rw [e1, e2, e4, e5, hT, transpose_transpose] at this
    exact this
  have haff : g.affine = some (true, { g with affine_ := some true }) := by
    rw [LFEGeometry.affine, hf, C38_affine_complete g hmn hm hid hid' ho _ _ hM ht hG]; rfl
  have hvol : (ofLfe g rules opts).volume = some (A.integrationElement * (rule.map (·.2)).sum) := by
    change (g.volume rules opts).bind _ = _
    rw [LFEGeometry.volume, haff]
    change (adaptiveVolume (fun p => (rules p).bind g.volumeOf) true opts).value = _
    have hie : ∀ x, g.integrationElement x = some A.integrationElement := fun x => by
      have := (hL x).integrationElement
      rw [← (hA' x).integrationElement] at this
      exact this
    have h1 : (rules 1).bind g.volumeOf = some (A.integrationElement * (rule.map (·.2)).sum) := by
      rw [hr, Option.bind_some, volumeOf_const g _ hie]
    rw [adaptiveVolume, h1]
    rfl
  have hmap : SameMap Set.univ (ofAffine m n A) (ofLfe g rules opts) := by
    refine ⟨?_, ?_, ?_, ?_, fun x _ => (hA' x).same (hL x)⟩
    · change eq (mk2 A.id A.mydim) (mk2 g.id m) = true
      rw [e1, e3]; exact eq_self _
    · change A.corners = g.corners
      rw [Affine.AffineGeometry.corners, e1, e3]; rfl
    · intro i hi
      have hi' : i < refSize m g.id m := by
        change i < A.corners at hi
        rwa [Affine.AffineGeometry.corners, e1, e3] at hi
      obtain ⟨q, h1, h2⟩ := C38_corner g i hi'
      refine ⟨_, ?_, h2.trans (hG _)⟩
      change (A.corner i).map _ = _
      rw [Affine.AffineGeometry.corner, e1, e3, C21_vertex, h1]
      exact congrArg some (hglob q)
    · obtain ⟨p, hp, _⟩ := center_inner m g.id hid
      refine ⟨vec n a + mat n m M *ᵥ vec m p, ?_, ?_⟩
      · change A.center.map _ = _
        rw [Affine.AffineGeometry.center, e1, e3, hp]
        exact congrArg some (hglob p)
      · change g.center = _
        rw [LFEGeometry.center, hp]; exact hG _
  have ha : (ofLfe g rules opts).affine = some true := by
    change g.affine.map _ = _
    rw [haff]; rfl
  refine ⟨A, hA, hmap, ha, hvol, fun hw => ⟨hmap, ⟨true, rfl, ha⟩, A.volume, rfl, ?_⟩⟩
  rw [hvol, hw, Affine.AffineGeometry.volume, e1, e3]

/-- C82: linear elements on simplices -/
theorem C82_p1 (id : Nat) (hm : m < 256) (hid : id < 2 ^ m) (hid' : id < 2 ^ 32) (hs : IsSimplexId m id) (v : Fin (m + 1) → (Fin n → ℝ))
    (hv : LinearIndependent ℝ fun r : Fin m => v r.succ - v 0) (tol : ℝ) (ht : 0 ≤ tol) (rules : Nat → Option (Rule m)) (rule : Rule m)
    (hr : rules 1 = some rule) (hw : (rule.map (·.2)).sum = referenceVolume m id) (opts : ConvergenceOptions) :
    ∃ g A, LFEGeometry.ofVertices id (p1LocalFE m) (List.ofFn v) tol = some g ∧
      Affine.AffineGeometry.ofCorners m n id ((List.ofFn v).map RefGeom.ext) = some A ∧
      Same Set.univ (ofAffine m n A) (ofLfe g rules opts) := by
  let g : LFEGeometry m n := ⟨id, p1LocalFE m, List.ofFn v, none, tol⟩
  let a : Vec ℝ := RefGeom.ext (v 0)
  let M : Mat ℝ := fun j r => if h : r < m then RefGeom.ext (v (⟨r, h⟩ : Fin m).succ - v 0) j else 0
  have hMa : mat n m M = Matrix.of fun j r => (v r.succ - v 0) j := by
    funext j r
    have : (⟨r, r.2⟩ : Fin m).succ = r.succ := rfl
    simp only [mat, M, RefGeom.ext, dif_pos r.2, dif_pos j.2, Fin.eta, Matrix.of_apply]
  have hva : vec n a = v 0 := by funext j; simp [vec, a, RefGeom.ext]
  have hvk : ∀ k, v k = vec n a + mat n m M *ᵥ simplexCorner m k := by
    intro k
    rw [hva, hMa]
    refine Fin.cases ?_ (fun r => ?_) k
    · simp [simplexCorner]
    · simp only [simplexCorner, Fin.cases_succ, mulVec_single_one]
      funext j; simp
  have hG : ∀ x, g.global x = some (vec n a + mat n m M *ᵥ x) := fun x =>
    C38_affine g (p1_evaluates m) (simplexCorner m) _ _ x (p1_sum x) (p1_coord x) (congrArg List.ofFn (funext hvk))
  have hJ : ∀ x, ∃ J, g.jacobian x = some J ∧ mat n m J = mat n m M := by
    intro x
    obtain ⟨J, h1, h2⟩ := Lfe.jacobian_mat g (p1_evaluates m) v rfl x
    refine ⟨J, h1, ?_⟩
    rw [hMa]
    funext j r
    rw [h2, Fin.sum_univ_succ]
    simp [dp1, Pi.single_apply, ite_mul]
    ring
  obtain ⟨A, h1, _, _, _, h2⟩ := C82_lfe_affine g hm hid hid' (le_refl 1) ht rfl a M (by rw [hMa]; exact hv) hG hJ rules rule hr opts
  refine ⟨g, A, ?_, ?_, h2 hw⟩
  · rw [LFEGeometry.ofVertices, if_pos (by simp [p1LocalFE])]
  · have hc := simplex_images m id hs (fun i j => M j i) (fun k => if h : k < m + 1 then RefGeom.ext (v ⟨k, h⟩) else fun _ => 0) (by
      intro i hi j
      simp only [M, dif_pos hi, dif_pos (show i + 1 < m + 1 by omega), dif_pos (Nat.succ_pos m)]
      simp only [RefGeom.ext]
      split
      · rfl
      · simp)
    have hz := Affine.C29_corners_simplex m n id a (fun i j => M j i) (fun i hi j => by simp [M, not_lt.2 hi]) hs
    rw [← h1]
    refine Eq.trans ?_ hz
    congr 1
    refine Eq.trans ?_ hc.symm
    refine List.ext_getElem (by simp) fun i h1 h2 => ?_
    have hi : i < m + 1 := by simpa using h1
    rw [List.getElem_map, List.getElem_ofFn, List.getElem_map, List.getElem_range, dif_pos hi]

/-- C82: tensor product elements on cubes and `MultiLinearGeometry`; the maps, the Jacobians and what is derived from them
agree in all points where the Jacobian has full rank, inside the cube or not -/
theorem C82_q1 (b : MultiLinear.MultiLinearGeometry) (hb : MultiLinear.Legal b) (hc : IsCubeId b.mydim b.id)
    (hmn : b.mydim ≤ b.cdim) (tol : ℝ) (rules : Nat → Option (Rule b.mydim)) (opts : ConvergenceOptions) :
    ∃ g : LFEGeometry b.mydim b.cdim, LFEGeometry.ofVertices b.id (q1LocalFE b.mydim)
        (List.ofFn fun k : Fin (2 ^ b.mydim) => vec b.cdim (b.corners_ k)) tol = some g ∧
      SameMap {x | LinearIndependent ℝ (mat b.cdim b.mydim (b.jacobian (RefGeom.ext x))).col} (ofMultiLinear b.mydim b.cdim b)
        (ofLfe g rules opts) := by
  let g : LFEGeometry b.mydim b.cdim := ⟨b.id, q1LocalFE b.mydim, List.ofFn fun k : Fin (2 ^ b.mydim) => vec b.cdim (b.corners_ k), none, tol⟩
  have hG : ∀ x, g.global x = some (vec b.cdim (b.global (RefGeom.ext x))) :=
    C38_q1 b hb hc g _ (q1_evaluates b.mydim) rfl
  have hext : ∀ q : Vec ℝ, vec b.cdim (b.global (RefGeom.ext (vec b.mydim q))) = vec b.cdim (b.global q) := by
    intro q
    funext j
    rw [vec, vec, MultiLinear.C31_cube_formula b hb hc, MultiLinear.C31_cube_formula b hb hc]
    refine sum_congr rfl fun k _ => ?_
    congr 1
    exact prod_congr rfl fun r hr => by
      have := mem_range.1 hr
      simp [RefGeom.ext, vec, this]
  refine ⟨g, ?_, ⟨eq_self _, rfl, ?_, ?_, fun x hx => ?_⟩⟩
  · rw [LFEGeometry.ofVertices, if_pos (by simp [q1LocalFE])]
  · intro i hi
    obtain ⟨q, h1, h2⟩ := MultiLinear.C31_interpolation b hb i hi
    obtain ⟨q', h1', h2'⟩ := C38_corner g i hi
    obtain rfl : q = q' := Option.some.inj (h1.symm.trans h1')
    refine ⟨vec b.cdim (b.global q), ?_, ?_⟩
    · change (b.corner i).map _ = _
      rw [h2]; rfl
    · change g.corner i = _
      rw [h2', hG, hext]
  · obtain ⟨p, hp, _⟩ := center_inner b.mydim b.id hb.id_lt
    refine ⟨vec b.cdim (b.global p), ?_, ?_⟩
    · change b.center.map _ = _
      rw [MultiLinear.MultiLinearGeometry.center, hp]; rfl
    · change g.center = _
      rw [LFEGeometry.center]
      have hp' : position b.mydim g.id 0 0 = some p := hp
      rw [hp', Option.bind_some, hG, hext]
  · obtain ⟨J, h1, h2, _⟩ := C38_derivative g (q1_evaluates b.mydim) (fun k : Fin (2 ^ b.mydim) => vec b.cdim (b.corners_ k)) rfl x
      fun k => q1_gradient k x
    have hfun : (fun z => ∑ k : Fin (2 ^ b.mydim), q1 b.mydim k z • vec b.cdim (b.corners_ k)) =
        fun z => vec b.cdim (b.global (RefGeom.ext z)) := by
      funext z
      have := C38_global g (q1_evaluates b.mydim) (fun k : Fin (2 ^ b.mydim) => vec b.cdim (b.corners_ k)) rfl z
      rw [hG] at this
      exact (Option.some.inj this).symm
    rw [hfun] at h2
    have hJ : mat b.cdim b.mydim J = mat b.cdim b.mydim (b.jacobian (RefGeom.ext x)) :=
      lin_inj (h2.unique (MultiLinear.C32_derivative_cube b hb hc x))
    have hA := multiLinear_answers b hmn x hx
    have hL := lfe_answers g rules opts x (hG x) h1 (by rw [hJ]; exact hx)
    rw [hJ] at hL
    exact hA.same hL

/-- C82: tensor product elements that interpolate an affine map; all answers agree.  (The type of the reference element is not
checked against the finite element, so this holds for all types.) -/
theorem C82_q1_affine (id : Nat) (hm : m < 256) (hid : id < 2 ^ m) (hid' : id < 2 ^ 32) (a : Vec ℝ) (M : Mat ℝ)
    (hM : LinearIndependent ℝ (mat n m M).col) (tol : ℝ) (ht : 0 ≤ tol) (rules : Nat → Option (Rule m)) (rule : Rule m)
    (hr : rules 1 = some rule) (hw : (rule.map (·.2)).sum = referenceVolume m id) (opts : ConvergenceOptions) :
    ∃ A, Affine.AffineGeometry.ofJacobian m n id a (fun i j => M j i) = some A ∧
      Same Set.univ (ofAffine m n A)
        (ofLfe (LFEGeometry.ofFunction id (q1LocalFE m) (fun x => vec n a + mat n m M *ᵥ x) tol) rules opts) := by
  let g : LFEGeometry m n := LFEGeometry.ofFunction id (q1LocalFE m) (fun x => vec n a + mat n m M *ᵥ x) tol
  have hG : ∀ x, g.global x = some (vec n a + mat n m M *ᵥ x) := fun x =>
    C38_affine_function id tol (q1_evaluates m) (fun k => cubeCorner m k) (vec n a) (mat n m M) x (q1_sum x) (q1_coord x)
      (fun f => q1_interpolate f)
  have hJ : ∀ x, ∃ J, g.jacobian x = some J ∧ mat n m J = mat n m M := by
    intro x
    have hv : g.vertices = List.ofFn fun k : Fin (2 ^ m) => vec n a + mat n m M *ᵥ cubeCorner m k :=
      q1_interpolate fun x => vec n a + mat n m M *ᵥ x
    obtain ⟨J, h1, h2, _⟩ := C38_derivative g (q1_evaluates m) _ hv x fun k => q1_gradient k x
    refine ⟨J, h1, ?_⟩
    have hfun : (fun z => ∑ k : Fin (2 ^ m), q1 m k z • (vec n a + mat n m M *ᵥ cubeCorner m k)) =
        fun z => vec n a + mat n m M *ᵥ z := by
      funext z
      have := C38_global g (q1_evaluates m) _ hv z
      rw [hG] at this
      exact (Option.some.inj this).symm
    rw [hfun] at h2
    have h3 : HasFDerivAt (fun z => vec n a + mat n m M *ᵥ z) (lin n m M) x :=
      ((lin n m M).hasFDerivAt (x := x)).const_add (vec n a)
    exact lin_inj (h2.unique h3)
  obtain ⟨A, h1, _, _, _, h2⟩ := C82_lfe_affine g hm hid hid' (le_refl 1) ht rfl a M hM hG hJ rules rule hr opts
  exact ⟨A, h1, h2 hw⟩

/-! ### MappedGeometry -/

/-- C82: `MappedGeometry` of a finite element function on the reference element and `LocalFiniteElementGeometry` with the same
finite element and coefficients: all answers are the same, also where they are undefined, if the flag handed to the constructor of
`MappedGeometry` is the one that `LocalFiniteElementGeometry` computes -/
theorem C82_mapped (g : LFEGeometry m n) (b : Bool) (hb : g.affine.map (·.1) = some b)
    (rules : Nat → Option (Rule m)) (opts : ConvergenceOptions) (mg : MappedGeometry m m n)
    (h1 : ∀ x, functionValue g.localFE g.vertices x = some (mg.mapping x))
    (h2 : ∀ x, functionDerivative g.localFE g.vertices x = some (mg.dMapping x))
    (h3 : mg.geometry = referenceElementGeometry m g.id) (h4 : mg.affine_ = b) :
    ofMapped mg g.id rules opts = ofLfe g rules opts ∧ ∀ y o, mg.local_ y o = g.local_ y o := by
  have hG : ∀ x, g.global x = some (mg.global x) := by
    intro x
    rw [MappedGeometry.global, h3]
    exact h1 x
  have hz : ∀ x i j, ¬ (i < n ∧ j < m) → mg.dMapping x i j = 0 := by
    intro x i j hij
    have := h2 x
    rw [functionDerivative] at this
    split at this
    swap
    · exact absurd this (by simp)
    rw [← Option.some.inj this, foldl_point2 _ (fun (p : (Fin m → ℝ) × (Fin n → ℝ)) j k =>
      if h : j < n ∧ k < m then p.1 ⟨k, h.2⟩ * p.2 ⟨j, h.1⟩ else 0)]
    have : ∀ (l : List ((Fin m → ℝ) × (Fin n → ℝ))) (s : ℝ),
        l.foldl (fun s p => s + if h : i < n ∧ j < m then p.1 ⟨j, h.2⟩ * p.2 ⟨i, h.1⟩ else 0) s = s := by
      intro l
      induction l with
      | nil => intro s; rfl
      | cons a l ih => intro s; rw [List.foldl_cons, ih, dif_neg hij, add_zero]
    exact this _ _
  have hJ : ∀ x, g.jacobian x = some (mg.jacobian x) := by
    intro x
    have e : mg.jacobian x = mg.dMapping x := by
      funext i j
      rw [MappedGeometry.jacobian, h3]
      change addLoop 0 0 m (fun l => mg.dMapping x i l * if l = j then 1 else 0) = _
      rw [addLoop_eq, zero_add, ← range_eq_Ico]
      by_cases hj : j < m
      · rw [sum_eq_single j]
        · simp
        · intro l _ hl; simp [hl]
        · intro h; exact absurd (mem_range.2 hj) h
      · rw [hz x i j (fun h => hj h.2)]
        exact sum_eq_zero fun l hl => by
          have := mem_range.1 hl
          rw [if_neg (by omega), mul_zero]
    rw [e]
    exact h2 x
  have hT : ∀ x, g.jacobianTransposed x = some (mg.jacobianTransposed x) := fun x => by
    rw [LFEGeometry.jacobianTransposed, hJ]; rfl
  have hie : ∀ x, g.integrationElement x = mg.integrationElement x := fun x => by
    rw [LFEGeometry.integrationElement, hT]; rfl
  have hinv : ∀ x, g.jacobianInverse x = mg.jacobianInverse x := fun x => by
    rw [LFEGeometry.jacobianInverse, hJ, MappedGeometry.jacobianInverse]
    change (leftInvA n m (mg.jacobian x)).bind _ = _
    cases leftInvA n m (mg.jacobian x) <;> rfl
  have hvo : g.volumeOf = mg.volumeOf := by
    funext r
    rw [LFEGeometry.volumeOf, MappedGeometry.volumeOf]
    simp only [hie]
  constructor
  · have haff : (ofMapped mg g.id rules opts).affine = (ofLfe g rules opts).affine := by
      change some mg.affine_ = g.affine.map _
      rw [hb, h4]
    have hvol : (ofMapped mg g.id rules opts).volume = (ofLfe g rules opts).volume := by
      change (mg.volume rules opts).value = (g.volume rules opts).bind _
      rcases ha : g.affine with _ | ⟨a, g'⟩
      · rw [ha] at hb; exact absurd hb (by simp)
      · rw [ha] at hb
        obtain rfl : a = b := Option.some.inj hb
        rw [LFEGeometry.volume, ha, MappedGeometry.volume, hvo, MappedGeometry.affine, h4]
        rfl
    have hcorners : mg.corners = g.corners := by rw [MappedGeometry.corners, h3]; rfl
    have hid : ∀ x, mg.mapping x = mg.global x := fun x => by rw [MappedGeometry.global, h3]; rfl
    have hcorner : ∀ i, mg.corner i = g.corner i := by
      intro i
      rw [MappedGeometry.corner, LFEGeometry.corner, hcorners, h3]
      split
      · change ((position (K := ℝ) m g.id i m).map (vec m)).map _ = _
        cases position (K := ℝ) m g.id i m with
        | none => rfl
        | some p => rw [Option.bind_some, hG, ← hid]; rfl
      · rfl
    have hcenter : mg.center = g.center := by
      rw [MappedGeometry.center, LFEGeometry.center, h3]
      change ((position (K := ℝ) m g.id 0 0).map (vec m)).map _ = _
      cases position (K := ℝ) m g.id 0 0 with
      | none => rfl
      | some p => rw [Option.bind_some, hG, ← hid]; rfl
    simp only [ofMapped, ofLfe] at haff hvol ⊢
    simp only [haff, hvol, hcorners, hcenter, Methods.mk.injEq, true_and]
    refine ⟨funext hcorner, funext fun x => (hG x).symm, funext fun x => ?_, funext fun x => ?_, funext fun x => ?_,
      funext fun x => ?_, funext fun x => (hie x).symm⟩
    · rw [hJ]; rfl
    · rw [hT]; rfl
    · rw [hinv]
    · rw [LFEGeometry.jacobianInverseTransposed, hinv]; rfl
  · intro y o
    rw [MappedGeometry.local_, LFEGeometry.local_, h3]
    have e1 : (fun x => (g.global x).getD fun _ => 0) = mg.global := by funext x; rw [hG]; rfl
    have e2 : (fun x => (g.jacobianTransposed x).getD fun _ _ => 0) = mg.jacobianTransposed := by funext x; rw [hT]; rfl
    rw [e1, e2]
    change ((position (K := ℝ) m g.id 0 0).map (vec m)).bind _ = _
    cases position (K := ℝ) m g.id 0 0 <;> rfl

end

end Verif.Compare
