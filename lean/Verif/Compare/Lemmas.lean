import Verif.Compare.Spec
import Verif.Lfe.Props
import Verif.Cube.Props
import Verif.MultiLinear.NewtonProps

/-! Lemmas for C82: in a regular point every class gives the value of the map, its Jacobian, the pseudo inverse and the Gram
determinant. -/

namespace Verif.Compare

open Verif.RefGeom Verif.MatHelp Verif.Typ Verif.RefTopo Verif.Lfe Verif.Mapped Verif.GaussNewton Finset
open Matrix hiding vec

noncomputable section

variable {m n : Nat}

/-! ### compareGeometries -/

theorem andThen_true {a b : Option Bool} : andThen a b = some true ↔ a = some true ∧ b = some true := by
  rcases a with _ | _ | _ <;> simp [andThen]

theorem closeBy_true {α : Type} {far : α → α → Bool} {d : α → α → ℝ} {tol : ℝ} (h : ∀ x y, far x y = decide (d x y > tol))
    {a b : Option α} : closeBy far a b = some true ↔ Near d tol a b := by
  rcases a with _ | x
  · simp [closeBy, Near]
  · rcases b with _ | y
    · simp [closeBy, Near]
    · simp [closeBy, Near, h]

theorem farVec_eq (tol : ℝ) (x y : Fin n → ℝ) : farVec tol x y = decide (euclid x y > tol) := by
  have : two_norm (x - y) = euclid x y := by
    rw [two_norm, euclid]; congr 1; exact sum_congr rfl fun i _ => by rw [Pi.sub_apply]; ring
  rw [farVec, this]

theorem farMat_eq (tol : ℝ) (A B : Matrix (Fin m) (Fin n) ℝ) : farMat tol A B = decide (frobenius A B > tol) := by
  have : Real.sqrt (∑ i, ∑ j, (A i j - B i j) * (A i j - B i j)) = frobenius A B := by
    rw [frobenius]; congr 1; exact sum_congr rfl fun i _ => sum_congr rfl fun j _ => by ring
  rw [farMat, this]

theorem farNum_eq (tol a b : ℝ) : farNum tol a b = decide (absDiff a b > tol) := rfl

theorem foldr_andThen {α : Type} (F : α → Option Bool) (l : List α) :
    l.foldr (fun i rest => andThen (F i) rest) (some true) = some true ↔ ∀ i ∈ l, F i = some true := by
  induction l with
  | nil => simp
  | cons a l ih => rw [List.foldr_cons, andThen_true, ih]; simp

theorem comparePoint_true (g h : Methods m n) (tol : ℝ) (x : Fin m → ℝ) :
    comparePoint g h tol x = some true ↔ NearAt g h tol x := by
  rw [comparePoint, andThen_true, andThen_true, andThen_true, andThen_true, andThen_true, closeBy_true (farVec_eq tol),
    closeBy_true (farMat_eq tol), closeBy_true (farMat_eq tol), closeBy_true (farMat_eq tol), closeBy_true (farMat_eq tol),
    closeBy_true (farNum_eq tol)]
  exact ⟨fun ⟨a, b, c, d, e, f⟩ => ⟨a, b, c, d, e, f⟩, fun ⟨a, b, c, d, e, f⟩ => ⟨a, b, c, d, e, f⟩⟩

theorem Both.near {α : Type} {d : α → α → ℝ} {tol : ℝ} (hd : ∀ x, d x x ≤ tol) {a b : Option α} (h : Both a b) : Near d tol a b := by
  obtain ⟨y, h1, h2⟩ := h
  exact ⟨y, y, h1, h2, hd y⟩

theorem Both.symm {α : Type} {a b : Option α} (h : Both a b) : Both b a := by
  obtain ⟨y, h1, h2⟩ := h; exact ⟨y, h2, h1⟩

theorem Both.trans {α : Type} {a b c : Option α} (h : Both a b) (h' : Both b c) : Both a c := by
  obtain ⟨y, h1, h2⟩ := h
  obtain ⟨y', h3, h4⟩ := h'
  obtain rfl := Option.some.inj (h2.symm.trans h3)
  exact ⟨y, h1, h4⟩

theorem SameAt.trans {g h k : Methods m n} {x : Fin m → ℝ} (a : SameAt g h x) (b : SameAt h k x) : SameAt g k x :=
  ⟨a.1.trans b.1, a.2.trans b.2, a.3.trans b.3, a.4.trans b.4, a.5.trans b.5, a.6.trans b.6⟩

theorem eq_symm {a b : GeometryType} (h : eq a b = true) : eq b a = true := by
  simp only [eq, Bool.and_eq_true, Bool.or_eq_true, beq_iff_eq] at h ⊢
  obtain ⟨h1, h2⟩ := h
  refine ⟨h1.symm, ?_⟩
  rcases h2 with h2 | ⟨h2, h3⟩
  · exact Or.inl (h1 ▸ h2)
  · exact Or.inr ⟨h2.symm, h3.symm⟩

theorem eq_trans {a b c : GeometryType} (h : eq a b = true) (h' : eq b c = true) : eq a c = true := by
  simp only [eq, Bool.and_eq_true, Bool.or_eq_true, beq_iff_eq] at h h' ⊢
  obtain ⟨h1, h2⟩ := h
  obtain ⟨h3, h4⟩ := h'
  refine ⟨h1.trans h3, ?_⟩
  rcases h2 with h2 | ⟨h2, h2'⟩
  · exact Or.inl h2
  · rcases h4 with h4 | ⟨h4, h4'⟩
    · exact Or.inl (h1.trans h4)
    · exact Or.inr ⟨h2.trans h4, h2'.trans h4'⟩

theorem eq_self (a : GeometryType) : eq a a = true := by
  simp [eq]

theorem SameMap.trans {X : Set (Fin m → ℝ)} {g h k : Methods m n} (a : SameMap X g h) (b : SameMap X h k) : SameMap X g k :=
  ⟨eq_trans a.type b.type, a.corners.trans b.corners, fun i hi => (a.corner i hi).trans (b.corner i (a.corners ▸ hi)),
    a.center.trans b.center, fun x hx => (a.at_ x hx).trans (b.at_ x hx)⟩

theorem Same.trans {X : Set (Fin m → ℝ)} {g h k : Methods m n} (a : Same X g h) (b : Same X h k) : Same X g k :=
  ⟨a.toSameMap.trans b.toSameMap, a.affine.trans b.affine, a.volume.trans b.volume⟩

theorem SameAt.symm {g h : Methods m n} {x : Fin m → ℝ} (a : SameAt g h x) : SameAt h g x :=
  ⟨a.1.symm, a.2.symm, a.3.symm, a.4.symm, a.5.symm, a.6.symm⟩

theorem Same.symm {X : Set (Fin m → ℝ)} {g h : Methods m n} (a : Same X g h) : Same X h g :=
  ⟨⟨eq_symm a.type, a.corners.symm, fun i hi => (a.corner i (a.corners ▸ hi)).symm, a.center.symm, fun x hx => (a.at_ x hx).symm⟩,
    a.affine.symm, a.volume.symm⟩

/-! ### the center lies inside -/

/-- sum of the corners -/
def cornerSum (t : Topo) (r : Nat) : ℝ := ((cornersOf (K := ℝ) t).map fun c => c r).sum

theorem length_cornersOf (t : Topo) : (cornersOf (K := ℝ) t).length = MultiLinear.nv t := by
  rw [cornersOf, List.length_map, length_faces]

theorem cornersOf_high : ∀ t : Topo, ∀ c ∈ cornersOf (K := ℝ) t, ∀ r, t.dim ≤ r → c r = 0
  | .pt, c, hc, r, _ => by
    simp only [cornersOf, faces, Topo.dim, if_true, List.map_cons, List.map_nil, List.mem_singleton] at hc
    subst hc; rfl
  | .prism t, c, hc, r, hr => by
    rw [cornersOf_prism, List.mem_append] at hc
    simp only [Topo.dim] at hr
    rcases hc with hc | hc
    · exact cornersOf_high t c hc r (by omega)
    · obtain ⟨c', hc', rfl⟩ := List.mem_map.1 hc
      rw [setV, if_neg (by omega)]
      exact cornersOf_high t c' hc' r (by omega)
  | .pyr t, c, hc, r, hr => by
    rw [cornersOf_pyr, List.mem_append] at hc
    simp only [Topo.dim] at hr
    rcases hc with hc | hc
    · exact cornersOf_high t c hc r (by omega)
    · rw [List.mem_singleton.1 hc, setV, if_neg (by omega)]

theorem cornerSum_dim (t : Topo) : cornerSum t t.dim = 0 := by
  rw [cornerSum]
  refine List.sum_eq_zero fun a ha => ?_
  obtain ⟨c, hc, rfl⟩ := List.mem_map.1 ha
  exact cornersOf_high t c hc _ (le_refl _)

theorem sum_const_map {α : Type} (l : List α) (c : ℝ) : (l.map fun _ => c).sum = l.length * c := by
  rw [List.map_const', List.sum_replicate, nsmul_eq_mul]

theorem cornerSum_prism (t : Topo) (r : Nat) :
    cornerSum (.prism t) r = if r = t.dim then (MultiLinear.nv t : ℝ) else 2 * cornerSum t r := by
  rw [cornerSum, cornersOf_prism, List.map_append, List.sum_append, List.map_map]
  by_cases h : r = t.dim
  · subst h
    rw [if_pos rfl]
    have e : ((fun c : Vec ℝ => c t.dim) ∘ fun c => setV c t.dim 1) = fun _ => (1 : ℝ) := by
      funext c; simp [setV]
    have := cornerSum_dim t
    rw [cornerSum] at this
    rw [this, e, sum_const_map, length_cornersOf]; ring
  · rw [if_neg h]
    have e : ((fun c : Vec ℝ => c r) ∘ fun c => setV c t.dim 1) = fun c => c r := by
      funext c; simp [setV, h]
    rw [e, ← cornerSum]; ring

theorem cornerSum_pyr (t : Topo) (r : Nat) : cornerSum (.pyr t) r = if r = t.dim then 1 else cornerSum t r := by
  rw [cornerSum, cornersOf_pyr, List.map_append, List.sum_append]
  by_cases h : r = t.dim
  · subst h
    have := cornerSum_dim t
    rw [cornerSum] at this
    rw [this]; simp [setV]
  · rw [if_neg h, ← cornerSum]; simp [h, setV]

theorem nv_prism (t : Topo) : MultiLinear.nv (.prism t) = 2 * MultiLinear.nv t := by
  rw [← length_cornersOf, ← length_cornersOf, cornersOf_prism]; simp; omega

theorem nv_pyr (t : Topo) : MultiLinear.nv (.pyr t) = MultiLinear.nv t + 1 := by
  rw [← length_cornersOf, ← length_cornersOf, cornersOf_pyr]; simp

theorem nv_pos (t : Topo) : 0 < MultiLinear.nv t := Topo.sz_pos _ _ (le_refl _)

theorem mean_inside (tol : ℝ) (ht : 0 ≤ tol) : ∀ (t : Topo) (f : ℝ) (x : Vec ℝ),
    (∀ r, r < t.dim → (MultiLinear.nv t : ℝ) * x r = f * cornerSum t r) → tol * MultiLinear.nv t < f → Inside (-tol) t f x
  | .pt, _, _, _, _ => trivial
  | .prism t, f, x, h, hf => by
    have hn : (1 : ℝ) ≤ MultiLinear.nv t := by exact_mod_cast nv_pos t
    rw [nv_prism] at h hf
    push_cast at h hf
    have hd := h t.dim (by simp [Topo.dim])
    rw [cornerSum_prism, if_pos rfl] at hd
    have hx : x t.dim = f / 2 := by
      have : (MultiLinear.nv t : ℝ) ≠ 0 := by linarith
      field_simp
      apply mul_left_cancel₀ this
      linarith
    have h2 : tol ≤ tol * MultiLinear.nv t := le_mul_of_one_le_right ht hn
    refine ⟨by rw [hx]; linarith, by rw [hx]; linarith, mean_inside tol ht t f x (fun r hr => ?_) (by linarith)⟩
    have := h r (by simp [Topo.dim]; omega)
    rw [cornerSum_prism, if_neg (by omega)] at this
    linarith
  | .pyr t, f, x, h, hf => by
    have hn : (1 : ℝ) ≤ MultiLinear.nv t := by exact_mod_cast nv_pos t
    rw [nv_pyr] at h hf
    push_cast at h hf
    have hd := h t.dim (by simp [Topo.dim])
    rw [cornerSum_pyr, if_pos rfl, mul_one] at hd
    have hp : (0 : ℝ) < MultiLinear.nv t + 1 := by linarith
    have hx : tol < x t.dim := by
      have : tol * (MultiLinear.nv t + 1) < x t.dim * (MultiLinear.nv t + 1) := by linarith
      exact lt_of_mul_lt_mul_right this hp.le
    have hfx : f - x t.dim = MultiLinear.nv t * x t.dim := by linarith
    have hx2 : tol * MultiLinear.nv t < f - x t.dim := by
      rw [hfx, mul_comm]
      exact mul_lt_mul_of_pos_left hx (by linarith)
    have h2 : tol ≤ tol * MultiLinear.nv t := le_mul_of_one_le_right ht hn
    refine ⟨by linarith, by linarith, mean_inside tol ht t (f - x t.dim) x (fun r hr => ?_) hx2⟩
    have h3 := h r (by simp [Topo.dim]; omega)
    rw [cornerSum_pyr, if_neg (by omega)] at h3
    rw [hfx]
    apply mul_left_cancel₀ hp.ne'
    calc ((MultiLinear.nv t : ℝ) + 1) * (MultiLinear.nv t * x r) = MultiLinear.nv t * ((MultiLinear.nv t + 1) * x r) := by ring
      _ = MultiLinear.nv t * (f * cornerSum t r) := by rw [h3]
      _ = _ := by rw [← hd]; ring

theorem sum_range_list (l : List (Vec ℝ)) (r : Nat) :
    ∑ k ∈ range l.length, (l.getD k fun _ => 0) r = (l.map fun c => c r).sum := by
  induction l with
  | nil => simp
  | cons a l ih =>
    rw [List.length_cons, sum_range_succ', List.map_cons, List.sum_cons, ← ih, add_comm]
    rfl

/-- the center of the reference element is the mean of the corners, away from all facets -/
theorem center_inner (d id : Nat) (hid : id < 2 ^ d) : ∃ p : Vec ℝ, position d id 0 0 = some p ∧
    ∀ tol : ℝ, 0 ≤ tol → tol * refSize d id d < 1 → checkInside d id p (-tol) 1 = true := by
  have h := rep_topoOf d id
  have hjt : LinearIndependent ℝ (mat d d fun i j => if i = j then (1 : ℝ) else 0).row := by
    have : mat d d (fun i j => if i = j then (1 : ℝ) else 0) = 1 := by
      funext i j; simp [mat, Matrix.one_apply, Fin.ext_iff]
    rw [this]
    exact linearIndependent_rows_of_isUnit isUnit_one
  obtain ⟨A, hA⟩ := (Affine.C28_constructible d d id (fun _ => 0) _ (le_refl d)).2 hjt
  obtain ⟨h1, _, b, h3, h4⟩ := Affine.C28_corner_center d d id _ _ (le_refl d) hid A hA
  obtain ⟨rfl, _, rfl, h0, hj, _⟩ := Affine.ofJacobian_good (le_refl _) hA
  have hpos : 0 < refSize A.mydim A.id 0 := by
    rw [refSize, size_eq h 0 (Nat.zero_le _)]
    exact Topo.sz_pos _ _ (Nat.zero_le _)
  obtain ⟨p, hp, _⟩ := C21_mean (K := ℝ) A.mydim A.id 0 0 hid (Nat.zero_le _) hpos
  refine ⟨p, hp, fun tol ht htol => ?_⟩
  have hpb : ∀ r, r < A.mydim → p r = b r := by
    intro r hr
    rw [Affine.AffineGeometry.center, hp] at h3
    have := congrFun (Option.some.inj h3) r
    have e : ∀ x : Vec ℝ, A.global x r = x r := by
      intro x
      rw [Affine.AffineGeometry.global, h0, hj, addLoop_eq, zero_add, ← range_eq_Ico, sum_eq_single r]
      · simp
      · intro k _ hk; simp [hk]
      · intro hk; exact absurd (mem_range.2 hr) hk
    rwa [e, e] at this
  rw [checkInside_iff h]
  have hsz : refSize A.mydim A.id A.mydim = MultiLinear.nv (topoOf A.mydim A.id) := by
    rw [refSize, size_eq h _ (le_refl _), MultiLinear.nv, h.dim_eq]
  refine mean_inside tol ht _ 1 p (fun r hr => ?_) (by rw [← hsz]; exact htol)
  rw [h.dim_eq] at hr
  rw [hpb r hr, ← hsz, ← h1, h4 r, one_mul, cornerSum, ← cornersOf_eq h, ← sum_range_list, C17_count, h1]
  rfl

/-! ### regular points -/

/-- the answers of a geometry with value `y` and Jacobian `J` (of full rank) at `x` -/
structure Answers (g : Methods m n) (x : Fin m → ℝ) (y : Fin n → ℝ) (J : Matrix (Fin n) (Fin m) ℝ) : Prop where
  global : g.global x = some y
  jacobian : g.jacobian x = some J
  jacobianTransposed : g.jacobianTransposed x = some Jᵀ
  jacobianInverse : g.jacobianInverse x = some ((Jᵀ * J)⁻¹ * Jᵀ)
  jacobianInverseTransposed : g.jacobianInverseTransposed x = some (J * (Jᵀ * J)⁻¹)
  integrationElement : g.integrationElement x = some (Real.sqrt (Jᵀ * J).det)

theorem Answers.same {g h : Methods m n} {x : Fin m → ℝ} {y : Fin n → ℝ} {J : Matrix (Fin n) (Fin m) ℝ}
    (a : Answers g x y J) (b : Answers h x y J) : SameAt g h x :=
  ⟨⟨_, a.1, b.1⟩, ⟨_, a.2, b.2⟩, ⟨_, a.3, b.3⟩, ⟨_, a.4, b.4⟩, ⟨_, a.5, b.5⟩, ⟨_, a.6, b.6⟩⟩

theorem gram_inv_symm (J : Matrix (Fin n) (Fin m) ℝ) : ((Jᵀ * J)⁻¹)ᵀ = (Jᵀ * J)⁻¹ := by
  rw [transpose_nonsing_inv, transpose_mul, transpose_transpose]

theorem rightInvA_answers {A : Mat ℝ} {J : Matrix (Fin n) (Fin m) ℝ} (hmn : m ≤ n) (h : mat m n A = Jᵀ)
    (hJ : LinearIndependent ℝ J.col) :
    ∃ R, rightInvA m n A = some (Real.sqrt (Jᵀ * J).det, R) ∧ mat n m R = J * (Jᵀ * J)⁻¹ := by
  obtain ⟨R, h1, h2⟩ := rightInvA_eq (A := A) hmn (by rw [h]; exact hJ)
  rw [h, transpose_transpose] at h1 h2
  exact ⟨R, h1, h2⟩

theorem sqrtDet_answers {A : Mat ℝ} {J : Matrix (Fin n) (Fin m) ℝ} (h : mat m n A = Jᵀ) (hJ : LinearIndependent ℝ J.col) :
    sqrtDetAAT m n A = some (Real.sqrt (Jᵀ * J).det) := by
  rw [C27_sqrtDetAAT_partial m n A (Or.inl (by rw [h]; exact hJ)), h, transpose_transpose]

theorem inv_transpose {R : Mat ℝ} {J : Matrix (Fin n) (Fin m) ℝ} (h : mat n m R = J * (Jᵀ * J)⁻¹) :
    mat m n (fun i j => R j i) = (Jᵀ * J)⁻¹ * Jᵀ := by
  have : mat m n (fun i j => R j i) = (mat n m R)ᵀ := rfl
  rw [this, h, transpose_mul, gram_inv_symm]

/-- AffineGeometry -/
theorem affine_answers {id : Nat} {o : Vec ℝ} {jt : Mat ℝ} (hmn : m ≤ n) {A : Affine.AffineGeometry}
    (hA : Affine.AffineGeometry.ofJacobian m n id o jt = some A) (x : Fin m → ℝ) :
    Answers (ofAffine m n A) x (vec n o + (mat m n jt)ᵀ *ᵥ x) (mat m n jt)ᵀ := by
  obtain ⟨rfl, rfl, rfl, rfl, rfl, h⟩ := Affine.ofJacobian_good hmn hA
  have hi : mat A.cdim A.mydim A.jit = (mat A.mydim A.cdim A.jt)ᵀ * (mat A.mydim A.cdim A.jt * (mat A.mydim A.cdim A.jt)ᵀ)⁻¹ := h.inv
  refine ⟨?_, rfl, ?_, ?_, ?_, ?_⟩
  · change some _ = _
    rw [Affine.global_eq]
    congr 3
    funext i; simp [vec, RefGeom.ext]
  · rw [transpose_transpose]; rfl
  · rw [transpose_transpose]
    change some _ = _
    congr 1
    have := inv_transpose (R := A.jit) (J := (mat A.mydim A.cdim A.jt)ᵀ) (by rw [transpose_transpose]; exact hi)
    rw [transpose_transpose] at this
    exact this
  · rw [transpose_transpose]
    change some _ = _
    rw [← hi]; rfl
  · rw [transpose_transpose]
    change some _ = _
    rw [h.det]

/-- MultiLinearGeometry -/
theorem multiLinear_answers (g : MultiLinear.MultiLinearGeometry) (hmn : g.mydim ≤ g.cdim) (x : Fin g.mydim → ℝ)
    (hJ : LinearIndependent ℝ (mat g.cdim g.mydim (g.jacobian (RefGeom.ext x))).col) :
    Answers (ofMultiLinear g.mydim g.cdim g) x (vec g.cdim (g.global (RefGeom.ext x)))
      (mat g.cdim g.mydim (g.jacobian (RefGeom.ext x))) := by
  obtain ⟨R, h1, h2⟩ := rightInvA_answers (A := g.jacobianTransposed (RefGeom.ext x)) hmn rfl hJ
  have e : g.jacobianInverseTransposed (RefGeom.ext x) = _ := h1
  refine ⟨rfl, rfl, rfl, ?_, ?_, ?_⟩
  · change (g.jacobianInverse (RefGeom.ext x)).map _ = _
    rw [MultiLinear.MultiLinearGeometry.jacobianInverse, e]
    exact congrArg some (inv_transpose h2)
  · change (g.jacobianInverseTransposed (RefGeom.ext x)).map _ = _
    rw [e]
    exact congrArg some h2
  · exact sqrtDet_answers (A := g.jacobianTransposed (RefGeom.ext x)) rfl hJ

/-- LocalFiniteElementGeometry -/
theorem lfe_answers (g : LFEGeometry m n) (rules : Nat → Option (Rule m)) (opts : ConvergenceOptions) (x : Fin m → ℝ)
    {y : Fin n → ℝ} (hy : g.global x = some y) {A : Mat ℝ} (hA : g.jacobian x = some A) (hJ : LinearIndependent ℝ (mat n m A).col) :
    Answers (ofLfe g rules opts) x y (mat n m A) := by
  obtain ⟨R, h1, h2⟩ := leftInvA_eq hJ
  have e : g.jacobianInverse x = some R := by
    rw [LFEGeometry.jacobianInverse, hA]
    change (leftInvA n m A).bind _ = _
    rw [h1]; rfl
  refine ⟨hy, ?_, ?_, ?_, ?_, ?_⟩
  · change (g.jacobian x).map _ = _
    rw [hA]; rfl
  · change (g.jacobianTransposed x).map _ = _
    rw [LFEGeometry.jacobianTransposed, hA]; rfl
  · change (g.jacobianInverse x).map _ = _
    rw [e]
    exact congrArg some h2
  · change (g.jacobianInverseTransposed x).map _ = _
    rw [LFEGeometry.jacobianInverseTransposed, e]
    refine congrArg some ?_
    have : mat n m (fun i j => R j i) = (mat m n R)ᵀ := rfl
    rw [this, h2, transpose_mul, transpose_transpose, gram_inv_symm]
  · change g.integrationElement x = _
    rw [LFEGeometry.integrationElement, LFEGeometry.jacobianTransposed, hA]
    exact sqrtDet_answers (A := fun i j => A j i) rfl hJ

/-! ### shape functions -/

theorem finRange_map {α : Type} (f : Fin m → α) : (List.finRange m).map f = List.ofFn f := by
  rw [List.ofFn_eq_map]

theorem foldl_sub (x : Fin m → ℝ) : ∀ (l : List (Fin m)) (c : ℝ), l.foldl (fun o i => o - x i) c = c - (l.map x).sum
  | [], c => by simp
  | a :: l, c => by rw [List.foldl_cons, foldl_sub x l, List.map_cons, List.sum_cons]; ring

theorem foldl_mul {α : Type} (f : α → ℝ) : ∀ (l : List α) (c : ℝ), l.foldl (fun o i => o * f i) c = c * (l.map f).prod
  | [], c => by simp
  | a :: l, c => by rw [List.foldl_cons, foldl_mul f l, List.map_cons, List.prod_cons]; ring

/-- gradients of the linear shape functions -/
def dp1 (m : Nat) (k : Fin (m + 1)) (_x : Fin m → ℝ) : Fin m → ℝ := Fin.cases (fun _ => -1) (fun r => Pi.single r 1) k

theorem p1_evaluates (m : Nat) : Evaluates (p1LocalFE m) (p1 m) (dp1 m) := by
  refine ⟨rfl, fun x => ?_, fun x => ?_⟩
  · change p1Function m x = _
    rw [p1Function, List.ofFn_succ, finRange_map, foldl_sub, finRange_map, List.sum_ofFn]
    rfl
  · change p1Jacobian m x = _
    rw [p1Jacobian, List.ofFn_succ, finRange_map]
    congr 1
    refine congrArg List.ofFn (funext fun i => ?_)
    funext j
    simp [dp1, Pi.single_apply, eq_comm]

theorem p1_sum (x : Fin m → ℝ) : ∑ k, p1 m k x = 1 := by
  rw [Fin.sum_univ_succ]; simp [p1]

/-- the corners of the reference simplex -/
def simplexCorner (m : Nat) (k : Fin (m + 1)) : Fin m → ℝ := Fin.cases 0 (fun r => Pi.single r 1) k

theorem p1_coord (x : Fin m → ℝ) : ∑ k, p1 m k x • simplexCorner m k = x := by
  rw [Fin.sum_univ_succ]
  funext j
  simp [p1, simplexCorner, Finset.sum_apply, Pi.single_apply]

theorem p1_gradient (k : Fin (m + 1)) (x : Fin m → ℝ) : HasFDerivAt (p1 m k) (dotL (dp1 m k x)) x := by
  have hp : ∀ r : Fin m, HasFDerivAt (fun z : Fin m → ℝ => z r) (ContinuousLinearMap.proj (R := ℝ) (φ := fun _ : Fin m => ℝ) r) x :=
    fun r => hasFDerivAt_apply r x
  refine Fin.cases ?_ (fun r => ?_) k
  · have h := (HasFDerivAt.fun_sum (u := univ) fun r (_ : r ∈ univ) => hp r).const_sub 1
    refine h.congr_fderiv (ContinuousLinearMap.ext fun v => ?_)
    rw [dotL_apply]
    simp [dp1, dotProduct]
  · refine (hp r).congr_fderiv (ContinuousLinearMap.ext fun v => ?_)
    rw [dotL_apply]
    simp [dp1]

theorem p1_interpolate (f : (Fin m → ℝ) → (Fin n → ℝ)) :
    (p1LocalFE m).interpolate f = List.ofFn fun k => f (simplexCorner m k) := by
  change p1Interpolate m f = _
  rw [p1Interpolate, List.ofFn_succ, finRange_map]
  congr 1
  refine congrArg List.ofFn (funext fun i => ?_)
  congr 1
  funext j
  simp [simplexCorner, Pi.single_apply, eq_comm]

theorem bit_ne (i j : Nat) : (i &&& (1 <<< j) ≠ 0) ↔ i.testBit j = true := by
  rw [Nat.one_shiftLeft, ne_eq, Nat.and_two_pow]
  cases i.testBit j <;> simp

/-- one factor of a shape function -/
def fac (k : Nat) (x : Fin m → ℝ) (r : Fin m) : ℝ := if k.testBit r then x r else 1 - x r

/-- gradients of the tensor product shape functions -/
def dq1 (m : Nat) (k : Nat) (x : Fin m → ℝ) : Fin m → ℝ := fun j =>
  (if k.testBit j then 1 else -1) * ∏ l ∈ univ.erase j, fac k x l

theorem range_map_fin {α : Type} (f : Nat → α) (N : Nat) : (List.range N).map f = List.ofFn fun k : Fin N => f k := by
  refine List.ext_getElem (by simp) fun i h1 h2 => ?_
  simp

theorem foldl_skip (k : Nat) (x : Fin m → ℝ) (j : Fin m) (c : ℝ) :
    (List.finRange m).foldl (fun o (l : Fin m) => if j ≠ l then o * fac k x l else o) c = c * ∏ l ∈ univ.erase j, fac k x l := by
  have e : (fun (o : ℝ) (l : Fin m) => if j ≠ l then o * fac k x l else o) =
      fun o l => o * (if j ≠ l then fac k x l else 1) := by
    funext o l; split <;> simp
  rw [e, foldl_mul, finRange_map, List.prod_ofFn]
  congr 1
  rw [← mul_prod_erase univ _ (mem_univ j), if_neg (by simp), one_mul]
  refine prod_congr rfl fun l hl => ?_
  rw [if_pos (ne_of_mem_erase hl).symm]

theorem q1_evaluates (m : Nat) : Evaluates (q1LocalFE m) (fun k : Fin (2 ^ m) => q1 m k) (fun k => dq1 m k) := by
  refine ⟨rfl, fun x => ?_, fun x => ?_⟩
  · change q1Function m x = _
    rw [q1Function, range_map_fin]
    refine congrArg List.ofFn (funext fun k => ?_)
    simp only [bit_ne]
    rw [foldl_mul, finRange_map, List.prod_ofFn, one_mul]
    rfl
  · change q1Jacobian m x = _
    rw [q1Jacobian, range_map_fin]
    refine congrArg List.ofFn (funext fun k => funext fun j => ?_)
    simp only [bit_ne]
    exact foldl_skip k x j _

theorem q1_gradient (k : Nat) (x : Fin m → ℝ) : HasFDerivAt (q1 m k) (dotL (dq1 m k x)) x := by
  have hf : ∀ r : Fin m, HasFDerivAt (fun z : Fin m → ℝ => fac k z r)
      ((if k.testBit r then (1 : ℝ) else -1) • ContinuousLinearMap.proj (R := ℝ) (φ := fun _ : Fin m => ℝ) r) x := by
    intro r
    have hp : HasFDerivAt (fun z : Fin m → ℝ => z r) (ContinuousLinearMap.proj (R := ℝ) (φ := fun _ : Fin m => ℝ) r) x :=
      hasFDerivAt_apply r x
    by_cases h : k.testBit r = true
    · simp only [fac, if_pos h, one_smul]; exact hp
    · simp only [fac, if_neg h]
      have e : (-1 : ℝ) • ContinuousLinearMap.proj (R := ℝ) (φ := fun _ : Fin m => ℝ) r =
          -ContinuousLinearMap.proj (R := ℝ) (φ := fun _ : Fin m => ℝ) r :=
        ContinuousLinearMap.ext fun w => by simp
      rw [e]
      exact hp.const_sub 1
  have h := HasFDerivAt.finsetProd (u := univ) fun r (_ : r ∈ univ) => hf r
  refine h.congr_fderiv (ContinuousLinearMap.ext fun v => ?_)
  rw [dotL_apply, dotProduct, _root_.sum_apply]
  refine sum_congr rfl fun r _ => ?_
  rw [dq1]
  cases k.testBit r <;> simp

theorem q1_interpolate (f : (Fin m → ℝ) → (Fin n → ℝ)) :
    (q1LocalFE m).interpolate f = List.ofFn fun k : Fin (2 ^ m) => f (cubeCorner m k) := by
  change q1Interpolate m f = _
  rw [q1Interpolate, range_map_fin]
  refine congrArg List.ofFn (funext fun k => ?_)
  simp only [bit_ne]
  rfl

/-- the derivative determines the matrix -/
theorem lin_inj {A B : Mat ℝ} (h : lin n m A = lin n m B) : mat n m A = mat n m B := by
  have : Matrix.toLin' (mat n m A) = Matrix.toLin' (mat n m B) := by
    refine LinearMap.ext fun v => ?_
    have := congrArg (fun f : (Fin m → ℝ) →L[ℝ] (Fin n → ℝ) => f v) h
    exact this
  exact Matrix.toLin'.injective this

end

end Verif.Compare
