import Verif.Float.RefineChain
import Verif.Float.QuadInside
import Verif.Float.InsideProps

/-! Vertices of the triangulating refinements in floating-point arithmetic; reference elements. -/

namespace Verif.FloatRefine

open Function Finset Verif.Float Verif.Refine Verif.RefTopo Verif.RefGeom
open Equiv (Perm)

theorem intCast_val {φ : Format} (m : ℤ) : ((m : ℤ) : Fl φ).val = φ.rd m := rfl

/-- the quotient in the coordinate type -/
noncomputable def quot (K : Type) [IntCast K] [NatCast K] [Div K] (n c : Nat) : K := ((c : ℤ) : K) / (n : K)

theorem quot_zero {φ : Format} (n : Nat) : quot (Fl φ) n 0 = 0 := by
  refine Fl.ext ?_
  rw [quot, Fl.div_val, intCast_val, Nat.cast_zero, Int.cast_zero, φ.rd_zero, zero_div, φ.rd_zero, Fl.zero_val]

theorem quot_near {φ : Format} {n : Nat} (hex : ∀ m : Nat, m ≤ n → φ.rd m = m) {c : Nat} (hc : c ≤ n) :
    Near φ 1 φ.η (quot (Fl φ) n c).val (quot ℝ n c) (quot ℝ n c) := by
  have h := quotient_near hex hc ((c : ℤ) : Fl φ) (by rw [intCast_val, Int.cast_natCast, hex c hc])
  rw [show quot ℝ n c = (c : ℝ) / n by rw [quot, Int.cast_natCast]]
  exact h

theorem sum_refCoord {d : Nat} {v : Nat → Nat} (hv : Cone d v) (m : Nat) : ∑ i ∈ range m, refCoord v i + v m = v 0 := by
  induction m with
  | zero => simp
  | succ m ih =>
    have := cone_le hv m
    rw [sum_range_succ, refCoord]
    omega

theorem refCoord_le {d n : Nat} {v : Nat → Nat} (hv : Cone d v) (h0 : v 0 ≤ n) (i : Nat) : refCoord v i ≤ n :=
  (Nat.sub_le _ _).trans ((cone_le_zero hv i).trans h0)

theorem r2k_quot {d n : Nat} {q : Perm Nat} (hq : ∀ j, d ≤ j → q j = j) (c : Nat → Nat) (i : Nat) (hi : i < d) :
    referenceToKuhn d (fun i => quot ℝ n (c i)) q i = ((referenceToKuhn d c q i : Nat) : ℝ) / n := by
  have hj := symm_lt hq hi
  rw [← Equiv.apply_symm_apply q i, referenceToKuhn_eq d q _ _ hj, referenceToKuhn_eq d q _ _ hj, Nat.cast_sum, sum_div]
  exact sum_congr rfl fun k _ => by rw [quot, Int.cast_natCast]

/-- the same refinement with the coordinate types `Fl φ` and `ℝ` -/
structure Twin {φ : Format} (s : Triang.Scheme (Fl φ)) (s' : Triang.Scheme ℝ) (dom : (Nat → ℝ) → Prop) : Prop where
  dimension : s.dimension = s'.dimension
  nKuhnSimplices : s.nKuhnSimplices = s'.nKuhnSimplices
  permutation : s.permutation = s'.permutation
  fits : Triang.Fits s' dom
  congr : ∀ x y : Nat → Fl φ, (∀ i, i < s.dimension → x i = y i) → ∀ i, i < s.dimension → s.transform x i = s.transform y i

theorem twin_cube (φ : Format) (d : Nat) (hd : 0 < d) : Twin (φ := φ) (Triang.hcube d) (Triang.hcube d) (Triang.InCube d) :=
  ⟨rfl, rfl, rfl, Triang.C44_cube_scheme d hd, fun _ _ h => h⟩

theorem twin_prism (φ : Format) : Twin (φ := φ) Triang.prism Triang.prism Triang.InPrism := by
  refine ⟨rfl, rfl, rfl, Triang.C44_prism_scheme, fun x y h => ?_⟩
  simp only [Triang.prism] at h ⊢
  rw [Triang.forall_lt_three] at h ⊢
  simp only [Triang.prismTransform, h.1, h.2.1, h.2.2, and_self]

theorem twin_pyramid (φ : Format) : Twin (φ := φ) Triang.pyramid Triang.pyramid Triang.InPyramid := by
  refine ⟨rfl, rfl, rfl, Triang.C44_pyramid_scheme, fun x y h => ?_⟩
  simp only [Triang.pyramid] at h ⊢
  rw [Triang.forall_lt_three] at h ⊢
  simp only [Triang.pyramidTransform, h.1, h.2.1, h.2.2, and_self]

section
variable {φ : Format} {s : Triang.Scheme (Fl φ)} {s' : Triang.Scheme ℝ} {dom : (Nat → ℝ) → Prop}

theorem vertexT (h : Twin s s' dom) (n k : Nat) (hk : k < Triang.nVertices s' n) :
    ∃ it v, ∃ q : Perm Nat, Triang.vAt s' n k = some it ∧ Cone s'.dimension v ∧ v 0 ≤ n ∧ (∀ j, s'.dimension ≤ j → q j = j) ∧
      it.coords s = some (s.transform (referenceToKuhn s'.dimension (fun i => quot (Fl φ) n (refCoord v i)) q)) ∧
      it.coords s' = some (s'.transform (referenceToKuhn s'.dimension (fun i => quot ℝ n (refCoord v i)) q)) ∧
      InKuhn s'.dimension q (referenceToKuhn s'.dimension (fun i => quot ℝ n (refCoord v i)) q) ∧
      dom (s'.transform (referenceToKuhn s'.dimension (fun i => quot ℝ n (refCoord v i)) q)) := by
  obtain ⟨hN, h1, h2⟩ := Triang.kuhn_lt hk
  obtain ⟨b, h3, h4⟩ := Triang.vAt_eq s' h.fits.pos n k
  obtain ⟨q, h5, h6, h7⟩ := h.fits.kuhn _ h1
  obtain ⟨v, h8, h9, h10⟩ := vertex_lattice s'.dimension n _ h.fits.pos h2
  obtain rfl := Option.some.inj (h3.symm.trans h8)
  have key : InKuhn s'.dimension q (referenceToKuhn s'.dimension (fun i => quot ℝ n (refCoord v i)) q) := by
    refine (inKuhn_iff _ q h5 _).2 ⟨fun i _ => ?_, ?_⟩
    · simp only [quot, Int.cast_natCast]; positivity
    · simp only [quot, Int.cast_natCast]
      rw [← sum_div, ← Nat.cast_sum]
      have := sum_refCoord h9 s'.dimension
      rw [h9.zero _ le_rfl, Nat.add_zero] at this
      rw [this]
      exact div_le_one_of_le₀ (by exact_mod_cast h10) (Nat.cast_nonneg n)
  refine ⟨_, v, q, h4, h9, h10, h5, ?_, ?_, key, h.fits.into _ _ _ h1 h6 key⟩
  · simp only [Triang.VIterator.coords, Triang.toKuhn, h.dimension, h.permutation, coords_lattice h9, h6]
    rfl
  · simp only [Triang.VIterator.coords, Triang.toKuhn, coords_lattice h9, h6]
    rfl

end

/-! ### corners of elements -/

/-- corner number `i` of element number `k` of the simplex, in Kuhn coordinates times the number of intervals -/
def cornerOf (d n k i : Nat) : Option (Nat → Nat) :=
  (Refine.eAt d n k).bind fun it => (getPermutation d it.kuhnIndex).map fun p => kuhnCorner d it.origin p i

theorem corner_spec {K : Type} [Zero K] [One K] [Add K] [Sub K] [Mul K] [Div K] [NatCast K] {d n k i : Nat} (L : Lat K n) (hd : 0 < d)
    (hk : k < Refine.nElements d n) (hi : i ≤ d) :
    ∃ it corners A, Refine.eAt d n k = some it ∧ geometry (K := K) d it = some corners ∧ corners.length = d + 1 ∧ cornerOf d n k i = some A ∧
      corners[i]? = some (diff d fun j => (A j : K) / n) ∧ Cone d A ∧ A 0 ≤ n := by
  obtain ⟨it, q, h1, h2, h3, h4, h5, h6, h7⟩ := elem d n hd k hk
  obtain ⟨h8, h9⟩ := kuhnCorner_cone h4 h3 hd h7 i hi
  refine ⟨it, _, kuhnCorner d it.origin q i, h1, geometry_lattice L hd h4 h3 h6 h2 h7, by simp, ?_, ?_, h8, h9⟩
  · rw [cornerOf, h1, Option.bind_some, h6, Option.map_some]
  · rw [List.getElem?_map, List.getElem?_range (by omega), Option.map_some]

section
variable {φ : Format} {s : Triang.Scheme (Fl φ)} {s' : Triang.Scheme ℝ} {dom : (Nat → ℝ) → Prop}

theorem cornerT (h : Twin s s' dom) {n k i : Nat} (hex : ∀ m : Nat, m ≤ n → φ.rd m = m) (hk : k < Triang.nElements s' n) (hi : i ≤ s'.dimension) :
    ∃ it corners exact A, ∃ q : Perm Nat, Triang.eAt s' n k = some it ∧ triangGeometry s it = some corners ∧ it.geometry s' = some exact ∧
      cornerOf s'.dimension n (k % Refine.nElements s'.dimension n) i = some A ∧
      getPermutation s'.dimension (s'.permutation (k / Refine.nElements s'.dimension n)) = some ⇑q ∧ (∀ j, s'.dimension ≤ j → q j = j) ∧
      corners[i]? = some (s.transform (referenceToKuhn s'.dimension (diff s'.dimension fun j => (A j : Fl φ) / (n : Fl φ)) q)) ∧
      exact[i]? = some (s'.transform (referenceToKuhn s'.dimension (diff s'.dimension fun j => (A j : ℝ) / n) q)) ∧
      Cone s'.dimension A ∧ A 0 ≤ n := by
  obtain ⟨hN, h1, h2⟩ := Triang.kuhn_lt hk
  have hn := Triang.intervals_pos h.fits.pos hN
  obtain ⟨b, h3, h4⟩ := Triang.eAt_eq s' h.fits.pos n hn k
  obtain ⟨q, h5, h6, h7⟩ := h.fits.kuhn _ h1
  obtain ⟨b1, corners, A, e1, e2, e3, e4, e5, e6, e7⟩ := corner_spec (K := Fl φ) (lat_float hex) h.fits.pos h2 hi
  obtain rfl := Option.some.inj (h3.symm.trans e1)
  obtain ⟨b2, exact', A', f1, f2, f3, f4, f5, -, -⟩ := corner_spec (K := ℝ) (lat_real n) h.fits.pos h2 hi
  obtain rfl := Option.some.inj (h3.symm.trans f1)
  obtain rfl := Option.some.inj (e4.symm.trans f4)
  have hF : ∀ x, (⟨n, k / Refine.nElements s'.dimension n, b⟩ : Triang.EIterator).global s x =
      some (s.transform (referenceToKuhn s'.dimension x q)) := by
    intro x
    rw [Triang.EIterator.global, Triang.toKuhn, h.dimension, h.permutation, h6]; rfl
  have hR : ∀ x, (⟨n, k / Refine.nElements s'.dimension n, b⟩ : Triang.EIterator).global s' x =
      some (s'.transform (referenceToKuhn s'.dimension x q)) := by
    intro x
    rw [Triang.EIterator.global, h7]; rfl
  refine ⟨_, corners.map fun x => s.transform (referenceToKuhn s'.dimension x q), exact'.map fun x => s'.transform (referenceToKuhn s'.dimension x q),
    A, q, h4, ?_, ?_, e4, h6, h5, ?_, ?_, e6, e7⟩
  · rw [triangGeometry, h.dimension, e2, Option.bind_some]
    exact RefGeom.mapM_some _ _ _ fun x _ => hF x
  · rw [← triangGeometry_real, triangGeometry, f2, Option.bind_some]
    exact RefGeom.mapM_some _ _ _ fun x _ => hR x
  · rw [List.getElem?_map, e5, Option.map_some]
  · rw [List.getElem?_map, f5, Option.map_some]

end

/-! ### reference elements -/

theorem dom_cube (y : Nat → ℝ) (f : ℝ) : ∀ d : Nat, (∀ i, i < d → 0 ≤ y i ∧ y i ≤ f) → Dom (Topo.cube d) f y
  | 0, _ => trivial
  | d + 1, h => by
    rw [Topo.cube, Dom, Topo.dim_cube]
    exact ⟨(h d (by omega)).1, (h d (by omega)).2, dom_cube y f d fun i hi => h i (by omega)⟩

end Verif.FloatRefine
