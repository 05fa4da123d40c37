import Verif.RefGeom.Volume
import Verif.RefTopo.Props
import Mathlib.LinearAlgebra.AffineSpace.AffineMap
import Mathlib.Analysis.Convex.Hull

/-!
Properties C17 – C22: geometry of the reference elements.

`d` is the dimension, `id < 2 ^ d` a valid topology id.  `referenceCorners`, `checkInside`,
`referenceVolume`, `referenceEmbeddings`, `position` and `referenceIntegrationOuterNormals` are the
functions of referenceelementimplementation.hh.
-/

namespace Verif.RefGeom

open Verif.Typ Verif.RefTopo Finset

variable {K : Type} [Field K] [LinearOrder K] [IsStrictOrderedRing K]

set_option linter.unusedSectionVars false

/-! ### Specification vocabulary -/

/-- corner number `k` -/
def corner (d id k : Nat) : Vec K := (referenceCorners d id).getD k (fun _ => 0)

/-- the closed reference domain: the convex hull of the corners -/
def domain (K : Type) [Field K] [LinearOrder K] [IsStrictOrderedRing K] (d id : Nat) : Set (Vec K) :=
  convexHull K {c | c ∈ referenceCorners (K := K) d id}

/-- exact volume: product with the unit interval keeps it, a cone of height one divides by the dimension -/
def exactVolume (K : Type) [Field K] : Nat → Nat → K
  | 0, _ => 1
  | d + 1, id =>
    if d = 0 ∨ id.testBit d = true then exactVolume K d (id % 2 ^ d)
    else exactVolume K d (id % 2 ^ d) / ((d + 1 : Nat) : K)

/-! ### Auxiliary facts -/

theorem cornersOf_eq {d id : Nat} {t : Topo} (h : Rep d id t) : referenceCorners (K := K) d id = cornersOf t := by
  rw [corners_eq h, cornersOf, h.dim_eq]

theorem corner_face {d id : Nat} {t : Topo} (h : Rep d id t) (v : Face t) (hv : v.codim = d) :
    (referenceCorners (K := K) d id)[v.idx]? = some (orig v) := by
  rw [corners_eq h, List.getElem?_map, faces_getElem v d hv]; rfl

theorem corner_eq_face {d id : Nat} {t : Topo} (h : Rep d id t) (v : Face t) (hv : v.codim = d) :
    corner (K := K) d id v.idx = orig v := by
  rw [corner, List.getD_eq_getElem?_getD, corner_face h v hv]; rfl

theorem embedding_face {d id : Nat} {t : Topo} (h : Rep d id t) (f : Face t) :
    (referenceEmbeddings (K := K) d id f.codim)[f.idx]? = some (orig f, jac f) := by
  rw [embeddings_eq h _ (by have := Face.codim_le f; rwa [h.dim_eq] at this), List.getElem?_map,
    faces_getElem f _ rfl]; rfl

theorem normal_face {d id : Nat} {t : Topo} (h : Rep d id t) (f : Face t) (hf : f.codim = 1) :
    (referenceIntegrationOuterNormals (K := K) d d id)[f.idx]? = some (nrm f) := by
  have hd : 0 < d := by have := Face.codim_le f; rw [h.dim_eq] at this; omega
  rw [referenceIntegrationOuterNormals, origins_eq h 1 hd]
  have := normals_eq (K := K) h d (le_refl _) hd []
  rw [List.append_nil] at this
  rw [this, List.getElem?_map, faces_getElem f _ hf]; rfl

theorem mem_domain {d id : Nat} {t : Topo} (h : Rep d id t) (x : Vec K) (hx : ∀ k, d ≤ k → x k = 0) :
    x ∈ domain K d id ↔ Dom t 1 x := by
  rw [dom_iff_convexHull t x (by rw [h.dim_eq]; exact hx), domain, cornersOf_eq h]

theorem orig_inj : ∀ {t : Topo} (v w : Face t), v.IsVertex → w.IsVertex → orig (K := K) v = orig w → v = w
  | _, .pt, .pt, _, _, _ => rfl
  | .prism t, .edge v, _, hv, _, _ => absurd hv Face.not_isVertex_edge
  | .prism t, .bot v, .edge w, _, hw, _ => absurd hw Face.not_isVertex_edge
  | .prism t, .top v, .edge w, _, hw, _ => absurd hw Face.not_isVertex_edge
  | .prism t, .bot v, .bot w, hv, hw, e => by
    rw [orig_inj v w (Face.isVertex_bot.1 hv) (Face.isVertex_bot.1 hw) e]
  | .prism t, .bot v, .top w, hv, hw, e => by
    have := congrFun e t.dim
    simp only [orig] at this
    rw [setV_same, orig_zero v _ (le_refl _)] at this
    exact absurd this zero_ne_one
  | .prism t, .top v, .bot w, hv, hw, e => by
    have := congrFun e t.dim
    simp only [orig] at this
    rw [setV_same, orig_zero w _ (le_refl _)] at this
    exact absurd this one_ne_zero
  | .prism t, .top v, .top w, hv, hw, e => by
    have : orig (K := K) v = orig w := by
      funext k
      by_cases hk : k = t.dim
      · rw [hk, orig_zero v _ (le_refl _), orig_zero w _ (le_refl _)]
      · have := congrFun e k
        simp only [orig] at this
        rwa [setV_ne _ hk, setV_ne _ hk] at this
    rw [orig_inj v w (Face.isVertex_top.1 hv) (Face.isVertex_top.1 hw) this]
  | .pyr t, .cone v, _, hv, _, _ => absurd hv Face.not_isVertex_cone
  | .pyr t, .base v, .cone w, _, hw, _ => absurd hw Face.not_isVertex_cone
  | .pyr t, .apex, .cone w, _, hw, _ => absurd hw Face.not_isVertex_cone
  | .pyr t, .base v, .base w, hv, hw, e => by
    rw [orig_inj v w (Face.isVertex_base.1 hv) (Face.isVertex_base.1 hw) e]
  | .pyr t, .base v, .apex, hv, hw, e => by
    have := congrFun e t.dim
    simp only [orig] at this
    rw [setV_same, orig_zero v _ (le_refl _)] at this
    exact absurd this zero_ne_one
  | .pyr t, .apex, .base w, hv, hw, e => by
    have := congrFun e t.dim
    simp only [orig] at this
    rw [setV_same, orig_zero w _ (le_refl _)] at this
    exact absurd this one_ne_zero
  | .pyr t, .apex, .apex, _, _, _ => rfl

theorem orig_zero_one : ∀ {t : Topo} (v : Face t) (k : Nat), orig (K := K) v k = 0 ∨ orig (K := K) v k = 1
  | _, .pt, _ => Or.inl rfl
  | .prism t, .edge v, k => orig_zero_one v k
  | .prism t, .bot v, k => orig_zero_one v k
  | .prism t, .top v, k => by
    by_cases hk : k = t.dim
    · subst hk; right; exact setV_same _ _ _
    · simp only [orig]; rw [setV_ne _ hk]; exact orig_zero_one v k
  | .pyr t, .base v, k => orig_zero_one v k
  | .pyr t, .cone v, k => orig_zero_one v k
  | .pyr t, .apex, k => by
    by_cases hk : k = t.dim
    · subst hk; right; exact setV_same _ _ _
    · left; simp only [orig]; rw [setV_ne _ hk]

theorem first_vertex : ∀ t : Topo, ∃ v : Face t, v.codim = t.dim ∧ v.idx = 0 ∧ orig (K := K) v = fun _ => 0
  | .pt => ⟨.pt, rfl, rfl, rfl⟩
  | .prism t => by
    obtain ⟨v, h1, h2, h3⟩ := first_vertex t
    refine ⟨.bot v, by rw [Face.codim, h1]; rfl, ?_, h3⟩
    simp only [Face.idx, h2, h1]
    rw [Topo.sz_eq_zero _ _ (by omega)]
  | .pyr t => by
    obtain ⟨v, h1, h2, h3⟩ := first_vertex t
    exact ⟨.base v, by rw [Face.codim, h1]; rfl, h2, h3⟩

theorem exactVolume_eq {d id : Nat} {t : Topo} (h : Rep d id t) : exactVolume K d id = vol t := by
  induction h with
  | pt => rfl
  | @prism d id t hb hr ih => simp only [exactVolume, vol]; rw [if_pos hb, ih]
  | @pyr d id t hb hr ih =>
    simp only [exactVolume, vol]
    rcases Nat.eq_zero_or_pos d with rfl | hd
    · obtain rfl := rep_zero hr
      simp [exactVolume, vol, Topo.dim]
    · rw [if_neg, ih, hr.dim_eq]
      · push_cast; rfl
      · rcases hb with hb | hb
        · omega
        · rw [hb]; simp; omega

theorem nrm_ne : ∀ {t : Topo} (f : Face t), f.codim = 1 → ∃ k, k < t.dim ∧ nrm (K := K) f k ≠ 0
  | _, .pt, h => by simp [Face.codim] at h
  | .prism t, .edge f, h => by
    obtain ⟨k, hk, hn⟩ := nrm_ne f h
    exact ⟨k, Nat.lt_succ_of_lt hk, hn⟩
  | .prism t, .bot f, h => ⟨t.dim, Nat.lt_succ_self _, by simp only [nrm]; rw [setV_same]; norm_num⟩
  | .prism t, .top f, h => ⟨t.dim, Nat.lt_succ_self _, by simp only [nrm]; rw [setV_same]; norm_num⟩
  | .pyr t, .base f, h => ⟨t.dim, Nat.lt_succ_self _, by simp only [nrm]; rw [setV_same]; norm_num⟩
  | .pyr t, .cone f, h => by
    obtain ⟨k, hk, hn⟩ := nrm_ne f h
    exact ⟨k, Nat.lt_succ_of_lt hk, by simp only [nrm]; rwa [setV_ne _ (by omega)]⟩
  | .pyr t, .apex, h => ⟨t.dim, Nat.lt_succ_self _, by simp only [nrm]; rw [setV_same]; norm_num⟩

/-! ### C17 -/

/-- C17: number of corners. -/
theorem C17_count (d id : Nat) : (referenceCorners (K := K) d id).length = refSize d id d := by
  have h := rep_topoOf d id
  rw [corners_eq h, List.length_map, length_faces, refSize, size_eq h d (le_refl _)]

/-- C17: the corners are pairwise distinct. -/
theorem C17_distinct (d id : Nat) : (referenceCorners (K := K) d id).Nodup := by
  have h := rep_topoOf d id
  rw [corners_eq h]
  refine List.Nodup.map_on ?_ (faces_nodup _ _)
  intro v hv w hw e
  exact orig_inj v w (by rw [Face.IsVertex, (mem_faces v d).1 hv, h.dim_eq])
    (by rw [Face.IsVertex, (mem_faces w d).1 hw, h.dim_eq]) e

/-- C17: coordinates are zero or one; coordinates from `d` on are zero. -/
theorem C17_coordinates (d id : Nat) (c : Vec K) (hc : c ∈ referenceCorners (K := K) d id) (k : Nat) :
    (c k = 0 ∨ c k = 1) ∧ (d ≤ k → c k = 0) := by
  have h := rep_topoOf d id
  rw [corners_eq h, List.mem_map] at hc
  obtain ⟨f, _, rfl⟩ := hc
  exact ⟨orig_zero_one f k, fun hk => orig_zero f k (by rw [h.dim_eq]; exact hk)⟩

/-- C17: the corners pass the inside check. -/
theorem C17_inside (d id : Nat) (c : Vec K) (hc : c ∈ referenceCorners (K := K) d id) (tol : K) (ht : 0 < tol) :
    checkInside d id c tol 1 = true := by
  have h := rep_topoOf d id
  rw [corners_eq h, List.mem_map] at hc
  obtain ⟨f, _, rfl⟩ := hc
  exact (checkInside_iff h _ _ 1).2 ((dom_iff_inside _ _ _).1 (dom_orig f) tol ht)

/-- C17: simplex corners are the origin and the unit vectors, in this order. -/
theorem C17_simplex (d id : Nat) (hs : IsSimplexId d id) :
    referenceCorners (K := K) d id =
      (fun _ => 0) :: (List.range d).map (fun i k => if k = i then 1 else 0) := by
  induction d generalizing id with
  | zero => rfl
  | succ d ih =>
    have hs' : IsSimplexId d (id % 2 ^ d) := by
      intro k h1 h2
      rw [Nat.testBit_mod_two_pow, hs k h1 (by omega)]; simp
    simp only [referenceCorners, implBase_eq, Nat.add_sub_cancel]
    rw [ih _ hs', List.range_succ, List.map_append]
    rcases Nat.eq_zero_or_pos d with rfl | hd
    · rw [isPrism_of_rep (Or.inl rfl)]; simp; rfl
    · rw [isPrism_of_rep_pyr (by omega) (Or.inr (hs d hd (by omega)))]
      rfl

/-- C17: coordinate `k` of corner `i` of the cube is bit `k` of `i`. -/
theorem C17_cube (d id : Nat) (hs : IsCubeId d id) :
    referenceCorners (K := K) d id =
      (List.range (2 ^ d)).map (fun i k => if i.testBit k then 1 else 0) := by
  induction d generalizing id with
  | zero => simp [referenceCorners]
  | succ d ih =>
    have hs' : IsCubeId d (id % 2 ^ d) := by
      intro k h1 h2
      rw [Nat.testBit_mod_two_pow, hs k h1 (by omega)]; simp [h2]
    have hb : d = 0 ∨ id.testBit d = true := by
      rcases Nat.eq_zero_or_pos d with h | h
      · exact Or.inl h
      · exact Or.inr (hs d h (by omega))
    simp only [referenceCorners, implBase_eq, Nat.add_sub_cancel, isPrism_of_rep hb, if_true]
    rw [ih _ hs', pow_succ, mul_two, List.range_add, List.map_append, List.map_map, List.map_map]
    congr 1
    apply List.map_congr_left
    intro i hi
    have hi := List.mem_range.1 hi
    funext k
    simp only [Function.comp, setV]
    by_cases hk : k = d
    · subst hk
      rw [if_pos rfl, Nat.testBit_two_pow_add_eq, Nat.testBit_lt_two_pow hi]; simp
    · rw [if_neg hk]
      rcases Nat.lt_or_ge k d with h | h
      · rw [Nat.testBit_two_pow_add_gt h]
      · have h2 : 2 ^ (d + 1) ≤ 2 ^ k := Nat.pow_le_pow_right (by omega) (by omega)
        rw [Nat.testBit_lt_two_pow (show i < 2 ^ k by rw [pow_succ] at h2; omega),
          Nat.testBit_lt_two_pow (by rw [pow_succ] at h2; omega)]

-- the pyramid: five corners, the last one is the apex
example : (referenceCorners (K := ℚ) 3 3).length = 5 ∧ (corner (K := ℚ) 3 3 4) 2 = 1 ∧
    (corner (K := ℚ) 3 3 4) 0 = 0 := by
  refine ⟨?_, ?_, ?_⟩ <;> simp [corner, referenceCorners, implIsPrism, implBaseTopologyId, setV]
example : IsCubeId 3 7 ∧ IsSimplexId 3 0 := by
  constructor <;> intro k h1 h2 <;> interval_cases k <;> decide

/-! ### C18 -/

/-- C18: the points of the convex hull of the corners are exactly those that pass the inside check
for every positive tolerance. -/
theorem C18_hull (d id : Nat) (x : Vec K) (hx : ∀ k, d ≤ k → x k = 0) :
    x ∈ domain K d id ↔ ∀ tol : K, 0 < tol → checkInside d id x tol 1 = true := by
  have h := rep_topoOf d id
  rw [mem_domain h x hx, dom_iff_inside]
  exact forall_congr' fun tol => forall_congr' fun _ => (checkInside_iff h x tol 1).symm

/-- C18: the same for the public method with its tolerance of 64 epsilon: a point of the element passes. -/
theorem C18_public (d id : Nat) (x : Vec K) (hx : ∀ k, d ≤ k → x k = 0) (epsilon : K) (he : 0 < epsilon)
    (h : x ∈ domain K d id) : refCheckInside d id x epsilon = true :=
  (C18_hull d id x hx).1 h _ (by linarith)

/-- C18: monotone in the tolerance. -/
theorem C18_mono (d id : Nat) (x : Vec K) (tol tol' : K) (hle : tol ≤ tol')
    (h : checkInside d id x tol 1 = true) : checkInside d id x tol' 1 = true := by
  have hr := rep_topoOf d id
  rw [checkInside_iff hr] at h ⊢
  exact inside_mono hle _ _ _ h

/-- C18: with tolerance zero the check decides the interior of the convex hull. -/
theorem C18_interior (d id : Nat) (x : Vec K) (hx : ∀ k, d ≤ k → x k = 0) :
    checkInside d id x 0 1 = true ↔
      ∃ ε, 0 < ε ∧ ∀ y : Vec K, (∀ k, d ≤ k → y k = 0) → (∀ k, k < d → |y k - x k| < ε) → y ∈ domain K d id := by
  have hr := rep_topoOf d id
  rw [checkInside_iff hr]
  constructor
  · intro h
    obtain ⟨ε, he, hd⟩ := inside_open _ _ _ h
    refine ⟨ε, he, fun y hy0 hy => (mem_domain hr y hy0).2 (hd 1 y (by simpa using he) ?_)⟩
    rw [hr.dim_eq]; exact hy
  · rintro ⟨ε, he, h⟩
    refine inside_of_open _ _ _ ⟨ε, he, fun y hy => ?_⟩
    rw [hr.dim_eq] at hy
    have := (mem_domain hr (fun k => if k < d then y k else 0) (fun k hk => if_neg (by omega))).1
      (h _ (fun k hk => if_neg (by omega)) fun k hk => by rw [if_pos hk]; exact hy k hk)
    refine dom_congr _ _ ?_ this
    intro k hk
    rw [hr.dim_eq] at hk
    exact if_pos hk

/-- C18: a point that is `tol` or more below zero in some coordinate fails. -/
theorem C18_box (d id : Nat) (x : Vec K) (tol : K) (h : checkInside d id x tol 1 = true) :
    ∀ k, k < d → -tol < x k := by
  suffices ∀ (d id : Nat) (f : K), checkInside d id x tol f = true → ∀ k, k < d → -tol < x k from this d id 1 h
  intro d
  induction d with
  | zero => intro _ _ _ k hk; omega
  | succ d ih =>
    intro id f h k hk
    simp only [checkInside] at h
    split at h
    · rename_i hc
      by_cases hkd : k = d
      · subst hkd; exact hc.1
      · exact ih _ _ h k (by omega)
    · simp at h

example : checkInside 2 0 (fun k => if k < 2 then (1/4 : ℚ) else 0) 0 1 = true ∧
    checkInside 2 0 (fun k => if k < 2 then (3/4 : ℚ) else 0) 0 1 = false := by
  constructor <;> simp [checkInside, implIsPrism, implBaseTopologyId] <;> norm_num

/-! ### C19 -/

open MeasureTheory in
/-- C19: the Lebesgue measure of the reference domain is the exact volume. -/
theorem C19_exact (d id : Nat) :
    volume {x : Fin d → ℝ | ext x ∈ domain ℝ d id} = ENNReal.ofReal (exactVolume ℝ d id) := by
  have h := rep_topoOf d id
  have e := volume_dom (topoOf d id) 1 zero_le_one
  have hdim := h.dim_eq
  rw [exactVolume_eq h]
  rw [one_pow, one_mul] at e
  rw [← e]
  have : ∀ x : Fin d → ℝ, ext x ∈ domain ℝ d id ↔ Dom (topoOf d id) 1 (ext x) := fun x =>
    mem_domain h _ fun k hk => by simp only [ext]; rw [dif_neg (by omega)]
  simp only [this]
  generalize topoOf d id = t at *
  subst hdim
  rfl

/-- C19, full statement: `volume()` is the measure of the reference domain, in every dimension. -/
def C19_full : Prop := ∀ d id : Nat, id < 2 ^ d → referenceVolume (K := ℚ) d id = exactVolume ℚ d id

/-- C19 up to dimension 13.  Missing: dimension 14 and higher, where the code truncates. -/
theorem C19_volume_partial (d id : Nat) (hd : d ≤ 13) : referenceVolume (K := K) d id = exactVolume K d id := by
  have h := rep_topoOf d id
  rw [exactVolume_eq h, vol_eq, referenceVolume, volumeInverse_eq h hd]

open MeasureTheory in
/-- C19 up to dimension 13, in terms of Lebesgue measure. -/
theorem C19_lebesgue_partial (d id : Nat) (hd : d ≤ 13) :
    volume {x : Fin d → ℝ | ext x ∈ domain ℝ d id} = ENNReal.ofReal (referenceVolume d id) := by
  rw [C19_exact, C19_volume_partial d id hd]

/-- C19: the exact volume of a simplex is `1/d!` and that of a cube is `1`. -/
theorem C19_simplex_cube (d id : Nat) :
    (IsSimplexId d id → exactVolume K d id = 1 / (d.factorial : K)) ∧
    (IsCubeId d id → exactVolume K d id = 1) := by
  induction d generalizing id with
  | zero => simp [exactVolume]
  | succ d ih =>
    constructor
    · intro hs
      have hs' : IsSimplexId d (id % 2 ^ d) := by
        intro k h1 h2
        rw [Nat.testBit_mod_two_pow, hs k h1 (by omega)]; simp
      simp only [exactVolume]
      rw [(ih _).1 hs']
      rcases Nat.eq_zero_or_pos d with rfl | hd
      · simp
      · rw [if_neg (by rw [hs d hd (by omega)]; simp; omega), Nat.factorial_succ, div_div]
        push_cast; ring
    · intro hs
      have hs' : IsCubeId d (id % 2 ^ d) := by
        intro k h1 h2
        rw [Nat.testBit_mod_two_pow, hs k h1 (by omega)]; simp [h2]
      simp only [exactVolume]
      rw [(ih _).2 hs', if_pos]
      rcases Nat.eq_zero_or_pos d with h | h
      · exact Or.inl h
      · exact Or.inr (hs d h (by omega))

/-- The full statement fails: in dimension 14 `volume()` of the simplex is not `1/14!`, because
`baseValue` is an `unsigned int` and `13!` does not fit. -/
theorem C19_counterexample : ¬ C19_full := by
  intro h
  have h1 := h 14 0 (by norm_num)
  rw [(C19_simplex_cube 14 0).1 (fun k _ _ => by simp), referenceVolume] at h1
  have h2 : referenceVolumeInverse 14 0 = 27048749056 := by decide +kernel
  rw [h2] at h1
  norm_num [Nat.factorial] at h1

example : (referenceVolume 3 5 : ℚ) = 1 / 2 ∧ (referenceVolume 3 3 : ℚ) = 1 / 3 := by
  have h1 : referenceVolumeInverse 3 5 = 2 := by decide
  have h2 : referenceVolumeInverse 3 3 = 3 := by decide
  simp [referenceVolume, h1, h2]

/-! ### C20 -/

/-- C20: the embedding of `(i,c)` maps corner `j` of the reference element of its type to the corner of
the element whose number is `subEntity(i,c,j,d)`. -/
theorem C20_corners (d id i c j : Nat) (hd : d ≤ 31) (hid : id < 2 ^ d) (hc : c ≤ d) (hi : i < refSize d id c)
    (hj : j < refSize3 d id i c d) :
    let T := refType d id i c
    ∃ e k x y, (referenceEmbeddings (K := K) d id c)[i]? = some e ∧ subEntity d id i c j d = some k ∧
      (referenceCorners T.dim T.id)[j]? = some x ∧ (referenceCorners d id)[k]? = some y ∧ embed (d - c) e x = y := by
  intro T
  have hr := rep_topoOf d id
  obtain ⟨f, rfl, rfl⟩ := exists_face hr hc hi
  rw [(numbers_eq hr hid f hc (le_refl _)).2.1] at hj
  obtain ⟨g, hg, rfl⟩ := Face.idx_surj _ _ _ hj
  have hT : T = ⟨d - f.codim, false, subTopologyId d id f.codim f.idx⟩ := refType_eq d id _ _ hd hid hc
  have hTr : Rep T.dim T.id f.shape := by rw [hT]; exact rep_sub hr hid f
  have hfd := Face.codim_add_dim f
  rw [hr.dim_eq] at hfd
  have hsub := subEntity_eq hr hid f g
  rw [show f.codim + g.codim = d by omega] at hsub
  refine ⟨_, _, _, _, embedding_face hr f, hsub, corner_face hTr g (by rw [hT]; exact hg),
    corner_face hr (Face.comp f g) (by rw [Face.codim_comp]; omega), ?_⟩
  rw [← emb_orig, emb, show f.shape.dim = d - f.codim by omega]

/-- C20: number of embeddings; the embedding of the element itself is the identity; the origin is the
first corner of the sub-entity. -/
theorem C20_basic (d id : Nat) (hid : id < 2 ^ d) :
    (∀ c, c ≤ d → (referenceEmbeddings (K := K) d id c).length = refSize d id c) ∧
    (∃ e, referenceEmbeddings (K := K) d id 0 = [e] ∧ ∀ x : Vec K, (∀ k, d ≤ k → x k = 0) → embed d e x = x) ∧
    (∀ c i, c ≤ d → i < refSize d id c → ∃ e k, (referenceEmbeddings (K := K) d id c)[i]? = some e ∧
      subEntity d id i c 0 d = some k ∧ (referenceCorners d id)[k]? = some e.1 ∧
      (referenceOrigins d id c)[i]? = some e.1) := by
  have hr := rep_topoOf d id
  refine ⟨fun c hc => ?_, ?_, ?_⟩
  · rw [embeddings_eq hr c hc, List.length_map, length_faces, refSize, size_eq hr c hc]
  · refine ⟨(fun _ => 0, fun r c => if r = c ∧ r < d then 1 else 0), by cases d <;> rfl, fun x hx => ?_⟩
    funext j
    simp only [embed, zero_add]
    by_cases hj : j < d
    · rw [Finset.sum_eq_single_of_mem j (mem_range.2 hj)]
      · simp [hj]
      · intro r _ hrj; simp [hrj]
    · rw [hx j (by omega)]
      apply sum_eq_zero
      intro r hrr
      have := mem_range.1 hrr
      rw [if_neg (by omega), zero_mul]
  · intro c i hc hi
    obtain ⟨f, rfl, rfl⟩ := exists_face hr hc hi
    have hfd := Face.codim_add_dim f
    rw [hr.dim_eq] at hfd
    obtain ⟨g, hg, hg0⟩ := Face.idx_surj f.shape f.shape.dim 0 (Topo.sz_pos _ _ (le_refl _))
    have hsub := subEntity_eq hr hid f g
    rw [show f.codim + g.codim = d by omega, hg0] at hsub
    refine ⟨_, _, embedding_face hr f, hsub, ?_, ?_⟩
    · rw [corner_face hr (Face.comp f g) (by rw [Face.codim_comp]; omega), ← emb_orig]
      have hz : orig (K := K) g = fun _ => 0 := by
        obtain ⟨v, hv, hv0, hvo⟩ := first_vertex (K := K) f.shape
        rw [Face.idx_inj g v (by rw [hg, hv]) (by rw [hg0, hv0]), hvo]
      rw [hz, emb_at_zero]
    · rw [origins_eq hr _ hc, List.getElem?_map, faces_getElem f _ rfl]; rfl

/-- C20: the embeddings are injective. -/
theorem C20_injective (d id i c : Nat) (hc : c ≤ d) (hi : i < refSize d id c)
    (e : Vec K × Mat K) (he : (referenceEmbeddings (K := K) d id c)[i]? = some e) (x y : Vec K)
    (h : embed (d - c) e x = embed (d - c) e y) : ∀ r, r < d - c → x r = y r := by
  have hr := rep_topoOf d id
  obtain ⟨f, rfl, rfl⟩ := exists_face hr hc hi
  have hfd := Face.codim_add_dim f
  rw [hr.dim_eq] at hfd
  rw [embedding_face hr f] at he
  obtain rfl := Option.some.inj he
  have hdc : d - f.codim = f.shape.dim := by omega
  rw [hdc] at h ⊢
  exact emb_inj f h

/-- C20: chain law.  Embedding `(ii,cc-c)` into the type of `(i,c)` and this into the element is the
embedding of the sub-entity `subEntity(i,c,ii,cc)`. -/
theorem C20_chain (d id i c ii cc : Nat) (hd : d ≤ 31) (hid : id < 2 ^ d) (hc : c ≤ cc) (hcc : cc ≤ d)
    (hi : i < refSize d id c) (hii : ii < refSize3 d id i c cc) :
    let T := refType d id i c
    ∃ e e' e'' k, (referenceEmbeddings (K := K) d id c)[i]? = some e ∧
      (referenceEmbeddings (K := K) T.dim T.id (cc - c))[ii]? = some e' ∧ subEntity d id i c ii cc = some k ∧
      (referenceEmbeddings (K := K) d id cc)[k]? = some e'' ∧
      ∀ x, embed (d - cc) e'' x = embed (d - c) e (embed (d - cc) e' x) := by
  intro T
  have hr := rep_topoOf d id
  obtain ⟨f, rfl, rfl⟩ := exists_face hr (by omega) hi
  rw [(numbers_eq hr hid f hc hcc).2.1] at hii
  obtain ⟨g, hg, rfl⟩ := Face.idx_surj _ _ _ hii
  obtain rfl : cc = f.codim + g.codim := by omega
  have hT : T = ⟨d - f.codim, false, subTopologyId d id f.codim f.idx⟩ := refType_eq d id _ _ hd hid (by omega)
  have hTr : Rep T.dim T.id f.shape := by rw [hT]; exact rep_sub hr hid f
  have hfd := Face.codim_add_dim f
  rw [hr.dim_eq] at hfd
  have hgd := Face.codim_add_dim g
  have hcomp := embedding_face (K := K) hr (Face.comp f g)
  rw [Face.codim_comp] at hcomp
  refine ⟨_, _, _, _, embedding_face hr f, by rw [Nat.add_sub_cancel_left]; exact embedding_face hTr g,
    subEntity_eq hr hid f g, hcomp, fun x => ?_⟩
  have := emb_comp (K := K) f g x
  simp only [emb, Face.shape_comp] at this
  rw [show d - (f.codim + g.codim) = g.shape.dim by omega, show d - f.codim = f.shape.dim by omega]
  exact this

/-- an embedding as an affine map -/
def embedAff (m : Nat) (e : Vec K × Mat K) : Vec K →ᵃ[K] Vec K where
  toFun := embed m e
  linear :=
    { toFun := fun x j => ∑ r ∈ range m, e.2 r j * x r
      map_add' := fun x y => by funext j; simp [mul_add, sum_add_distrib]
      map_smul' := fun a x => by funext j; simp [mul_sum]; exact sum_congr rfl fun r _ => by ring }
  map_vadd' := fun p v => by
    funext j
    simp [embed, mul_add, sum_add_distrib]; ring

/-- C20: the image of the reference domain of the type of `(i,c)` is the convex hull of the corners of
the sub-entity `(i,c)`. -/
theorem C20_onto (d id i c : Nat) (hd : d ≤ 31) (hid : id < 2 ^ d) (hc : c ≤ d) (hi : i < refSize d id c)
    (e : Vec K × Mat K) (he : (referenceEmbeddings (K := K) d id c)[i]? = some e) :
    let T := refType d id i c
    embed (d - c) e '' domain K T.dim T.id =
      convexHull K {y | ∃ k ∈ subEntities d id i c d, y = corner d id k} := by
  intro T
  have hr := rep_topoOf d id
  obtain ⟨f, rfl, rfl⟩ := exists_face hr hc hi
  rw [embedding_face hr f] at he
  obtain rfl := Option.some.inj he
  have hT : T = ⟨d - f.codim, false, subTopologyId d id f.codim f.idx⟩ := refType_eq d id _ _ hd hid hc
  have hTr : Rep T.dim T.id f.shape := by rw [hT]; exact rep_sub hr hid f
  have hfd := Face.codim_add_dim f
  rw [hr.dim_eq] at hfd
  have := (embedAff (K := K) (d - f.codim) (orig f, jac f)).image_convexHull
    {x | x ∈ referenceCorners (K := K) T.dim T.id}
  refine Eq.trans this ?_
  congr 1
  ext y
  simp only [Set.mem_image]
  change (∃ x, x ∈ referenceCorners T.dim T.id ∧ embed (d - f.codim) (orig f, jac f) x = y) ↔
    ∃ k ∈ subEntities d id f.idx f.codim d, y = corner d id k
  have hTd : T.dim = f.shape.dim := hTr.dim_eq.symm
  rw [show d - f.codim = f.shape.dim by omega, corners_eq hTr]
  constructor
  · rintro ⟨x, hx, rfl⟩
    obtain ⟨g, hg, rfl⟩ := List.mem_map.1 hx
    rw [mem_faces, hTd] at hg
    have hcd : (Face.comp f g).codim = d := by rw [Face.codim_comp]; omega
    refine ⟨(Face.comp f g).idx, ?_, ?_⟩
    · rw [mem_subEntities hr hid f (le_refl _)]
      exact ⟨_, hcd, rfl, Face.comp_le f g⟩
    · rw [corner_eq_face hr _ hcd, ← emb_orig]; rfl
  · rintro ⟨k, hk, rfl⟩
    obtain ⟨v, hv, rfl, hle⟩ := (mem_subEntities hr hid f (le_refl _) k).1 hk
    obtain ⟨g, rfl⟩ := Face.exists_comp_of_le hle
    rw [Face.codim_comp] at hv
    refine ⟨orig g, List.mem_map.2 ⟨g, (mem_faces g _).2 (by omega), rfl⟩, ?_⟩
    rw [corner_eq_face hr _ (by rw [Face.codim_comp]; omega), ← emb_orig]; rfl

/-! ### C21 -/

theorem subEntities_faces {d id : Nat} {t : Topo} (h : Rep d id t) (hid : id < 2 ^ d) (f : Face t) :
    subEntities d id f.idx f.codim d = (faces f.shape f.shape.dim).map fun g => (Face.comp f g).idx := by
  have hfd := Face.codim_add_dim f
  rw [h.dim_eq] at hfd
  apply List.ext_getElem?
  intro j
  by_cases hj : j < f.shape.sz f.shape.dim
  · obtain ⟨g, hg, rfl⟩ := Face.idx_surj _ _ _ hj
    have := subEntities_getElem h hid f g
    rw [show f.codim + g.codim = d by omega] at this
    rw [this, List.getElem?_map, faces_getElem g _ hg]; rfl
  · rw [List.getElem?_eq_none, List.getElem?_eq_none]
    · rw [List.length_map, length_faces]; omega
    · rw [subEntities_length h hid f (by omega) (le_refl _), show d - f.codim = f.shape.dim by omega]; omega

theorem mapM_some {α β : Type} (l : List α) (F : α → Option β) (G : α → β) (h : ∀ a ∈ l, F a = some (G a)) :
    l.mapM F = some (l.map G) := by
  induction l with
  | nil => rfl
  | cons a l ih =>
    rw [List.mapM_cons, h a (by simp), ih fun b hb => h b (by simp [hb])]; rfl

theorem foldl_add_eq (l : List (Vec K)) (r : Nat) : ∀ a : K,
    l.foldl (fun acc v => acc + v r) a = a + (l.map fun v => v r).sum := by
  induction l with
  | nil => intro a; simp
  | cons v l ih => intro a; rw [List.foldl_cons, ih, List.map_cons, List.sum_cons]; ring

/-- barycenter of a face -/
def bary {t : Topo} (f : Face t) : Vec K :=
  fun r => ((faces f.shape f.shape.dim).map fun g => orig (Face.comp f g) r).sum *
    (1 / (f.shape.sz f.shape.dim : K))

theorem position_face {d id : Nat} {t : Topo} (h : Rep d id t) (hid : id < 2 ^ d) (f : Face t) :
    position (K := K) d id f.idx f.codim = some (bary f) := by
  have hfd := Face.codim_add_dim f
  rw [h.dim_eq] at hfd
  unfold position
  by_cases hc : f.codim = d
  · rw [if_pos hc, corner_face h f hc]
    congr 1
    funext r
    have hs : f.shape = .pt := eq_pt_of_dim (by omega)
    have key : ∀ g : Face f.shape, Face.comp f g = f := fun g =>
      Face.comp_of_codim_zero f g (by have := Face.codim_le g; omega)
    simp only [bary, key]
    rw [List.map_const', length_faces, List.sum_replicate, hs]
    simp [Topo.dim]
  · rw [if_neg hc]
    have h3 : refSize3 d id f.idx f.codim d = f.shape.sz f.shape.dim := by
      rw [(numbers_eq h hid f (by omega) (le_refl _)).2.1]; congr 1; omega
    have hl := subEntities_faces h hid f
    have hM : (List.range (refSize3 d id f.idx f.codim d)).mapM (fun j => do
        let k ← subEntity d id f.idx f.codim j d
        (referenceCorners (K := K) d id)[k]?) =
        some ((List.range (refSize3 d id f.idx f.codim d)).map fun j =>
          ((faces f.shape f.shape.dim).map fun g => orig (K := K) (Face.comp f g)).getD j fun _ => 0) := by
      refine mapM_some _ _ _ fun j hj => ?_
      rw [List.mem_range, h3] at hj
      obtain ⟨g, hg, rfl⟩ := Face.idx_surj _ _ _ hj
      have := subEntity_eq h hid f g
      rw [show f.codim + g.codim = d by omega] at this
      rw [this]
      simp only [Option.bind_eq_bind, Option.bind_some]
      rw [corner_face h _ (by rw [Face.codim_comp]; omega), List.getD_eq_getElem?_getD, List.getElem?_map,
        faces_getElem g _ hg]; rfl
    simp only [Option.bind_eq_bind] at hM ⊢
    rw [hM]
    change some _ = some _
    congr 1
    funext r
    rw [foldl_add_eq, zero_add, h3, bary]
    congr 2
    rw [List.map_map]
    apply List.ext_getElem?
    intro j
    rw [List.getElem?_map, List.getElem?_map]
    by_cases hj : j < f.shape.sz f.shape.dim
    · rw [List.getElem?_range hj]
      obtain ⟨g, hg, rfl⟩ := Face.idx_surj _ _ _ hj
      rw [faces_getElem g _ hg]
      simp only [Option.map_some, Function.comp]
      rw [List.getD_eq_getElem?_getD, List.getElem?_map, faces_getElem g _ hg]; rfl
    · rw [List.getElem?_eq_none (by rw [List.length_range]; omega),
        List.getElem?_eq_none (by rw [length_faces]; omega)]; rfl

/-- C21: `position(i,c)` is the arithmetic mean of the corners of the sub-entity. -/
theorem C21_mean (d id i c : Nat) (hid : id < 2 ^ d) (hc : c ≤ d) (hi : i < refSize d id c) :
    ∃ p : Vec K, position d id i c = some p ∧
      ∀ r, (refSize3 d id i c d : K) * p r = ((subEntities d id i c d).map fun k => corner d id k r).sum := by
  have h := rep_topoOf d id
  obtain ⟨f, rfl, rfl⟩ := exists_face h hc hi
  have hfd := Face.codim_add_dim f
  rw [h.dim_eq] at hfd
  refine ⟨_, position_face h hid f, fun r => ?_⟩
  have h3 : refSize3 d id f.idx f.codim d = f.shape.sz f.shape.dim := by
    rw [(numbers_eq h hid f (by omega) (le_refl _)).2.1]; congr 1; omega
  have hpos : (0 : K) < f.shape.sz f.shape.dim := by exact_mod_cast Topo.sz_pos _ _ (le_refl _)
  rw [h3, subEntities_faces h hid f, bary, List.map_map]
  have : (faces f.shape f.shape.dim).map ((fun k => corner (K := K) d id k r) ∘ fun g => (Face.comp f g).idx) =
      (faces f.shape f.shape.dim).map fun g => orig (Face.comp f g) r := by
    apply List.map_congr_left
    intro g hg
    rw [mem_faces] at hg
    simp only [Function.comp]
    rw [corner_eq_face h _ (by rw [Face.codim_comp]; omega)]
  rw [this]
  field_simp

/-- C21: it lies in the convex hull of the corners of the sub-entity, hence in the element. -/
theorem C21_inside (d id i c : Nat) (hid : id < 2 ^ d) (hc : c ≤ d) (hi : i < refSize d id c) (p : Vec K)
    (hp : position d id i c = some p) :
    p ∈ convexHull K {y | ∃ k ∈ subEntities d id i c d, y = corner (K := K) d id k} ∧ p ∈ domain K d id ∧
      ∀ tol : K, 0 < tol → checkInside d id p tol 1 = true := by
  have h := rep_topoOf d id
  obtain ⟨f, rfl, rfl⟩ := exists_face h hc hi
  have hfd := Face.codim_add_dim f
  rw [h.dim_eq] at hfd
  rw [position_face h hid f] at hp
  obtain rfl := Option.some.inj hp
  have hpos : (0 : K) < f.shape.sz f.shape.dim := by exact_mod_cast Topo.sz_pos f.shape _ (le_refl _)
  have h1 : bary (K := K) f ∈ convexHull K {y | ∃ k ∈ subEntities d id f.idx f.codim d, y = corner (K := K) d id k} := by
    have := wsum_mem_convexHull (K := K)
      (List.replicate (f.shape.sz f.shape.dim) (1 / (f.shape.sz f.shape.dim : K)))
      ((faces f.shape f.shape.dim).map fun g => orig (Face.comp f g))
      (by rw [List.length_replicate, List.length_map, length_faces])
      (by intro w hw; rw [List.eq_of_mem_replicate hw]; positivity)
      (by rw [List.sum_replicate, nsmul_eq_mul]; field_simp)
    have e : (fun k => wsum (List.replicate (f.shape.sz f.shape.dim) (1 / (f.shape.sz f.shape.dim : K)))
      ((faces f.shape f.shape.dim).map fun g => orig (Face.comp f g)) k) = bary f := by
      funext k
      rw [wsum, bary]
      rw [← length_faces]
      generalize faces f.shape f.shape.dim = l
      generalize 1 / ((l.length : K)) = a
      induction l with
      | nil => simp
      | cons g l ih => simp only [List.length_cons, List.replicate_succ, List.map_cons, List.zipWith_cons_cons,
          List.sum_cons, ih]; ring
    rw [e] at this
    refine convexHull_mono ?_ this
    intro y hy
    obtain ⟨g, hg, rfl⟩ := List.mem_map.1 hy
    rw [mem_faces] at hg
    have hcd : (Face.comp f g).codim = d := by rw [Face.codim_comp]; omega
    exact ⟨(Face.comp f g).idx, (mem_subEntities h hid f (le_refl _) _).2 ⟨_, hcd, rfl, Face.comp_le f g⟩,
      (corner_eq_face h _ hcd).symm⟩
  have h2 : bary (K := K) f ∈ domain K d id := by
    refine convexHull_mono ?_ h1
    rintro y ⟨k, hk, rfl⟩
    obtain ⟨v, hv, rfl, _⟩ := (mem_subEntities h hid f (le_refl _) k).1 hk
    rw [corner_eq_face h v hv]
    exact List.mem_of_getElem? (corner_face h v hv)
  refine ⟨h1, h2, (C18_hull d id _ ?_).1 h2⟩
  intro k hk
  simp only [bary]
  rw [map_sum_zero, zero_mul]
  intro g _
  exact orig_zero _ k (by rw [h.dim_eq]; exact hk)

/-- C21: for `c = dim` it is the corner. -/
theorem C21_vertex (d id i : Nat) : position (K := K) d id i d = (referenceCorners d id)[i]? := by
  simp [position]

/-- C21: barycenters are compatible with the embeddings. -/
theorem C21_embedding (d id i c : Nat) (hd : d ≤ 31) (hid : id < 2 ^ d) (hc : c ≤ d) (hi : i < refSize d id c) :
    let T := refType d id i c
    ∃ e b, (referenceEmbeddings (K := K) d id c)[i]? = some e ∧ position T.dim T.id 0 0 = some b ∧
      position d id i c = some (embed (d - c) e b) := by
  intro T
  have hr := rep_topoOf d id
  obtain ⟨f, rfl, rfl⟩ := exists_face hr hc hi
  have hT : T = ⟨d - f.codim, false, subTopologyId d id f.codim f.idx⟩ := refType_eq d id _ _ hd hid hc
  have hTr : Rep T.dim T.id f.shape := by rw [hT]; exact rep_sub hr hid f
  have hTid : T.id < 2 ^ T.dim := by rw [hT]; exact subTopologyId_lt d id _ _ hid (by omega)
  have hfd := Face.codim_add_dim f
  rw [hr.dim_eq] at hfd
  have hb := position_face (K := K) hTr hTid (Face.whole f.shape)
  rw [Face.codim_whole, Face.idx_of_codim_zero _ (Face.codim_whole _)] at hb
  refine ⟨_, _, embedding_face hr f, hb, ?_⟩
  rw [position_face hr hid f]
  congr 1
  funext j
  have hsw := Face.shape_of_codim_zero _ (Face.codim_whole f.shape)
  have hbw : bary (K := K) (Face.whole f.shape) =
      fun r => ((faces f.shape f.shape.dim).map fun g => orig g r).sum * (1 / (f.shape.sz f.shape.dim : K)) := by
    funext r
    have hh := position_face (K := K) hTr hTid (Face.whole f.shape)
    obtain ⟨p, hp, hpm⟩ := C21_mean (K := K) T.dim T.id (Face.whole f.shape).idx (Face.whole f.shape).codim hTid
      (by rw [Face.codim_whole]; omega) (face_lt hTr _)
    rw [hh] at hp
    obtain rfl := Option.some.inj hp
    have hm := hpm r
    have h0 : (Face.whole f.shape).codim = 0 := Face.codim_whole _
    have i0 : (Face.whole f.shape).idx = 0 := Face.idx_of_codim_zero _ h0
    have h3 : refSize3 T.dim T.id (Face.whole f.shape).idx (Face.whole f.shape).codim T.dim =
        f.shape.sz f.shape.dim := by
      rw [(numbers_eq hTr hTid (Face.whole f.shape) (by omega) (le_refl _)).2.1, hsw, h0, ← hTr.dim_eq]; rfl
    have hl : subEntities T.dim T.id (Face.whole f.shape).idx (Face.whole f.shape).codim T.dim =
        (faces f.shape f.shape.dim).map Face.idx := by
      apply List.ext_getElem?
      intro j
      by_cases hj : j < f.shape.sz f.shape.dim
      · obtain ⟨g, hg, rfl⟩ := Face.idx_surj _ _ _ hj
        have hw := C13_whole T.dim T.id g.idx T.dim hTid (le_refl _)
          (by rw [refSize, size_eq hTr _ (le_refl _), ← hTr.dim_eq]; exact hj)
        have hn := number_eq T.dim T.id 0 0 T.dim g.idx (by rw [h0, i0] at h3; rw [h3]; exact hj)
        rw [List.getElem?_map, faces_getElem g _ hg, h0, i0, ← hn]
        exact hw.1
      · rw [List.getElem?_eq_none, List.getElem?_eq_none]
        · rw [List.length_map, length_faces]; omega
        · rw [subEntities_length hTr hTid _ (by omega) (le_refl _), h0, hsw, ← hTr.dim_eq]; simpa using hj
    rw [h3, hl, List.map_map] at hm
    have : (faces f.shape f.shape.dim).map ((fun k => corner (K := K) T.dim T.id k r) ∘ Face.idx) =
        (faces f.shape f.shape.dim).map fun g => orig g r := by
      apply List.map_congr_left
      intro g hg
      rw [mem_faces] at hg
      simp only [Function.comp]
      rw [corner_eq_face hTr _ (by rw [hg, hTr.dim_eq])]
    rw [this] at hm
    have hpos : (0 : K) < f.shape.sz f.shape.dim := by exact_mod_cast Topo.sz_pos f.shape _ (le_refl _)
    rw [← hm]; field_simp
  rw [hbw, show d - f.codim = f.shape.dim by omega]
  simp only [bary, embed, ← emb_orig]
  simp only [emb, embed]
  have hpos : (0 : K) < f.shape.sz f.shape.dim := by exact_mod_cast Topo.sz_pos f.shape _ (le_refl _)
  rw [← length_faces] at hpos ⊢
  generalize faces f.shape f.shape.dim = l at hpos ⊢
  have key : ∀ l : List (Face f.shape), (l.map fun g => orig (K := K) f j +
      ∑ r ∈ range f.shape.dim, jac f r j * orig g r).sum =
      (l.length : K) * orig f j + ∑ r ∈ range f.shape.dim, jac f r j * (l.map fun g => orig g r).sum := by
    intro l
    induction l with
    | nil => simp
    | cons g l ih =>
      simp only [List.map_cons, List.sum_cons, ih, List.length_cons, mul_add, sum_add_distrib]
      push_cast; ring
  rw [key, add_mul, sum_mul]
  congr 1
  · field_simp
  · exact sum_congr rfl fun r _ => by ring

example : position (K := ℚ) 3 5 0 1 ≠ none := by
  obtain ⟨p, hp, _⟩ := C21_mean (K := ℚ) 3 5 0 1 (by norm_num) (by norm_num) (by decide)
  rw [hp]; simp

/-! ### C22 -/

/-- C22: there is one normal per facet. -/
theorem C22_count (d id : Nat) (hd : 0 < d) :
    (referenceIntegrationOuterNormals (K := K) d d id).length = refSize d id 1 := by
  have h := rep_topoOf d id
  have := normals_eq (K := K) h d (le_refl _) hd []
  rw [List.append_nil] at this
  rw [referenceIntegrationOuterNormals, origins_eq h 1 hd, this, List.length_map, length_faces, refSize,
    size_eq h 1 hd]

/-- C22: the normal is orthogonal to the facet. -/
theorem C22_orthogonal (d id i : Nat) (hd : 0 < d) (hi : i < refSize d id 1) :
    ∃ n e, (referenceIntegrationOuterNormals (K := K) d d id)[i]? = some n ∧
      (referenceEmbeddings (K := K) d id 1)[i]? = some e ∧ ∀ r, r < d - 1 → dot d n (e.2 r) = 0 := by
  have h := rep_topoOf d id
  obtain ⟨f, hf, rfl⟩ := exists_face h hd hi
  have hfd := Face.codim_add_dim f
  rw [h.dim_eq] at hfd
  have he := embedding_face (K := K) h f
  rw [hf] at he
  refine ⟨_, _, normal_face h f hf, he, fun r hr => ?_⟩
  have := nrm_orthogonal (K := K) f hf r (by omega)
  rwa [h.dim_eq] at this

/-- C22: the element lies on the inner side, its interior strictly, and the corners on the facet plane
are exactly the corners of the facet. -/
theorem C22_outward (d id i : Nat) (hid : id < 2 ^ d) (hd : 0 < d) (hi : i < refSize d id 1) :
    ∃ n o, (referenceIntegrationOuterNormals (K := K) d d id)[i]? = some n ∧
      (referenceOrigins (K := K) d id 1)[i]? = some o ∧
      (∀ x : Vec K, (∀ k, d ≤ k → x k = 0) → x ∈ domain K d id → dot d n x ≤ dot d n o) ∧
      (∀ x : Vec K, checkInside d id x 0 1 = true → dot d n x < dot d n o) ∧
      (∀ k, k < refSize d id d → (dot d n (corner d id k) = dot d n o ↔ k ∈ subEntities d id i 1 d)) := by
  have h := rep_topoOf d id
  obtain ⟨f, hf, rfl⟩ := exists_face h hd hi
  have ho : (referenceOrigins (K := K) d id 1)[f.idx]? = some (orig f) := by
    rw [origins_eq h 1 hd, List.getElem?_map, faces_getElem f 1 hf]; rfl
  refine ⟨_, _, normal_face h f hf, ho, ?_, ?_, ?_⟩
  · intro x hx hxd
    have := dom_dot_le f hf 1 x ((mem_domain h x hx).1 hxd)
    rwa [one_mul, h.dim_eq] at this
  · intro x hx
    have := inside_dot_lt f hf 1 x ((checkInside_iff h x 0 1).1 hx)
    rwa [one_mul, h.dim_eq] at this
  · intro k hk
    obtain ⟨v, hv, rfl⟩ := exists_face h (le_refl _) hk
    have hvd := vertex_dot (K := K) f v hf (by rw [Face.IsVertex, hv, h.dim_eq])
    rw [h.dim_eq] at hvd
    rw [corner_eq_face h v hv]
    have hm := mem_subEntities h hid f (le_refl _) v.idx
    rw [hf] at hm
    rw [hm]
    constructor
    · intro e
      refine ⟨v, hv, rfl, ?_⟩
      by_contra hne
      exact absurd e (ne_of_lt (hvd.2 (by simpa using hne)))
    · rintro ⟨w, hw, hwi, hle⟩
      rw [Face.idx_inj w v (by rw [hv, hw]) hwi] at hle
      exact hvd.1 hle

/-- C22: the length is the integration element of the facet's embedding (squared on both sides). -/
theorem C22_length (d id i : Nat) (hd : 0 < d) (hi : i < refSize d id 1) :
    ∃ n e, (referenceIntegrationOuterNormals (K := K) d d id)[i]? = some n ∧
      (referenceEmbeddings (K := K) d id 1)[i]? = some e ∧ 0 < dot d n n ∧
      dot d n n = Matrix.det (Matrix.of fun r s : Fin (d - 1) => ∑ k ∈ range d, e.2 r k * e.2 s k) := by
  have h := rep_topoOf d id
  obtain ⟨f, hf, rfl⟩ := exists_face h hd hi
  have hfd := Face.codim_add_dim f
  rw [h.dim_eq] at hfd
  have he := embedding_face (K := K) h f
  rw [hf] at he
  have hpos : 0 < dot (topoOf d id).dim (nrm (K := K) f) (nrm f) := by
    obtain ⟨k, hk, hn⟩ := nrm_ne (K := K) f hf
    exact sum_pos' (fun i _ => mul_self_nonneg _) ⟨k, mem_range.2 hk, mul_self_pos.2 hn⟩
  refine ⟨_, _, normal_face h f hf, he, by rw [h.dim_eq] at hpos; exact hpos, ?_⟩
  have := nrm_length f hf hpos.ne'
  rw [h.dim_eq] at this
  rw [this, show d - 1 = f.shape.dim by omega]
  rfl

/-- C22: the surface is closed: the normals weighted with the exact volumes of the facets' types sum to
zero; and (divergence theorem for the identity) the distances of the facet planes weighted in the same way
give `d` times the volume. -/
theorem C22_closed (d id : Nat) (hid : id < 2 ^ d) (hd : 0 < d) :
    (∀ k, ((List.range (refSize d id 1)).map fun i => exactVolume K (d - 1) (subTopologyId d id 1 i) *
      (referenceIntegrationOuterNormals (K := K) d d id).getD i (fun _ => 0) k).sum = 0) ∧
    ((List.range (refSize d id 1)).map fun i => exactVolume K (d - 1) (subTopologyId d id 1 i) *
      dot d ((referenceIntegrationOuterNormals (K := K) d d id).getD i (fun _ => 0))
        ((referenceOrigins (K := K) d id 1).getD i (fun _ => 0))).sum = d * exactVolume K d id := by
  have h := rep_topoOf d id
  obtain ⟨h1, h2⟩ := closed_surface (K := K) (topoOf d id) (by rw [h.dim_eq]; exact hd)
  have key : ∀ F : Nat → K, ∀ G : Face (topoOf d id) → K, (∀ f : Face (topoOf d id), f.codim = 1 → F f.idx = G f) →
      (List.range (refSize d id 1)).map F = (faces (topoOf d id) 1).map G := by
    intro F G hFG
    have hsz : refSize d id 1 = (topoOf d id).sz 1 := by rw [refSize, size_eq h 1 hd]
    apply List.ext_getElem?
    intro j
    rw [List.getElem?_map, List.getElem?_map]
    by_cases hj : j < (topoOf d id).sz 1
    · rw [hsz, List.getElem?_range hj]
      obtain ⟨f, hf, rfl⟩ := Face.idx_surj _ _ _ hj
      rw [faces_getElem f _ hf]
      simp [hFG f hf]
    · rw [List.getElem?_eq_none (by rw [List.length_range]; omega),
        List.getElem?_eq_none (by rw [length_faces]; omega)]; rfl
  have hvol : ∀ f : Face (topoOf d id), f.codim = 1 →
      exactVolume K (d - 1) (subTopologyId d id 1 f.idx) = vol f.shape := by
    intro f hf
    have := rep_sub h hid f
    rw [hf] at this
    exact exactVolume_eq this
  have hn : ∀ f : Face (topoOf d id), f.codim = 1 →
      (referenceIntegrationOuterNormals (K := K) d d id).getD f.idx (fun _ => 0) = nrm f := by
    intro f hf
    rw [List.getD_eq_getElem?_getD, normal_face h f hf]; rfl
  constructor
  · intro k
    rw [key _ (fun f => vol (K := K) f.shape * nrm f k) fun f hf => by rw [hvol f hf, hn f hf]]
    exact h1 k
  · rw [key _ (fun f => vol (K := K) f.shape * dot (topoOf d id).dim (nrm f) (orig f)) fun f hf => by
      rw [hvol f hf, hn f hf, h.dim_eq, List.getD_eq_getElem?_getD, origins_eq h 1 hd, List.getElem?_map,
        faces_getElem f 1 hf]; rfl]
    rw [h2, h.dim_eq, exactVolume_eq h]

-- the pyramid has five normals; the first is that of the base
example : 0 < refSize 3 3 1 ∧ refSize 3 3 1 = 5 ∧ (3 : Nat) < 2 ^ 3 := by decide

end Verif.RefGeom
