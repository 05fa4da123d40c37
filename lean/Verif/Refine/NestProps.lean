import Verif.Refine.NestLemmas
import Verif.Refine.ConformProps
import Mathlib.Data.Fintype.EquivFin
import Mathlib.Data.Fintype.BigOperators

/-! Property C81: refinements are nested. -/

namespace Verif.Refine

open Function Finset
open Equiv (Perm)

/-! ### specification -/

/-- the image of element `k` of the simplex refined with `n` intervals is contained in the image of element `k'` of the
simplex refined with `n'` intervals -/
def Contained (K : Type) [Field K] [LinearOrder K] [IsStrictOrderedRing K] (d n k n' k' : Nat) : Prop :=
  ∃ it it', eAt d n k = some it ∧ eAt d n' k' = some it' ∧ ∀ z : Nat → K, InSimplex d z →
    ∃ z' y y', InSimplex d z' ∧ it.global d z = some y ∧ it'.global d z' = some y' ∧ ∀ i, i < d → y i = y' i

variable {K : Type} [Field K] [LinearOrder K] [IsStrictOrderedRing K]

omit [LinearOrder K] [IsStrictOrderedRing K] in
theorem center_sum (d : Nat) : ∑ _i ∈ range d, (1 / ((d : K) + 1)) = d / (d + 1) := by
  rw [sum_const, card_range, nsmul_eq_mul]; ring

theorem center_inner (d : Nat) : InnerSimplex d fun _ => 1 / ((d : K) + 1) := by
  have hd : (0 : K) < (d : K) + 1 := add_pos_of_nonneg_of_pos (Nat.cast_nonneg _) one_pos
  refine ⟨fun _ _ => one_div_pos.2 hd, ?_⟩
  rw [center_sum, div_lt_one hd]
  linarith

theorem InnerSimplex.simplex {d : Nat} {z : Nat → K} (h : InnerSimplex d z) : InSimplex d z :=
  ⟨fun i hi => (h.1 i hi).le, h.2.le⟩

theorem fine_unique {d n m a e k a' : Nat} (hd : 0 < d) (ha : a < nElements d n) (he : e < nElements d m) (ha' : a' < nElements d n)
    (h : Fine d n m a e k) (hc : Contained K d (n * m) k n a') : a = a' := by
  have hin := center_inner (K := K) d
  obtain ⟨itA, it, Z, y, Y, h1, h2, h3, h4, h5, h6, h7⟩ := fine_inside hd he h _ hin.simplex
  obtain ⟨it', it'', g1, g2, g3⟩ := hc
  obtain ⟨z', y', Y', g4, g5, g6, g7⟩ := g3 _ hin.simplex
  obtain rfl := Option.some.inj (h2.symm.trans g1)
  obtain rfl := Option.some.inj (h5.symm.trans g5)
  exact C60_disjoint d n a a' hd ha ha' Z z' (h4 hin) g4 itA it'' h1 g2 Y Y' h6 g6 fun i hi => (h7 i hi).symm.trans (g7 i hi)

theorem fine_contained {d n m a e k : Nat} (hd : 0 < d) (he : e < nElements d m) (h : Fine d n m a e k) : Contained K d (n * m) k n a := by
  obtain ⟨itA, itE, it, Q, q, h1, h2, h3, -⟩ := id h
  refine ⟨it, itA, h3, h1, fun z hz => ?_⟩
  obtain ⟨itA', it', Z, y, Y, g1, g2, g3, g4, g5, g6, g7⟩ := fine_inside hd he h z hz
  obtain rfl := Option.some.inj (g1.symm.trans h1)
  obtain rfl := Option.some.inj (g2.symm.trans h3)
  exact ⟨Z, y, Y, g3, g5, g6, g7⟩

theorem fine_inj {d n m a e a' e' k : Nat} (hd : 0 < d) (ha : a < nElements d n) (he : e < nElements d m) (ha' : a' < nElements d n)
    (he' : e' < nElements d m) (h : Fine d n m a e k) (h' : Fine d n m a' e' k) : a = a' ∧ e = e' := by
  obtain rfl := fine_unique (K := ℚ) hd ha he ha' h (fine_contained hd he' h')
  refine ⟨rfl, ?_⟩
  obtain ⟨itA, itE, it, Q, q, h1, h2, h3, h4, h5, h6, h6', h7, h8, h9, h10, h11, h12, h13, h14, h15⟩ := h
  obtain ⟨itA', itE', it', Q', q', g1, g2, g3, g4, g5, g6, g6', g7, g8, g9, g10, g11, g12, g13, g14, g15⟩ := h'
  obtain rfl := Option.some.inj (h1.symm.trans g1)
  obtain rfl := Option.some.inj (h3.symm.trans g3)
  have hQ : Q = Q' := Equiv.ext fun i => congrFun (Option.some.inj (h7.symm.trans g7)) i
  subst hQ
  have hq : ∀ i, q i = q' i := fun i => Q.injective (congrFun (Option.some.inj (h9.symm.trans g9)) i)
  obtain ⟨σ, hσ⟩ := restrict d q h5
  refine (C41_once d m hd itE.origin q σ (fun i => (hσ i).symm) h14).unique ⟨he, itE, q, h2, h8, fun _ _ => rfl, fun _ _ => rfl⟩
    ⟨he', itE', q', g2, g8, fun i hi => ?_, fun i _ => (hq i).symm⟩
  have e1 := h15 (Q i) (perm_lt h4 hi)
  have e2 := g15 (Q i) (perm_lt h4 hi)
  rw [Equiv.symm_apply_apply] at e1 e2
  omega

/-- the elements of the finer refinement are numbered by pairs -/
theorem exists_equiv (d n m : Nat) (hd : 0 < d) : ∃ f : Fin (nElements d n) × Fin (nElements d m) ≃ Fin (nElements d (n * m)),
    ∀ (a : Fin (nElements d n)) (e : Fin (nElements d m)), Fine d n m a e (f (a, e)) := by
  choose f hf1 hf2 using fun p : Fin (nElements d n) × Fin (nElements d m) => exists_fine d n m hd p.1 p.2 p.1.2 p.2.2
  let F : Fin (nElements d n) × Fin (nElements d m) → Fin (nElements d (n * m)) := fun p => ⟨f p, hf1 p⟩
  have hinj : Injective F := by
    intro p p' h
    have h' : f p = f p' := congrArg Fin.val h
    have := fine_inj hd p.1.2 p.2.2 p'.1.2 p'.2.2 (hf2 p) (h' ▸ hf2 p')
    exact Prod.ext (Fin.ext this.1) (Fin.ext this.2)
  have hbij : Bijective F := by
    rw [Fintype.bijective_iff_injective_and_card]
    refine ⟨hinj, ?_⟩
    rw [Fintype.card_prod, Fintype.card_fin, Fintype.card_fin, Fintype.card_fin, nElements, nElements, nElements, mul_pow]
  exact ⟨Equiv.ofBijective F hbij, fun a e => hf2 (a, e)⟩

/-! ### C81 -/

/-- C81: every element of the simplex refined with `n * m` intervals lies in exactly one element of the simplex refined
with `n` intervals -/
theorem C81_nested (d n m k : Nat) (hd : 0 < d) (hk : k < nElements d (n * m)) :
    ∃! a, a < nElements d n ∧ Contained K d (n * m) k n a := by
  obtain ⟨f, hf⟩ := exists_equiv d n m hd
  have h := hf (f.symm ⟨k, hk⟩).1 (f.symm ⟨k, hk⟩).2
  rw [Prod.mk.eta, Equiv.apply_symm_apply] at h
  refine ⟨(f.symm ⟨k, hk⟩).1, ⟨Fin.is_lt _, fine_contained hd (Fin.is_lt _) h⟩, fun a' h' => ?_⟩
  exact (fine_unique hd (Fin.is_lt _) (Fin.is_lt _) h'.1 h h'.2).symm

open Classical in
/-- C81: every element of the coarse refinement consists of `m ^ d` elements of the fine one -/
theorem C81_count (d n m a : Nat) (hd : 0 < d) (ha : a < nElements d n) :
    ((range (nElements d (n * m))).filter fun k => Contained K d (n * m) k n a).card = m ^ d := by
  obtain ⟨f, hf⟩ := exists_equiv d n m hd
  have : (range (nElements d (n * m))).filter (fun k => Contained K d (n * m) k n a) =
      (univ : Finset (Fin (nElements d m))).image fun e => (f (⟨a, ha⟩, e) : Nat) := by
    ext k
    simp only [mem_filter, mem_range, mem_image, mem_univ, true_and]
    constructor
    · rintro ⟨hk, hc⟩
      have h := hf (f.symm ⟨k, hk⟩).1 (f.symm ⟨k, hk⟩).2
      rw [Prod.mk.eta, Equiv.apply_symm_apply] at h
      have e1 := fine_unique hd (Fin.is_lt _) (Fin.is_lt _) ha h hc
      refine ⟨(f.symm ⟨k, hk⟩).2, ?_⟩
      have e2 : ((⟨a, ha⟩, (f.symm ⟨k, hk⟩).2) : Fin (nElements d n) × Fin (nElements d m)) = f.symm ⟨k, hk⟩ :=
        Prod.ext (Fin.ext e1.symm) rfl
      rw [e2, Equiv.apply_symm_apply]
    · rintro ⟨e, rfl⟩
      exact ⟨Fin.is_lt _, fine_contained hd e.2 (hf ⟨a, ha⟩ e)⟩
  rw [this, card_image_of_injective, card_univ, Fintype.card_fin, nElements]
  intro e e' h
  have := f.injective (Fin.ext h)
  exact (Prod.mk.inj this).2

/-- the 64 elements of the tetrahedron with four intervals lie in the eight elements with two intervals, eight in each -/
example : nElements 3 (2 * 2) = 64 ∧ ∃! a, a < nElements 3 2 ∧ Contained ℚ 3 (2 * 2) 17 2 a :=
  ⟨by decide, C81_nested 3 2 2 17 (by omega) (by decide)⟩

/-- C81: refining twice is not the same: in three dimensions some elements of the refinement (two intervals) of an element
of the refinement (two intervals) are not contained in any element of the refinement with four intervals -/
theorem C81_twice_counterexample : ∃ a it, a < nElements 3 2 ∧ eAt 3 2 a = some it ∧
    ∀ k itk, k < nElements 3 4 → eAt 3 4 k = some itk → ¬ ∀ z : Nat → K, InSimplex 3 z → ∃ w y z' y',
      it.global 3 z = some w ∧ it.global 3 w = some y ∧ InSimplex 3 z' ∧ itk.global 3 z' = some y' ∧ ∀ i, i < 3 → y i = y' i := by
  have hsub : SubSimplex 3 2 (fun i => if i = 0 then 1 else 0) (fun i => if i = 0 then 1 else if i = 1 then 0 else i) := by
    have : ∀ i, i < 4 → (∀ j, j < 2 → pathCorner (fun i => if i = 0 then 1 else 0) (fun i => if i = 0 then 1 else if i = 1 then 0 else i) i (j + 1) ≤
        pathCorner (fun i => if i = 0 then 1 else 0) (fun i => if i = 0 then 1 else if i = 1 then 0 else i) i j) ∧
        pathCorner (fun i => if i = 0 then 1 else 0) (fun i => if i = 0 then 1 else if i = 1 then 0 else i) i 0 ≤ 2 := by decide
    exact fun i hi => ⟨fun j hj => (this i (by omega)).1 j (by omega), (this i (by omega)).2⟩
  obtain ⟨a, ⟨ha, it, p, h1, h2, h3, h4⟩, -⟩ := C41_once 3 2 (by omega) _ _ ⟨![1, 0, 2], ![1, 0, 2], by decide, by decide⟩ (by decide) hsub
  refine ⟨a, it, ha, h1, fun k itk hk hik h => ?_⟩
  obtain ⟨it', h5, -, h6⟩ := C41_index 3 2 (by omega) a ha.le
  obtain rfl := Option.some.inj (h5.symm.trans h1)
  have hgl : ∀ z w : Nat → K, it'.global 3 z = some w → w 0 = (1 - z 1) / 2 ∧ w 1 = (z 0 + z 1) / 2 ∧ w 2 = z 2 / 2 := by
    intro z w hw
    rw [global_eq 3 it' p h2, h6, Triang.r2k_perm h4] at hw
    obtain rfl := Option.some.inj hw
    simp only [diff]
    refine ⟨?_, ?_, ?_⟩ <;> norm_num [referenceToKuhn, r2kLoop, update, h3] <;> ring
  -- the sum of the coordinates is a Kuhn coordinate
  obtain ⟨itk', q, b1, b2, b3, b4, b5, b6, b7⟩ := elem 3 4 (by omega) k hk
  obtain rfl := Option.some.inj (b1.symm.trans hik)
  have hsum : ∀ z' y' : Nat → K, InSimplex 3 z' → itk'.global 3 z' = some y' →
      (itk'.origin 0 : K) / 4 ≤ y' 0 + y' 1 + y' 2 ∧ y' 0 + y' 1 + y' 2 ≤ ((itk'.origin 0 : K) + 1) / 4 := by
    intro z' y' hz' hy'
    rw [global_eq 3 itk' q b6, b2] at hy'
    obtain rfl := Option.some.inj hy'
    obtain ⟨e1, e2⟩ := kuhn_bounds b4 ((inKuhn_iff 3 q b4 z').2 hz') 0 (by omega)
    simp only [diff]
    norm_num
    constructor <;> linarith
  have hv : ∀ j, j < 3 → InSimplex 3 fun i => if i = j then (1 : K) else 0 := by
    intro j hj
    refine ⟨fun i _ => by dsimp only; split <;> norm_num, ?_⟩
    rw [sum_ite_eq' , if_pos (mem_range.2 hj)]
  obtain ⟨w1, y1, z1, y1', c1, c2, c3, c4, c5⟩ := h _ (hv 1 (by omega))
  obtain ⟨w2, y2, z2, y2', d1, d2, d3, d4, d5⟩ := h _ (hv 2 (by omega))
  obtain ⟨e1, e2, e3⟩ := hgl _ _ c1
  obtain ⟨e4, e5, e6⟩ := hgl _ _ c2
  obtain ⟨f1, f2, f3⟩ := hgl _ _ d1
  obtain ⟨f4, f5, f6⟩ := hgl _ _ d2
  have s1 := (hsum _ _ c3 c4).1
  have s2 := (hsum _ _ d3 d4).2
  rw [← c5 0 (by omega), ← c5 1 (by omega), ← c5 2 (by omega), e4, e5, e6, e1, e2, e3] at s1
  rw [← d5 0 (by omega), ← d5 1 (by omega), ← d5 2 (by omega), f4, f5, f6, f1, f2, f3] at s2
  norm_num at s1 s2
  linarith

/-! ### triangulations -/

namespace Triang

/-- the image of element `k` of the triangulation with `n` intervals is contained in that of element `k'` with `n'`
intervals; elements are the convex hulls of the corners of `geometry()` -/
def Contained (s : Scheme K) (n k n' k' : Nat) : Prop :=
  ∃ it it' l l', ∃ c c' : Nat → Nat → K, eAt s n k = some it ∧ eAt s n' k' = some it' ∧ it.geometry s = some l ∧ it'.geometry s = some l' ∧
    (∀ i, i ≤ s.dimension → l[i]? = some (c i)) ∧ (∀ i, i ≤ s.dimension → l'[i]? = some (c' i)) ∧
    ∀ z, InSimplex s.dimension z → ∃ z', InSimplex s.dimension z' ∧ ∀ i, i < s.dimension → interp s.dimension c z i = interp s.dimension c' z' i

variable {s : Scheme K} {dom : (Nat → K) → Prop}

theorem nested (h : Fits s dom) (n m k : Nat) (hk : k < nElements s (n * m)) :
    ∃! a, a < nElements s n ∧ Contained s (n * m) k n a := by
  obtain ⟨hN, a1, a2⟩ := kuhn_lt hk
  have hnm := intervals_pos h.pos hN
  have hn : 0 < n := Nat.pos_of_ne_zero fun h0 => by rw [h0, Nat.zero_mul] at hnm; omega
  obtain ⟨f, hf⟩ := exists_equiv s.dimension n m h.pos
  set p := f.symm ⟨k % Refine.nElements s.dimension (n * m), a2⟩ with hp
  have hfine := hf p.1 p.2
  rw [Prod.mk.eta, hp, Equiv.apply_symm_apply, ← hp] at hfine
  have hE : 0 < Refine.nElements s.dimension n := pow_pos hn _
  have hp1 : (p.1 : Nat) < Refine.nElements s.dimension n := p.1.2
  set κ := k / Refine.nElements s.dimension (n * m) with hκ
  set a := Refine.nElements s.dimension n * κ + p.1 with ha
  have ha' : a < nElements s n := by
    rw [nElements]
    calc a < Refine.nElements s.dimension n * κ + Refine.nElements s.dimension n := by omega
      _ = Refine.nElements s.dimension n * (κ + 1) := by ring
      _ ≤ _ := Nat.mul_le_mul_left _ a1
  obtain ⟨it, l, c, q, b, h1, h2, h3, h4, h5, h6, h7, h8⟩ := elemT h (n * m) k hk
  obtain ⟨it', l', c', q', b', g1, g2, g3, g4, g5, g6, g7, g8⟩ := elemT h n a ha'
  rw [ha, Nat.mul_add_div hE, Nat.div_eq_of_lt hp1, Nat.add_zero] at g6
  rw [ha, Nat.mul_add_mod, Nat.mod_eq_of_lt hp1] at g7
  rw [← hκ] at h6
  have hqq : (⇑q : Nat → Nat) = q' := Option.some.inj (h6.symm.trans g6)
  have key : ∀ z, InSimplex s.dimension z → ∃ z', InSimplex s.dimension z' ∧ (InnerSimplex s.dimension z → InnerSimplex s.dimension z') ∧
      ∀ i, i < s.dimension → interp s.dimension c z i = interp s.dimension c' z' i := by
    intro z hz
    obtain ⟨itA, itF, Z, y, Y, e1, e2, e3, e4, e5, e6, e7⟩ := fine_inside h.pos p.2.2 hfine z hz
    obtain rfl := Option.some.inj (h7.symm.trans e2)
    obtain rfl := Option.some.inj (g7.symm.trans e1)
    obtain ⟨w, f1, f2⟩ := h8 z
    obtain ⟨w', f3, f4⟩ := g8 Z
    obtain rfl := Option.some.inj (f1.symm.trans e5)
    obtain rfl := Option.some.inj (f3.symm.trans e6)
    refine ⟨Z, e3, e4, fun i hi => ?_⟩
    rw [f2 i hi, f4 i hi, ← hqq]
    exact h.congr _ _ (fun j hj => r2k_congr h5 e7 j hj) i hi
  refine ⟨a, ⟨ha', it, it', l, l', c, c', h1, g1, h2, g2, h4, g4, fun z hz => ?_⟩, ?_⟩
  · obtain ⟨z', e1, -, e2⟩ := key z hz
    exact ⟨z', e1, e2⟩
  · rintro a2 ⟨ha2, it2, it2', l2, l2', c2, c2', d1, d2, d3, d4, d5, d6, d7⟩
    have hin := center_inner (K := K) s.dimension
    obtain ⟨z', e1, e2, e3⟩ := key _ hin.simplex
    obtain ⟨z2, e4, e5⟩ := d7 _ hin.simplex
    obtain rfl := Option.some.inj (d1.symm.trans h1)
    obtain rfl := Option.some.inj (d3.symm.trans h2)
    refine (C60_triang_disjoint h n a a2 ha' ha2 it' it2' g1 d2 l' l2' g2 d4 c' c2' g4 d6 z' z2 (e2 hin) e4 fun i hi => ?_).symm
    rw [← e3 i hi, ← e5 i hi]
    exact interp_congr (fun j hj => congrFun (Option.some.inj ((h4 j hj).symm.trans (d5 j hj))) i) _

/-- C81: every element of a cube (of any dimension), prism or pyramid triangulated with `n * m` intervals lies in exactly one
element of the triangulation with `n` intervals -/
theorem C81_triang (n m k : Nat) :
    (∀ d, 0 < d → k < nElements (hcube d : Scheme K) (n * m) →
      ∃! a, a < nElements (hcube d : Scheme K) n ∧ Contained (hcube d : Scheme K) (n * m) k n a) ∧
    (k < nElements (prism : Scheme K) (n * m) → ∃! a, a < nElements (prism : Scheme K) n ∧ Contained (prism : Scheme K) (n * m) k n a) ∧
    (k < nElements (pyramid : Scheme K) (n * m) →
      ∃! a, a < nElements (pyramid : Scheme K) n ∧ Contained (pyramid : Scheme K) (n * m) k n a) :=
  ⟨fun d hd hk => nested (C44_cube_scheme d hd) n m k hk, fun hk => nested C44_prism_scheme n m k hk,
    fun hk => nested C44_pyramid_scheme n m k hk⟩

/-- element 100 of the cube with four intervals (384 elements) lies in one of the 48 elements with two intervals -/
example : ∃! a, a < nElements (hcube 3 : Scheme ℚ) 2 ∧ Contained (hcube 3 : Scheme ℚ) (2 * 2) 100 2 a :=
  (C81_triang 2 2 100).1 3 (by omega) (by decide)

end Triang

/-! ### cubes -/

namespace HCube

open Verif.Cube

/-- C81: every cell of the cube refined with `n * m` intervals lies in exactly one cell of the cube refined with `n`
intervals -/
theorem C81_cubes (d n m k : Nat) (hn : 0 < n) (hm : 0 < m) :
    ∃! a, a < nElements d n ∧ ∃ g g', (at' (eBegin (n * m)) k).eGeometry d = some g ∧ (at' (eBegin n) a).eGeometry d = some g' ∧
      ∀ i, i < d → g'.lower i ≤ g.lower i ∧ g.upper i ≤ g'.upper i := by
  have hn' : (0 : ℝ) < n := Nat.cast_pos.2 hn
  have hm' : (0 : ℝ) < m := Nat.cast_pos.2 hm
  obtain ⟨g, c, h1, h2, -, -, -, h3⟩ := C43_cell d (n * m) k (Nat.mul_pos hn hm)
  have hc : Grid d n fun i => c i / m := fun i hi => Nat.div_lt_of_lt_mul (by rw [Nat.mul_comm]; exact h2 i hi)
  have key : ∀ (b : Nat) (i : Nat), i < d → ((b : ℝ) / n ≤ (c i : ℝ) / (n * m : ℕ) ∧ (c i + 1 : ℝ) / (n * m : ℕ) ≤ (b + 1 : ℝ) / n ↔ b = c i / m) := by
    intro b i _
    rw [Nat.cast_mul]
    have e1 : (b : ℝ) / n ≤ (c i : ℝ) / (n * m) ↔ b * m ≤ c i := by
      rw [div_le_div_iff₀ hn' (by positivity)]
      constructor
      · intro h
        have : (b * m : ℝ) ≤ c i := le_of_mul_le_mul_right (by linarith) hn'
        exact_mod_cast this
      · intro h
        have : (b * m : ℝ) ≤ c i := by exact_mod_cast h
        nlinarith
    have e2 : (c i + 1 : ℝ) / (n * m) ≤ (b + 1 : ℝ) / n ↔ c i + 1 ≤ (b + 1) * m := by
      rw [div_le_div_iff₀ (by positivity) hn']
      constructor
      · intro h
        have : (c i + 1 : ℝ) ≤ (b + 1) * m := le_of_mul_le_mul_right (by linarith) hn'
        exact_mod_cast this
      · intro h
        have : (c i + 1 : ℝ) ≤ (b + 1) * m := by exact_mod_cast h
        nlinarith
    rw [e1, e2]
    constructor
    · rintro ⟨h4, h5⟩
      exact (Nat.div_eq_of_lt_le h4 (by omega)).symm
    · rintro rfl
      refine ⟨Nat.div_mul_le_self _ _, ?_⟩
      have := Nat.lt_div_mul_add hm (a := c i)
      rw [Nat.add_mul]; omega
  obtain ⟨a, ⟨ha, g', h4, h5⟩, h6⟩ := C43_elements d n hn _ hc
  refine ⟨a, ⟨ha, g, g', h1, h4, fun i hi => ?_⟩, ?_⟩
  · rw [(h5 i hi).1, (h5 i hi).2, (h3 i hi).1, (h3 i hi).2]
    exact (key _ i hi).2 rfl
  · rintro a' ⟨ha', g1, g1', e1, e2, e3⟩
    obtain rfl := Option.some.inj (e1.symm.trans h1)
    obtain ⟨g2, c2, f1, f2, -, -, -, f3⟩ := C43_cell d n a' hn
    obtain rfl := Option.some.inj (e2.symm.trans f1)
    refine h6 a' ⟨ha', g1', e2, fun i hi => ?_⟩
    have := e3 i hi
    rw [(f3 i hi).1, (f3 i hi).2, (h3 i hi).1, (h3 i hi).2] at this
    have := (key _ i hi).1 this
    rw [(f3 i hi).1, (f3 i hi).2, this]
    exact ⟨rfl, rfl⟩

/-- cell 10 of the square with four intervals lies in one of the four cells of the square with two intervals -/
example : ∃! a, a < nElements 2 2 ∧ ∃ g g', (at' (eBegin (2 * 2)) 10).eGeometry 2 = some g ∧ (at' (eBegin 2) a).eGeometry 2 = some g' ∧
    ∀ i, i < 2 → g'.lower i ≤ g.lower i ∧ g.upper i ≤ g'.upper i := C81_cubes 2 2 2 10 (by omega) (by omega)

end HCube

end Verif.Refine
