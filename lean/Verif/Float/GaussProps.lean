import Verif.Float.GaussP1
import Verif.Float.NewtonProps

/-!
C92: `local` of `LocalFiniteElementGeometry` and `MappedGeometry` (the method of Gauss and Newton) in floating-point arithmetic.

The specification uses the exact linear map of the simplex (`linearMap`), distances of points and the barycentre only.
-/

namespace Verif.FloatGauss

open Verif.Float Verif.FloatVol Verif.FloatNewton Verif.RefGeom Verif.RefTopo Finset HasSqrt
open Verif.GaussNewton (Code)

/-! ### Specification -/

/-- a point of the reference simplex -/
def InSimplex (m : ℕ) (z : Nat → ℝ) : Prop := (∀ k < m, 0 ≤ z k) ∧ ∑ k ∈ range m, z k ≤ 1

/-- the triangle with the corners `(0,0), (1,0), (0,1)` -/
def unitCorner (φ : Format) (k c : Nat) : Fl φ := if k = c + 1 then 1 else 0

/-- C92, full statement for the simplest element: `local` returns a point for the image of every point of the reference element.
`mem` is the content of uninitialised variables.  It is wrong, see the counterexample. -/
def C92_local_full (p : ℕ) (emin : ℤ) (hp : 24 ≤ p) (he : emin ≤ -(2 * p + 32 : ℤ)) : Prop :=
  ∀ (opts : Options (Fl (ieee p emin hp he))) (mem : Mat (Fl (ieee p emin hp he))) (x : Nat → Fl (ieee p emin hp he)),
    0 < opts.maxIt → InSimplex 2 (fun k => (x k).val) →
    ∃ r, (simplexGeo 2 2 (unitCorner _)).local_ ((simplexGeo 2 2 (unitCorner _)).global x) opts mem = some (.ok r)

/-! ### The start of the iteration -/

variable {φ : Format} {m n : ℕ}

theorem InSimplex.norm1_le {z : Nat → ℝ} (h : InSimplex m z) : norm1 m z ≤ 1 := by
  refine le_trans (le_of_eq ?_) h.2
  exact sum_congr rfl fun k hk => abs_of_nonneg (h.1 k (mem_range.1 hk))

theorem corners_unit (m : ℕ) {r : ℕ} (hr : r < m) : ((List.range (m + 1)).map fun k => corner (K := ℝ) m 0 k r).sum = 1 := by
  have hs : IsSimplexId m 0 := fun k _ _ => Nat.zero_testBit k
  have hc := C17_simplex (K := ℝ) m 0 hs
  have e : ∀ k, corner (K := ℝ) m 0 k = (RefGeom.referenceCorners (K := ℝ) m 0).getD k 0 := fun k => rfl
  simp only [e, hc]
  rw [List.range_succ_eq_map, List.map_cons, List.sum_cons, List.map_map]
  have e2 : ((fun k => (((fun _ => (0:ℝ)) :: (List.range m).map (fun i k => if k = i then (1:ℝ) else 0) : List (Nat → ℝ)).getD k 0) r) ∘ Nat.succ) =
      fun k => (((List.range m).map (fun i k => if k = i then (1:ℝ) else 0) : List (Nat → ℝ)).getD k 0) r := by
    funext k; rfl
  rw [e2]
  have e3 : ((List.range m).map fun k => (((List.range m).map (fun i k => if k = i then (1:ℝ) else 0) : List (Nat → ℝ)).getD k 0) r) =
      (List.range m).map fun k => if r = k then (1:ℝ) else 0 := by
    refine List.map_congr_left fun k hk => ?_
    have hk' := List.mem_range.1 hk
    simp [List.getD_eq_getElem?_getD, hk']
  rw [e3]
  have e4 : ((List.range m).map fun k => if r = k then (1:ℝ) else 0).sum = ∑ k ∈ range m, if r = k then (1:ℝ) else 0 := by
    generalize m = j
    induction j with
    | zero => rfl
    | succ j ih => rw [List.range_succ, List.map_append, List.sum_append, sum_range_succ, ih]; simp
  rw [e4, Finset.sum_ite_eq, if_pos (mem_range.2 hr)]
  simp

theorem barycentre (m : ℕ) : ∃ p : Vec ℝ, RefGeom.position (K := ℝ) m 0 0 0 = some p ∧ refSize3 m 0 0 0 m = m + 1 ∧ ∀ k < m, p k = 1 / (m + 1) := by
  have hid : 0 < 2 ^ m := by positivity
  have hs : IsSimplexId m 0 := fun k _ _ => Nat.zero_testBit k
  have hn : refSize m 0 m = m + 1 := by rw [C10_simplex m 0 m hid hs (le_refl _), Nat.choose_succ_self_right]
  have h0 : refSize m 0 0 = 1 := by rw [C10_simplex m 0 0 hid hs (Nat.zero_le _), Nat.choose_zero_right]
  obtain ⟨p, h1, h2⟩ := C21_mean (K := ℝ) m 0 0 0 hid (Nat.zero_le _) (by rw [h0]; norm_num)
  have hsz := (C13_whole m 0 0 m hid (le_refl _) (by rw [hn]; omega)).2
  rw [hn] at hsz
  have hr := C15_range m 0 0 0 m hid (Nat.zero_le _) (le_refl _) (by rw [h0]; norm_num)
  rw [hsz] at hr
  have hsub : subEntities m 0 0 0 m = List.range (m + 1) := by
    apply List.ext_getElem?
    intro k
    by_cases hk : k < m + 1
    · rw [hr.2 k hk, (C13_whole m 0 k m hid (le_refl _) (by rwa [hn])).1, List.getElem?_range hk]
    · rw [List.getElem?_eq_none (by rw [hr.1]; omega), List.getElem?_eq_none (by rw [List.length_range]; omega)]
  refine ⟨p, h1, hsz, fun k hk => ?_⟩
  have h3 := h2 k
  rw [hsz, hsub, corners_unit m hk] at h3
  push_cast at h3
  rw [eq_div_iff (by positivity)]
  linarith

/-- the centre computed by the reference element -/
theorem start_simplex (hm : m ≤ 14) (hu : φ.u ≤ 1 / 2 ^ 24) (hη : φ.η ≤ φ.u) (hex : ∀ k : ℕ, k ≤ 15 → φ.rd k = k) :
    ∃ x : Nat → Fl φ, position (K := Fl φ) m 0 0 0 = some x ∧ (∀ k < m, |(x k).val - 1 / (m + 1)| ≤ posErr φ (m + 1)) ∧ posErr φ (m + 1) ≤ 1 / 10000 := by
  obtain ⟨p, hp, hs, hp'⟩ := barycentre m
  obtain ⟨x, h1, h2⟩ := position_err (φ := φ) hp (by rw [hs]; omega) (fun k hk => hex k (by rw [hs] at hk; omega))
  refine ⟨x, h1, fun k hk => ?_, ?_⟩
  · have := h2 k
    rwa [hp' k hk, hs] at this
  · have hu0 := φ.u_nonneg
    have hη0 := φ.η_nonneg
    have hu6 : φ.u ≤ 1 / 10 ^ 6 := hu.trans (by norm_num)
    have hm' : (m:ℝ) ≤ 14 := by exact_mod_cast hm
    have h3 : φ.u ^ 2 ≤ 1 / 10 ^ 6 * 1 := by rw [sq]; exact mul_le_mul hu6 (by linarith) hu0 (by norm_num)
    have h4 : φ.u * ((m + 1 : ℕ) : ℝ) ≤ 1 / 10 ^ 6 * 15 := mul_le_mul hu6 (by push_cast; linarith) (by positivity) (by norm_num)
    rw [posErr]
    have h5 : (φ.u * ((m + 1 : ℕ) : ℝ) + ((m + 1 : ℕ) : ℝ) + 1) * φ.η ≤ 17 * (1 / 10 ^ 6) :=
      mul_le_mul (by push_cast at h4 ⊢; linarith) (by linarith) hη0 (by norm_num)
    linarith

/-! ### The start point itself -/

theorem two_norm_nonneg (hrd : ∀ x : ℝ, 0 ≤ x → 0 ≤ φ.rd x) (n : ℕ) (d : Nat → Fl φ) : 0 ≤ (two_norm n d).val := hrd _ (Real.sqrt_nonneg _)

theorem two_norm_zero (n : ℕ) (d : Nat → Fl φ) (hd : ∀ c, d c = 0) : two_norm n d = 0 := by
  have h2 : two_norm2 n d = 0 := by
    rw [two_norm2, addLoop]
    generalize List.range' 0 (n - 0) = l
    have : ∀ a : Fl φ, l.foldl (fun o i => o + d i * d i) a = a := by
      induction l with
      | nil => intro a; rfl
      | cons i l ih => intro a; rw [List.foldl_cons, ih, hd, Fl.zero_mul, Fl.add_zero]
    exact this 0
  rw [two_norm, h2]
  refine Fl.ext ?_
  show φ.rd (Real.sqrt (0 : Fl φ).val) = (0 : Fl φ).val
  rw [Fl.zero_val, Real.sqrt_zero, φ.rd_zero]

theorem lineSearch_nonneg (hrd : ∀ x : ℝ, 0 ≤ x → 0 ≤ φ.rd x) (f : (Nat → Fl φ) → Nat → Fl φ) (y : Nat → Fl φ) (opts : Options (Fl φ)) (x0 dx : Nat → Fl φ)
    (r0 : Fl φ) : ∀ (fuel : Nat) (alpha : Fl φ) (x dy : Nat → Fl φ) (r : Fl φ), 0 ≤ r.val → 0 ≤ (lineSearch n f y opts x0 dx r0 fuel alpha x dy r).2.2.val
  | 0, _, _, _, _, hr => hr
  | fuel + 1, alpha, x, dy, r, _ => by
    rw [lineSearch]
    split_ifs
    · exact two_norm_nonneg hrd _ _
    · exact lineSearch_nonneg hrd f y opts x0 dx r0 fuel _ _ _ _ (two_norm_nonneg hrd _ _)

/-- C92: if the image of the start point is the given point, then the iteration does not succeed, whatever the map and the options
with at least one pass are: a residual of zero cannot be made smaller. -/
theorem C92_exact_start (hrd : ∀ x : ℝ, 0 ≤ x → 0 ≤ φ.rd x) (f : (Nat → Fl φ) → Nat → Fl φ) (df : (Nat → Fl φ) → Mat (Fl φ)) (opts : Options (Fl φ))
    (hopts : 0 < opts.maxIt) (mem : Mat (Fl φ)) (x : Nat → Fl φ) :
    gaussNewton m n f df (f x) opts mem x = (.stagnation, x) ∨ gaussNewton m n f df (f x) opts mem x = (.jacobianNotInvertible, x) := by
  obtain ⟨j, hj⟩ : ∃ j, opts.maxIt.toNat = j + 1 := ⟨opts.maxIt.toNat - 1, by omega⟩
  have hz : ∀ c, f x c - f x c = 0 := fun c => Fl.sub_self _
  have h0 : two_norm n (fun i => f x i - f x i) = 0 := two_norm_zero n _ hz
  rw [gaussNewton, hj, loop, h0]
  rcases hA : xTRightInvA m n (df x) (fun i => f x i - f x i) mem with ⟨b, dx⟩
  cases b with
  | false => right; rfl
  | true =>
    left
    simp only
    have hn := lineSearch_nonneg (n := n) hrd f (f x) opts x dx 0 opts.maxInnerIt.toNat 1 x (fun i => f x i - f x i) 0 (by rw [Fl.zero_val])
    rw [if_pos]
    rw [Fl.lt_iff, Fl.zero_val]
    exact not_lt.2 hn

theorem rdBinary_nonneg {p : ℕ} {emin : ℤ} {x : ℝ} (hx : 0 ≤ x) : 0 ≤ rdBinary p emin x := by
  rw [rdBinary]
  have h2 : (0:ℝ) < 2 ^ lastBit p emin x := two_zpow_pos _
  refine mul_nonneg ?_ h2.le
  have h1 := abs_le.1 (roundEven_err (x / 2 ^ lastBit p emin x))
  have h3 : 0 ≤ x / 2 ^ lastBit p emin x := by positivity
  have h4 : (-1 : ℝ) < roundEven (x / 2 ^ lastBit p emin x) := by linarith [h1.1]
  have h5 : (-1 : ℤ) < roundEven (x / 2 ^ lastBit p emin x) := by exact_mod_cast h4
  have h6 : (0 : ℤ) ≤ roundEven (x / 2 ^ lastBit p emin x) := by omega
  exact_mod_cast h6

/-- C92: for every map, `local` throws for the image of the computed centre of the reference element. -/
theorem C92_center_throws (p : ℕ) (emin : ℤ) (hp : 24 ≤ p) (he : emin ≤ -(2 * p + 32 : ℤ)) (f : (Nat → Fl (ieee p emin hp he)) → Nat → Fl (ieee p emin hp he))
    (df : (Nat → Fl (ieee p emin hp he)) → Mat (Fl (ieee p emin hp he))) (opts : Options (Fl (ieee p emin hp he))) (hopts : 0 < opts.maxIt)
    (mem : Mat (Fl (ieee p emin hp he))) (id : Nat) (x : Nat → Fl (ieee p emin hp he)) (hx : position (K := Fl (ieee p emin hp he)) m id 0 0 = some x) :
    ∃ e, local_ m n f df (f x) opts mem id = some (.error e) := by
  rw [local_, hx]
  rcases C92_exact_start (m := m) (n := n) (fun _ h => rdBinary_nonneg h) f df opts hopts mem x with h | h
  · exact ⟨.stagnation, by rw [Option.map_some, h]; rfl⟩
  · exact ⟨.jacobianNotInvertible, by rw [Option.map_some, h]; rfl⟩

theorem ieee_η_le (p : ℕ) (emin : ℤ) (hp : 24 ≤ p) (he : emin ≤ -(2 * p + 32 : ℤ)) : (ieee p emin hp he).η ≤ (ieee p emin hp he).u := by
  rw [ieee_η, ieee_u]
  have h1 : (2:ℝ) ^ emin ≤ 2 ^ (-(p:ℤ)) := zpow_le_zpow_right₀ (by norm_num) (by omega)
  have h2 : (0:ℝ) < 2 ^ emin := two_zpow_pos _
  linarith

/-- C92 is wrong: the centre of the unit triangle. -/
theorem C92_local_counterexample (p : ℕ) (emin : ℤ) (hp : 24 ≤ p) (he : emin ≤ -(2 * p + 32 : ℤ)) : ¬ C92_local_full p emin hp he := by
  intro h
  obtain ⟨x, h1, h2, h3⟩ := start_simplex (φ := ieee p emin hp he) (m := 2) (by norm_num) (ieee_u_le p emin hp he) (ieee_η_le p emin hp he)
    fun k hk => ieee_nat p emin hp he k (le_trans (by omega : k ≤ 2 ^ 24) (Nat.pow_le_pow_right (by norm_num) hp))
  have hb : ∀ k < 2, 333 / 1000 ≤ (x k).val ∧ (x k).val ≤ 334 / 1000 := fun k hk => by
    have := abs_le.1 ((h2 k hk).trans h3)
    push_cast at this
    constructor <;> linarith [this.1, this.2]
  have hin : InSimplex 2 fun k => (x k).val := by
    refine ⟨fun k hk => by linarith [(hb k hk).1], ?_⟩
    rw [sum_range_succ, sum_range_one]
    linarith [(hb 0 (by norm_num)).2, (hb 1 (by norm_num)).2]
  let opts : Options (Fl (ieee p emin hp he)) := ⟨100, 1, 10, 1⟩
  obtain ⟨r, hr⟩ := h opts (fun _ _ => 0) x (by norm_num [opts]) hin
  obtain ⟨e, he⟩ := C92_center_throws (m := 2) (n := 2) p emin hp he (simplexGeo 2 2 (unitCorner _)).global (simplexGeo 2 2 (unitCorner _)).jacobianTransposed opts
    (by norm_num [opts]) (fun _ _ => 0) 0 x h1
  rw [LFEGeometry.local_] at hr
  have := hr.symm.trans he
  cases this

/-! ### Success -/

theorem lineSearch_resi (f : (Nat → Fl φ) → Nat → Fl φ) (y : Nat → Fl φ) (opts : Options (Fl φ)) (x0 dx : Nat → Fl φ)
    (r0 : Fl φ) : ∀ (fuel : Nat) (alpha : Fl φ) (x dy : Nat → Fl φ) (r : Fl φ),
      let s := lineSearch n f y opts x0 dx r0 (fuel + 1) alpha x dy r
      s.2.1 = resi f y s.1 ∧ s.2.2 = two_norm n (resi f y s.1)
  | 0, alpha, x, dy, r => by
    rw [lineSearch]
    split_ifs
    · exact ⟨rfl, rfl⟩
    · exact ⟨rfl, rfl⟩
  | fuel + 1, alpha, x, dy, r => by
    rw [lineSearch]
    split_ifs
    · exact ⟨rfl, rfl⟩
    · exact lineSearch_resi f y opts x0 dx r0 fuel _ _ _ _

theorem loop_resi (f : (Nat → Fl φ) → Nat → Fl φ) (df : (Nat → Fl φ) → Mat (Fl φ)) (y : Nat → Fl φ) (opts : Options (Fl φ)) (hopts : 0 < opts.maxInnerIt)
    (mem : Mat (Fl φ)) {x' : Nat → Fl φ} :
    ∀ (fuel : Nat) (x : Nat → Fl φ) (r : Fl φ), loop m n f df y opts mem (fuel + 1) x x (resi f y x) (two_norm n (resi f y x)) r = (.ok, x') →
      two_norm n (resi f y x') < opts.absTol ∧ two_norm n (resi f y x') < two_norm n (resi f y x) := by
  obtain ⟨j, hj⟩ : ∃ j, opts.maxInnerIt.toNat = j + 1 := ⟨opts.maxInnerIt.toNat - 1, by omega⟩
  have step : ∀ (fuel : Nat) (x : Nat → Fl φ) (r : Fl φ), loop m n f df y opts mem (fuel + 1) x x (resi f y x) (two_norm n (resi f y x)) r = (.ok, x') →
      ∃ x1, two_norm n (resi f y x1) < two_norm n (resi f y x) ∧ ((two_norm n (resi f y x1) < opts.absTol ∧ x' = x1) ∨ ¬ two_norm n (resi f y x1) < opts.absTol ∧
        loop m n f df y opts mem fuel x1 x1 (resi f y x1) (two_norm n (resi f y x1)) (two_norm n (resi f y x1)) = (.ok, x')) := by
    intro fuel x r h
    rw [loop] at h
    rcases hA : xTRightInvA m n (df x) (resi f y x) mem with ⟨b, dx⟩
    rw [hA] at h
    cases b with
    | false => cases h
    | true =>
      obtain ⟨e1, e2⟩ := lineSearch_resi (n := n) f y opts x dx (two_norm n (resi f y x)) j 1 x (resi f y x) r
      simp only [hj] at h
      rcases hs : lineSearch n f y opts x dx (two_norm n (resi f y x)) (j + 1) 1 x (resi f y x) r with ⟨x1, dy1, r1⟩
      rw [hs] at h e1 e2
      simp only at h e1 e2
      subst e1
      subst e2
      split_ifs at h with h1 h2
      · cases h
        exact ⟨_, h1, .inl ⟨h2, rfl⟩⟩
      · exact ⟨x1, h1, .inr ⟨h2, h⟩⟩
      · cases h
  intro fuel
  induction fuel with
  | zero =>
    intro x r h
    obtain ⟨x1, h1, ⟨h2, rfl⟩ | ⟨h2, h3⟩⟩ := step 0 x r h
    · exact ⟨h2, h1⟩
    · rw [loop, if_pos h2] at h3
      cases h3
  | succ fuel ih =>
    intro x r h
    obtain ⟨x1, h1, ⟨h2, rfl⟩ | ⟨h2, h3⟩⟩ := step _ x r h
    · exact ⟨h2, h1⟩
    · obtain ⟨h4, h5⟩ := ih x1 _ h3
      refine ⟨h4, ?_⟩
      rw [Fl.lt_iff] at *
      linarith

theorem resi_size (f : (Nat → Fl φ) → Nat → Fl φ) (y x : Nat → Fl φ) (hu : φ.u ≤ 1 / 2 ^ 24) (n : ℕ) :
    norm2 n (fun c => (f x c).val - (y c).val) ≤ 10001 / 10000 * norm2 n fun c => (resi f y x c).val := by
  have h0 : (0:ℝ) ≤ 10001 / 10000 := by norm_num
  rw [norm2, norm2, ← Real.sqrt_sq h0, ← Real.sqrt_mul (sq_nonneg _)]
  refine Real.sqrt_le_sqrt ?_
  rw [mul_sum]
  refine sum_le_sum fun c _ => ?_
  rw [← mul_pow]
  refine sq_le_sq.2 ?_
  rw [abs_mul, abs_of_nonneg h0]
  have h1 := Fl.sub_err (f x c) (y c)
  have h2 := abs_add_le (-((f x c - y c).val - ((f x c).val - (y c).val))) (f x c - y c).val
  rw [abs_neg, show -((f x c - y c).val - ((f x c).val - (y c).val)) + (f x c - y c).val = (f x c).val - (y c).val by ring] at h2
  have hu1 : φ.u ≤ 1 / 100000 := hu.trans (by norm_num)
  have h3 := mul_le_mul_of_nonneg_right hu1 (abs_nonneg ((f x c).val - (y c).val))
  show _ ≤ 10001 / 10000 * |(f x c - y c).val|
  have := abs_nonneg (f x c - y c).val
  linarith

/-- C92: whatever the map and its derivatives are, a point returned without an error is mapped to within the tolerance of the given
point (in the Euclidean norm, apart from the rounding errors of the norm), and it is strictly better than the start point. -/
theorem C92_ok (hn : n ≤ 29) (hu : φ.u ≤ 1 / 2 ^ 24) (f : (Nat → Fl φ) → Nat → Fl φ) (df : (Nat → Fl φ) → Mat (Fl φ)) (y : Nat → Fl φ) (opts : Options (Fl φ))
    (h1 : 0 < opts.maxIt) (h2 : 0 < opts.maxInnerIt) (mem : Mat (Fl φ)) (id : Nat) (r : Nat → Fl φ) (h : local_ m n f df y opts mem id = some (.ok r)) :
    norm2 n (fun c => (f r c).val - (y c).val) ≤ 1003 / 1000 * opts.absTol.val + 1001 / 1000 * normErr φ ∧
      ∃ x, position (K := Fl φ) m id 0 0 = some x ∧ two_norm n (resi f y r) < two_norm n (resi f y x) := by
  rw [local_] at h
  rcases hp : position (K := Fl φ) m id 0 0 with _ | x
  · rw [hp] at h; cases h
  · rw [hp, Option.map_some] at h
    rcases hg : gaussNewton m n f df y opts mem x with ⟨e, x'⟩
    rw [hg] at h
    simp only at h
    split_ifs at h with he
    · cases h
    · cases h
      obtain rfl := not_not.1 he
      obtain ⟨j, hj⟩ : ∃ j, opts.maxIt.toNat = j + 1 := ⟨opts.maxIt.toNat - 1, by omega⟩
      rw [gaussNewton, hj] at hg
      obtain ⟨a1, a2⟩ := loop_resi f df y opts h2 mem j x 0 hg
      refine ⟨?_, x, rfl, a2⟩
      have b1 := resi_size f y r hu n
      have b2 := (two_norm_err n hn hu (resi f y r)).2
      have b3 : (two_norm n (resi f y r)).val < opts.absTol.val := a1
      have := normErr_nonneg (φ := φ)
      have := norm2_nonneg n fun c => (resi f y r c).val
      linarith

/-! ### Convergence -/

section
variable {f : (Nat → Fl φ) → Nat → Fl φ} {df : (Nat → Fl φ) → Mat (Fl φ)} {F : (Nat → ℝ) → Nat → ℝ} {z : Nat → ℝ} {ρ R lam lo hi θ ε : ℝ}

/-- C92: for maps that are close to a linear one near `z` (`Tame`, `Converges`), `local` succeeds for the image of `z`, unless `z` is so
close to the computed centre of the reference element that the start point is as good as the arithmetic allows, and the result is close to `z`. -/
theorem C92_converges (h : Tame m n f df F z ρ R lam lo hi θ ε) (opts : Options (Fl φ)) (hopts : 0 < opts.maxInnerIt)
    (hc : Converges φ m n ρ R lam lo hi θ ε (norm1 m z) opts.absTol.val) (mem : Mat (Fl φ)) (y : Nat → Fl φ) (hy : ∀ c < n, |(y c).val - F z c| ≤ ε)
    {id : Nat} {x : Nat → Fl φ} (hx : position (K := Fl φ) m id 0 0 = some x) (hρ : dist m x z ≤ ρ)
    (hfar : 3 * n * floorRes φ m n R lam hi ε (norm1 m z) < lo * dist m x z)
    (hN : (101 / 100 * hi * dist m x z + floorRes φ m n R lam hi ε (norm1 m z)) * (4 / 5) ^ opts.maxIt.toNat < opts.absTol.val) (hit : 0 < opts.maxIt) :
    ∃ r, local_ m n f df y opts mem id = some (.ok r) ∧ lo * dist m r z ≤ n * (1003 / 1000 * opts.absTol.val + 101 / 100 * normErr φ + 201 / 100 * ε) := by
  have hn : (1:ℝ) ≤ n := by exact_mod_cast h.fits.m_pos.trans h.fits.mn
  obtain ⟨b1, b2⟩ := norm_bounds h x y hρ hy
  have hd := drift_nonneg h
  have hhi := h.hi_nonneg
  have hε := h.ε_nonneg
  have ht := normErr_nonneg (φ := φ)
  have hfl : 2 * normErr φ + 3 * n * ε ≤ floorRes φ m n R lam hi ε (norm1 m z) := by
    have : 0 ≤ hi * drift φ m n R lam ε (norm1 m z) := by positivity
    rw [floorRes]
    linarith
  have hnε : ε ≤ n * ε := le_mul_of_one_le_left hε hn
  set fl := floorRes φ m n R lam hi ε (norm1 m z)
  have hfl0 : 0 ≤ fl := le_trans (by positivity) hfl
  set r0 := (two_norm n (resi f y x)).val with hr0
  have hlow : 3 * fl < 1003 / 1000 * r0 + 101 / 100 * normErr φ + 201 / 100 * ε := by
    refine lt_of_mul_lt_mul_left (a := (n:ℝ)) ?_ (by linarith)
    linarith
  have hpos : 0 < r0 := by linarith
  have hfr : 2 * fl ≤ r0 := by linarith
  obtain ⟨j, hj⟩ : ∃ j, opts.maxIt.toNat = j + 1 := ⟨opts.maxIt.toNat - 1, by omega⟩
  have hup : r0 * (4 / 5) ^ (j + 1) < opts.absTol.val := by
    rw [hj] at hN
    refine lt_of_le_of_lt (mul_le_mul_of_nonneg_right ?_ (by positivity)) hN
    have : 0 ≤ hi * dist m x z := mul_nonneg hhi (dist_nonneg _ _ _)
    linarith
  obtain ⟨r, h1, h2, h3⟩ := loop_ok h opts hopts hc mem y hy j x 0 hρ hfr hpos hup
  have hg : gaussNewton m n f df y opts mem x = (.ok, r) := by
    rw [gaussNewton, hj]
    exact h1 (j + 1) (by omega)
  refine ⟨r, by rw [local_, hx, Option.map_some, hg]; rfl, ?_⟩
  obtain ⟨_, b4⟩ := norm_bounds h r y h2 hy
  refine b4.trans (mul_le_mul_of_nonneg_left ?_ (by linarith))
  linarith

end

/-! ### Simplices -/

section
variable {v : Nat → Nat → Fl φ} {M R lam : ℝ}

/-- the accuracy of one step for a simplex -/
noncomputable def stepErr (φ : Format) (m n : ℕ) (M R lam : ℝ) : ℝ := 6 * m * (6 * n * R * p1Err φ m M + 4 * n ^ 2 * φ.η * (1 + 2 * R) ^ 2) / lam + φ.u

/-- the residual below which nothing is known -/
noncomputable def simplexFloor (φ : Format) (m n : ℕ) (M R lam : ℝ) : ℝ := 2 * (n * R) * stepErr φ m n M R lam + 3 * n * p1Err φ m M + 2 * normErr φ

theorem simplex_rate (h : Shaped φ m n v M R lam) : rate φ m n (2 * R) (lam / 2) (n * R) (n * R * φ.u) ≤ 684 * m * n ^ 2 * φ.u * R ^ 2 / lam := by
  have hlam := h.lam_pos
  have hu := h.u_pos
  have hR := h.R_pos
  have hn1 : (1:ℝ) ≤ n := by exact_mod_cast h.m_pos.trans h.mn
  rw [rate, div_div_eq_mul_div, div_le_div_iff_of_pos_right hlam]
  have : (m:ℝ) * n * (φ.u * R ^ 2) * 1 ≤ m * n * (φ.u * R ^ 2) * n := mul_le_mul_of_nonneg_left hn1 (by positivity)
  nlinarith

theorem simplex_converges (h : Shaped φ m n v M R lam) {s tol : ℝ} (hs : s ≤ 1) (hstep : stepErr φ m n M R lam ≤ 1) (htol : 0 < tol)
    (htol' : 2 * simplexFloor φ m n M R lam ≤ tol) :
    floorRes φ m n (2 * R) (lam / 2) (n * R) (p1Err φ m M) s ≤ simplexFloor φ m n M R lam ∧
    Converges φ m n 2 (2 * R) (lam / 2) (Real.sqrt lam / m) (n * R) (n * R * φ.u) (p1Err φ m M) s tol := by
  have hlam := h.lam_pos
  have hu := h.u_pos
  have hR := h.R_pos
  have hn1 : (1:ℝ) ≤ n := by exact_mod_cast h.m_pos.trans h.mn
  have hm1 : (1:ℝ) ≤ m := by exact_mod_cast h.m_pos
  have hr := simplex_rate h
  have hd : drift φ m n (2 * R) (lam / 2) (p1Err φ m M) s ≤ stepErr φ m n M R lam := by
    rw [drift, stepErr]
    have e : 3 * m * (3 * n * (2 * R) * p1Err φ m M + 4 * n ^ 2 * φ.η * (1 + 2 * R) ^ 2) / (lam / 2) =
        6 * m * (6 * n * R * p1Err φ m M + 4 * n ^ 2 * φ.η * (1 + 2 * R) ^ 2) / lam := by
      rw [div_div_eq_mul_div]; ring
    rw [e]
    have := mul_le_mul_of_nonneg_left hs hu.le
    linarith
  have hf : floorRes φ m n (2 * R) (lam / 2) (n * R) (p1Err φ m M) s ≤ simplexFloor φ m n M R lam := by
    rw [floorRes, simplexFloor]
    have := mul_le_mul_of_nonneg_left hd (show 0 ≤ 2 * (n * R) by positivity)
    linarith
  refine ⟨hf, hr.trans ?_, ?_, by linarith, htol, by linarith⟩
  · rw [div_le_iff₀ hlam]
    have h2 := h.cond2
    have hq : 0 < φ.u * R ^ 2 := by positivity
    have hpow : (n:ℝ) ^ 2 ≤ n ^ 4 := pow_le_pow_right₀ hn1 (by norm_num)
    have hmm : (m:ℝ) ≤ m ^ 2 := by nlinarith
    have k1 : (m:ℝ) * n ^ 2 * (φ.u * R ^ 2) ≤ m ^ 2 * n ^ 4 * (φ.u * R ^ 2) :=
      mul_le_mul_of_nonneg_right (mul_le_mul hmm hpow (by positivity) (by positivity)) hq.le
    have : 0 ≤ (m:ℝ) * n ^ 2 * (φ.u * R ^ 2) := by positivity
    linarith
  · have h1 := mul_le_mul_of_nonneg_left hr (show 0 ≤ 4 * (n:ℝ) * (n * R) by positivity)
    refine h1.trans ?_
    rw [mul_div_assoc', div_le_div_iff₀ hlam (by linarith)]
    have h2 := h.cond
    have : 0 ≤ (m:ℝ) ^ 2 * n ^ 4 * φ.u * R ^ 3 := by positivity
    linarith

/-- C92: `local` of a linear simplex succeeds for points of the reference simplex with a certain distance from its barycentre, and the
result is accurate.  `y` is the image of `z` up to the rounding errors of `global`.  Missing are points near the barycentre, for which it is wrong. -/
theorem C92_simplex_partial (h : Shaped φ m n v M R lam) (hex : ∀ k : ℕ, k ≤ 15 → φ.rd k = k) (opts : Options (Fl φ)) (h1 : 0 < opts.maxIt) (h2 : 0 < opts.maxInnerIt)
    (hstep : stepErr φ m n M R lam ≤ 1) (htol : 0 < opts.absTol.val) (htol' : 2 * simplexFloor φ m n M R lam ≤ opts.absTol.val)
    (hN : (3 * n * R + simplexFloor φ m n M R lam) * (4 / 5) ^ opts.maxIt.toNat < opts.absTol.val) (mem : Mat (Fl φ))
    (z : Nat → ℝ) (hz : InSimplex m z) (y : Nat → Fl φ) (hy : ∀ c < n, |(y c).val - linearMap m v z c| ≤ p1Err φ m M)
    (hfar : 3 * m * n * simplexFloor φ m n M R lam < Real.sqrt lam * (norm1 m (fun k => 1 / (m + 1) - z k) - m * posErr φ (m + 1))) :
    ∃ r, (simplexGeo m n v).local_ y opts mem = some (.ok r) ∧
      Real.sqrt lam * dist m r z ≤ m * n * (1003 / 1000 * opts.absTol.val + 101 / 100 * normErr φ + 201 / 100 * p1Err φ m M) := by
  have hm14 := h.mn.trans h.n_le
  have hm1 : (1:ℝ) ≤ m := by exact_mod_cast h.m_pos
  have hn1 : (1:ℝ) ≤ n := by exact_mod_cast h.m_pos.trans h.mn
  have hm' : (m:ℝ) ≤ 14 := by exact_mod_cast hm14
  have hR := h.R_pos
  obtain ⟨x, p1, p2, p3⟩ := start_simplex (φ := φ) hm14 h.u_le h.η_le hex
  obtain ⟨c1, c2⟩ := simplex_converges h hz.norm1_le hstep htol htol'
  have hlow : norm1 m (fun k => 1 / (m + 1) - z k) - m * posErr φ (m + 1) ≤ dist m x z := by
    have a1 := norm1_add m (fun k => 1 / (m + 1) - (x k).val) fun k => (x k).val - z k
    simp only [sub_add_sub_cancel] at a1
    have a2 : norm1 m (fun k => 1 / (m + 1) - (x k).val) ≤ m * posErr φ (m + 1) := norm1_le fun k hk => by rw [abs_sub_comm]; exact p2 k hk
    have a3 : dist m x z = norm1 m fun k => (x k).val - z k := rfl
    linarith
  have hup : dist m x z ≤ 2 := by
    have a1 := norm1_add m (fun k => (x k).val) fun k => -z k
    simp only [← sub_eq_add_neg] at a1
    have a2 : norm1 m (fun k => -z k) = norm1 m z := by simp only [norm1, abs_neg]
    have a3 : norm1 m (fun k => (x k).val) ≤ m * (1 / (m + 1) + posErr φ (m + 1)) := norm1_le fun k hk => by
      have b1 := abs_le.1 (p2 k hk)
      have b2 : (0:ℝ) < 1 / (m + 1) := by positivity
      rw [abs_le]
      constructor <;> linarith [b1.1, b1.2]
    have a4 : (m:ℝ) * (1 / (m + 1) + posErr φ (m + 1)) ≤ 1 := by
      have b1 : (m:ℝ) * (1 / (m + 1)) = 1 - 1 / (m + 1) := by field_simp; ring
      have b2 : (1:ℝ) / 15 ≤ 1 / (m + 1) := one_div_le_one_div_of_le (by linarith) (by linarith)
      have b3 : (m:ℝ) * posErr φ (m + 1) ≤ 14 * (1 / 10000) := mul_le_mul hm' p3 (posErr_nonneg _ _) (by norm_num)
      rw [mul_add, b1]
      linarith
    have a5 : dist m x z = norm1 m fun k => (x k).val - z k := rfl
    have := hz.norm1_le
    linarith
  have hsl := Real.sqrt_pos.2 h.lam_pos
  have hfl := simplexFloor φ m n M R lam
  obtain ⟨r, r1, r2⟩ := C92_converges (simplex_tame h z hz.norm1_le) opts h2 c2 mem y hy p1 hup (by
      rw [div_mul_eq_mul_div, lt_div_iff₀ (by linarith)]
      have a1 := mul_le_mul_of_nonneg_left hlow hsl.le
      have a2 := mul_le_mul_of_nonneg_left c1 (show 0 ≤ 3 * (m:ℝ) * n by positivity)
      linarith) (by
      refine lt_of_le_of_lt (mul_le_mul_of_nonneg_right ?_ (by positivity)) hN
      have a1 := mul_le_mul_of_nonneg_left hup (show 0 ≤ 101 / 100 * ((n:ℝ) * R) by positivity)
      have a2 : 0 < (n:ℝ) * R := by positivity
      linarith) h1
  refine ⟨r, r1, ?_⟩
  rw [div_mul_eq_mul_div, div_le_iff₀ (by linarith)] at r2
  linarith

/-- C92: a round trip through `global` and `local`. -/
theorem C92_roundtrip_partial (h : Shaped φ m n v M R lam) (hex : ∀ k : ℕ, k ≤ 15 → φ.rd k = k) (opts : Options (Fl φ)) (h1 : 0 < opts.maxIt) (h2 : 0 < opts.maxInnerIt)
    (hstep : stepErr φ m n M R lam ≤ 1) (htol : 0 < opts.absTol.val) (htol' : 2 * simplexFloor φ m n M R lam ≤ opts.absTol.val)
    (hN : (3 * n * R + simplexFloor φ m n M R lam) * (4 / 5) ^ opts.maxIt.toNat < opts.absTol.val) (mem : Mat (Fl φ))
    (x : Nat → Fl φ) (hx : InSimplex m (vals x))
    (hfar : 3 * m * n * simplexFloor φ m n M R lam < Real.sqrt lam * (norm1 m (fun k => 1 / (m + 1) - (x k).val) - m * posErr φ (m + 1))) :
    ∃ r, (simplexGeo m n v).local_ ((simplexGeo m n v).global x) opts mem = some (.ok r) ∧
      Real.sqrt lam * dist m r (vals x) ≤ m * n * (1003 / 1000 * opts.absTol.val + 101 / 100 * normErr φ + 201 / 100 * p1Err φ m M) :=
  C92_simplex_partial h hex opts h1 h2 hstep htol htol' hN mem (vals x) hx _ (fun c hc =>
    global_err (h.mn.trans h.n_le) h.u_le (fun k hk => h.size k hk c hc) x (hx.norm1_le.trans (by norm_num))) hfar

end

/-! ### The unit triangle in `double` with the default options -/

theorem unit_edge (φ : Format) (k c : Nat) : edge (unitCorner φ) k c = if k = c then 1 else 0 := by
  rw [edge, unitCorner, unitCorner]
  by_cases h : k = c
  · simp [h, Fl.zero_val, Fl.one_val]
  · simp [h, Fl.zero_val]

theorem unit_shaped : Shaped double 2 2 (unitCorner double) 1 1 1 := by
  have hη := double_η_le
  have hη0 := double.η_nonneg
  refine ⟨by norm_num, le_refl _, by norm_num, by rw [double_u]; positivity, by rw [double_u]; norm_num, by rw [double_u]; exact hη.trans (by norm_num), one_pos, ?_, ?_, ?_, ?_, ?_, one_pos, ?_⟩
  · rw [double_u]; exact hη.trans (by norm_num)
  · rw [double_u]
    have : double.η ^ 2 ≤ (1 / 2 ^ 200) ^ 2 := pow_le_pow_left₀ hη0 hη 2
    generalize double.η ^ 2 = t at this
    norm_num at this ⊢
    linarith
  · intro k _ c _
    rw [unitCorner]
    split_ifs
    · rw [Fl.one_val, abs_one]
    · rw [Fl.zero_val, abs_zero]; norm_num
  · intro k
    rw [Fin.sum_univ_two]
    fin_cases k <;> simp [unit_edge]
  · intro w
    simp [Fin.sum_univ_two, unit_edge]
  · rw [Real.sqrt_one, double_u]; norm_num

theorem unit_p1Err : p1Err double 2 1 ≤ 46 / 2 ^ 53 := by
  have hη := double_η_le
  rw [p1Err, double_u]
  generalize double.η = η at *
  have : (2:ℝ) * ((2:ℕ) + 1) * η * (1 + 1) ≤ 12 * (1 / 2 ^ 200) := by push_cast; linarith
  norm_num at this ⊢
  linarith

theorem unit_normErr : normErr double ≤ 1 / 2 ^ 53 := by
  have hη := double_η_le
  have hη0 := double.η_nonneg
  have h1 : Real.sqrt double.η ≤ 1 / 2 ^ 100 := Real.sqrt_le_iff.2 ⟨by positivity, hη.trans (by norm_num)⟩
  rw [normErr]
  generalize Real.sqrt double.η = q at *
  generalize double.η = η at *
  norm_num at hη h1 ⊢
  linarith

theorem unit_stepErr : stepErr double 2 2 1 1 1 ≤ 6700 / 2 ^ 53 := by
  have h1 := unit_p1Err
  have hη := double_η_le
  rw [stepErr, double_u]
  generalize p1Err double 2 1 = e at *
  generalize double.η = η at *
  norm_num at h1 hη ⊢
  linarith

theorem unit_floor : simplexFloor double 2 2 1 1 1 ≤ 28000 / 2 ^ 53 := by
  have h1 := unit_p1Err
  have h2 := unit_stepErr
  have h3 := unit_normErr
  rw [simplexFloor]
  generalize p1Err double 2 1 = e at *
  generalize stepErr double 2 2 1 1 1 = s at *
  generalize normErr double = t at *
  norm_num at *
  linarith

/-- the default options -/
noncomputable def doubleOptions : Options (Fl double) := Options.default (epsilon 53 (-1074) (by norm_num) (by norm_num)) (1 / (1 + 1))

theorem doubleOptions_absTol : doubleOptions.absTol.val = 1 / 2 ^ 26 := by
  show rdBinary 53 (-1074) (Real.sqrt (epsilon 53 (-1074) (by norm_num) (by norm_num)).val) = _
  have e : Real.sqrt (epsilon 53 (-1074) (by norm_num) (by norm_num)).val = 1 / 2 ^ 26 := by
    rw [epsilon_val, ieee_u, show (2:ℝ) * 2 ^ (-((53 : ℕ) : ℤ)) = (1 / 2 ^ 26) ^ 2 by norm_num, Real.sqrt_sq (by positivity)]
  rw [e]
  exact rdBinary_exact (by norm_num) (m := 1) (k := -26) (by norm_num) (by norm_num) (by norm_num)

/-- the round trip of the corner `(0,0)` -/
theorem C92_unit_corner (mem : Mat (Fl double)) : ∃ r, (simplexGeo 2 2 (unitCorner double)).local_ ((simplexGeo 2 2 (unitCorner double)).global fun _ => 0) doubleOptions mem = some (.ok r) ∧
    dist 2 r (fun _ => 0) ≤ 1 / 2 ^ 23 := by
  have f1 := unit_floor
  have hs : posErr double (2 + 1) ≤ 1 / 10000 :=
    (start_simplex (φ := double) (m := 2) (by norm_num) (by rw [double_u]; norm_num) (by rw [double_u]; exact double_η_le.trans (by norm_num))
      fun k hk => Verif.FloatRefine.double_nat k (by omega)).choose_spec.2.2
  obtain ⟨r, r1, r2⟩ := C92_roundtrip_partial unit_shaped (fun k hk => Verif.FloatRefine.double_nat k (by omega)) doubleOptions (by decide) (by decide)
    (unit_stepErr.trans (by norm_num)) (by rw [doubleOptions_absTol]; positivity)
    (by rw [doubleOptions_absTol]; norm_num at f1 ⊢; linarith)
    (by
      rw [doubleOptions_absTol]
      show (3 * ((2:ℕ):ℝ) * 1 + simplexFloor double 2 2 1 1 1) * (4 / 5) ^ 100 < _
      refine lt_of_le_of_lt (mul_le_mul_of_nonneg_right (b := 3 * ((2:ℕ):ℝ) * 1 + simplexFloor double 2 2 1 1 1) (c := 7) (by norm_num at f1 ⊢; linarith) (by positivity)) ?_
      norm_num)
    mem (fun _ => 0) ⟨fun k _ => by simp [vals, Fl.zero_val], by simp [vals, Fl.zero_val]⟩
    (by
      rw [Real.sqrt_one, norm1, sum_range_succ, sum_range_one, Fl.zero_val]
      norm_num at f1 hs ⊢
      linarith)
  refine ⟨r, r1, ?_⟩
  have h1 := unit_p1Err
  have h3 := unit_normErr
  rw [Real.sqrt_one, doubleOptions_absTol] at r2
  have e : vals (fun _ => (0 : Fl double)) = fun _ => 0 := by funext k; exact Fl.zero_val
  rw [e] at r2
  generalize p1Err double 2 1 = e at *
  generalize normErr double = t at *
  norm_num at *
  linarith

/-- the hypotheses of `C92_ok` are met by this run; the image of its result is near the given point -/
example (mem : Mat (Fl double)) : ∃ r : Nat → Fl double,
    norm2 2 (fun c => ((simplexGeo 2 2 (unitCorner double)).global r c).val - ((simplexGeo 2 2 (unitCorner double)).global (fun _ => 0) c).val) ≤
      1003 / 1000 * (1 / 2 ^ 26) + 1001 / 1000 * normErr double := by
  obtain ⟨r, h, _⟩ := C92_unit_corner mem
  refine ⟨r, ?_⟩
  rw [← doubleOptions_absTol]
  exact (C92_ok (n := 2) (by norm_num) (by rw [double_u]; norm_num) _ _ _ doubleOptions (by decide) (by decide) mem 0 r h).1

/-- the hypothesis of `C92_exact_start` is met by `double` -/
example : ∀ x : ℝ, 0 ≤ x → 0 ≤ double.rd x := fun _ h => rdBinary_nonneg h

/-- the hypothesis of `C92_center_throws` is met by triangles -/
example : ∃ x : Nat → Fl double, position (K := Fl double) 2 0 0 0 = some x :=
  let ⟨x, h, _⟩ := start_simplex (φ := double) (m := 2) (by norm_num) (by rw [double_u]; norm_num) (by rw [double_u]; exact double_η_le.trans (by norm_num))
    fun k hk => Verif.FloatRefine.double_nat k (by omega)
  ⟨x, h⟩

end Verif.FloatGauss
