import Verif.Float.Position
import Verif.RefGeom.StrataProps

/-!
C77: `checkInside` in floating-point arithmetic.

`domain ℝ d id` is the reference element, the convex hull of its corners, in exact numbers (RefGeom/Props.lean).  `φ` is the
format of the coordinates, `Fl φ` its numbers, `(x k).val` the exact value of a computed coordinate, `u` the unit roundoff.
-/

namespace Verif.Float

open Verif.Typ Verif.RefTopo Verif.RefGeom

/-- C77: a point next to the element is accepted, whatever the rounding does, if the tolerance is large enough: `y` is a point
of the element, `x` a computed point whose coordinates differ from it by at most `δ`. -/
theorem C77_accept (φ : Format) (d id : Nat) (x : Nat → Fl φ) (tol : Fl φ) (y : Vec ℝ) (hy : y ∈ domain ℝ d id) (δ : ℝ) (hδ : 0 ≤ δ)
    (hx : ∀ k, k < d → |(x k).val - y k| ≤ δ) (ht : (1 + φ.u) ^ d * (1 + d * δ) - 1 < tol.val) :
    checkInside d id x tol 1 = true := by
  have h := rep_topoOf d id
  rw [checkInside_iff h]
  have hd := (mem_domain h y (domain_zero hy)).1 hy
  refine accept hδ _ 1 1 0 (le_refl _) (le_refl _) (by simp [Fl.one_val]) hd (by rw [h.dim_eq]; exact hx) ?_
  rw [h.dim_eq, add_zero]
  exact ht

/-- C77: a point which is accepted is next to the element: it would be accepted in exact arithmetic with the tolerance
`tol + 2 d u`, and there is a point of the element whose coordinates differ by at most `d (tol + 2 d u)`. -/
theorem C77_accepted (φ : Format) (hu : φ.u ≤ 1 / 2) (d id : Nat) (x : Nat → Fl φ) (hx : ∀ k, d ≤ k → (x k).val = 0) (tol : Fl φ)
    (h0 : 0 ≤ tol.val) (h1 : tol.val ≤ 1) (ht : (1 + φ.u) ^ d * (1 + d * tol.val) ≤ 2) (h : checkInside d id x tol 1 = true) :
    RefGeom.checkInside d id (fun k => (x k).val) (tol.val + 2 * d * φ.u) 1 = true ∧
    ∃ y ∈ domain ℝ d id, ∀ k, |y k - (x k).val| ≤ d * (tol.val + 2 * d * φ.u) := by
  have hr := rep_topoOf d id
  have hu0 := φ.u_nonneg
  rw [checkInside_iff hr] at h
  have hi : Inside (tol.val + 2 * d * φ.u) (topoOf d id) 1 (fun k => (x k).val) :=
    accepted hu h0 h1 (topoOf d id) 1 1 0 1 _ (by simp [Fl.one_val]) (by simp [Fl.one_val]) zero_le_one
      (by rw [hr.dim_eq]; exact ht) (by rw [hr.dim_eq]; linarith) h
  refine ⟨(RefGeom.checkInside_iff hr _ _ _).2 hi, ?_⟩
  obtain ⟨y, hy, hyx⟩ := near (by positivity) _ (topoOf d id) 1 1 0 zero_le_one (by simp) hi
  rw [hr.dim_eq, zero_add] at hyx
  refine ⟨fun k => if k < d then y k else 0, (mem_domain hr _ fun k hk => if_neg (by omega)).2
    (dom_congr _ 1 (fun k hk => ?_) hy), fun k => ?_⟩
  · rw [hr.dim_eq] at hk; rw [if_pos hk]
  · beta_reduce
    by_cases hk : k < d
    · rw [if_pos hk]; exact hyx k hk
    · rw [if_neg hk, hx k (by omega), sub_self, abs_zero]; positivity

/-! ### The public method: tolerance `64 * epsilon`, IEEE formats -/

section ieee

variable (p : ℕ) (emin : ℤ) (hp : 24 ≤ p) (he : emin ≤ -(2 * p + 32 : ℤ))

/-- an IEEE format with at least the precision and the range of `float` -/
noncomputable abbrev ieee : Format := binary p emin (by omega) (by omega)

theorem ieee_u : (ieee p emin hp he).u = 2 ^ (-(p:ℤ)) := rfl

theorem ieee_η : (ieee p emin hp he).η = 2 ^ emin / 2 := rfl

/-- `std::numeric_limits< ct >::epsilon()`, the distance of one to the next number -/
noncomputable def epsilon : Fl (ieee p emin hp he) :=
  ⟨2 ^ (1 - p : ℤ), rdBinary_exact (by omega) (m := 1) (k := 1 - p) (by norm_num)
    (by rw [abs_one]; exact_mod_cast Nat.one_le_two_pow) (by omega)⟩

theorem epsilon_val : (epsilon p emin hp he).val = 2 * (ieee p emin hp he).u := by
  rw [ieee_u]
  change (2:ℝ) ^ (1 - p : ℤ) = _
  rw [sub_eq_add_neg, zpow_add₀ (by norm_num), zpow_one]

theorem ieee_nat (k : ℕ) (hk : k ≤ 2 ^ p) : (ieee p emin hp he).rd k = k :=
  rdBinary_exact (by omega) (m := k) (k := 0) (by norm_num) (by rw [Nat.abs_cast]; exact_mod_cast hk) (by omega)

/-- the tolerance is computed exactly -/
theorem tolerance_val : (((64 : ℕ) : Fl (ieee p emin hp he)) * epsilon p emin hp he).val = 128 * (ieee p emin hp he).u := by
  rw [Fl.mul_val, Fl.natCast_val, ieee_nat _ _ _ _ 64 (by
    calc 64 ≤ 2 ^ 24 := by norm_num
      _ ≤ 2 ^ p := Nat.pow_le_pow_right (by norm_num) hp), epsilon_val, ieee_u]
  have e : ((64 : ℕ) : ℝ) * (2 * 2 ^ (-(p:ℤ))) = (1 : ℤ) * 2 ^ (7 - p : ℤ) := by
    rw [sub_eq_add_neg, zpow_add₀ (by norm_num)]
    norm_num
    ring
  have : rdBinary p emin (((64 : ℕ) : ℝ) * (2 * 2 ^ (-(p:ℤ)))) = ((64 : ℕ) : ℝ) * (2 * 2 ^ (-(p:ℤ))) :=
    rdBinary_exact (by omega) e (by rw [abs_one]; exact_mod_cast Nat.one_le_two_pow) (by omega)
  refine this.trans ?_
  push_cast
  ring

theorem ieee_u_le : (ieee p emin hp he).u ≤ 1 / 2 ^ 24 := by
  rw [ieee_u, one_div, ← zpow_natCast, ← zpow_neg]
  exact zpow_le_zpow_right₀ (by norm_num) (by push_cast; omega)

theorem ieee_u_pos : 0 < (ieee p emin hp he).u := two_zpow_pos _

theorem ieee_η_le : 2 ^ 33 * (ieee p emin hp he).η ≤ (ieee p emin hp he).u ^ 2 := by
  rw [ieee_u, ieee_η, ← zpow_natCast (2 ^ (-(p:ℤ))) 2, ← zpow_mul]
  have : (2:ℝ) ^ 33 * (2 ^ emin / 2) = 2 ^ (32 + emin) := by
    rw [zpow_add₀ (by norm_num)]; norm_num; ring
  rw [this]
  exact zpow_le_zpow_right₀ (by norm_num) (by push_cast; omega)

theorem one_add_pow_le {u : ℝ} (hu : 0 ≤ u) : ∀ n : ℕ, n * u ≤ 1 → (1 + u) ^ n ≤ 1 + n * u + n ^ 2 * u ^ 2
  | 0, _ => by simp
  | n + 1, h => by
    push_cast at h
    have hn : (0:ℝ) ≤ n := Nat.cast_nonneg n
    have ih := one_add_pow_le hu n (by linarith)
    rw [pow_succ]
    have h1 := mul_le_mul_of_nonneg_right ih (show 0 ≤ 1 + u by linarith)
    refine h1.trans ?_
    push_cast
    have h2 : (n * u) * (n * u ^ 2) ≤ 1 * (n * u ^ 2) := mul_le_mul_of_nonneg_right (by linarith) (by positivity)
    nlinarith [sq_nonneg u]

/-- the rounding errors of up to 31 coordinates stay below the tolerance -/
theorem budget {u δ : ℝ} (hu : 0 < u) (hu' : u ≤ 1 / 2 ^ 24) (hδ : 0 ≤ δ) (hδ' : δ ≤ 2 * u + 2 * u ^ 2) (d : ℕ) (hd : d ≤ 31) :
    (1 + u) ^ d * (1 + d * δ) - 1 < 128 * u := by
  have hd' : (d:ℝ) ≤ 31 := by exact_mod_cast hd
  have hd0 : (0:ℝ) ≤ d := Nat.cast_nonneg d
  have hdu : (d:ℝ) * u ≤ 31 * u := mul_le_mul_of_nonneg_right hd' hu.le
  have h1 := one_add_pow_le hu.le d (by norm_num at hu' ⊢; linarith)
  have h2 : (d:ℝ) * δ ≤ 31 * (2 * u + 2 * u ^ 2) := mul_le_mul hd' hδ' hδ (by norm_num)
  have h3 : (d:ℝ) ^ 2 * u ^ 2 ≤ 31 ^ 2 * u ^ 2 := by
    refine mul_le_mul_of_nonneg_right ?_ (by positivity)
    exact pow_le_pow_left₀ hd0 hd' 2
  have h4 : (1 + u) ^ d ≤ 1 + 31 * u + 31 ^ 2 * u ^ 2 := by linarith
  have h5 : (1 + u) ^ d * (1 + d * δ) ≤ (1 + 31 * u + 31 ^ 2 * u ^ 2) * (1 + 31 * (2 * u + 2 * u ^ 2)) :=
    mul_le_mul h4 (by linarith) (by positivity) (by positivity)
  have h6 : u ^ 2 ≤ 1 / 2 ^ 24 * u := by rw [sq]; exact mul_le_mul_of_nonneg_right hu' hu.le
  have h7 : u ^ 3 ≤ 1 / 2 ^ 24 * u := by
    rw [pow_succ]
    have : u ^ 2 ≤ 1 / 2 ^ 24 := by norm_num at hu' h6 ⊢; nlinarith
    exact mul_le_mul_of_nonneg_right this hu.le
  have h8 : u ^ 4 ≤ 1 / 2 ^ 24 * u := by
    have : u ^ 3 ≤ 1 / 2 ^ 24 := by norm_num at hu' h7 ⊢; nlinarith
    rw [pow_succ]
    exact mul_le_mul_of_nonneg_right this hu.le
  norm_num at h5 h6 h7 h8 ⊢
  nlinarith

/-- C77: the public check accepts every computed point whose coordinates differ from a point of the element by at most
epsilon, in all dimensions the identifiers of topologies allow. -/
theorem C77_public (d id : Nat) (hd : d ≤ 31) (x : Nat → Fl (ieee p emin hp he)) (y : Vec ℝ) (hy : y ∈ domain ℝ d id)
    (hx : ∀ k, k < d → |(x k).val - y k| ≤ (epsilon p emin hp he).val) : refCheckInside d id x (epsilon p emin hp he) = true := by
  have hu := ieee_u_pos p emin hp he
  refine C77_accept _ d id x _ y hy _ ?_ hx ?_
  · rw [epsilon_val]; positivity
  · rw [tolerance_val, epsilon_val]
    exact budget hu (ieee_u_le p emin hp he) (by positivity) (by nlinarith) d hd

/-- C77: in particular the rounded coordinates of a point of the element are accepted. -/
theorem C77_rounded (d id : Nat) (hd : d ≤ 31) (y : Vec ℝ) (hy : y ∈ domain ℝ d id) :
    refCheckInside d id (fun k => Fl.round (ieee p emin hp he) (y k)) (epsilon p emin hp he) = true := by
  refine C77_public p emin hp he d id hd _ y hy fun k hk => ?_
  have h := (ieee p emin hp he).err (y k)
  have hu := ieee_u_pos p emin hp he
  have hu' := ieee_u_le p emin hp he
  have hη := ieee_η_le p emin hp he
  have hη0 := (ieee p emin hp he).η_nonneg
  have hb : |y k| ≤ 1 := by
    have hr := rep_topoOf d id
    have hd := (mem_domain hr y (domain_zero hy)).1 hy
    have : ∀ (t : Topo) (f : ℝ), f ≤ 1 → Dom t f y → ∀ k, k < t.dim → |y k| ≤ 1 := by
      intro t
      induction t with
      | pt => intro f _ _ k hk; exact absurd hk (Nat.not_lt_zero k)
      | prism t ih =>
        intro f hf h k hk
        by_cases hk' : k = t.dim
        · subst hk'; rw [abs_le]; exact ⟨by linarith [h.1], by linarith [h.2.1]⟩
        · exact ih f hf h.2.2 k (by simp only [Topo.dim] at hk; omega)
      | pyr t ih =>
        intro f hf h k hk
        by_cases hk' : k = t.dim
        · subst hk'; rw [abs_le]; exact ⟨by linarith [h.1], by linarith [h.2.1]⟩
        · exact ih _ (by linarith [h.1]) h.2.2 k (by simp only [Topo.dim] at hk; omega)
    exact this _ 1 (le_refl _) hd k (by rw [hr.dim_eq]; exact hk)
  rw [epsilon_val]
  refine h.trans ?_
  have : (ieee p emin hp he).u * |y k| ≤ (ieee p emin hp he).u := by nlinarith
  have : (ieee p emin hp he).η ≤ (ieee p emin hp he).u := by norm_num at hu' hη; nlinarith
  linarith

/-- C77: the center of every sub-entity, as `position(i,c)` computes it, is accepted; it differs from the exact center by less
than `1.1 * epsilon`. -/
theorem C77_position (d id i c : Nat) (hd : d ≤ 31) (hdp : d ≤ p) (hid : id < 2 ^ d) (hc : c ≤ d) (hi : i < refSize d id c) :
    ∃ x : Nat → Fl (ieee p emin hp he), position d id i c = some x ∧ refCheckInside d id x (epsilon p emin hp he) = true ∧
      ∃ y, RefGeom.position (K := ℝ) d id i c = some y ∧ ∀ k, |(x k).val - y k| ≤ 11 / 10 * (epsilon p emin hp he).val := by
  obtain ⟨hn0, hn⟩ := refSize3_bounds hid hc hi
  have hn31 : refSize3 d id i c d ≤ 2 ^ 31 := hn.trans (Nat.pow_le_pow_right (by norm_num) hd)
  obtain ⟨y, hy, -⟩ := C21_mean (K := ℝ) d id i c hid hc hi
  obtain ⟨-, hdom, -⟩ := C21_inside (K := ℝ) d id i c hid hc hi y hy
  obtain ⟨x, hx, hxy⟩ := position_err (φ := ieee p emin hp he) hy hn0
    fun k hk => ieee_nat p emin hp he k (hk.trans (hn.trans (Nat.pow_le_pow_right (by norm_num) hdp)))
  have hu := ieee_u_pos p emin hp he
  have hu' := ieee_u_le p emin hp he
  have hη := ieee_η_le p emin hp he
  have hη0 := (ieee p emin hp he).η_nonneg
  have hb : posErr (ieee p emin hp he) (refSize3 d id i c d) ≤ 2 * (ieee p emin hp he).u + 2 * (ieee p emin hp he).u ^ 2 := by
    refine (posErr_mono _ hn31).trans ?_
    unfold posErr
    have : ((ieee p emin hp he).u * (2 ^ 31 : ℕ) + (2 ^ 31 : ℕ) + 1) * (ieee p emin hp he).η ≤ 2 ^ 33 * (ieee p emin hp he).η :=
      mul_le_mul_of_nonneg_right (by norm_num at hu' ⊢; linarith) hη0
    linarith
  refine ⟨x, hx, ?_, y, hy, fun k => (hxy k).trans (hb.trans ?_)⟩
  · refine C77_accept _ d id x _ y hdom _ (posErr_nonneg _ _) (fun k _ => hxy k) ?_
    rw [tolerance_val]
    exact budget hu hu' (posErr_nonneg _ _) hb d hd
  · rw [epsilon_val]
    norm_num at hu'
    nlinarith

/-- C77: what the public check accepts is at most `d (64 + d) epsilon` away from the element, in every coordinate. -/
theorem C77_distance (d id : Nat) (hd : d ≤ 31) (x : Nat → Fl (ieee p emin hp he)) (hx : ∀ k, d ≤ k → (x k).val = 0)
    (h : refCheckInside d id x (epsilon p emin hp he) = true) :
    ∃ y ∈ domain ℝ d id, ∀ k, |y k - (x k).val| ≤ d * (64 + d) * (epsilon p emin hp he).val := by
  have hu := ieee_u_pos p emin hp he
  have hu' := ieee_u_le p emin hp he
  have hd' : (d:ℝ) ≤ 31 := by exact_mod_cast hd
  have hd0 : (0:ℝ) ≤ d := Nat.cast_nonneg d
  have hdu : (d:ℝ) * (ieee p emin hp he).u ≤ 31 * (ieee p emin hp he).u := mul_le_mul_of_nonneg_right hd' hu.le
  norm_num at hu'
  have h1 := one_add_pow_le hu.le d (by linarith)
  have h2 : (d:ℝ) ^ 2 * (ieee p emin hp he).u ^ 2 ≤ 1 := by rw [← mul_pow]; exact pow_le_one₀ (by positivity) (by linarith)
  have h3 : (d:ℝ) ^ 2 * (ieee p emin hp he).u ^ 2 ≤ d * (ieee p emin hp he).u := by
    have : 0 ≤ (d:ℝ) * (ieee p emin hp he).u := by positivity
    rw [← mul_pow]; nlinarith
  obtain ⟨-, y, hy, hyx⟩ := C77_accepted (ieee p emin hp he) (by linarith) d id x hx _ (by rw [tolerance_val]; positivity)
    (by rw [tolerance_val]; linarith) (by
      rw [tolerance_val]
      have h4 : (1 + (ieee p emin hp he).u) ^ d ≤ 1 + 62 * (ieee p emin hp he).u := by linarith
      have h5 : 1 + (d:ℝ) * (128 * (ieee p emin hp he).u) ≤ 1 + 3968 * (ieee p emin hp he).u := by linarith
      refine (mul_le_mul h4 h5 (by positivity) (by positivity)).trans ?_
      nlinarith) h
  refine ⟨y, hy, fun k => (hyx k).trans (le_of_eq ?_)⟩
  rw [tolerance_val, epsilon_val]
  ring

end ieee

/-! ### `double` and `float` -/

example : double = ieee 53 (-1074) (by norm_num) (by norm_num) := rfl
example : single = ieee 24 (-149) (by norm_num) (by norm_num) := rfl

/-- the center of the triangle is not representable; the computed one is accepted -/
example : ∃ x : Nat → Fl double, position 2 0 0 0 = some x ∧
    refCheckInside 2 0 x (epsilon 53 (-1074) (by norm_num) (by norm_num)) = true :=
  (C77_position 53 (-1074) (by norm_num) (by norm_num) 2 0 0 0 (by norm_num) (by norm_num) (by norm_num) (by norm_num)
    (by decide)).imp fun _ h => ⟨h.1, h.2.1⟩

/-- a representable point outside the triangle, far from it, is rejected -/
example : ¬ refCheckInside 2 0 (fun k => if k < 2 then 1 else 0 : Nat → Fl double) (epsilon 53 (-1074) (by norm_num) (by norm_num)) = true := by
  intro h
  obtain ⟨y, hy, hd⟩ := C77_distance 53 (-1074) (by norm_num) (by norm_num) 2 0 (by norm_num) _
    (fun k hk => by rw [if_neg (by omega)]; rfl) h
  have h0 := hd 0
  have h1 := hd 1
  have hdom := (mem_domain (rep_topoOf 2 0) y (domain_zero hy)).1 hy
  rw [show topoOf 2 0 = .pyr (.prism .pt) by simp [topoOf]] at hdom
  obtain ⟨-, -, -, h3, -⟩ := hdom
  simp only [Topo.dim] at h3
  rw [epsilon_val, ieee_u, if_pos (by norm_num), Fl.one_val, abs_le] at h0 h1
  norm_num at h0 h1
  linarith [h0.1, h1.1]

end Verif.Float
