import Verif.Float.VolumeDet

/-! Gram matrices, products of diagonals and small determinants in floating-point arithmetic. -/

namespace Verif.FloatVol

open Verif.Float Verif.RefGeom HasSqrt HasAbs
open Finset hiding ext

variable {φ : Format}

/-! ### Gram matrices -/

theorem addLoop_near' (a : Fl φ) {k : ℕ} {s b m : ℝ} (f g : Nat → Fl φ) (f' g' : Nat → ℝ) (hk : 3 ≤ k) (h : Near φ k s a.val b m) : ∀ (c lo : Nat),
    (∀ i, i < lo + c → Near φ 1 0 (f i).val (f' i) |f' i| ∧ Near φ 1 0 (g i).val (g' i) |g' i|) →
    Near φ (k + c) (s + c * φ.η) ((List.range' lo c).foldl (fun x i => x + f i * g i) a).val
      (b + ∑ i ∈ range c, f' (lo + i) * g' (lo + i)) (m + ∑ i ∈ range c, |f' (lo + i)| * |g' (lo + i)|)
  | 0, lo, _ => by simpa using h
  | c + 1, lo, hfg => by
    have ih := addLoop_near' a f g f' g' hk h c lo (fun i hi => hfg i (by omega))
    rw [List.range'_concat, List.foldl_append, List.foldl_cons, List.foldl_nil, sum_range_succ, sum_range_succ, ← _root_.add_assoc b, ← _root_.add_assoc m]
    obtain ⟨h1, h2⟩ := hfg (lo + c) (by omega)
    have h3 := h1.mul h2
    simp only [zero_mul, mul_zero, _root_.add_zero, _root_.zero_add] at h3
    have h4 := ih.add (h3.mono (l := k + c) (by omega) le_rfl)
    have h5 := h4.mono (l := k + (c + 1)) (t := s + (c + 1 : ℕ) * φ.η) (by omega) (by push_cast; linarith)
    rw [Nat.one_mul]
    exact h5

/-- an entry of the Gram matrix -/
theorem gram_near (n : Nat) (hn : 0 < n) (J : Mat (Fl φ)) (e : Nat → Nat → ℝ) (ret : Mat (Fl φ)) (k j : Nat) (hjk : j ≤ k)
    (hJ : ∀ r c, c < n → r ≤ k → |(J r c).val - e r c| ≤ φ.u * |e r c|) :
    Near φ (n + 2) (n * φ.η) (AAT_L n J ret k j).val (∑ c ∈ range n, e k c * e j c) (∑ c ∈ range n, |e k c| * |e j c|) := by
  have h1 : ∀ r c, c < n → r ≤ k → Near φ 1 0 (J r c).val (e r c) |e r c| := fun r c hc hr =>
    ⟨le_rfl, le_rfl, by rw [pow_one]; linarith [hJ r c hc hr]⟩
  rw [AAT_L, if_pos hjk, addLoop]
  have h0 := (h1 k 0 hn le_rfl).mul (h1 j 0 hn hjk)
  simp only [zero_mul, mul_zero, _root_.add_zero, _root_.zero_add] at h0
  have h2 := addLoop_near' (J k 0 * J j 0) (fun c => J k c) (fun c => J j c) (e k) (e j) (by omega) h0 (n - 1) 1
    (fun c hc => ⟨h1 k c (by omega) le_rfl, h1 j c (by omega) hjk⟩)
  obtain ⟨n, rfl⟩ : ∃ n', n = n' + 1 := ⟨n - 1, by omega⟩
  rw [sum_range_succ', sum_range_succ']
  rw [Nat.add_sub_cancel] at h2 ⊢
  have e1 : e k 0 * e j 0 + ∑ i ∈ range n, e k (1 + i) * e j (1 + i) = (∑ i ∈ range n, e k (i + 1) * e j (i + 1)) + e k 0 * e j 0 := by
    rw [_root_.add_comm]; congr 1; exact sum_congr rfl fun i _ => by rw [Nat.add_comm 1 i]
  have e2 : |e k 0| * |e j 0| + ∑ i ∈ range n, |e k (1 + i)| * |e j (1 + i)| = (∑ i ∈ range n, |e k (i + 1)| * |e j (i + 1)|) + |e k 0| * |e j 0| := by
    rw [_root_.add_comm]; congr 1; exact sum_congr rfl fun i _ => by rw [Nat.add_comm 1 i]
  rw [e1, e2] at h2
  exact h2.mono (l := n + 1 + 2) (t := (n + 1 : ℕ) * φ.η) (by omega) (by push_cast; linarith)

theorem gram_bound {D : ℝ} (hu : 0 < φ.u) (hu' : φ.u ≤ 1 / 2 ^ 24) (hlow : φ.η ≤ φ.u ^ 2 * D) (hD : 0 ≤ D) (n : Nat) (hn : 0 < n) (hn' : n ≤ 29)
    (J : Mat (Fl φ)) (e : Nat → Nat → ℝ) (ret : Mat (Fl φ)) (k j : Nat) (hjk : j ≤ k)
    (hJ : ∀ r c, c < n → r ≤ k → |(J r c).val - e r c| ≤ φ.u * |e r c|) (hk : ∑ c ∈ range n, e k c ^ 2 ≤ D) (hj : ∑ c ∈ range n, e j c ^ 2 ≤ D) :
    |(AAT_L n J ret k j).val - ∑ c ∈ range n, e k c * e j c| ≤ 31 / 10 * n * φ.u * D ∧ |∑ c ∈ range n, e k c * e j c| ≤ D := by
  have hη := φ.η_nonneg
  have h1 := (gram_near n hn J e ret k j hjk hJ).bound
  have h2 : ∑ c ∈ range n, |e k c| * |e j c| ≤ D := by
    have : ∀ c ∈ range n, 2 * (|e k c| * |e j c|) ≤ e k c ^ 2 + e j c ^ 2 := fun c _ => by
      nlinarith [sq_nonneg (|e k c| - |e j c|), sq_abs (e k c), sq_abs (e j c)]
    have h := sum_le_sum this
    rw [← mul_sum, sum_add_distrib] at h
    linarith
  have h2' : |∑ c ∈ range n, e k c * e j c| ≤ D := by
    refine (abs_sum_le_sum_abs _ _).trans (le_trans (le_of_eq (sum_congr rfl fun c _ => ?_)) h2)
    rw [abs_mul]
  refine ⟨h1.trans ?_, h2'⟩
  have h3 := pow_sub_one_le hu.le hu' (n + 2) (n + 2) le_rfl (by omega)
  have h4 : 0 ≤ (1 + φ.u) ^ (n + 2) - 1 := by linarith [Near.one_le_pow φ (n + 2)]
  set G := (1 + φ.u) ^ (n + 2)
  push_cast at h3
  set T := ∑ c ∈ range n, |e k c| * |e j c|
  have hT0 : 0 ≤ T := sum_nonneg fun c _ => by positivity
  have hm0 : (1:ℝ) ≤ n := by exact_mod_cast hn
  have hm' : (n:ℝ) ≤ 29 := by exact_mod_cast hn'
  have h3' : G - 1 ≤ 3003 / 1000 * n * φ.u := by nlinarith
  have h5 : (G - 1) * T ≤ (3003 / 1000 * n * φ.u) * D := mul_le_mul h3' h2 hT0 (by positivity)
  have hmu : (n:ℝ) * φ.u ≤ 29 * (1 / 2 ^ 24) := mul_le_mul hm' hu' hu.le (by norm_num)
  have hG : G ≤ 2 := by nlinarith
  have h6 : G * (n * φ.η) ≤ 2 * (n * (φ.u ^ 2 * D)) :=
    mul_le_mul hG (mul_le_mul_of_nonneg_left hlow (by linarith)) (by positivity) (by norm_num)
  have h7 : 2 * (n * (φ.u ^ 2 * D)) ≤ 1 / 1000 * (n * φ.u * D) := by
    have : 0 ≤ n * φ.u * D := by positivity
    have h8 : φ.u * (n * φ.u * D) ≤ 1 / 2 ^ 24 * (n * φ.u * D) := mul_le_mul_of_nonneg_right hu' this
    have h9 : (1 / 2 ^ 24 : ℝ) ≤ 1 / 2000 := by norm_num
    nlinarith
  have : 0 ≤ n * φ.u * D := by positivity
  linarith

/-! ### Products -/

/-- a product of numbers that are each known with one rounding error -/
theorem prod_loop {R : ℝ} (hR : 1 ≤ R) (f : Nat → Fl φ) (f' : Nat → ℝ) {q : ℕ} (hf : ∀ i, Near φ q 0 (f i).val (f' i) |f' i|) (p : Nat → Bool) :
    ∀ d : Nat, (∀ i < d, |f' i| ≤ R) →
      Near φ ((q + 1) * d) (d * φ.η * R ^ d) ((List.range d).foldl (fun v i => if p i then v * f i else v) (1 : Fl φ)).val
        (∏ i ∈ range d with p i, f' i) (∏ i ∈ range d with p i, |f' i|)
  | 0, _ => by simpa [Fl.one_val] using Near.exact (φ := φ) (1:ℝ)
  | d + 1, hr => by
    have ih := prod_loop hR f f' hf p d fun i hi => hr i (by omega)
    have hη := φ.η_nonneg
    have hRd : 1 ≤ R ^ d := one_le_pow₀ hR
    have hdn : (0:ℝ) ≤ d := Nat.cast_nonneg d
    have hs : 0 ≤ d * φ.η * R ^ d := by positivity
    rw [List.range_succ, List.foldl_append, List.foldl_cons, List.foldl_nil, range_add_one, filter_insert]
    by_cases hp : p d = true
    · rw [if_pos hp, if_pos hp, prod_insert (by simp), prod_insert (by simp), mul_comm (f' d), mul_comm |f' d|]
      have h1 := ih.mul (hf d)
      refine h1.mono (l := (q + 1) * (d + 1)) (t := (d + 1 : ℕ) * φ.η * R ^ (d + 1)) (by ring_nf; omega) ?_
      have h2 := hr d (by omega)
      have h3 : d * φ.η * R ^ d * |f' d| ≤ d * φ.η * R ^ d * R := mul_le_mul_of_nonneg_left h2 hs
      push_cast
      rw [pow_succ]
      have h4 : φ.η ≤ φ.η * (R ^ d * R) := le_mul_of_one_le_right hη (by nlinarith)
      linarith
    · rw [if_neg hp, if_neg hp]
      refine ih.mono (l := (q + 1) * (d + 1)) (t := (d + 1 : ℕ) * φ.η * R ^ (d + 1)) (by gcongr; omega) ?_
      push_cast
      rw [pow_succ]
      have h4 : φ.η * R ^ d * d ≤ φ.η * R ^ d * d * R := le_mul_of_one_le_right (by positivity) hR
      have h5 : 0 ≤ φ.η * (R ^ d * R) := by positivity
      linarith

theorem invLRow_other (i : Nat) (lii : Fl φ) (L : Mat (Fl φ)) (r c : Nat) (h : r ≠ i) : invLRow i lii L r c = L r c := by
  rw [invLRow]
  have : ∀ (l : List Nat) (L : Mat (Fl φ)), (l.foldl (fun L j => setM L i j (-lii * addLoop (L i j * L j j) (j + 1) i fun k => L i k * L k j)) L) r c = L r c := by
    intro l
    induction l with
    | nil => intro L; rfl
    | cons a l ih => intro L; rw [List.foldl_cons, ih, setM, if_neg (fun h' => h h'.1)]
  exact this _ _

theorem invL_det (n : Nat) (L : Mat (Fl φ)) : (invL n L).1 = detL n L ∧ ∀ r, n ≤ r → ∀ c, (invL n L).2 r c = L r c := by
  induction n with
  | zero => exact ⟨rfl, fun r _ c => rfl⟩
  | succ n ih =>
    have e : invL (n + 1) L = ((invL n L).1 * (invL n L).2 n n, invLRow n (1 / (invL n L).2 n n) (setM (invL n L).2 n n (1 / (invL n L).2 n n))) := by
      rw [invL, List.range_succ, List.foldl_append, List.foldl_cons, List.foldl_nil]
      rfl
    have e2 : detL (n + 1) L = detL n L * L n n := by
      rw [detL, List.range_succ, List.foldl_append, List.foldl_cons, List.foldl_nil]
      rfl
    refine ⟨by rw [e, e2, ih.1, ih.2 n le_rfl], fun r hr c => ?_⟩
    rw [e]
    dsimp only
    rw [invLRow_other _ _ _ _ _ (by omega), setM, if_neg (by omega), ih.2 r (by omega)]

theorem detL_near {R : ℝ} (hR : 1 ≤ R) (n : Nat) (L : Mat (Fl φ)) (h : ∀ i < n, |(L i i).val| ≤ R) :
    Near φ n (n * φ.η * R ^ n) (detL n L).val (∏ i ∈ range n, (L i i).val) (∏ i ∈ range n, |(L i i).val|) := by
  have := prod_loop hR (fun i => L i i) (fun i => (L i i).val) (q := 0) (fun i => Near.exact _) (fun _ => true) n h
  simpa [detL] using this

/-! ### Small determinants -/

/-- `a * d - b * c` with factors known up to one rounding error -/
theorem det2_near {a b c d : Fl φ} {a' b' c' d' : ℝ} {q : ℕ} (ha : Near φ q 0 a.val a' |a'|) (hb : Near φ q 0 b.val b' |b'|) (hc : Near φ q 0 c.val c' |c'|)
    (hd : Near φ q 0 d.val d' |d'|) : Near φ (2 * q + 2) (2 * φ.η) (a * d - b * c).val (a' * d' - b' * c') (|a'| * |d'| + |b'| * |c'|) := by
  have h := (ha.mul hd).sub (hb.mul hc)
  simp only [zero_mul, mul_zero, _root_.add_zero, _root_.zero_add] at h
  exact h.mono (by omega) (by linarith)

theorem abs_val (a : Fl φ) : (HasAbs.abs a).val = |a.val| := rfl

theorem near_abs {k : ℕ} {s b m : ℝ} {a : Fl φ} (h : Near φ k s a.val b m) : Near φ k s (HasAbs.abs a).val |b| m :=
  ⟨by rw [abs_abs]; exact h.le, h.s_nonneg, by
    rw [abs_val]
    linarith [abs_abs_sub_abs_le a.val b, h.err]⟩

theorem sqrt_tri (x0 x1 x2 y0 y1 y2 : ℝ) :
    Real.sqrt (x0 ^ 2 + x1 ^ 2 + x2 ^ 2) ≤ Real.sqrt (y0 ^ 2 + y1 ^ 2 + y2 ^ 2) + (|x0 - y0| + |x1 - y1| + |x2 - y2|) := by
  set Y := Real.sqrt (y0 ^ 2 + y1 ^ 2 + y2 ^ 2) with hY
  have hY0 : 0 ≤ Y := Real.sqrt_nonneg _
  have hYY : Y * Y = y0 ^ 2 + y1 ^ 2 + y2 ^ 2 := Real.mul_self_sqrt (by positivity)
  have a0 := abs_nonneg (x0 - y0)
  have a1 := abs_nonneg (x1 - y1)
  have a2 := abs_nonneg (x2 - y2)
  rw [Real.sqrt_le_left (by positivity)]
  have hle : ∀ y : ℝ, y ^ 2 ≤ Y * Y → |y| ≤ Y := fun y hy => abs_le_of_sq_le_sq (by rw [sq Y]; exact hy) hY0
  have g : ∀ x y : ℝ, |y| ≤ Y → x ^ 2 ≤ y ^ 2 + 2 * (Y * |x - y|) + |x - y| ^ 2 := fun x y hy => by
    have : x ^ 2 = y ^ 2 + 2 * (y * (x - y)) + (x - y) ^ 2 := by ring
    rw [this, sq_abs]
    have h3 : y * (x - y) ≤ Y * |x - y| := by
      refine (le_abs_self _).trans ?_
      rw [abs_mul]
      exact mul_le_mul_of_nonneg_right hy (abs_nonneg _)
    linarith
  have g0 := g x0 y0 (hle y0 (by rw [hYY]; nlinarith [sq_nonneg y1, sq_nonneg y2]))
  have g1 := g x1 y1 (hle y1 (by rw [hYY]; nlinarith [sq_nonneg y0, sq_nonneg y2]))
  have g2 := g x2 y2 (hle y2 (by rw [hYY]; nlinarith [sq_nonneg y0, sq_nonneg y1]))
  nlinarith [mul_nonneg a0 a1, mul_nonneg a0 a2, mul_nonneg a1 a2]

theorem sqrt_close {S T G σ : ℝ} (hG1 : 1 ≤ G) (hσ : 0 ≤ σ) (hT : 0 ≤ T) (h : |S - T| ≤ (G - 1) * T + G * σ ^ 2) :
    |Real.sqrt S - Real.sqrt T| ≤ (G - 1) * Real.sqrt T + G * σ := by
  have htt := Real.mul_self_sqrt hT
  have ht0 := Real.sqrt_nonneg T
  set t := Real.sqrt T
  obtain ⟨l1, l2⟩ := abs_le.mp h
  have p1 : 0 ≤ t * t := mul_nonneg ht0 ht0
  have p2 : 0 ≤ σ ^ 2 := sq_nonneg σ
  have p5 : G * σ ^ 2 ≤ (G * σ) ^ 2 := by
    have : (G * σ) ^ 2 = G * (G * σ ^ 2) := by ring
    rw [this]
    exact le_mul_of_one_le_left (by positivity) hG1
  have hy : 0 ≤ G * σ := by positivity
  rw [abs_le]
  constructor
  · by_cases hneg : (2 - G) * t - G * σ ≤ 0
    · linarith [Real.sqrt_nonneg S]
    · push Not at hneg
      have hx : (2 - G) * t ≤ t := by nlinarith
      have hx0 : 0 ≤ (2 - G) * t := by linarith
      have q2 : ((2 - G) * t) ^ 2 ≤ (2 - G) * t * t := by
        rw [sq]
        exact mul_le_mul_of_nonneg_left hx hx0
      have q4 : (2 - G) * t * t = T - (G - 1) * T := by rw [mul_assoc, htt]; ring
      have : (2 - G) * t - G * σ ≤ Real.sqrt S := by
        generalize G * σ = y at *
        generalize (2 - G) * t = x at *
        refine Real.le_sqrt_of_sq_le ?_
        have q1 : (x - y) ^ 2 ≤ x ^ 2 - y ^ 2 := by nlinarith
        linarith
      linarith
  · have : Real.sqrt S ≤ G * t + G * σ := by
      rw [Real.sqrt_le_left (by positivity)]
      have q1 : S ≤ G * (t * t) + G * σ ^ 2 := by rw [htt]; linarith
      have : (G * t + G * σ) ^ 2 = G * (G * (t * t)) + (G * σ) ^ 2 + 2 * (G * t * (G * σ)) := by ring
      have p3 : 0 ≤ G * t * (G * σ) := by positivity
      have p4 : G * (t * t) ≤ G * (G * (t * t)) := le_mul_of_one_le_left (by positivity) hG1
      linarith
    linarith

/-- a square root of a sum of squares -/
theorem near_norm {k : ℕ} {s : ℝ} {v0 v1 v2 : Fl φ} {b0 b1 b2 m0 m1 m2 : ℝ} (h0 : Near φ k s v0.val b0 m0) (h1 : Near φ k s v1.val b1 m1)
    (h2 : Near φ k s v2.val b2 m2) :
    Near φ (k + 4) (3 * s + Real.sqrt (3 * φ.η) + φ.η) (sqrt (v0 * v0 + v1 * v1 + v2 * v2)).val (Real.sqrt (b0 ^ 2 + b1 ^ 2 + b2 ^ 2)) (m0 + m1 + m2) := by
  have hu := φ.u_nonneg
  have hη := φ.η_nonneg
  have hs := h0.s_nonneg
  -- the exact norm of the computed vector
  set b := Real.sqrt (b0 ^ 2 + b1 ^ 2 + b2 ^ 2) with hb
  have hb0 : 0 ≤ b := Real.sqrt_nonneg _
  set T := v0.val * v0.val + v1.val * v1.val + v2.val * v2.val with hT
  have hTT : T = v0.val ^ 2 + v1.val ^ 2 + v2.val ^ 2 := by rw [hT]; ring
  have hT0 : 0 ≤ T := by rw [hTT]; positivity
  set t := Real.sqrt T with ht
  have ht0 : 0 ≤ t := Real.sqrt_nonneg _
  have htt : t * t = T := Real.mul_self_sqrt hT0
  set M := m0 + m1 + m2 with hM
  have hbM : b ≤ M := by
    have := sqrt_tri b0 b1 b2 0 0 0
    simp only [_root_.sub_zero] at this
    rw [show Real.sqrt ((0:ℝ) ^ 2 + 0 ^ 2 + 0 ^ 2) = 0 by norm_num] at this
    linarith [h0.le, h1.le, h2.le]
  have hM0 : 0 ≤ M := hb0.trans hbM
  have e1 : |t - b| + M ≤ (1 + φ.u) ^ k * (M + 3 * s) := by
    have t1 := sqrt_tri v0.val v1.val v2.val b0 b1 b2
    have t2 := sqrt_tri b0 b1 b2 v0.val v1.val v2.val
    rw [← hTT, ← ht, ← hb] at t1 t2
    rw [abs_sub_comm b0, abs_sub_comm b1, abs_sub_comm b2] at t2
    have : |t - b| ≤ |v0.val - b0| + |v1.val - b1| + |v2.val - b2| := abs_le.mpr ⟨by linarith, by linarith⟩
    have h3 := h0.err
    have h4 := h1.err
    have h5 := h2.err
    have : (1 + φ.u) ^ k * (M + 3 * s) = (1 + φ.u) ^ k * (m0 + s) + (1 + φ.u) ^ k * (m1 + s) + (1 + φ.u) ^ k * (m2 + s) := by rw [hM]; ring
    linarith
  -- the computed sum of squares
  have hS : Near φ 3 (3 * φ.η) (v0 * v0 + v1 * v1 + v2 * v2).val T T := by
    have := (((prod_near v0 v0).add (prod_near v1 v1)).add ((prod_near v2 v2).mono (l := 2) (by omega) le_rfl))
    have e2 : |v0.val| * |v0.val| + |v1.val| * |v1.val| + |v2.val| * |v2.val| = T := by rw [abs_mul_abs_self, abs_mul_abs_self, abs_mul_abs_self]
    rw [e2] at this
    exact this.mono (by omega) (by linarith)
  set S := (v0 * v0 + v1 * v1 + v2 * v2).val with hSd
  have hSe := hS.bound
  set G := (1 + φ.u) ^ 3 with hG
  have hG1 : 1 ≤ G := Near.one_le_pow φ 3
  set σ := Real.sqrt (3 * φ.η) with hσ
  have hσ0 : 0 ≤ σ := Real.sqrt_nonneg _
  have hσσ : σ * σ = 3 * φ.η := Real.mul_self_sqrt (by positivity)
  have e3 : |Real.sqrt S - t| ≤ (G - 1) * t + G * σ := sqrt_close hG1 hσ0 hT0 (by rw [sq σ, hσσ]; exact hSe)
  have e4 : |Real.sqrt S - b| + M ≤ (1 + φ.u) ^ (k + 3) * (M + (3 * s + σ)) := by
    have : |Real.sqrt S - b| ≤ |Real.sqrt S - t| + |t - b| := by
      have := abs_add_le (Real.sqrt S - t) (t - b)
      rwa [sub_add_sub_cancel] at this
    have htM : t ≤ (1 + φ.u) ^ k * (M + 3 * s) := by
      have := le_abs_self (t - b)
      linarith
    have hP := Near.one_le_pow φ k
    set P := (1 + φ.u) ^ k
    rw [pow_add, ← hG]
    have h3 : (G - 1) * t ≤ (G - 1) * (P * (M + 3 * s)) := mul_le_mul_of_nonneg_left htM (by linarith)
    have h4 : G * σ ≤ P * G * σ := by nlinarith [mul_nonneg (by linarith : 0 ≤ G) hσ0]
    have : P * G * (M + (3 * s + σ)) = G * (P * (M + 3 * s)) + P * G * σ := by ring
    linarith
  have e5 := φ.err (Real.sqrt S)
  rw [abs_of_nonneg (Real.sqrt_nonneg S)] at e5
  refine ⟨by rw [abs_of_nonneg hb0]; exact hbM, by positivity, ?_⟩
  change |φ.rd (Real.sqrt S) - b| + M ≤ _
  have e6 : |φ.rd (Real.sqrt S) - b| ≤ |φ.rd (Real.sqrt S) - Real.sqrt S| + |Real.sqrt S - b| := by
    have := abs_add_le (φ.rd (Real.sqrt S) - Real.sqrt S) (Real.sqrt S - b)
    rwa [sub_add_sub_cancel] at this
  have hsz : Real.sqrt S ≤ (1 + φ.u) ^ (k + 3) * (M + (3 * s + σ)) := by
    have := le_abs_self (Real.sqrt S - b)
    linarith
  have hP := Near.one_le_pow φ (k + 4)
  have hsucc : (1 + φ.u) ^ (k + 4) = (1 + φ.u) ^ (k + 3) * (1 + φ.u) := pow_succ _ _
  set P := (1 + φ.u) ^ (k + 3)
  set Q := (1 + φ.u) ^ (k + 4)
  have h3 : φ.u * Real.sqrt S ≤ φ.u * (P * (M + (3 * s + σ))) := mul_le_mul_of_nonneg_left hsz hu
  have h4 : φ.η ≤ Q * φ.η := by nlinarith
  have : Q * (M + (3 * s + σ + φ.η)) = P * (M + (3 * s + σ)) + φ.u * (P * (M + (3 * s + σ))) + Q * φ.η := by rw [hsucc]; ring
  linarith

end Verif.FloatVol
