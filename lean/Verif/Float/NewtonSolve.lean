import Verif.Float.NewtonModel
import Verif.Float.VolumeAffine

/-! The solver `xTRightInvA` in floating-point arithmetic: it succeeds for matrices of bounded condition and its result is accurate. -/

namespace Verif.FloatNewton

open Verif.Float Verif.FloatVol Verif.RefGeom Finset HasSqrt

/-! ### The substitutions -/

section
variable {K : Type} [Zero K] [One K] [Add K] [Sub K] [Mul K] [Div K]

theorem subLoop_congr' (a : K) (f g : Nat → K) (lo hi : Nat) (h : ∀ j, lo ≤ j → j < hi → f j = g j) : subLoop a lo hi f = subLoop a lo hi g := by
  rw [subLoop, subLoop]
  have : ∀ (c lo : Nat) (a : K), (∀ j, lo ≤ j → j < lo + c → f j = g j) →
      (List.range' lo c).foldl (fun x k => x - f k) a = (List.range' lo c).foldl (fun x k => x - g k) a := by
    intro c
    induction c with
    | zero => intros; rfl
    | succ c ih =>
      intro lo a h
      rw [List.range'_succ, List.foldl_cons, List.foldl_cons, h lo le_rfl (by omega)]
      exact ih _ _ fun j h1 h2 => h j (by omega) (by omega)
  exact this _ _ _ fun j h1 h2 => h j h1 (by omega)

/-- the forward substitution -/
theorem invLx_spec (n : Nat) (L : Mat K) (b : Nat → K) (i : Nat) (hi : i < n) :
    invLx n L b i = subLoop (b i) 0 i (fun j => L i j * invLx n L b j) / L i i := by
  have key : ∀ k, (∀ j, k ≤ j → invLx k L b j = b j) ∧
      ∀ i, i < k → invLx k L b i = subLoop (b i) 0 i (fun j => L i j * invLx k L b j) / L i i := by
    intro k
    induction k with
    | zero => exact ⟨fun j _ => rfl, fun i hi => by omega⟩
    | succ k ih =>
      obtain ⟨h1, h2⟩ := ih
      have e : invLx (k + 1) L b = setV (invLx k L b) k (subLoop (invLx k L b k) 0 k (fun j => L k j * invLx k L b j) / L k k) := by
        rw [invLx, List.range_succ, List.foldl_append]
        rfl
      rw [h1 k le_rfl] at e
      have e' : ∀ j, j ≠ k → invLx (k + 1) L b j = invLx k L b j := fun j hj => by rw [e, setV, if_neg hj]
      have ek : invLx (k + 1) L b k = subLoop (b k) 0 k (fun j => L k j * invLx k L b j) / L k k := by rw [e, setV, if_pos rfl]
      refine ⟨fun j hj => by rw [e' j (by omega), h1 j (by omega)], fun i hi => ?_⟩
      rcases (Nat.lt_succ_iff.mp hi).eq_or_lt with rfl | hlt
      · rw [ek, subLoop_congr' _ _ _ 0 i fun j _ hj => by rw [← e' j (by omega)]]
      · rw [e' i (by omega), h2 i hlt, subLoop_congr' _ _ _ 0 i fun j _ hj => by rw [← e' j (by omega)]]
  exact (key n).2 i hi

/-- the backward substitution -/
theorem invLTx_spec (n : Nat) (L : Mat K) (b : Nat → K) (i : Nat) (hi : i < n) :
    invLTx n L b i = subLoop (b i) (i + 1) n (fun j => L j i * invLTx n L b j) / L i i := by
  have key : ∀ (k : Nat) (x : Nat → K),
      let y := (List.range k).reverse.foldl (fun x i => setV x i (subLoop (x i) (i + 1) n (fun j => L j i * x j) / L i i)) x
      (∀ j, k ≤ j → y j = x j) ∧ ∀ i, i < k → y i = subLoop (x i) (i + 1) n (fun j => L j i * y j) / L i i := by
    intro k
    induction k with
    | zero => exact fun x => ⟨fun j _ => rfl, fun i hi => by omega⟩
    | succ k ih =>
      intro x y
      set x' := setV x k (subLoop (x k) (k + 1) n (fun j => L j k * x j) / L k k) with hx'
      have e' : ∀ j, j ≠ k → x' j = x j := fun j hj => by rw [hx', setV, if_neg hj]
      have hy : y = (List.range k).reverse.foldl (fun x i => setV x i (subLoop (x i) (i + 1) n (fun j => L j i * x j) / L i i)) x' := by
        change (List.range (k + 1)).reverse.foldl _ x = _
        rw [List.range_succ, List.reverse_append, List.reverse_singleton, List.singleton_append, List.foldl_cons]
      obtain ⟨h1, h2⟩ := ih x'
      rw [← hy] at h1 h2
      refine ⟨fun j hj => by rw [h1 j (by omega), e' j (by omega)], fun i hi => ?_⟩
      rcases (Nat.lt_succ_iff.mp hi).eq_or_lt with rfl | hlt
      · rw [h1 i le_rfl, subLoop_congr' _ _ (fun j => L j i * x j) (i + 1) n fun j hj _ => by rw [h1 j (by omega), e' j (by omega)], hx', setV,
          if_pos rfl]
      · rw [h2 i hlt, e' i (by omega)]
  exact (key n b).2 i hi

end

variable {φ : Format}

/-- a row of a substitution -/
theorem sub_div_err (b l : Fl φ) (f g : Nat → Fl φ) (c m : Nat) (hc : c < m) (hm : m ≤ 29) (hu' : φ.u ≤ 1 / 2 ^ 24) (hl : 0 < l.val) :
    |b.val - ((∑ j ∈ range c, (f j).val * (g j).val) + l.val * (subLoop b 0 c (fun j => f j * g j) / l).val)| ≤
      4 * m * φ.u * ((∑ j ∈ range c, |(f j).val| * |(g j).val|) + l.val * |(subLoop b 0 c (fun j => f j * g j) / l).val|) + 2 * φ.η * (m + l.val) := by
  have hu := φ.u_nonneg
  have hη := φ.η_nonneg
  have h1 := (subLoop_near b f g c).bound
  have h2 := Fl.div_err (subLoop b 0 c fun j => f j * g j) l
  have h3 := pow_sub_one_le hu hu' (c + 1) m (by omega) (by omega)
  have h30 : 0 ≤ (1 + φ.u) ^ (c + 1) - 1 := by linarith [Near.one_le_pow φ (c + 1)]
  set G := (1 + φ.u) ^ (c + 1) with hG
  set s := (subLoop b 0 c fun j => f j * g j).val with hs
  set w := (subLoop b 0 c (fun j => f j * g j) / l).val with hw
  set S0 := ∑ j ∈ range c, (f j).val * (g j).val with hS0
  set T := ∑ j ∈ range c, |(f j).val| * |(g j).val| with hT
  have hT0 : 0 ≤ T := sum_nonneg fun j _ => by positivity
  have hST : |S0| ≤ T := (abs_sum_le_sum_abs _ _).trans (le_of_eq (sum_congr rfl fun j _ => abs_mul _ _))
  have hm1 : (1:ℝ) ≤ m := by exact_mod_cast (by omega : 1 ≤ m)
  have hm' : (m:ℝ) ≤ 29 := by exact_mod_cast hm
  have hcm : (c:ℝ) ≤ m := by exact_mod_cast hc.le
  have hmu : (m:ℝ) * φ.u ≤ 29 * (1 / 2 ^ 24) := mul_le_mul hm' hu' hu (by norm_num)
  set v := (m:ℝ) * φ.u with hv
  have hv0 : 0 ≤ v := by positivity
  have huv : φ.u ≤ v := by rw [hv]; nlinarith
  have hv1 : v ≤ 1 / 100000 := hmu.trans (by norm_num)
  have h4 : |l.val * w - s| ≤ φ.u * |s| + φ.η * l.val := by
    have e : l.val * w - s = (w - s / l.val) * l.val := by field_simp
    rw [e, abs_mul, abs_of_pos hl]
    have := mul_le_mul_of_nonneg_right h2 hl.le
    rw [abs_div, abs_of_pos hl] at this
    have e2 : (φ.u * (|s| / l.val) + φ.η) * l.val = φ.u * |s| + φ.η * l.val := by field_simp
    linarith
  have hlw : |l.val * w| = l.val * |w| := by rw [abs_mul, abs_of_pos hl]
  set W := l.val * |w| with hW
  have hW0 : 0 ≤ W := by positivity
  have hηl : 0 ≤ φ.η * l.val := by positivity
  have hηm : 0 ≤ φ.η * m := by positivity
  -- the size of the loop result
  have hs1 : |s| ≤ 1001 / 1000 * (W + φ.η * l.val) := by
    have := abs_add_le (s - l.val * w) (l.val * w)
    rw [sub_add_cancel, hlw, abs_sub_comm] at this
    nlinarith [abs_nonneg s]
  have h5 : (G - 1) * (|b.val| + T) ≤ 1001 / 1000 * v * (|b.val| + T) :=
    mul_le_mul_of_nonneg_right (by rw [hv]; linarith) (by positivity)
  have h6 : G * (c * φ.η) ≤ 1001 / 1000 * (φ.η * m) := by
    have : G ≤ 1001 / 1000 := by nlinarith
    have h7 : (c:ℝ) * φ.η ≤ φ.η * m := by nlinarith
    exact mul_le_mul this h7 (by positivity) (by norm_num)
  have h7 : |s - (b.val - S0)| ≤ 1001 / 1000 * v * (|b.val| + T) + 1001 / 1000 * (φ.η * m) := by linarith
  have hb : |b.val| ≤ 101 / 100 * (W + T + φ.η * l.val + φ.η * m) := by
    have h8 := abs_add_le (b.val - S0 - s) (s + S0)
    rw [show b.val - S0 - s + (s + S0) = b.val by ring, abs_sub_comm] at h8
    have h9 := abs_add_le s S0
    have : v * |b.val| ≤ 1 / 100000 * |b.val| := mul_le_mul_of_nonneg_right hv1 (abs_nonneg _)
    have : v * T ≤ 1 / 100000 * T := mul_le_mul_of_nonneg_right hv1 hT0
    nlinarith
  have h8 := abs_add_le (b.val - S0 - s) (s - l.val * w)
  rw [show b.val - S0 - s + (s - l.val * w) = b.val - (S0 + l.val * w) by ring, abs_sub_comm (b.val - S0) s, abs_sub_comm s (l.val * w)] at h8
  have h9 : v * |b.val| ≤ v * (101 / 100 * (W + T + φ.η * l.val + φ.η * m)) := mul_le_mul_of_nonneg_left hb hv0
  have h10 : φ.u * |s| ≤ v * (1001 / 1000 * (W + φ.η * l.val)) := mul_le_mul huv hs1 (abs_nonneg _) hv0
  have h11 : v * (φ.η * l.val) ≤ 1 / 100000 * (φ.η * l.val) := mul_le_mul_of_nonneg_right hv1 hηl
  have h12 : v * (φ.η * m) ≤ 1 / 100000 * (φ.η * m) := mul_le_mul_of_nonneg_right hv1 hηm
  have h13 : 0 ≤ v * W := by positivity
  have h14 : 0 ≤ v * T := by positivity
  have e1 : 4 * (m:ℝ) * φ.u * (T + W) = 4 * (v * T) + 4 * (v * W) := by rw [hv]; ring
  rw [e1]
  linarith

theorem mv_err (n : Nat) (hn : n ≤ 29) (hu' : φ.u ≤ 1 / 2 ^ 24) (J : Mat (Fl φ)) (d : Nat → Fl φ) (i : Nat) {R : ℝ} (hR : 0 ≤ R) (hJ : ∀ c < n, |(J i c).val| ≤ R) :
    |(mv n J d i).val - ∑ c ∈ range n, (J i c).val * (d c).val| ≤ 11 / 10 * (n + 1) * φ.u * (R * ∑ c ∈ range n, |(d c).val|) + 101 / 100 * n * φ.η := by
  have hu := φ.u_nonneg
  have hη := φ.η_nonneg
  have h0 : Near φ 1 0 (0 : Fl φ).val 0 0 := by
    have := (Near.exact (φ := φ) (0:ℝ)).mono (l := 1) (by omega) le_rfl
    rwa [abs_zero] at this
  have h1 := (addLoop_near 0 (fun c => J i c) d le_rfl h0 n 0).bound
  simp only [Nat.zero_add, _root_.zero_add] at h1
  have h3 := pow_sub_one_le hu hu' (1 + n) (n + 1) (by omega) (by omega)
  have h4 : ∑ c ∈ range n, |(J i c).val| * |(d c).val| ≤ R * ∑ c ∈ range n, |(d c).val| := by
    rw [mul_sum]
    exact sum_le_sum fun c hc => mul_le_mul_of_nonneg_right (hJ c (mem_range.mp hc)) (abs_nonneg _)
  have h5 : 0 ≤ ∑ c ∈ range n, |(J i c).val| * |(d c).val| := sum_nonneg fun c _ => by positivity
  have h30 : 0 ≤ (1 + φ.u) ^ (1 + n) - 1 := by linarith [Near.one_le_pow φ (1 + n)]
  set G := (1 + φ.u) ^ (1 + n)
  set T := ∑ c ∈ range n, |(J i c).val| * |(d c).val|
  set Q := R * ∑ c ∈ range n, |(d c).val|
  have hn' : (n:ℝ) ≤ 29 := by exact_mod_cast hn
  have hn0 : (0:ℝ) ≤ n := Nat.cast_nonneg n
  push_cast at h3
  have h6 : (n + 1 : ℝ) * φ.u ≤ 30 * (1 / 2 ^ 24) := mul_le_mul (by linarith) hu' hu (by norm_num)
  have hG : G ≤ 101 / 100 := by nlinarith
  have h7 : (G - 1) * T ≤ (1001 / 1000 * (n + 1) * φ.u) * Q := mul_le_mul h3 h4 h5 (by positivity)
  have h8 : G * (n * φ.η) ≤ 101 / 100 * (n * φ.η) := mul_le_mul_of_nonneg_right hG (by positivity)
  have h9 : 0 ≤ (n + 1 : ℝ) * φ.u * Q := by
    have : 0 ≤ Q := h5.trans h4
    positivity
  refine le_trans h1 ?_
  linarith

/-- products of two rows -/
def rowProd (n : Nat) (J : Mat (Fl φ)) (k j : Nat) : ℝ := ∑ c ∈ range n, (J k c).val * (J j c).val

/-- the values of the entries -/
def valM (J : Mat (Fl φ)) (r c : Nat) : ℝ := (J r c).val

/-- the limits of the format are no obstacle for a matrix with rows of length `√D` and condition `D / lam` -/
structure Fits (φ : Format) (m n : ℕ) (D lam : ℝ) : Prop where
  m_pos : 1 ≤ m
  mn : m ≤ n
  n_le : n ≤ 29
  u_pos : 0 < φ.u
  u_le : φ.u ≤ 1 / 2 ^ 24
  η_le : φ.η ≤ φ.u
  low : φ.η ≤ φ.u ^ 2 * D
  high : 8 * φ.η ^ 2 * D ≤ φ.u ^ 2
  lam_pos : 0 < lam
  cond : 50 * m * n * φ.u * D ≤ lam

/-- the factorisation of `J Jᵀ` -/
theorem factor_ok {m n : ℕ} {D lam : ℝ} (hf : Fits φ m n D lam) (J : Mat (Fl φ)) (mem mem' : Mat (Fl φ))
    (hrow : RowsWithin m n (valM J) D) (hind : IndependentBy m n (valM J) lam) :
    ∃ L, cholesky_L m (AAT_L n J mem) mem' = some L ∧ (∀ i < m, 0 < (L i i).val) ∧
      ∀ k j, j ≤ k → k < m → |rowProd n J k j - ∑ a ∈ range (j + 1), (L k a).val * (L j a).val| ≤ 17 * n * φ.u * D := by
  obtain ⟨hm, hmn, hn, hu, hu', hη, hlow, hhigh, hlam0, hlam⟩ := hf
  have hm1 : (1:ℝ) ≤ m := by exact_mod_cast hm
  have hn1 : (1:ℝ) ≤ n := by exact_mod_cast (hm.trans hmn)
  have hmn' : (m:ℝ) ≤ n := by exact_mod_cast hmn
  have hn' : (n:ℝ) ≤ 29 := by exact_mod_cast hn
  have hη0 := φ.η_nonneg
  have hu2 : φ.u ≤ 1 / 10000000 := hu'.trans (by norm_num)
  have hrow' : ∀ k, k < m → ∑ c ∈ range n, valM J k c ^ 2 ≤ D := fun k hk => by
    have := hrow ⟨k, hk⟩
    rwa [← sum_range (fun c => valM J k c ^ 2)] at this
  have hD : 0 ≤ D := (sum_nonneg fun c _ => sq_nonneg _).trans (hrow' 0 (by omega))
  have huD : 0 ≤ φ.u * D := mul_nonneg hu.le hD
  set S : ℕ → ℕ → ℝ := fun k j => ∑ c ∈ range n, valM J k c * valM J j c with hS
  have hSs : ∀ k j, S k j = S j k := fun k j => sum_congr rfl fun c _ => mul_comm _ _
  set A := AAT_L n J mem with hAd
  set F := 31 / 10 * n * φ.u * D with hF
  have hF0 : 0 ≤ F := by positivity
  have hgram : ∀ k j, j ≤ k → k < m → |(A k j).val - S k j| ≤ F ∧ |S k j| ≤ D := fun k j hjk hk =>
    gram_bound hu hu' hlow hD n (by omega) hn J (valM J) mem k j hjk
      (fun r c hc hr => by rw [valM, _root_.sub_self, abs_zero]; positivity) (hrow' k hk) (hrow' j (by omega))
  have hFD : F ≤ 1 / 1000 * D := by
    have : 31 / 10 * (n:ℝ) * φ.u ≤ 1 / 1000 := by nlinarith
    exact mul_le_mul_of_nonneg_right this hD
  set D' := 1001 / 1000 * D with hD'
  have hR : InRange φ D' := by
    refine ⟨hu, hu', hη, hlow.trans ?_, ?_⟩
    · exact mul_le_mul_of_nonneg_left (by linarith) (by positivity)
    · have : 0 ≤ φ.η ^ 2 * D := by positivity
      rw [hD']
      linarith
  have hA : ∀ k l, l ≤ k → k < m → |(A k l).val| ≤ D' := fun k l hlk hk => by
    obtain ⟨h1, h2⟩ := hgram k l hlk hk
    have := abs_add_le ((A k l).val - S k l) (S k l)
    rw [sub_add_cancel] at this
    linarith
  have hsym : ∀ k j : Fin m, |symVal A k j - S k j| ≤ F := fun k j => by
    rcases le_total (j : ℕ) k with h | h
    · rw [symVal_lower A h]; exact (hgram k j h k.2).1
    · rw [symVal_comm, symVal_lower A h, hSs]; exact (hgram j k h j.2).1
  -- sizes
  set X := m * n * φ.u * D with hX
  have hX0 : 0 ≤ X := by positivity
  have hmF : m * F = 31 / 10 * X := by rw [hF, hX]; ring
  have hmm : (m:ℝ) * m * (φ.u * D) ≤ X := by
    rw [hX]
    have : (m:ℝ) * m * (φ.u * D) ≤ m * n * (φ.u * D) := by gcongr
    linarith
  have hmm1 : (m:ℝ) * (φ.u * D) ≤ m * m * (φ.u * D) := by
    have h0 : 0 ≤ m * (φ.u * D) := by positivity
    nlinarith
  have hmm0 : φ.u * D ≤ m * (φ.u * D) := by nlinarith
  have hback : backErr φ m D' = 1001 / 1000 * (3 * (m * (φ.u * D)) + 10 * (φ.u * D)) := by rw [backErr, hD']; ring
  have hE0 : 0 ≤ backErr φ m D' := by rw [hback]; positivity
  have hE1 : backErr φ m D' ≤ 1302 / 100 * (n * (φ.u * D)) := by
    rw [hback]
    have h1 : (m:ℝ) * (φ.u * D) ≤ n * (φ.u * D) := mul_le_mul_of_nonneg_right hmn' huD
    linarith
  have hmE : m * backErr φ m D' ≤ 1302 / 100 * X := by
    have := mul_le_mul_of_nonneg_left hE1 (by linarith : (0:ℝ) ≤ m)
    rw [hX]
    linarith
  have h2mE : (2 * m + 1) * backErr φ m D' ≤ 392 / 10 * X := by
    have : backErr φ m D' ≤ m * backErr φ m D' := by nlinarith
    linarith
  have hlamX : 50 * X ≤ lam := by rw [hX]; linarith
  have hq : ∀ w : ℕ → ℝ, (lam - m * F) * ∑ k ∈ range m, w k ^ 2 ≤ FloatVol.quad m (symVal A) w := fun w => by
    have h1 := form_close m (fun k j => symVal A k j) (fun k j => S k j) hsym (fun k => w k)
    have h2 := hind (fun k => w k)
    rw [form_gram] at h2
    rw [FloatVol.quad, sum_range, sum_congr rfl fun k _ => sum_range _, sum_range]
    have := (abs_le.mp h1).1
    linarith
  obtain ⟨L, hL, hc⟩ := cholesky_ok m (by omega) A (D := D') (lam := lam - m * F) hR hA (by linarith) (by
    rcases hX0.lt_or_eq with h | h
    · linarith
    · rw [hmF, ← h]; linarith) hq mem'
  refine ⟨L, hL, hc.diag, fun k j hjk hk => ?_⟩
  have h1 := (hgram k j hjk hk).1
  have h2 := hc.back k j (by omega) hjk hk
  rw [abs_sub_comm] at h1
  have := abs_add_le (S k j - (A k j).val) ((A k j).val - ∑ a ∈ range (j + 1), (L k a).val * (L j a).val)
  rw [sub_add_sub_cancel] at this
  change |S k j - _| ≤ _
  rw [hF] at h1
  linarith

/-- the sum of the absolute values -/
def norm1 (m : Nat) (v : Nat → ℝ) : ℝ := ∑ k ∈ range m, |v k|

theorem norm1_nonneg (m : Nat) (v : Nat → ℝ) : 0 ≤ norm1 m v := sum_nonneg fun _ _ => abs_nonneg _

theorem norm1_le {m : Nat} {v : Nat → ℝ} {b : ℝ} (h : ∀ k < m, |v k| ≤ b) : norm1 m v ≤ m * b := by
  have := sum_le_sum fun k (hk : k ∈ range m) => h k (mem_range.mp hk)
  rwa [sum_const, card_range, nsmul_eq_mul] at this

theorem sum_mul_le {ι : Type} (s : Finset ι) (a b : ι → ℝ) {r : ℝ} (hr : 0 ≤ r) (h : ∀ i ∈ s, |a i| ≤ r) :
    ∑ i ∈ s, |a i| * |b i| ≤ r * ∑ i ∈ s, |b i| := by
  rw [mul_sum]
  exact sum_le_sum fun i hi => mul_le_mul_of_nonneg_right (h i hi) (abs_nonneg _)

theorem abs_sum_mul_le {ι : Type} (s : Finset ι) (a b : ι → ℝ) {r : ℝ} (hr : 0 ≤ r) (h : ∀ i ∈ s, |a i| ≤ r) :
    |∑ i ∈ s, a i * b i| ≤ r * ∑ i ∈ s, |b i| :=
  (abs_sum_le_sum_abs _ _).trans ((le_of_eq (sum_congr rfl fun _ _ => abs_mul _ _)).trans (sum_mul_le s a b hr h))

/-- the lower triangle -/
def tri (L : Mat (Fl φ)) (k a : Nat) : ℝ := if a ≤ k then (L k a).val else 0

theorem tri_row (L : Mat (Fl φ)) (f : Nat → ℝ) {i m : Nat} (hi : i < m) :
    ∑ j ∈ range m, tri L i j * f j = (∑ j ∈ range i, (L i j).val * f j) + (L i i).val * f i := by
  rw [← sum_range_succ (fun j => (L i j).val * f j), ← sum_subset (range_subset_range.2 (show i + 1 ≤ m by omega))]
  · exact sum_congr rfl fun j hj => by rw [tri, if_pos (by have := mem_range.mp hj; omega)]
  · intro j _ hj
    rw [tri, if_neg (by intro h; exact hj (mem_range.2 (by omega))), MulZeroClass.zero_mul]

theorem tri_col (L : Mat (Fl φ)) (f : Nat → ℝ) {i m : Nat} (hi : i < m) :
    ∑ k ∈ range m, tri L k i * f k = (∑ j ∈ range (m - (i + 1)), (L (i + 1 + j) i).val * f (i + 1 + j)) + (L i i).val * f i := by
  have h0 : ∑ k ∈ Ico 0 i, tri L k i * f k = 0 := sum_eq_zero fun k hk => by
    rw [tri, if_neg (by have := mem_Ico.1 hk; omega), MulZeroClass.zero_mul]
  rw [range_eq_Ico, ← sum_Ico_consecutive _ (Nat.zero_le i) hi.le, h0, _root_.zero_add, sum_eq_sum_Ico_succ_bot hi, sum_Ico_eq_sum_range,
    _root_.add_comm]
  congr 1
  · exact sum_congr rfl fun j _ => by rw [tri, if_pos (by omega)]
  · rw [tri, if_pos le_rfl]

theorem subLoop_shift {K : Type} [Sub K] (a : K) (lo hi : Nat) (f : Nat → K) : subLoop a lo hi f = subLoop a 0 (hi - lo) fun j => f (lo + j) := by
  rw [subLoop, subLoop, Nat.sub_zero, ← Nat.add_zero lo, List.range'_eq_map_range, List.range'_eq_map_range, List.foldl_map, List.foldl_map]
  simp only [Nat.add_zero, Nat.zero_add]

/-- both substitutions together -/
theorem subst_ok (m : Nat) (hm : m ≤ 29) (hu' : φ.u ≤ 1 / 2 ^ 24) (L : Mat (Fl φ)) (b : Nat → Fl φ) {l : ℝ} (hl : 0 ≤ l)
    (hd : ∀ i < m, 0 < (L i i).val) (hL : ∀ k j, j ≤ k → k < m → |(L k j).val| ≤ l) (i : Nat) (hi : i < m) :
    |(b i).val - ∑ k ∈ range m, (∑ a ∈ range m, tri L i a * tri L k a) * (invLTx m L (invLx m L b) k).val| ≤
      81 / 10 * m ^ 2 * φ.u * l ^ 2 * norm1 m (fun k => (invLTx m L (invLx m L b) k).val) + 2 * φ.η * (m + l) * (1 + 101 / 100 * m * l) := by
  have hu := φ.u_nonneg
  have hη := φ.η_nonneg
  have hm1 : (1:ℝ) ≤ m := by exact_mod_cast (by omega : 1 ≤ m)
  have hm' : (m:ℝ) ≤ 29 := by exact_mod_cast hm
  set w := invLx m L b with hw
  set z := invLTx m L w with hz
  set Z := norm1 m (fun k => (z k).val) with hZ
  set W := norm1 m (fun k => (w k).val) with hW
  have hZ0 : 0 ≤ Z := norm1_nonneg _ _
  have hW0 : 0 ≤ W := norm1_nonneg _ _
  have ht : ∀ k a, k < m → |tri L k a| ≤ l := fun k a hk => by
    rw [tri]
    split
    · rename_i h; exact hL k a h hk
    · rw [abs_zero]; exact hl
  have habs : ∀ k a, |tri L k a| = if a ≤ k then |(L k a).val| else 0 := fun k a => by rw [tri]; split <;> simp
  -- the rows
  have h1 : ∀ i < m, |(b i).val - ∑ j ∈ range m, tri L i j * (w j).val| ≤ 4 * m * φ.u * (l * W) + 2 * φ.η * (m + l) := fun i hi => by
    have h := sub_div_err (b i) (L i i) (fun j => L i j) w i m hi hm hu' (hd i hi)
    rw [← invLx_spec m L b i hi, ← hw] at h
    rw [tri_row L (fun j => (w j).val) hi]
    refine h.trans (add_le_add (mul_le_mul_of_nonneg_left ?_ (by positivity)) (mul_le_mul_of_nonneg_left ?_ (by positivity)))
    · have e := sum_mul_le (range (i + 1)) (fun j => (L i j).val) (fun j => (w j).val) hl fun j hj => hL i j (by have := mem_range.mp hj; omega) hi
      rw [sum_range_succ, abs_of_pos (hd i hi)] at e
      refine e.trans (mul_le_mul_of_nonneg_left ?_ hl)
      exact sum_le_sum_of_subset_of_nonneg (range_subset_range.2 (by omega)) fun _ _ _ => abs_nonneg _
    · have := hL i i le_rfl hi
      rw [abs_of_pos (hd i hi)] at this
      linarith
  have h2 : ∀ i < m, |(w i).val - ∑ k ∈ range m, tri L k i * (z k).val| ≤ 4 * m * φ.u * (l * Z) + 2 * φ.η * (m + l) := fun i hi => by
    have h := sub_div_err (w i) (L i i) (fun j => L (i + 1 + j) i) (fun j => z (i + 1 + j)) (m - (i + 1)) m (by omega) hm hu' (hd i hi)
    have e := invLTx_spec m L w i hi
    rw [subLoop_shift, ← hz] at e
    rw [← e] at h
    rw [tri_col L (fun j => (z j).val) hi]
    refine h.trans (add_le_add (mul_le_mul_of_nonneg_left ?_ (by positivity)) (mul_le_mul_of_nonneg_left ?_ (by positivity)))
    · have e1 := sum_mul_le (range m) (fun k => tri L k i) (fun k => (z k).val) hl fun k hk => ht k i (mem_range.mp hk)
      have e2 := tri_col (fun a b => HasAbs.abs (L a b)) (fun j => |(z j).val|) hi
      have e3 : ∀ k a, tri (fun a b => HasAbs.abs (L a b)) k a = |tri L k a| := fun k a => by rw [habs]; rfl
      simp only [e3] at e2
      rw [e2] at e1
      refine le_trans (le_of_eq ?_) e1
      congr 1
      change _ = |(L i i).val| * _
      rw [abs_of_pos (hd i hi)]
    · have := hL i i le_rfl hi
      rw [abs_of_pos (hd i hi)] at this
      linarith
  set ε := 2 * φ.η * (m + l) with hε
  have hε0 : 0 ≤ ε := by positivity
  have hmu : (m:ℝ) * φ.u ≤ 29 * (1 / 2 ^ 24) := mul_le_mul hm' hu' hu (by norm_num)
  have hlZ : 0 ≤ l * Z := by positivity
  have h3 : W ≤ m * (1001 / 1000 * (l * Z) + ε) := norm1_le fun i hi => by
    have e1 := h2 i hi
    have e2 := abs_sum_mul_le (range m) (fun k => tri L k i) (fun k => (z k).val) hl fun k hk => ht k i (mem_range.mp hk)
    have e3 := abs_add_le ((w i).val - ∑ k ∈ range m, tri L k i * (z k).val) (∑ k ∈ range m, tri L k i * (z k).val)
    rw [sub_add_cancel] at e3
    have e4 : 4 * m * φ.u * (l * Z) ≤ 1 / 1000 * (l * Z) := mul_le_mul_of_nonneg_right (by linarith) hlZ
    change |∑ k ∈ range m, tri L k i * (z k).val| ≤ l * Z at e2
    linarith
  -- together
  have h4 : ∑ k ∈ range m, (∑ a ∈ range m, tri L i a * tri L k a) * (z k).val = ∑ a ∈ range m, tri L i a * ∑ k ∈ range m, tri L k a * (z k).val := by
    simp only [sum_mul, mul_sum]
    rw [sum_comm]
    exact sum_congr rfl fun a _ => sum_congr rfl fun k _ => by ring
  have h5 : |∑ a ∈ range m, tri L i a * ((w a).val - ∑ k ∈ range m, tri L k a * (z k).val)| ≤ l * (m * (4 * m * φ.u * (l * Z) + ε)) :=
    (abs_sum_mul_le (range m) (fun a => tri L i a) _ hl fun a _ => ht i a hi).trans (mul_le_mul_of_nonneg_left (norm1_le fun a ha => h2 a ha) hl)
  have h6 : (b i).val - ∑ a ∈ range m, tri L i a * ∑ k ∈ range m, tri L k a * (z k).val =
      ((b i).val - ∑ j ∈ range m, tri L i j * (w j).val) + ∑ a ∈ range m, tri L i a * ((w a).val - ∑ k ∈ range m, tri L k a * (z k).val) := by
    simp only [mul_sub, sum_sub_distrib]
    ring
  rw [h4, h6]
  refine (abs_add_le _ _).trans ?_
  have h7 := h1 i hi
  have h8 : 4 * m * φ.u * (l * W) ≤ 4 * m * φ.u * (l * (m * (1001 / 1000 * (l * Z) + ε))) := by gcongr
  have e1 : 4 * m * φ.u * (l * (m * (1001 / 1000 * (l * Z) + ε))) = 4004 / 1000 * (m ^ 2 * φ.u * l ^ 2 * Z) + 4 * (m * φ.u) * (m * (l * ε)) := by ring
  have e2 : l * (m * (4 * m * φ.u * (l * Z) + ε)) = 4 * (m ^ 2 * φ.u * l ^ 2 * Z) + m * (l * ε) := by ring
  have h9 : 4 * (m * φ.u) * (m * (l * ε)) ≤ 1 / 100 * (m * (l * ε)) := mul_le_mul_of_nonneg_right (by linarith) (by positivity)
  have h10 : 0 ≤ m ^ 2 * φ.u * l ^ 2 * Z := by positivity
  have e3 : ε * (1 + 101 / 100 * m * l) = ε + 101 / 100 * (m * (l * ε)) := by ring
  rw [e3]
  linarith

/-- a vector is bounded by its product with a positive definite matrix -/
theorem form_lower {m n : ℕ} {lam r : ℝ} (hlam : 0 < lam) (J : Mat (Fl φ)) (hind : IndependentBy m n (valM J) lam) (v : Nat → ℝ)
    (h : ∀ i < m, |∑ k ∈ range m, rowProd n J i k * v k| ≤ r) : lam * norm1 m v ≤ m * r := by
  have h1 := hind fun k => v k
  rw [form_gram] at h1
  have h2 : ∑ k : Fin m, ∑ j : Fin m, v k * v j * ∑ c ∈ range n, valM J k c * valM J j c = ∑ i ∈ range m, v i * ∑ k ∈ range m, rowProd n J i k * v k := by
    rw [sum_range]
    refine sum_congr rfl fun k _ => ?_
    rw [sum_range, mul_sum]
    refine sum_congr rfl fun j _ => ?_
    change _ = v k * ((∑ c ∈ range n, valM J k c * valM J j c) * v j)
    ring
  have h3 : ∑ i ∈ range m, v i * ∑ k ∈ range m, rowProd n J i k * v k ≤ norm1 m v * r := by
    rw [norm1, sum_mul]
    refine sum_le_sum fun i hi => (le_abs_self _).trans ?_
    rw [abs_mul]
    exact mul_le_mul_of_nonneg_left (h i (mem_range.mp hi)) (abs_nonneg _)
  have h4 : norm1 m v ^ 2 ≤ m * ∑ k ∈ range m, v k ^ 2 := by
    have := sq_sum_le_card_mul_sum_sq (s := range m) (f := fun k => |v k|)
    rw [card_range] at this
    simp only [sq_abs] at this
    exact this
  rw [← sum_range (fun k => v k ^ 2)] at h1
  rcases (norm1_nonneg m v).eq_or_lt with h0 | h0
  · rw [← h0, MulZeroClass.mul_zero]
    rcases Nat.eq_zero_or_pos m with rfl | hm
    · simp
    · have := (abs_nonneg _).trans (h 0 hm)
      positivity
  · have h5 : lam * norm1 m v ^ 2 ≤ m * (norm1 m v * r) := by
      calc lam * norm1 m v ^ 2 ≤ lam * (m * ∑ k ∈ range m, v k ^ 2) := mul_le_mul_of_nonneg_left h4 hlam.le
        _ = m * (lam * ∑ k ∈ range m, v k ^ 2) := by ring
        _ ≤ m * (norm1 m v * r) := mul_le_mul_of_nonneg_left (by linarith) (Nat.cast_nonneg m)
    have h6 : norm1 m v * (lam * norm1 m v) ≤ norm1 m v * (m * r) := by linarith [h5]
    exact le_of_mul_le_mul_left h6 h0

theorem abs_terms {m n R : ℝ} (h1 : 1 ≤ m) (h2 : m ≤ n) (hR : 0 ≤ R) :
    101 / 100 * n + 2 * (m + 1001 / 1000 * R) * (1 + 101 / 100 * m * (1001 / 1000 * R)) ≤ 4 * n ^ 2 * (1 + R) ^ 2 := by
  have hm0 : 0 ≤ m := by linarith
  have hn0 : 0 ≤ n := by linarith
  have e4 : (m + 1001 / 1000 * R) ≤ n * (1 + 1001 / 1000 * R) := by nlinarith
  have e5 : 1 + 101 / 100 * m * (1001 / 1000 * R) ≤ n * (1 + 102 / 100 * R) := by nlinarith [mul_nonneg (sub_nonneg.2 h2) hR]
  have e6 : (m + 1001 / 1000 * R) * (1 + 101 / 100 * m * (1001 / 1000 * R)) ≤ (n * (1 + 1001 / 1000 * R)) * (n * (1 + 102 / 100 * R)) :=
    mul_le_mul e4 e5 (by positivity) (by positivity)
  have e7 : n ≤ n ^ 2 := by nlinarith
  have e8 : (1 + 1001 / 1000 * R) * (1 + 102 / 100 * R) ≤ 11 / 10 * (1 + R) ^ 2 := by nlinarith
  have e9 : (n * (1 + 1001 / 1000 * R)) * (n * (1 + 102 / 100 * R)) ≤ n ^ 2 * (11 / 10 * (1 + R) ^ 2) := by
    rw [show (n * (1 + 1001 / 1000 * R)) * (n * (1 + 102 / 100 * R)) = n ^ 2 * ((1 + 1001 / 1000 * R) * (1 + 102 / 100 * R)) by ring]
    exact mul_le_mul_of_nonneg_left e8 (by positivity)
  have e10 : n ^ 2 * 1 ≤ n ^ 2 * (1 + R) ^ 2 := mul_le_mul_of_nonneg_left (by nlinarith) (by positivity)
  linarith

theorem size_terms {m n : ℝ} (h1 : 1 ≤ m) (h2 : m ≤ n) : 81 / 10 * (1001 / 1000) ^ 2 * m ^ 2 + 17 * n ≤ 26 * n ^ 2 := by
  have : m ^ 2 ≤ n ^ 2 := pow_le_pow_left₀ (by linarith) h2 2
  nlinarith

/-- **The solver** succeeds for matrices of bounded condition.  Its result `z` satisfies, for every `e`, a bound of the distance to
`e` by the residual of `e` and rounding errors. -/
theorem solve_ok {m n : ℕ} {R lam : ℝ} (hf : Fits φ m n (R ^ 2) lam) (hR : 0 ≤ R) (J : Mat (Fl φ)) (d : Nat → Fl φ) (mem : Mat (Fl φ))
    (hrow : RowsWithin m n (valM J) (R ^ 2)) (hind : IndependentBy m n (valM J) lam) :
    ∃ z, xTRightInvA m n J d mem = (true, z) ∧ ∀ e : Nat → ℝ, lam * norm1 m (fun k => (z k).val - e k) ≤
      m * (26 * n ^ 2 * φ.u * R ^ 2 * norm1 m (fun k => (z k).val) + 22 / 10 * n * φ.u * (R * norm1 n fun c => (d c).val) +
        R * norm1 n (fun c => (d c).val - ∑ k ∈ range m, e k * (J k c).val) + 4 * n ^ 2 * φ.η * (1 + R) ^ 2) := by
  obtain ⟨L, hL, hd, hb⟩ := factor_ok hf J mem mem hrow hind
  obtain ⟨hm, hmn, hn, hu, hu', hη', hlow, hhigh, hlam0, hlam⟩ := hf
  have hη := φ.η_nonneg
  have hm1 : (1:ℝ) ≤ m := by exact_mod_cast hm
  have hn1 : (1:ℝ) ≤ n := by exact_mod_cast (hm.trans hmn)
  have hmn' : (m:ℝ) ≤ n := by exact_mod_cast hmn
  have hn' : (n:ℝ) ≤ 29 := by exact_mod_cast hn
  have hu2 : φ.u ≤ 1 / 10000000 := hu'.trans (by norm_num)
  refine ⟨invLTx m L (invLx m L (mv n J d)), by rw [xTRightInvA, spdInvAx, hL], fun e => ?_⟩
  set z := invLTx m L (invLx m L (mv n J d)) with hz
  set Z := norm1 m (fun k => (z k).val) with hZ
  have hZ0 : 0 ≤ Z := norm1_nonneg _ _
  have hrow' : ∀ k, k < m → ∑ c ∈ range n, (J k c).val ^ 2 ≤ R ^ 2 := fun k hk => by
    have := hrow ⟨k, hk⟩
    rwa [← sum_range (fun c => valM J k c ^ 2)] at this
  have hJ : ∀ k, k < m → ∀ c < n, |(J k c).val| ≤ R := fun k hk c hc => by
    refine abs_le_of_sq_le_sq (le_trans ?_ (hrow' k hk)) hR
    exact single_le_sum (f := fun c => (J k c).val ^ 2) (fun c _ => sq_nonneg _) (mem_range.2 hc)
  have hnu : (n:ℝ) * φ.u ≤ 29 * (1 / 2 ^ 24) := mul_le_mul hn' hu' hu.le (by norm_num)
  have hR2 : 0 ≤ R ^ 2 := sq_nonneg R
  -- products of the factor
  have hLL : ∀ k j, j ≤ k → k < m → ∑ a ∈ range m, tri L k a * tri L j a = ∑ a ∈ range (j + 1), (L k a).val * (L j a).val := fun k j hjk hk => by
    rw [sum_congr rfl fun a _ => mul_comm (tri L k a) (tri L j a), tri_row L (fun a => tri L k a) (by omega : j < m), sum_range_succ]
    congr 1
    · exact sum_congr rfl fun a ha => by rw [tri, if_pos (by have := mem_range.mp ha; omega)]; ring
    · rw [tri, if_pos hjk]; ring
  have hb' : ∀ i k, i < m → k < m → |rowProd n J i k - ∑ a ∈ range m, tri L i a * tri L k a| ≤ 17 * n * φ.u * R ^ 2 := fun i k hi hk => by
    rcases le_total k i with h | h
    · rw [hLL i k h hi]; exact hb i k h hi
    · have e1 : rowProd n J i k = rowProd n J k i := sum_congr rfl fun c _ => mul_comm _ _
      rw [e1, sum_congr rfl fun a _ => mul_comm (tri L i a) (tri L k a), hLL k i h hk]
      exact hb k i h hk
  have hl : ∀ k j, j ≤ k → k < m → |(L k j).val| ≤ 1001 / 1000 * R := fun k j hjk hk => by
    refine abs_le_of_sq_le_sq ?_ (by positivity)
    have h1 := (abs_le.mp (hb k k le_rfl hk)).1
    have h2 : (L k j).val ^ 2 ≤ ∑ a ∈ range (k + 1), (L k a).val * (L k a).val := by
      rw [sq]
      exact single_le_sum (f := fun a => (L k a).val * (L k a).val) (fun a _ => mul_self_nonneg _) (mem_range.2 (by omega))
    have h3 : rowProd n J k k ≤ R ^ 2 := by
      refine le_trans (le_of_eq (sum_congr rfl fun c _ => ?_)) (hrow' k hk)
      ring
    have h4 : 17 * n * φ.u * R ^ 2 ≤ 1 / 1000 * R ^ 2 := mul_le_mul_of_nonneg_right (by linarith) hR2
    nlinarith
  refine form_lower hlam0 J hind _ fun i hi => ?_
  have h1 := subst_ok m (by omega) hu' L (mv n J d) (l := 1001 / 1000 * R) (by positivity) hd hl i hi
  rw [← hz] at h1
  have h2 := mv_err n hn hu' J d i hR (hJ i hi)
  have h3 : |∑ k ∈ range m, (rowProd n J i k - ∑ a ∈ range m, tri L i a * tri L k a) * (z k).val| ≤ 17 * n * φ.u * R ^ 2 * Z :=
    abs_sum_mul_le (range m) (fun k => rowProd n J i k - ∑ a ∈ range m, tri L i a * tri L k a) _ (by positivity) fun k hk => hb' i k hi (mem_range.mp hk)
  have h4 : |∑ c ∈ range n, (J i c).val * ((d c).val - ∑ k ∈ range m, e k * (J k c).val)| ≤ R * norm1 n (fun c => (d c).val - ∑ k ∈ range m, e k * (J k c).val) :=
    abs_sum_mul_le (range n) (fun c => (J i c).val) _ hR fun c hc => hJ i hi c (mem_range.mp hc)
  have e1 : ∑ c ∈ range n, (J i c).val * ∑ k ∈ range m, e k * (J k c).val = ∑ k ∈ range m, rowProd n J i k * e k := by
    simp only [rowProd, sum_mul, mul_sum]
    rw [sum_comm]
    exact sum_congr rfl fun k _ => sum_congr rfl fun c _ => by ring
  have e2 : ∑ k ∈ range m, rowProd n J i k * ((z k).val - e k) =
      ∑ k ∈ range m, (rowProd n J i k - ∑ a ∈ range m, tri L i a * tri L k a) * (z k).val -
      ((mv n J d i).val - ∑ k ∈ range m, (∑ a ∈ range m, tri L i a * tri L k a) * (z k).val) +
      ((mv n J d i).val - ∑ c ∈ range n, (J i c).val * (d c).val) +
      ∑ c ∈ range n, (J i c).val * ((d c).val - ∑ k ∈ range m, e k * (J k c).val) := by
    simp only [mul_sub, sub_mul, sum_sub_distrib]
    rw [e1]
    ring
  rw [e2]
  refine (abs_add_le _ _).trans ((add_le_add_left ((abs_add_le _ _).trans (add_le_add_left (abs_sub _ _) _)) _).trans ?_)
  set N := R * norm1 n fun c => (d c).val with hN
  have hN0 : 0 ≤ N := mul_nonneg hR (norm1_nonneg _ _)
  change _ ≤ 11 / 10 * (n + 1) * φ.u * N + 101 / 100 * n * φ.η at h2
  set P := R * norm1 n (fun c => (d c).val - ∑ k ∈ range m, e k * (J k c).val) with hP
  have h5 : 81 / 10 * m ^ 2 * φ.u * (1001 / 1000 * R) ^ 2 * Z + 17 * n * φ.u * R ^ 2 * Z ≤ 26 * n ^ 2 * φ.u * R ^ 2 * Z := by
    have : 81 / 10 * m ^ 2 * φ.u * (1001 / 1000 * R) ^ 2 * Z + 17 * n * φ.u * R ^ 2 * Z =
      (81 / 10 * (1001 / 1000) ^ 2 * m ^ 2 + 17 * n) * (φ.u * R ^ 2 * Z) := by ring
    rw [this, show 26 * n ^ 2 * φ.u * R ^ 2 * Z = 26 * n ^ 2 * (φ.u * R ^ 2 * Z) by ring]
    exact mul_le_mul_of_nonneg_right (size_terms hm1 hmn') (by positivity)
  have h6 : 11 / 10 * (n + 1) * φ.u * N ≤ 22 / 10 * n * φ.u * N := by
    have : 0 ≤ φ.u * N := by positivity
    nlinarith
  have h7 : 101 / 100 * n * φ.η + 2 * φ.η * (m + 1001 / 1000 * R) * (1 + 101 / 100 * m * (1001 / 1000 * R)) ≤ 4 * n ^ 2 * φ.η * (1 + R) ^ 2 := by
    have e3 : 101 / 100 * n * φ.η + 2 * φ.η * (m + 1001 / 1000 * R) * (1 + 101 / 100 * m * (1001 / 1000 * R)) =
      (101 / 100 * n + 2 * (m + 1001 / 1000 * R) * (1 + 101 / 100 * m * (1001 / 1000 * R))) * φ.η := by ring
    rw [e3, show 4 * n ^ 2 * φ.η * (1 + R) ^ 2 = 4 * n ^ 2 * (1 + R) ^ 2 * φ.η by ring]
    refine mul_le_mul_of_nonneg_right ?_ hη
    exact abs_terms hm1 hmn' hR
  linarith

end Verif.FloatNewton
