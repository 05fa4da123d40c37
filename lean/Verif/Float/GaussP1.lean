import Verif.Float.GaussError
import Verif.Float.VolumeAffine
import Verif.Float.GlobalProps

/-! Linear simplices (`LocalFiniteElementGeometry` with linear shape functions) in floating-point arithmetic: error of `global`, the
Jacobian, and the conditions of `Tame`. -/

namespace Verif.FloatGauss

open Verif.Float Verif.FloatVol Verif.FloatNewton Verif.RefGeom Verif.RefTopo Finset HasSqrt
open Verif.GaussNewton (Code)

variable {φ : Format} {m n : ℕ} {v : Nat → Nat → Fl φ}

/-- the simplex with the corners `v 0, …, v m` -/
def simplexGeo (m n : ℕ) (v : Nat → Nat → Fl φ) : LFEGeometry (Fl φ) := p1 m n ((List.range (m + 1)).map v)

/-- the edges at corner 0 -/
def edge (v : Nat → Nat → Fl φ) (k c : Nat) : ℝ := (v (k + 1) c).val - (v 0 c).val

/-- the exact map -/
noncomputable def linearMap (m : ℕ) (v : Nat → Nat → Fl φ) (x : Nat → ℝ) (c : Nat) : ℝ := (v 0 c).val + ∑ k ∈ range m, x k * edge v k c

theorem foldl_at {K : Type} [Add K] (g : Nat → Nat → K) (l : List Nat) (o : Nat → K) (c : Nat) :
    l.foldl (fun out i => fun j => out j + g i j) o c = l.foldl (fun a i => a + g i c) (o c) := by
  induction l generalizing o with
  | nil => rfl
  | cons i l ih => rw [List.foldl_cons, List.foldl_cons, ih]

theorem simplexGeo_global (x : Nat → Fl φ) (c : Nat) :
    (simplexGeo m n v).global x c = (List.range' 0 m).foldl (fun o i => o + x i * v (i + 1) c) (0 + subLoop 1 0 m x * v 0 c) := by
  rw [simplexGeo, p1, LFEGeometry.global]
  simp only [p1Function]
  rw [List.range_succ_eq_map, List.map_cons, List.zip_cons_cons, List.foldl_cons, List.map_map, List.zip_map', List.foldl_map, subLoop, Nat.sub_zero,
    ← List.range_eq_range']
  exact foldl_at (fun i j => x i * v (i + 1) j) (List.range m) _ c

theorem foldl_unit (a : Fl φ) (w : Nat → Fl φ) (k : Nat) : ∀ m, (List.range m).foldl (fun o i => o + (if i = k then (1 : Fl φ) else 0) * w i) a = if k < m then a + w k else a
  | 0 => by simp
  | m + 1 => by
    rw [List.range_succ, List.foldl_append, List.foldl_cons, List.foldl_nil, foldl_unit a w k m]
    rcases lt_trichotomy k m with h | rfl | h
    · rw [if_pos h, if_neg (by omega), Fl.zero_mul, Fl.add_zero, if_pos (by omega)]
    · rw [if_neg (by omega), if_pos rfl, Fl.one_mul, if_pos (by omega)]
    · rw [if_neg (by omega), if_neg (by omega), Fl.zero_mul, Fl.add_zero, if_neg (by omega)]

theorem foldl_at2 {K : Type} [Add K] (g : Nat → Nat → Nat → K) (l : List Nat) (o : Nat → Nat → K) (k c : Nat) :
    l.foldl (fun out i => fun k j => out k j + g i k j) o k c = l.foldl (fun a i => a + g i k c) (o k c) := by
  induction l generalizing o with
  | nil => rfl
  | cons i l ih => rw [List.foldl_cons, List.foldl_cons, ih]

theorem neg_one_mul (a : Fl φ) : -1 * a = -a := Fl.ext (by
  rw [Fl.mul_val, Fl.neg_val, Fl.one_val, Fl.neg_val, _root_.neg_one_mul]
  exact φ.rd_neg _ a.rep)

theorem simplexGeo_jt (x : Nat → Fl φ) {k : Nat} (hk : k < m) (c : Nat) :
    (simplexGeo m n v).jacobianTransposed x k c = -v 0 c + v (k + 1) c := by
  rw [simplexGeo, p1, LFEGeometry.jacobianTransposed]
  simp only [p1Jacobian]
  rw [List.range_succ_eq_map, List.map_cons, List.zip_cons_cons, List.foldl_cons, List.map_map, List.zip_map', List.foldl_map]
  have h1 := foldl_at2 (fun i k j => (if i = k then (1 : Fl φ) else 0) * v (i + 1) j) (List.range m) (fun k j => 0 + -1 * v 0 j) k c
  have h2 := foldl_unit (0 + -1 * v 0 c) (fun i => v (i + 1) c) k m
  rw [if_pos hk] at h2
  refine (h1.trans h2).trans ?_
  rw [neg_one_mul, Fl.zero_add]

theorem jt_err (x : Nat → Fl φ) {k : Nat} (hk : k < m) (c : Nat) :
    |((simplexGeo m n v).jacobianTransposed x k c).val - edge v k c| ≤ φ.u * |edge v k c| := by
  rw [simplexGeo_jt x hk]
  have h := Fl.add_err (-v 0 c) (v (k + 1) c)
  rw [Fl.neg_val, show -(v 0 c).val + (v (k + 1) c).val = edge v k c by rw [edge]; ring] at h
  exact h

/-! ### The error of the map -/

/-- the error of `global` -/
noncomputable def p1Err (φ : Format) (m : ℕ) (M : ℝ) : ℝ := 15 * (m + 1) * φ.u * M + 2 * (m + 1) * φ.η * (1 + M)

theorem p1Err_nonneg {M : ℝ} (hM : 0 ≤ M) : 0 ≤ p1Err φ m M := by
  have := φ.u_nonneg
  have := φ.η_nonneg
  rw [p1Err]; positivity

theorem global_err (hm : m ≤ 14) (hu : φ.u ≤ 1 / 2 ^ 24) {M : ℝ} {c : Nat} (hM : ∀ k ≤ m, |(v k c).val| ≤ M) (x : Nat → Fl φ)
    (hx : norm1 m (vals x) ≤ 3) : |((simplexGeo m n v).global x c).val - linearMap m v (vals x) c| ≤ p1Err φ m M := by
  have hM0 : 0 ≤ M := (abs_nonneg _).trans (hM 0 (Nat.zero_le _))
  have hη := φ.η_nonneg
  have hu0 := φ.u_nonneg
  have h1 := subLoop_near (1 : Fl φ) x (fun _ => 1) m
  simp only [Fl.mul_one, Fl.one_val, abs_one, _root_.mul_one] at h1
  have h2 := (h1.mul ((Near.exact (φ := φ) (v 0 c).val).mono_m (hM 0 (Nat.zero_le _))))
  rw [← Fl.zero_add (subLoop 1 0 m x * v 0 c)] at h2
  have h3 := (addLoop_near (0 + subLoop 1 0 m x * v 0 c) x (fun i => v (i + 1) c) (by omega) h2 m 0)
  rw [← simplexGeo_global (n := n)] at h3
  simp only [_root_.zero_add] at h3
  have e : (1 - ∑ i ∈ range m, (x i).val) * (v 0 c).val + ∑ i ∈ range m, (x i).val * (v (i + 1) c).val = linearMap m v (vals x) c := by
    rw [linearMap]
    simp only [edge, vals, mul_sub, sum_sub_distrib, sub_mul, sum_mul]
    ring
  rw [e] at h3
  have hs : ∑ i ∈ range m, |(x i).val| ≤ 3 := hx
  have hs' : ∑ i ∈ range m, |(x i).val| * |(v (i + 1) c).val| ≤ 3 * M := by
    refine (sum_le_sum fun i hi => mul_le_mul_of_nonneg_left (hM (i + 1) (by have := mem_range.1 hi; omega)) (abs_nonneg _)).trans ?_
    rw [← sum_mul]
    exact mul_le_mul_of_nonneg_right hs hM0
  have h4 := (h3.mono_m (n := 7 * M) (by nlinarith)).bound
  have h5 := pow_sub_one_le hu0 hu (m + 1 + 0 + 1 + m) (2 * m + 2) (by omega) (by omega)
  set G := (1 + φ.u) ^ (m + 1 + 0 + 1 + m)
  have hm' : (m:ℝ) ≤ 14 := by exact_mod_cast hm
  have hm0 : (0:ℝ) ≤ m := Nat.cast_nonneg m
  push_cast at h5
  have hG : G ≤ 1001 / 1000 := by
    have : (2 * m + 2 : ℝ) * φ.u ≤ 30 * (1 / 2 ^ 24) := mul_le_mul (by linarith) hu hu0 (by norm_num)
    have : (30:ℝ) * (1 / 2 ^ 24) ≤ 1 / 10000 := by norm_num
    linarith
  have h6 : (G - 1) * (7 * M) ≤ 1001 / 1000 * (2 * m + 2) * φ.u * (7 * M) := mul_le_mul_of_nonneg_right h5 (by positivity)
  have h7 : G * (m * φ.η * M + 0 * (1 + ∑ i ∈ range m, |(x i).val|) + m * φ.η * 0 + φ.η + m * φ.η) ≤
      1001 / 1000 * (m * φ.η * M + 0 * (1 + ∑ i ∈ range m, |(x i).val|) + m * φ.η * 0 + φ.η + m * φ.η) := mul_le_mul_of_nonneg_right hG (by
        have : 0 ≤ (m : ℝ) * φ.η * M := by positivity
        have : 0 ≤ (m : ℝ) * φ.η := by positivity
        linarith)
  refine h4.trans ?_
  rw [p1Err]
  have a1 : 0 ≤ (m:ℝ) * φ.η * M := by positivity
  have a2 : 0 ≤ (m:ℝ) * φ.η := by positivity
  have a3 : 0 ≤ φ.η * M := by positivity
  have a4 : 0 ≤ m * φ.u * M := by positivity
  have a5 : 0 ≤ φ.u * M := by positivity
  linarith

/-! ### The derivatives -/

theorem perturb_rows {R : ℝ} {e J : Nat → Nat → ℝ} (hJ : ∀ k < m, ∀ c < n, |J k c - e k c| ≤ φ.u * |e k c|) (hrow : RowsWithin m n e R) :
    RowsWithin m n J ((1 + φ.u) ^ 2 * R) := by
  intro k
  have hu := φ.u_nonneg
  have : ∀ c : Fin n, J k c ^ 2 ≤ (1 + φ.u) ^ 2 * e k c ^ 2 := fun c => by
    have h1 := hJ k k.2 c c.2
    have h2 : |J k c| ≤ (1 + φ.u) * |e k c| := by
      have := abs_add_le (J k c - e k c) (e k c)
      rw [sub_add_cancel] at this
      linarith
    have := pow_le_pow_left₀ (abs_nonneg _) h2 2
    rwa [mul_pow, sq_abs, sq_abs] at this
  refine (sum_le_sum fun c _ => this c).trans ?_
  rw [← mul_sum]
  exact mul_le_mul_of_nonneg_left (hrow k) (sq_nonneg _)

theorem perturb_indep {R lam : ℝ} {e J : Nat → Nat → ℝ} (hJ : ∀ k < m, ∀ c < n, |J k c - e k c| ≤ φ.u * |e k c|) (hrow : RowsWithin m n e R)
    (hind : IndependentBy m n e lam) (hs : 12 * φ.u ^ 2 * m * R ≤ lam) : IndependentBy m n J (lam / 2) := by
  intro w
  have hu := φ.u_nonneg
  have h1 : ∀ c : Fin n, 3 / 4 * (∑ k : Fin m, w k * e k c) ^ 2 - 3 * (φ.u ^ 2 * ((∑ k : Fin m, w k ^ 2) * ∑ k : Fin m, e k c ^ 2)) ≤ (∑ k : Fin m, w k * J k c) ^ 2 := fun c => by
    have a1 : |∑ k : Fin m, w k * (J k c - e k c)| ≤ φ.u * ∑ k : Fin m, |w k| * |e k c| := by
      refine (abs_sum_le_sum_abs _ _).trans ?_
      rw [mul_sum]
      refine sum_le_sum fun k _ => ?_
      rw [abs_mul]
      have := mul_le_mul_of_nonneg_left (hJ k k.2 c c.2) (abs_nonneg (w k))
      linarith
    have a2 : (∑ k : Fin m, |w k| * |e k c|) ^ 2 ≤ (∑ k : Fin m, w k ^ 2) * ∑ k : Fin m, e k c ^ 2 := by
      have := sum_mul_sq_le_sq_mul_sq univ (fun k : Fin m => |w k|) fun k : Fin m => |e k c|
      simpa only [sq_abs] using this
    have a3 : (∑ k : Fin m, w k * (J k c - e k c)) ^ 2 ≤ φ.u ^ 2 * ((∑ k : Fin m, w k ^ 2) * ∑ k : Fin m, e k c ^ 2) := by
      have := pow_le_pow_left₀ (abs_nonneg _) a1 2
      rw [sq_abs, mul_pow] at this
      exact this.trans (mul_le_mul_of_nonneg_left a2 (sq_nonneg _))
    have a4 : ∑ k : Fin m, w k * J k c = (∑ k : Fin m, w k * e k c) + ∑ k : Fin m, w k * (J k c - e k c) := by
      rw [← sum_add_distrib]
      exact sum_congr rfl fun k _ => by ring
    rw [a4]
    set p := ∑ k : Fin m, w k * e k c
    set q := ∑ k : Fin m, w k * (J k c - e k c)
    nlinarith [sq_nonneg (p / 2 + 2 * q)]
  have h2 := sum_le_sum fun (c : Fin n) (_ : c ∈ univ) => h1 c
  rw [sum_sub_distrib, ← mul_sum, ← mul_sum, ← mul_sum, ← mul_sum] at h2
  have h3 : ∑ c : Fin n, ∑ k : Fin m, e k c ^ 2 ≤ m * R := by
    rw [sum_comm]
    refine (sum_le_sum fun k _ => hrow k).trans ?_
    simp
  have h4 := hind w
  have hW : 0 ≤ ∑ k : Fin m, w k ^ 2 := sum_nonneg fun _ _ => sq_nonneg _
  set W := ∑ k : Fin m, w k ^ 2
  have h5 : φ.u ^ 2 * (W * ∑ c : Fin n, ∑ k : Fin m, e k c ^ 2) ≤ φ.u ^ 2 * (W * (m * R)) :=
    mul_le_mul_of_nonneg_left (mul_le_mul_of_nonneg_left h3 hW) (sq_nonneg _)
  have h6 := mul_le_mul_of_nonneg_right hs hW
  linarith

theorem linear_diff (x z : Nat → ℝ) (c : Nat) : linearMap m v x c - linearMap m v z c = ∑ k ∈ range m, (x k - z k) * edge v k c := by
  simp only [linearMap, sub_mul, sum_sub_distrib]
  ring

theorem edge_norm1 {R : ℝ} (hR : 0 ≤ R) (hrow : RowsWithin m n (edge v) (R ^ 2)) {k : Nat} (hk : k < m) : norm1 n (edge v k) ≤ n * R := by
  refine norm1_le fun c hc => ?_
  refine abs_le_of_sq_le_sq (le_trans ?_ (hrow ⟨k, hk⟩)) hR
  exact single_le_sum (f := fun c : Fin n => edge v k c ^ 2) (fun _ _ => sq_nonneg _) (mem_univ (⟨c, hc⟩ : Fin n))

theorem norm1_comb {B : ℝ} (w : Nat → ℝ) (e : Nat → Nat → ℝ) (he : ∀ k < m, norm1 n (e k) ≤ B) :
    norm1 n (fun c => ∑ k ∈ range m, w k * e k c) ≤ B * norm1 m w := by
  have h1 : norm1 n (fun c => ∑ k ∈ range m, w k * e k c) ≤ ∑ c ∈ range n, ∑ k ∈ range m, |w k| * |e k c| :=
    norm1_mono fun c _ => (abs_sum_le_sum_abs _ _).trans (le_of_eq (sum_congr rfl fun k _ => abs_mul _ _))
  refine h1.trans ?_
  rw [sum_comm, norm1, mul_sum]
  refine sum_le_sum fun k hk => ?_
  rw [← mul_sum, mul_comm]
  exact mul_le_mul_of_nonneg_right (he k (mem_range.1 hk)) (abs_nonneg _)

theorem linear_lower {lam : ℝ} (hlam : 0 ≤ lam) (hind : IndependentBy m n (edge v) lam) (x z : Nat → ℝ) :
    Real.sqrt lam * norm1 m (fun k => x k - z k) ≤ m * norm1 n fun c => linearMap m v x c - linearMap m v z c := by
  have h1 := hind fun k => x k - z k
  have h2 : Real.sqrt lam * norm2 m (fun k => x k - z k) ≤ norm2 n fun c => linearMap m v x c - linearMap m v z c := by
    rw [norm2, norm2, ← Real.sqrt_mul hlam]
    refine Real.sqrt_le_sqrt ?_
    rw [sum_range, sum_range fun c => (linearMap m v x c - linearMap m v z c) ^ 2]
    refine h1.trans (le_of_eq (sum_congr rfl fun c _ => ?_))
    rw [linear_diff, sum_range]
  have h3 := mul_le_mul_of_nonneg_left (norm1_le_norm2 m fun k => x k - z k) (Real.sqrt_nonneg lam)
  have h4 := norm2_le_norm1 n fun c => linearMap m v x c - linearMap m v z c
  have h5 := mul_le_mul_of_nonneg_left (h2.trans h4) (Nat.cast_nonneg (α := ℝ) m)
  linarith

/-- a simplex in the range of the format, with corners of size at most `M`, edges at corner 0 of length at most `R`, and condition
limited by the precision -/
structure Shaped (φ : Format) (m n : ℕ) (v : Nat → Nat → Fl φ) (M R lam : ℝ) : Prop where
  m_pos : 1 ≤ m
  mn : m ≤ n
  n_le : n ≤ 14
  u_pos : 0 < φ.u
  u_le : φ.u ≤ 1 / 2 ^ 24
  η_le : φ.η ≤ φ.u
  R_pos : 0 < R
  low : φ.η ≤ φ.u ^ 2 * R ^ 2
  high : 40 * φ.η ^ 2 * R ^ 2 ≤ φ.u ^ 2
  size : ∀ k ≤ m, ∀ c < n, |(v k c).val| ≤ M
  rows : RowsWithin m n (edge v) (R ^ 2)
  indep : IndependentBy m n (edge v) lam
  lam_pos : 0 < lam
  cond : 3200 * m ^ 2 * n ^ 4 * φ.u * R ^ 3 ≤ lam * Real.sqrt lam

/-- an edge is at least as long as the smallest singular value -/
theorem Shaped.lam_le {M R lam : ℝ} (h : Shaped φ m n v M R lam) : lam ≤ R ^ 2 := by
  have h1 := h.indep fun k => if k.1 = 0 then 1 else 0
  have h2 := h.rows ⟨0, h.m_pos⟩
  have e1 : ∑ k : Fin m, (if k.1 = 0 then (1:ℝ) else 0) ^ 2 = 1 := by
    rw [← sum_range fun k => (if k = 0 then (1:ℝ) else 0) ^ 2, sum_eq_single 0]
    · simp
    · intro b _ hb; simp [hb]
    · intro h0; exact absurd (mem_range.2 h.m_pos) h0
  have e2 : ∀ c : Fin n, ∑ k : Fin m, (if k.1 = 0 then (1:ℝ) else 0) * edge v k c = edge v 0 c := fun c => by
    rw [← sum_range fun k => (if k = 0 then (1:ℝ) else 0) * edge v k c, sum_eq_single 0]
    · simp
    · intro b _ hb; simp [hb]
    · intro h0; exact absurd (mem_range.2 h.m_pos) h0
  rw [e1, _root_.mul_one] at h1
  simp only [e2] at h1
  exact h1.trans h2

theorem Shaped.cond2 {M R lam : ℝ} (h : Shaped φ m n v M R lam) : 3200 * m ^ 2 * n ^ 4 * φ.u * R ^ 2 ≤ lam := by
  have hR := h.R_pos
  have h1 : Real.sqrt lam ≤ R := Real.sqrt_le_iff.2 ⟨hR.le, h.lam_le⟩
  have h2 := mul_le_mul_of_nonneg_left h1 h.lam_pos.le
  have h3 := h.cond.trans h2
  have h4 : 3200 * m ^ 2 * n ^ 4 * φ.u * R ^ 2 * R ≤ lam * R := by linarith
  exact le_of_mul_le_mul_right h4 hR

theorem Shaped.M_nonneg {M R lam : ℝ} (h : Shaped φ m n v M R lam) : 0 ≤ M :=
  (abs_nonneg _).trans (h.size 0 (Nat.zero_le _) 0 (lt_of_lt_of_le h.m_pos h.mn))

theorem simplex_tame {M R lam : ℝ} (h : Shaped φ m n v M R lam) (z : Nat → ℝ) (hz : norm1 m z ≤ 1) :
    Tame m n (simplexGeo m n v).global (simplexGeo m n v).jacobianTransposed (linearMap m v) z 2 (2 * R) (lam / 2) (Real.sqrt lam / m) (n * R) (n * R * φ.u)
      (p1Err φ m M) := by
  have hm1 : (1:ℝ) ≤ m := by exact_mod_cast h.m_pos
  have hn1 : (1:ℝ) ≤ n := by exact_mod_cast h.m_pos.trans h.mn
  have hu := h.u_pos
  have hu6 : φ.u ≤ 1 / 10 ^ 6 := h.u_le.trans (by norm_num)
  have hR := h.R_pos
  have hlam := h.lam_pos
  have hc2 := h.cond2
  have hpow : (n:ℝ) ^ 2 ≤ n ^ 4 := pow_le_pow_right₀ hn1 (by norm_num)
  have hmm : (m:ℝ) ≤ m ^ 2 := by nlinarith
  have hq : 0 < φ.u * R ^ 2 := by positivity
  have k1 : (m:ℝ) * n ^ 2 * (φ.u * R ^ 2) ≤ m ^ 2 * n ^ 4 * (φ.u * R ^ 2) := mul_le_mul_of_nonneg_right (mul_le_mul hmm hpow (by positivity) (by positivity)) hq.le
  have k2 : (m:ℝ) * n * (φ.u * R ^ 2) ≤ m * n ^ 2 * (φ.u * R ^ 2) := mul_le_mul_of_nonneg_right (mul_le_mul_of_nonneg_left (by nlinarith) (by positivity)) hq.le
  have k3 : (m:ℝ) * (φ.u * R ^ 2) ≤ m * n * (φ.u * R ^ 2) := mul_le_mul_of_nonneg_right (by nlinarith) hq.le
  have hJ : ∀ x : Nat → Fl φ, ∀ k < m, ∀ c < n, |valM ((simplexGeo m n v).jacobianTransposed x) k c - edge v k c| ≤ φ.u * |edge v k c| :=
    fun x k hk c _ => jt_err x hk c
  have hdist : ∀ x : Nat → Fl φ, dist m x z ≤ 2 → norm1 m (vals x) ≤ 3 := fun x hx => by
    have := norm1_add m (fun k => (x k).val - z k) z
    simp only [sub_add_cancel] at this
    exact this.trans (by linarith [show norm1 m (fun k => (x k).val - z k) ≤ 2 from hx])
  refine ⟨⟨h.m_pos, h.mn, h.n_le.trans (by norm_num), hu, h.u_le, h.η_le, ?_, ?_, by positivity, ?_⟩, ?_, by positivity, by positivity, by positivity, by positivity,
    p1Err_nonneg h.M_nonneg, fun x hx c hc => ?_, fun x _ => ?_, fun x _ => ?_, fun x _ => ?_, fun x _ => ?_, fun x _ => ?_⟩
  · have := h.low
    nlinarith
  · have := h.high
    nlinarith
  · rw [mul_pow]; linarith
  · rw [mul_pow]; linarith
  · exact global_err (h.mn.trans h.n_le) h.u_le (fun k hk => h.size k hk c hc) x (hdist x hx)
  · have := linear_lower h.lam_pos.le h.indep x z
    rw [div_mul_eq_mul_div, div_le_iff₀ (by linarith)]
    linarith
  · simp only [linear_diff]
    exact norm1_comb _ _ fun k hk => edge_norm1 hR.le h.rows hk
  · have h1 := perturb_rows (hJ x) h.rows
    intro k
    refine (h1 k).trans ?_
    rw [mul_pow]
    refine mul_le_mul_of_nonneg_right ?_ (sq_nonneg R)
    nlinarith
  · refine perturb_indep (hJ x) h.rows h.indep ?_
    have h2 : φ.u * (m * (φ.u * R ^ 2)) ≤ 1 * (m * (φ.u * R ^ 2)) := mul_le_mul_of_nonneg_right (by linarith) (by positivity)
    linarith
  · have e : (fun c => linearMap m v (vals x) c - linearMap m v z c - ∑ k ∈ range m, ((x k).val - z k) * ((simplexGeo m n v).jacobianTransposed x k c).val) =
        fun c => ∑ k ∈ range m, ((x k).val - z k) * (edge v k c - ((simplexGeo m n v).jacobianTransposed x k c).val) := by
      funext c
      rw [linear_diff, ← sum_sub_distrib]
      exact sum_congr rfl fun k _ => by simp only [vals]; ring
    rw [e]
    refine norm1_comb _ (fun k c => edge v k c - ((simplexGeo m n v).jacobianTransposed x k c).val) fun k hk => ?_
    have h1 : norm1 n (fun c => edge v k c - ((simplexGeo m n v).jacobianTransposed x k c).val) ≤ ∑ c ∈ range n, φ.u * |edge v k c| :=
      norm1_mono fun c hc => by rw [abs_sub_comm]; exact hJ x k hk c hc
    rw [← mul_sum] at h1
    have h2 := mul_le_mul_of_nonneg_left (edge_norm1 hR.le h.rows hk) hu.le
    rw [norm1] at h2
    linarith

end Verif.FloatGauss
