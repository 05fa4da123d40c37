import Verif.Float.InverseGeometry
import Verif.Float.EmbedProps

/-! C94: `AffineGeometry::local` inverts `global` up to rounding errors. The lengths of the edges from corner 0 are at most `R`, the
singular values of the matrix of the edges at least `r`; `R / r` is the condition of the geometry. -/

namespace Verif.FloatInv

open Verif.Typ Verif.RefTopo Verif.Float Verif.RefGeom Verif.FloatVol Verif.FloatNewton Verif.FloatEmbed
open Finset hiding ext

variable {φ : Format} {m n : ℕ} {R r : ℝ}

/-- C94: the construction from corners succeeds, and `local` returns the coordinates of the orthogonal projection of the point: the given
point is the image of `x`, a vector `s` orthogonal to the geometry, and a remainder `ρ` (for example an error of the point). -/
theorem C94_local (id : ℕ) (c ret ret' : Mat (Fl φ)) (h : Regular φ m n R r (edge c)) : ∃ g, Geometry.ofCorners m n id c ret ret' = some g ∧
    ∀ (y : ℕ → Fl φ) (x s ρ : ℕ → ℝ), (∀ i < n, (y i).val = (c 0 i).val + (∑ k ∈ range m, edge c k i * x k) + s i + ρ i) →
      (∀ k < m, ∑ i ∈ range n, edge c k i * s i = 0) → ∀ j < m, |(g.local_ y j).val - x j| ≤
        90 * n ^ 4 * φ.u * (R / r) ^ 3 * (∑ k ∈ range m, |x k|) + 3 * m * (R / r ^ 2) * (∑ i ∈ range n, |ρ i|) +
          25 * n ^ 2 * φ.u * (R / r ^ 2) * (∑ i ∈ range n, |s i|) + 2 * n * φ.η := by
  obtain ⟨g, h1, rfl, rfl, h4, h5, h6⟩ := h.some (J := affineJt c) (fun k _ i _ => edge_err c k i) id (c 0) ret ret'
  refine ⟨g, h1, fun y x s ρ hy hs j hj => ?_⟩
  rw [Geometry.local_, h4]
  exact h.local_ (fun k _ i _ => edge_err c k i) h6 (c 0) y x s ρ hy hs hj

/-- C94: `jacobianInverseTransposed` is a right inverse of the transposed Jacobian with the exact edges as rows. -/
theorem C94_inverse (id : ℕ) (c ret ret' : Mat (Fl φ)) (h : Regular φ m n R r (edge c)) : ∃ g, Geometry.ofCorners m n id c ret ret' = some g ∧
    ∀ k < m, ∀ j < m, |(∑ i ∈ range n, edge c k i * (g.jit i j).val) - if k = j then 1 else 0| ≤ 90 * n ^ 4 * φ.u * (R / r) ^ 3 := by
  obtain ⟨g, h1, rfl, rfl, h4, h5, h6⟩ := h.some (J := affineJt c) (fun k _ i _ => edge_err c k i) id (c 0) ret ret'
  exact ⟨g, h1, fun k hk j hj => h.inverse (fun k _ i _ => edge_err c k i) h6 hk hj⟩

/-- C94: `local( global( x ) )` is close to `x`; `O` bounds the coordinates of corner 0. -/
theorem C94_roundtrip (id : ℕ) (c ret ret' : Mat (Fl φ)) (h : Regular φ m n R r (edge c)) {O : ℝ} (hO : ∀ i < n, |(c 0 i).val| ≤ O) :
    ∃ g, Geometry.ofCorners m n id c ret ret' = some g ∧ ∀ (x : ℕ → Fl φ), ∀ j < m, |(g.local_ (g.global x) j).val - (x j).val| ≤
      100 * n ^ 4 * φ.u * (R / r) ^ 3 * ((∑ k ∈ range m, |(x k).val|) + O / R) + 4 * n ^ 3 * φ.η * (R / r) ^ 2 * (1 + 1 / R) := by
  obtain ⟨g, h1, rfl, rfl, h4, h5, h6⟩ := h.some (J := affineJt c) (fun k _ i _ => edge_err c k i) id (c 0) ret ret'
  refine ⟨g, h1, fun x j hj => ?_⟩
  rw [Geometry.local_, Geometry.global, h4, h5]
  exact h.roundtrip (fun k _ i _ => edge_err c k i) h6 (c 0) x hO hj

/-- C94: `global( local( y ) )` is close to `y` if `y` lies in the image. -/
theorem C94_global_local (id : ℕ) (c ret ret' : Mat (Fl φ)) (h : Regular φ m n R r (edge c)) {O : ℝ} (hO : ∀ i < n, |(c 0 i).val| ≤ O) :
    ∃ g, Geometry.ofCorners m n id c ret ret' = some g ∧
      ∀ (y : ℕ → Fl φ) (x : ℕ → ℝ), (∀ i < n, (y i).val = (c 0 i).val + ∑ k ∈ range m, edge c k i * x k) → ∀ i < n,
        |(g.global (g.local_ y) i).val - (y i).val| ≤ 100 * n ^ 5 * φ.u * (R / r) ^ 3 * (R * (∑ k ∈ range m, |x k|) + O) + 3 * n ^ 2 * φ.η * (1 + R) := by
  obtain ⟨g, h1, rfl, rfl, h4, h5, h6⟩ := h.some (J := affineJt c) (fun k _ i _ => edge_err c k i) id (c 0) ret ret'
  refine ⟨g, h1, fun y x hy i hi => ?_⟩
  unfold Geometry.local_ Geometry.global
  rw [h4, h5]
  exact h.roundtrip' (fun k _ i _ => edge_err c k i) h6 (c 0) y x hO hy hi

/-- C94: in `double` the hypotheses hold for edges between `2⁻⁴⁰⁰` and `2⁴⁰⁰` if the condition is below about `10⁷`. -/
theorem C94_double (c : Mat (Fl double)) (hm : 1 ≤ m) (hmn : m ≤ n) (hn : n ≤ 29) (hr : 0 < r) (hR1 : 1 / 2 ^ 400 ≤ R) (hR2 : R ≤ 2 ^ 400)
    (hcond : 60 * m * n * R ^ 2 ≤ 2 ^ 53 * r ^ 2) (hrow : RowsWithin m n (edge c) (R ^ 2)) (hind : IndependentBy m n (edge c) (r ^ 2)) :
    Regular double m n R r (edge c) := by
  have hR : 0 < R := lt_of_lt_of_le (by positivity) hR1
  have hη : double.η = 1 / 2 ^ 1075 := by
    change (ieee 53 (-1074) (by norm_num) (by norm_num)).η = _
    rw [ieee_η, show (-1074 : ℤ) = -(1074 : ℕ) by norm_num, zpow_neg, zpow_natCast, pow_succ (2:ℝ) 1074, one_div, mul_inv, div_eq_mul_inv]
  have hR1' : (1:ℝ) / 2 ^ 800 ≤ R ^ 2 := by
    have := pow_le_pow_left₀ (by positivity) hR1 2
    refine le_trans (le_of_eq ?_) this
    rw [div_pow, ← pow_mul, one_pow]
  have hR2' : R ^ 2 ≤ 2 ^ 800 := by
    have := pow_le_pow_left₀ hR.le hR2 2
    refine this.trans (le_of_eq ?_)
    rw [← pow_mul]
  refine ⟨hm, hmn, hn, ?_, ?_, ?_, hR, hr, ?_, ?_, ?_, hrow, hind⟩
  · rw [double_u]; positivity
  · rw [double_u]; norm_num
  · rw [double_u, hη, div_pow, ← pow_mul, one_pow]
    exact one_div_le_one_div_of_le (by positivity) (pow_le_pow_right₀ (by norm_num) (by norm_num))
  · rw [double_u, hη]
    refine le_trans ?_ (mul_le_mul_of_nonneg_left hR1' (by positivity))
    rw [div_pow, ← pow_mul, one_pow, div_mul_div_comm, ← pow_add, _root_.one_mul]
    exact one_div_le_one_div_of_le (by positivity) (pow_le_pow_right₀ (by norm_num) (by norm_num))
  · rw [double_u, hη]
    refine (mul_le_mul_of_nonneg_left hR2' (by positivity)).trans ?_
    have e : 2 * (1 / 2 ^ 1075) * (2:ℝ) ^ 800 = 1 / 2 ^ 274 := by
      rw [show (1075 : ℕ) = 274 + 1 + 800 by norm_num, pow_add (2:ℝ) (274 + 1), pow_succ (2:ℝ) 274]
      have h1 : (2:ℝ) ^ 800 ≠ 0 := by positivity
      have h2 : (2:ℝ) ^ 274 ≠ 0 := by positivity
      generalize (2:ℝ) ^ 800 = a at *
      generalize (2:ℝ) ^ 274 = b at *
      field_simp
    rw [e]
    exact one_div_le_one_div_of_le (by positivity) (pow_le_pow_right₀ (by norm_num) (by norm_num))
  · rw [double_u]
    have : 60 * m * n * (1 / 2 ^ 53) * R ^ 2 = (60 * m * n * R ^ 2) / 2 ^ 53 := by ring
    rw [this, div_le_iff₀ (by positivity)]
    linarith

theorem subentity_regular (hu : 0 < φ.u) (hu' : φ.u ≤ 1 / 2 ^ 24) (hη : φ.η ≤ φ.u ^ 2) {d id : ℕ} (hd : d ≤ 29) (f : Face (topoOf d id))
    (hf : 1 ≤ f.shape.dim) : Regular φ f.shape.dim d (Real.sqrt d) 1 (jac f) := by
  have hr := rep_topoOf d id
  have hfd := Face.codim_add_dim f
  rw [hr.dim_eq] at hfd
  have hd1 : (1:ℝ) ≤ d := by exact_mod_cast (show 1 ≤ d by omega)
  have hs : Real.sqrt d ^ 2 = d := Real.sq_sqrt (by linarith)
  have hd29 : (d:ℝ) ≤ 29 := by exact_mod_cast hd
  have hm29 : (f.shape.dim:ℝ) ≤ 29 := by exact_mod_cast (show f.shape.dim ≤ 29 by omega)
  have h1 : 0 ≤ φ.u ^ 2 := sq_nonneg _
  refine ⟨hf, by omega, hd, hu, hu', hη, Real.sqrt_pos.2 (by linarith), by norm_num, ?_, ?_, ?_, ?_, ?_⟩
  · rw [hs]
    nlinarith
  · rw [hs]
    have h2 : φ.η * d ≤ φ.u ^ 2 * 29 := mul_le_mul hη hd29 (by linarith) h1
    nlinarith
  · rw [hs]
    have h2 : (f.shape.dim:ℝ) * d * d ≤ 29 * 29 * 29 := by
      refine mul_le_mul (mul_le_mul hm29 hd29 (by linarith) (by norm_num)) hd29 (by linarith) (by norm_num)
    have h3 := mul_le_mul h2 hu' hu.le (by norm_num)
    have e : 60 * (f.shape.dim:ℝ) * d * φ.u * d = 60 * (f.shape.dim * d * d * φ.u) := by ring
    rw [e]
    norm_num at h3 ⊢
    linarith
  · rw [hs]
    have := jac_rows f
    rwa [hr.dim_eq] at this
  · have := jac_independent f
    rw [hr.dim_eq] at this
    norm_num
    exact this

theorem orig_le {t : Topo} (f : Face t) (j : ℕ) : |orig (K := ℝ) f j| ≤ 1 := by
  rcases orig_zero_one (K := ℝ) f j with h | h <;> rw [h] <;> norm_num

/-- C93: for the geometries of sub-entities, which `C93_local_counterexample` shows to be inverted inexactly, `local` inverts `global` up to
an error of the size of the roundoff. -/
theorem C93_local_partial (hu : 0 < φ.u) (hu' : φ.u ≤ 1 / 2 ^ 24) (hη : φ.η ≤ φ.u ^ 2) (d id i c : ℕ) (hd : d ≤ 29) (hid : id < 2 ^ d) (hc : c ≤ d)
    (hi : i < refSize d id c) (ret ret' : Mat (Fl φ)) (g : Geometry (Fl φ)) (hg : geometry d id c i ret ret' = some g) (x : ℕ → Fl φ) (j : ℕ)
    (hj : j < d - c) : |(g.local_ (g.global x) j).val - (x j).val| ≤ 100 * d ^ 6 * φ.u * (1 + ∑ k ∈ range (d - c), |(x k).val|) + 8 * d ^ 4 * φ.η := by
  have hr := rep_topoOf d id
  obtain ⟨f, rfl, rfl⟩ := exists_face hr hc hi
  have hfd := Face.codim_add_dim f
  rw [hr.dim_eq] at hfd
  have e1 : d - f.codim = f.shape.dim := by omega
  obtain ⟨h1, h2, h3, h4, h5, h6⟩ := geometry_some f hg
  rw [e1] at hj ⊢
  have hreg := subentity_regular hu hu' hη hd f (by omega)
  have hJ : ∀ k < f.shape.dim, ∀ c < d, |(g.jt k c).val - jac (K := ℝ) f k c| ≤ φ.u * |jac (K := ℝ) f k c| := fun k hk c hc => by
    have : (g.jt k c).val = jac (K := ℝ) f k c := congrFun (congrFun h5 k) c
    rw [this, _root_.sub_self, abs_zero]
    positivity
  obtain ⟨ie, inv, h7, h8⟩ := rightInv_inverts (hreg.good hJ) ret ret'
  have h9 : inv = g.jit := by
    rw [h6] at h7
    exact (congrArg Prod.snd (Option.some.inj h7)).symm
  subst h9
  have ho : ∀ i < d, |(g.origin i).val| ≤ 1 := fun i _ => by
    have : (g.origin i).val = orig (K := ℝ) f i := congrFun h4 i
    rw [this]
    exact orig_le f i
  have h10 := hreg.roundtrip hJ h8 g.origin x ho hj
  have hd1 : (1:ℝ) ≤ d := by exact_mod_cast (show 1 ≤ d by omega)
  have hs1 : 1 ≤ Real.sqrt d := by rw [Real.one_le_sqrt]; exact hd1
  have hs2 : Real.sqrt d ^ 2 = d := Real.sq_sqrt (by linarith)
  have hs3 : Real.sqrt d ^ 3 ≤ d ^ 2 := by
    have : Real.sqrt d ^ 3 ≤ Real.sqrt d ^ 4 := pow_le_pow_right₀ hs1 (by norm_num)
    have e : Real.sqrt d ^ 4 = (Real.sqrt d ^ 2) ^ 2 := by ring
    rwa [e, hs2] at this
  have hs4 : 1 / Real.sqrt d ≤ 1 := by rw [div_le_one (by linarith)]; exact hs1
  unfold Geometry.local_ Geometry.global
  rw [h1, h2]
  refine h10.trans ?_
  rw [div_one, hs2]
  have hN := norm1_nonneg f.shape.dim fun k => (x k).val
  have hη0 := φ.η_nonneg
  refine add_le_add ?_ ?_
  · have : 100 * (d:ℝ) ^ 4 * φ.u * Real.sqrt d ^ 3 * (norm1 f.shape.dim (fun k => (x k).val) + 1 / Real.sqrt d) ≤
        100 * (d:ℝ) ^ 4 * φ.u * d ^ 2 * (norm1 f.shape.dim (fun k => (x k).val) + 1) := by gcongr
    refine this.trans (le_of_eq ?_)
    rw [norm1]
    ring
  · have : 4 * (d:ℝ) ^ 3 * φ.η * d * (1 + 1 / Real.sqrt d) ≤ 4 * (d:ℝ) ^ 3 * φ.η * d * (1 + 1) := by gcongr
    refine this.trans (le_of_eq ?_)
    ring

/-- the hypothesis of the theorems: the right triangle in space -/
theorem right_regular : Regular double 2 3 1 1 (edge rightTriangle) := by
  have he := edge_right
  refine C94_double _ (by norm_num) (by norm_num) (by norm_num) (by norm_num)
    ((one_div_le_one_div_of_le (by norm_num) (one_le_pow₀ (by norm_num))).trans (by norm_num)) (one_le_pow₀ (by norm_num)) (by norm_num)
    (fun k => ?_) fun w => ?_
  · fin_cases k <;> simp only [Fin.sum_univ_three, he] <;> norm_num
  · simp [he, Fin.sum_univ_three, Fin.sum_univ_two]

/-- for it the bound of `C94_roundtrip` is below `10⁻¹⁰` on the triangle, and there is a point off the plane as in `C94_local` -/
example : Regular double 2 3 1 1 (edge rightTriangle) ∧ (∀ i < 3, |(rightTriangle 0 i).val| ≤ 0) ∧
    100 * (3 : ℕ) ^ 4 * double.u * (1 / 1) ^ 3 * (1 + 0 / 1) + 4 * (3 : ℕ) ^ 3 * double.η * (1 / 1) ^ 2 * (1 + 1 / 1) ≤ 1 / 10 ^ 10 ∧
    ∀ k < 2, ∑ i ∈ range 3, edge rightTriangle k i * (if i = 2 then 1 else 0) = 0 := by
  have hη := double_η_le
  refine ⟨right_regular, fun i _ => ?_, ?_, fun k hk => ?_⟩
  · rw [rightTriangle, if_neg (by omega), Fl.zero_val, abs_zero]
  · rw [double_u]
    have : double.η ≤ 1 / 2 ^ 60 := hη.trans (by norm_num)
    norm_num at this ⊢
    linarith
  · simp only [edge_right, sum_range_succ, sum_range_zero]
    have h2 : ¬ k = 2 := by omega
    simp [h2]

/-- the hypotheses of `C93_local_partial`: the slanted edge of the triangle in `double` -/
example : 0 < double.u ∧ double.u ≤ 1 / 2 ^ 24 ∧ double.η ≤ double.u ^ 2 ∧ 2 < refSize 2 0 1 ∧
    ∃ g, geometry 2 0 1 2 (fun _ _ => (0 : Fl double)) (fun _ _ => 0) = some g :=
  ⟨by rw [double_u]; positivity, by rw [double_u]; norm_num, by rw [double_u]; exact double_η_le.trans (by norm_num), by decide,
    let ⟨g, _, h, _⟩ := C93_local_value (fun _ _ => 0) fun _ _ => 0; ⟨g, h⟩⟩

end Verif.FloatInv
