import Verif.Float.Inside

/-! `position` in floating-point arithmetic -/

namespace Verif.Float

open Verif.Typ Verif.RefTopo Verif.RefGeom

variable {φ : Format}

theorem corners_val (d id : Nat) :
    (referenceCorners (K := Fl φ) d id).map (fun c r => (c r).val) = RefGeom.referenceCorners (K := ℝ) d id := by
  rw [← referenceCorners_eq]
  induction d generalizing id with
  | zero => rfl
  | succ d ih =>
    simp only [referenceCorners, ← ih]
    split
    · rw [List.map_append, List.map_map, List.map_map]
      congr 1
      refine List.map_congr_left fun c _ => ?_
      funext r
      simp only [Function.comp]
      split <;> rfl
    · rw [List.map_append, List.map_cons, List.map_nil]
      congr 2
      funext r
      simp only
      split <;> rfl

theorem mapM_option_map {α β ι : Type} (f : ι → Option α) (g : α → β) : ∀ l : List ι,
    l.mapM (fun j => (f j).map g) = (l.mapM f).map (List.map g)
  | [] => rfl
  | a :: l => by
    rw [List.mapM_cons, List.mapM_cons, mapM_option_map f g l]
    cases f a with
    | none => rfl
    | some v =>
      cases l.mapM f with
      | none => rfl
      | some w => rfl

theorem mapM_mem {α ι : Type} (f : ι → Option α) : ∀ (l : List ι) (w : List α), l.mapM f = some w → w.length = l.length ∧ ∀ v ∈ w, ∃ j ∈ l, f j = some v
  | [], w, h => by
    cases h
    exact ⟨rfl, fun v hv => by cases hv⟩
  | a :: l, w, h => by
    rw [List.mapM_cons] at h
    cases ha : f a with
    | none => rw [ha] at h; cases h
    | some v =>
      cases hl : l.mapM f with
      | none => rw [ha, hl] at h; cases h
      | some w' =>
        rw [ha, hl] at h
        cases h
        obtain ⟨h1, h2⟩ := mapM_mem f l w' hl
        refine ⟨by simp [h1], fun u hu => ?_⟩
        rcases List.mem_cons.1 hu with rfl | hu
        · exact ⟨a, List.mem_cons_self, ha⟩
        · obtain ⟨j, hj, hj'⟩ := h2 u hu
          exact ⟨j, List.mem_cons_of_mem _ hj, hj'⟩

/-- sums of zeros and ones are exact -/
theorem sum_exact {n : ℕ} (hn : ∀ k : ℕ, k ≤ n → φ.rd k = k) (r : Nat) : ∀ (cs : List (Nat → Fl φ)) (a : Fl φ) (m : ℕ),
    a.val = m → m + cs.length ≤ n → (∀ c ∈ cs, (c r).val = 0 ∨ (c r).val = 1) →
    (cs.foldl (fun acc v => acc + v r) a).val = (cs.map fun c => (fun k => (c k).val)).foldl (fun acc v => acc + v r) a.val ∧
      ∃ m' : ℕ, m' ≤ m + cs.length ∧ (cs.foldl (fun acc v => acc + v r) a).val = m'
  | [], a, m, ha, _, _ => ⟨rfl, m, by simp, ha⟩
  | c :: cs, a, m, ha, hl, hc => by
    rw [List.length_cons] at hl
    have hc0 := hc c List.mem_cons_self
    have hcs := fun c' h => hc c' (List.mem_cons_of_mem _ h)
    have hval : (a + c r).val = a.val + (c r).val ∧ ∃ m' : ℕ, m' ≤ m + 1 ∧ (a + c r).val = m' := by
      rw [Fl.add_val, ha]
      rcases hc0 with h | h
      · rw [h, add_zero, hn m (by omega)]; exact ⟨rfl, m, by omega, rfl⟩
      · rw [h, ← Nat.cast_succ, hn (m + 1) (by omega)]; exact ⟨by push_cast; ring, m + 1, le_refl _, rfl⟩
    obtain ⟨h1, m', hm', h2⟩ := hval
    obtain ⟨h3, m'', hm'', h4⟩ := sum_exact hn r cs (a + c r) m' h2 (by omega) hcs
    refine ⟨?_, m'', by rw [List.length_cons]; omega, h4⟩
    rw [List.foldl_cons, h3, List.map_cons, List.foldl_cons, h1]

/-- error bound of `position` for `n` corners -/
noncomputable def posErr (φ : Format) (n : ℕ) : ℝ := 2 * φ.u + φ.u ^ 2 + (φ.u * n + n + 1) * φ.η

theorem posErr_nonneg (φ : Format) (n : ℕ) : 0 ≤ posErr φ n := by
  have := φ.u_nonneg
  have := φ.η_nonneg
  unfold posErr; positivity

theorem posErr_mono (φ : Format) {n m : ℕ} (h : n ≤ m) : posErr φ n ≤ posErr φ m := by
  have := φ.u_nonneg
  have h1 := φ.η_nonneg
  have hnm : (n:ℝ) ≤ m := by exact_mod_cast h
  have := mul_le_mul_of_nonneg_left hnm φ.u_nonneg
  unfold posErr
  have := mul_le_mul_of_nonneg_right (show φ.u * n + n + 1 ≤ φ.u * m + m + 1 by linarith) h1
  linarith

theorem mean_err {n m : ℕ} (h0 : 0 < n) (hm : m ≤ n) (s nh : Fl φ) (hs : s.val = m) (hn : nh.val = n) :
    |(s * (1 / nh)).val - m * (1 / n : ℝ)| ≤ posErr φ n := by
  have hu := φ.u_nonneg
  have hη := φ.η_nonneg
  have hnpos : (0:ℝ) < n := by exact_mod_cast h0
  have hmn : (m:ℝ) ≤ n := by exact_mod_cast hm
  have hm0 : (0:ℝ) ≤ m := Nat.cast_nonneg m
  have h1 := Fl.div_err (1 : Fl φ) nh
  have h2 := Fl.mul_err s (1 / nh)
  rw [hn, Fl.one_val, abs_of_pos (one_div_pos.2 hnpos)] at h1
  rw [hs] at h2
  generalize (1 / nh : Fl φ).val = a at h1 h2
  generalize (s * (1 / nh) : Fl φ).val = b at h2 ⊢
  have h3 : |m * a - m * (1 / n : ℝ)| ≤ φ.u + n * φ.η := by
    rw [← mul_sub, abs_mul, abs_of_nonneg hm0]
    calc (m:ℝ) * |a - 1 / n| ≤ n * (φ.u * (1 / n) + φ.η) := mul_le_mul hmn h1 (abs_nonneg _) hnpos.le
      _ = φ.u + n * φ.η := by field_simp
  have h4 : |(m:ℝ) * a| ≤ 1 + φ.u + n * φ.η := by
    have : (m:ℝ) * (1 / n) ≤ 1 := by rw [mul_one_div, div_le_one hnpos]; exact hmn
    have : 0 ≤ (m:ℝ) * (1 / n) := by positivity
    rw [abs_le] at h3 ⊢
    constructor <;> linarith
  have h5 := mul_le_mul_of_nonneg_left h4 hu
  have h6 := h2.trans (add_le_add_left h5 φ.η)
  rw [abs_le] at h3 h6 ⊢
  unfold posErr
  constructor <;> nlinarith

/-- the computed position is near the exact one -/
theorem position_err {d id i c : Nat} {p : Vec ℝ} (hp : RefGeom.position (K := ℝ) d id i c = some p)
    (h0 : 0 < refSize3 d id i c d) (hn : ∀ k : ℕ, k ≤ refSize3 d id i c d → φ.rd k = k) :
    ∃ ph : Nat → Fl φ, position (K := Fl φ) d id i c = some ph ∧ ∀ r, |(ph r).val - p r| ≤ posErr φ (refSize3 d id i c d) := by
  unfold RefGeom.position at hp
  unfold position
  simp only at hp ⊢
  have hget : ∀ k : ℕ, (RefGeom.referenceCorners (K := ℝ) d id)[k]? =
      ((referenceCorners (K := Fl φ) d id)[k]?).map (fun c r => (c r).val) := by
    intro k; rw [← corners_val (φ := φ), List.getElem?_map]
  by_cases hc : c = d
  · rw [if_pos hc] at hp ⊢
    rw [hget, Option.map_eq_some_iff] at hp
    obtain ⟨ph, h1, rfl⟩ := hp
    exact ⟨ph, h1, fun r => by simpa using posErr_nonneg φ _⟩
  · rw [if_neg hc] at hp ⊢
    have e : (fun j => do
        let k ← subEntity d id i c j d
        (RefGeom.referenceCorners (K := ℝ) d id)[k]?) = fun j => (do
        let k ← subEntity d id i c j d
        (referenceCorners (K := Fl φ) d id)[k]?).map (fun (c : Nat → Fl φ) r => (c r).val) := by
      funext j
      cases subEntity d id i c j d with
      | none => rfl
      | some k => exact hget k
    rw [e, mapM_option_map] at hp
    cases hM : (List.range (refSize3 d id i c d)).mapM (fun j => do
        let k ← subEntity d id i c j d
        (referenceCorners (K := Fl φ) d id)[k]?) with
    | none => rw [hM] at hp; cases hp
    | some cs =>
      rw [hM] at hp
      cases hp
      refine ⟨_, rfl, fun r => ?_⟩
      obtain ⟨hlen, hmem⟩ := mapM_mem _ _ _ hM
      rw [List.length_range] at hlen
      have h01 : ∀ v ∈ cs, (v r).val = 0 ∨ (v r).val = 1 := by
        intro v hv
        obtain ⟨j, -, hj⟩ := hmem v hv
        cases hs : subEntity d id i c j d with
        | none => rw [hs] at hj; cases hj
        | some k =>
          rw [hs] at hj
          have h1 : (RefGeom.referenceCorners (K := ℝ) d id)[k]? = some fun r => (v r).val := by
            rw [hget]; exact congrArg (Option.map _) hj
          exact (C17_coordinates d id _ (List.mem_of_getElem? h1) r).1
      obtain ⟨h1, m, hm, h2⟩ := sum_exact hn r cs 0 0 (by simp [Fl.zero_val]) (by omega) h01
      have h3 := mean_err (φ := φ) h0 (m := m) (by omega) _ ((refSize3 d id i c d : ℕ) : Fl φ) h2
        (by rw [Fl.natCast_val, hn _ (le_refl _)])
      rw [h2, Fl.zero_val] at h1
      beta_reduce
      rw [← h1]
      exact h3

theorem sz_le : ∀ t : Topo, t.sz t.dim ≤ 2 ^ t.dim
  | .pt => by simp [Topo.sz, Topo.dim]
  | .prism t => by
    have := sz_le t
    simp only [Topo.dim, Topo.sz]
    rw [Topo.sz_eq_zero t _ (Nat.lt_succ_self _), pow_succ]
    omega
  | .pyr t => by
    have := sz_le t
    have hp : 1 ≤ 2 ^ t.dim := Nat.one_le_two_pow
    simp only [Topo.dim, Topo.sz]
    rw [Topo.sz_eq_zero t _ (Nat.lt_succ_self _), pow_succ, if_pos trivial]
    omega

theorem refSize3_bounds {d id i c : Nat} (hid : id < 2 ^ d) (hc : c ≤ d) (hi : i < refSize d id c) :
    0 < refSize3 d id i c d ∧ refSize3 d id i c d ≤ 2 ^ d := by
  have h := rep_topoOf d id
  obtain ⟨f, rfl, rfl⟩ := exists_face h hc hi
  have hfd := Face.codim_add_dim f
  rw [h.dim_eq] at hfd
  have h3 : refSize3 d id f.idx f.codim d = f.shape.sz f.shape.dim := by
    rw [(numbers_eq h hid f (by omega) (le_refl _)).2.1]; congr 1; omega
  rw [h3]
  exact ⟨Topo.sz_pos _ _ (le_refl _), (sz_le _).trans (Nat.pow_le_pow_right (by norm_num) (by omega))⟩

end Verif.Float
