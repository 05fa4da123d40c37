import Verif.Cube.Model
import Verif.Affine.Props

/-! Loop lemmas for AxisAlignedCubeGeometry. -/

namespace Verif.Cube

open Verif.RefGeom Verif.MatHelp Verif.RefTopo Verif.Typ Verif.Affine Finset
open Matrix hiding vec

theorem count_succ (axes : Nat → Bool) (n : Nat) :
    count axes (n + 1) = count axes n + if axes n then 1 else 0 := by
  simp [count, List.range_succ, List.countP_append, List.countP_cons]

theorem count_le (axes : Nat → Bool) (n : Nat) : count axes n ≤ n := by
  induction n with
  | zero => simp [count]
  | succ n ih => rw [count_succ]; split <;> omega

theorem count_mono (axes : Nat → Bool) {i j : Nat} (h : i ≤ j) : count axes i ≤ count axes j := by
  induction j with
  | zero => obtain rfl : i = 0 := by omega
            exact le_refl _
  | succ j ih =>
    rcases Nat.lt_or_ge i (j + 1) with h1 | h1
    · rw [count_succ]; have := ih (by omega); omega
    · obtain rfl : i = j + 1 := by omega
      exact le_refl _

theorem count_lt (axes : Nat → Bool) {i j : Nat} (h : i < j) (hi : axes i = true) : count axes i < count axes j := by
  have h1 := count_mono axes (show i + 1 ≤ j from h)
  rw [count_succ, hi] at h1
  simp at h1; omega

theorem count_inj (axes : Nat → Bool) {i j : Nat} (hi : axes i = true) (hj : axes j = true)
    (h : count axes i = count axes j) : i = j := by
  rcases lt_trichotomy i j with h1 | h1 | h1
  · have := count_lt axes h1 hi; omega
  · exact h1
  · have := count_lt axes h1 hj; omega

theorem exists_axis (axes : Nat → Bool) (n r : Nat) (h : r < count axes n) :
    ∃ i, i < n ∧ axes i = true ∧ count axes i = r := by
  induction n with
  | zero => simp [count] at h
  | succ n ih =>
    rw [count_succ] at h
    by_cases hr : r < count axes n
    · obtain ⟨i, h1, h2⟩ := ih hr
      exact ⟨i, by omega, h2⟩
    · have hn : axes n = true := by
        by_contra hc
        simp [hc] at h; omega
      simp [hn] at h
      exact ⟨n, by omega, hn, by omega⟩

/-- full count: all axes are set -/
theorem all_axes {axes : Nat → Bool} {n : Nat} (h : count axes n = n) :
    ∀ i, i < n → axes i = true ∧ count axes i = i := by
  induction n with
  | zero => intro i hi; omega
  | succ n ih =>
    rw [count_succ] at h
    have hle := count_le axes n
    have hn : axes n = true := by
      by_contra hc
      simp [hc] at h; omega
    simp [hn] at h
    intro i hi
    rcases Nat.lt_or_ge i n with h1 | h1
    · exact ih h i h1
    · obtain rfl : i = n := by omega
      exact ⟨hn, h⟩

theorem no_axes {axes : Nat → Bool} {n : Nat} (h : count axes n = 0) : ∀ i, i < n → axes i = false := by
  intro i hi
  by_contra hc
  have := count_lt axes hi (by simpa using hc)
  omega

/-! ### folds -/

theorem fold_setV (f : Nat → ℝ) (r0 : Vec ℝ) (n : Nat) :
    ∀ j, ((List.range n).foldl (fun r i => setV r i (f i)) r0) j = if j < n then f j else r0 j := by
  induction n with
  | zero => intro j; simp
  | succ n ih =>
    intro j
    rw [List.range_succ, List.foldl_append, List.foldl_cons, List.foldl_nil, setV]
    by_cases h : j = n
    · rw [if_pos h, if_pos (by omega), h]
    · rw [if_neg h, ih]
      by_cases h2 : j < n
      · rw [if_pos h2, if_pos (by omega)]
      · rw [if_neg h2, if_neg (by omega)]

theorem fold_diag (f : Nat → ℝ) (n : Nat) : ∀ r c,
    ((List.range n).foldl (fun m i => setM m i i (f i)) (fun _ _ => (0 : ℝ))) r c = if r = c ∧ c < n then f c else 0 := by
  induction n with
  | zero => intro r c; simp
  | succ n ih =>
    intro r c
    rw [List.range_succ, List.foldl_append, List.foldl_cons, List.foldl_nil, setM]
    by_cases h : r = n ∧ c = n
    · rw [if_pos h, if_pos (by omega), h.2]
    · rw [if_neg h, ih]
      by_cases h2 : r = c ∧ c < n
      · rw [if_pos h2, if_pos (by omega)]
      · rw [if_neg h2, if_neg (by omega)]

theorem fold_axes (axes : Nat → Bool) (f : Nat → Nat → ℝ) (h : Nat → ℝ) (n : Nat) :
    let s := (List.range n).foldl (fun (s : Nat × Vec ℝ) i =>
      if axes i then (s.1 + 1, setV s.2 i (f i s.1)) else (s.1, setV s.2 i (h i))) (0, fun _ => 0)
    s.1 = count axes n ∧ ∀ j, j < n → s.2 j = if axes j then f j (count axes j) else h j := by
  induction n with
  | zero => exact ⟨rfl, fun j hj => absurd hj (by omega)⟩
  | succ n ih =>
    simp only at ih ⊢
    rw [List.range_succ, List.foldl_append, List.foldl_cons, List.foldl_nil]
    generalize (List.range n).foldl _ _ = s at ih ⊢
    obtain ⟨h1, h2⟩ := ih
    by_cases ha : axes n
    · rw [if_pos ha, count_succ, if_pos ha]
      refine ⟨by simp [h1], fun j hj => ?_⟩
      simp only [setV]
      by_cases hjn : j = n
      · rw [if_pos hjn, hjn, if_pos ha, h1]
      · rw [if_neg hjn, h2 j (by omega)]
    · rw [if_neg ha, count_succ, if_neg ha]
      refine ⟨by simp [h1], fun j hj => ?_⟩
      simp only [setV]
      by_cases hjn : j = n
      · rw [if_pos hjn, hjn, if_neg ha]
      · rw [if_neg hjn, h2 j (by omega)]

theorem fold_mask (axes : Nat → Bool) (f : Nat → Nat → ℝ) (h : Nat → ℝ) (n : Nat) :
    let s := (List.range n).foldl (fun (s : Nat × Vec ℝ) i =>
      if !axes i then (s.1, setV s.2 i (h i)) else (s.1 <<< 1, setV s.2 i (f i s.1))) (1, fun _ => 0)
    s.1 = 2 ^ count axes n ∧ ∀ j, j < n → s.2 j = if axes j then f j (2 ^ count axes j) else h j := by
  induction n with
  | zero => exact ⟨rfl, fun j hj => absurd hj (by omega)⟩
  | succ n ih =>
    simp only at ih ⊢
    rw [List.range_succ, List.foldl_append, List.foldl_cons, List.foldl_nil]
    generalize (List.range n).foldl _ _ = s at ih ⊢
    obtain ⟨h1, h2⟩ := ih
    by_cases ha : axes n
    · rw [if_neg (by simp [ha]), count_succ, if_pos ha]
      refine ⟨by simp [h1, Nat.shiftLeft_eq, pow_succ], fun j hj => ?_⟩
      simp only [setV]
      by_cases hjn : j = n
      · rw [if_pos hjn, hjn, if_pos ha, h1]
      · rw [if_neg hjn, h2 j (by omega)]
    · rw [if_pos (by simp [ha]), count_succ, if_neg ha]
      refine ⟨by simp [h1], fun j hj => ?_⟩
      simp only [setV]
      by_cases hjn : j = n
      · rw [if_pos hjn, hjn, if_neg ha]
      · rw [if_neg hjn, h2 j (by omega)]

theorem fold_local (axes : Nat → Bool) (f : Nat → ℝ) (n : Nat) :
    let s := (List.range n).foldl (fun (s : Nat × Vec ℝ) i =>
      if axes i then (s.1 + 1, setV s.2 s.1 (f i)) else s) (0, fun _ => 0)
    s.1 = count axes n ∧ ∀ j, j < n → axes j = true → s.2 (count axes j) = f j := by
  induction n with
  | zero => exact ⟨rfl, fun j hj => absurd hj (by omega)⟩
  | succ n ih =>
    simp only at ih ⊢
    rw [List.range_succ, List.foldl_append, List.foldl_cons, List.foldl_nil]
    generalize (List.range n).foldl _ _ = s at ih ⊢
    obtain ⟨h1, h2⟩ := ih
    by_cases ha : axes n
    · rw [if_pos ha, count_succ, if_pos ha]
      refine ⟨by simp [h1], fun j hj hja => ?_⟩
      simp only [setV]
      by_cases hjn : j = n
      · rw [hjn, if_pos h1.symm]
      · have := count_lt axes (show j < n by omega) hja
        rw [if_neg (by omega), h2 j (by omega) hja]
    · rw [if_neg ha, count_succ, if_neg ha]
      refine ⟨by simp [h1], fun j hj hja => ?_⟩
      by_cases hjn : j = n
      · rw [hjn] at hja; exact absurd hja ha
      · exact h2 j (by omega) hja

theorem fold_jt (axes : Nat → Bool) (f : Nat → ℝ) (n : Nat) :
    let s := (List.range n).foldl (fun (s : Nat × Mat ℝ) i =>
      if axes i then (s.1 + 1, setM s.2 s.1 i (f i)) else s) (0, fun _ _ => 0)
    s.1 = count axes n ∧ ∀ r c, s.2 r c = if c < n ∧ axes c = true ∧ count axes c = r then f c else 0 := by
  induction n with
  | zero => exact ⟨rfl, fun r c => by simp⟩
  | succ n ih =>
    simp only at ih ⊢
    rw [List.range_succ, List.foldl_append, List.foldl_cons, List.foldl_nil]
    generalize (List.range n).foldl _ _ = s at ih ⊢
    obtain ⟨h1, h2⟩ := ih
    by_cases ha : axes n
    · rw [if_pos ha, count_succ, if_pos ha]
      refine ⟨by simp [h1], fun r c => ?_⟩
      simp only [setM]
      by_cases hc : c = n
      · subst hc
        by_cases hr : r = s.1
        · rw [if_pos ⟨hr, rfl⟩, if_pos ⟨by omega, ha, by omega⟩]
        · rw [if_neg (by tauto), h2, if_neg (by omega), if_neg (by omega)]
      · rw [if_neg (by tauto), h2]
        have : (c < n) = (c < n + 1) := by apply propext; omega
        simp only [this]
    · rw [if_neg ha, count_succ, if_neg ha]
      refine ⟨by simp [h1], fun r c => ?_⟩
      rw [h2]
      by_cases hc : c = n
      · subst hc
        rw [if_neg (by omega), if_neg (by tauto)]
      · have : (c < n) = (c < n + 1) := by apply propext; omega
        simp only [this]

theorem fold_jit (axes : Nat → Bool) (f : Nat → ℝ) (n : Nat) :
    let s := (List.range n).foldl (fun (s : Nat × Mat ℝ) i =>
      if axes i then (s.1 + 1, setM s.2 i s.1 (f i)) else s) (0, fun _ _ => 0)
    s.1 = count axes n ∧ ∀ c r, s.2 c r = if c < n ∧ axes c = true ∧ count axes c = r then f c else 0 := by
  induction n with
  | zero => exact ⟨rfl, fun r c => by simp⟩
  | succ n ih =>
    simp only at ih ⊢
    rw [List.range_succ, List.foldl_append, List.foldl_cons, List.foldl_nil]
    generalize (List.range n).foldl _ _ = s at ih ⊢
    obtain ⟨h1, h2⟩ := ih
    by_cases ha : axes n
    · rw [if_pos ha, count_succ, if_pos ha]
      refine ⟨by simp [h1], fun c r => ?_⟩
      simp only [setM]
      by_cases hc : c = n
      · subst hc
        by_cases hr : r = s.1
        · rw [if_pos ⟨rfl, hr⟩, if_pos ⟨by omega, ha, by omega⟩]
        · rw [if_neg (by tauto), h2, if_neg (by omega), if_neg (by omega)]
      · rw [if_neg (by tauto), h2]
        have : (c < n) = (c < n + 1) := by apply propext; omega
        simp only [this]
    · rw [if_neg ha, count_succ, if_neg ha]
      refine ⟨by simp [h1], fun c r => ?_⟩
      rw [h2]
      by_cases hc : c = n
      · subst hc
        rw [if_neg (by omega), if_neg (by tauto)]
      · have : (c < n) = (c < n + 1) := by apply propext; omega
        simp only [this]

theorem fold_prod (axes : Nat → Bool) (f : Nat → ℝ) (n : Nat) :
    (List.range n).foldl (fun v i => if axes i then v * f i else v) 1 = ∏ i ∈ range n, if axes i then f i else 1 := by
  induction n with
  | zero => simp
  | succ n ih =>
    rw [List.range_succ, List.foldl_append, List.foldl_cons, List.foldl_nil, ih, prod_range_succ]
    split <;> simp

theorem fold_upper (axes : Nat → Bool) (lower upper : Vec ℝ) (n : Nat) : ∀ j,
    ((List.range n).foldl (fun u i => if !axes i then setV u i (lower i) else u) upper) j =
      if j < n ∧ axes j = false then lower j else upper j := by
  induction n with
  | zero => intro j; simp
  | succ n ih =>
    intro j
    rw [List.range_succ, List.foldl_append, List.foldl_cons, List.foldl_nil]
    by_cases ha : axes n = true
    · rw [if_neg (by simp [ha]), ih]
      by_cases hj : j = n
      · subst hj; rw [if_neg (by omega), if_neg (by simp [ha])]
      · have : (j < n) = (j < n + 1) := by apply propext; omega
        simp only [this]
    · have ha' : axes n = false := by simpa using ha
      rw [if_pos (by simp [ha']), setV]
      by_cases hj : j = n
      · rw [if_pos hj, if_pos ⟨by omega, by rw [hj]; exact ha'⟩, hj]
      · rw [if_neg hj, ih]
        have : (j < n) = (j < n + 1) := by apply propext; omega
        simp only [this]

/-! ### the methods -/

/-- what the constructors guarantee -/
structure Valid (g : AxisAlignedCubeGeometry) : Prop where
  count : count g.axes g.coorddim = g.dim
  flat : g.dim ≠ 0 → ∀ i, i < g.coorddim → g.axes i = false → g.upper i = g.lower i

theorem valid_ofCorners (n : Nat) (lower upper : Vec ℝ) : Valid (ofCorners n lower upper) := by
  have h : ∀ k, k ≤ n → Cube.count (fun i => decide (i < n)) k = k := by
    intro k
    induction k with
    | zero => intro _; rfl
    | succ k ih => intro hk; rw [count_succ, ih (by omega)]; simp; omega
  refine ⟨h n (le_refl _), fun _ i hi ha => ?_⟩
  simp [ofCorners] at hi ha
  omega

theorem valid_ofAxes {dim cd : Nat} {lower upper : Vec ℝ} {axes : Nat → Bool} {g : AxisAlignedCubeGeometry}
    (h : ofAxes dim cd lower upper axes = some g) :
    Valid g ∧ g.dim = dim ∧ g.coorddim = cd ∧ g.lower = lower ∧ g.axes = axes ∧
      ∀ i, axes i = true → g.upper i = upper i := by
  simp only [ofAxes] at h
  split at h
  · rename_i hc
    have hg := Option.some.inj h
    subst hg
    refine ⟨⟨hc, fun _ i hi ha => ?_⟩, rfl, rfl, rfl, rfl, fun i ha => ?_⟩
    · exact (fold_upper _ _ _ _ _).trans (if_pos ⟨hi, ha⟩)
    · exact (fold_upper _ _ _ _ _).trans (if_neg (by simp [ha]))
  · simp at h

theorem valid_ofPoint (cd : Nat) (lower : Vec ℝ) : Valid (ofPoint cd lower) := by
  refine ⟨?_, fun h => absurd rfl h⟩
  change Cube.count (fun _ => false) cd = 0
  induction cd with
  | zero => rfl
  | succ k ih => rw [count_succ, ih]; rfl

variable {g : AxisAlignedCubeGeometry}

theorem global_spec (h : Valid g) (x : Vec ℝ) (i : Nat) (hi : i < g.coorddim) :
    g.global x i = g.lower i + if g.axes i then x (count g.axes i) * (g.upper i - g.lower i) else 0 := by
  rw [AxisAlignedCubeGeometry.global]
  have hc := h.count
  split
  · rename_i hd
    rw [hd] at hc
    obtain ⟨h1, h2⟩ := all_axes hc i hi
    rw [fold_setV, if_pos hi, h1, h2, if_pos rfl]
  · split
    · rename_i h0
      rw [h0] at hc
      rw [no_axes hc i hi]; simp
    · have := (fold_axes g.axes (fun i lc => g.lower i + x lc * (g.upper i - g.lower i)) g.lower g.coorddim).2 i hi
      rw [this]
      split <;> simp

theorem local_spec (h : Valid g) (y : Vec ℝ) (i : Nat) (hi : i < g.coorddim) (ha : g.axes i = true) :
    g.local_ y (count g.axes i) = (y i - g.lower i) / (g.upper i - g.lower i) := by
  rw [AxisAlignedCubeGeometry.local_]
  have hc := h.count
  split
  · rename_i hd
    rw [hd] at hc
    obtain ⟨h1, h2⟩ := all_axes hc i hi
    rw [fold_setV, if_pos (by omega), h2]
  · split
    · exact (fold_local g.axes (fun i => (y i - g.lower i) / (g.upper i - g.lower i)) g.coorddim).2 i hi ha
    · rename_i h0
      push Not at h0
      rw [h0] at hc
      rw [no_axes hc i hi] at ha
      simp at ha

theorem jt_spec (h : Valid g) (r c : Nat) (hc' : c < g.coorddim) :
    g.jacobianTransposed r c = if g.axes c = true ∧ count g.axes c = r then g.upper c - g.lower c else 0 := by
  rw [AxisAlignedCubeGeometry.jacobianTransposed]
  have hc := h.count
  split
  · rename_i hd
    rw [hd] at hc
    obtain ⟨h1, h2⟩ := all_axes hc c hc'
    rw [fold_diag, hd, h1, h2]
    by_cases hr : r = c
    · rw [if_pos ⟨hr, hc'⟩, if_pos ⟨rfl, hr.symm⟩]
    · rw [if_neg (by tauto), if_neg (by tauto)]
  · split
    · rename_i h0
      rw [h0] at hc
      rw [no_axes hc c hc']; simp
    · rw [(fold_jt g.axes (fun i => g.upper i - g.lower i) g.coorddim).2 r c]
      simp only [hc', true_and]

theorem jit_spec (h : Valid g) (r c : Nat) (hc' : c < g.coorddim) :
    g.jacobianInverseTransposed c r =
      if g.axes c = true ∧ count g.axes c = r then 1 / (g.upper c - g.lower c) else 0 := by
  rw [AxisAlignedCubeGeometry.jacobianInverseTransposed]
  have hc := h.count
  split
  · rename_i hd
    rw [hd] at hc
    obtain ⟨h1, h2⟩ := all_axes hc c hc'
    rw [fold_diag, hd, h1, h2]
    by_cases hr : c = r
    · subst hr; rw [if_pos ⟨rfl, hc'⟩, if_pos ⟨rfl, rfl⟩]
    · rw [if_neg (by tauto), if_neg (by tauto)]
  · split
    · rename_i h0
      rw [h0] at hc
      rw [no_axes hc c hc']; simp
    · rw [(fold_jit g.axes (fun i => 1 / (g.upper i - g.lower i)) g.coorddim).2 c r]
      simp only [hc', true_and]

theorem center_spec (h : Valid g) (i : Nat) (hi : i < g.coorddim) :
    g.center i = g.lower i + if g.axes i then (g.upper i - g.lower i) / 2 else 0 := by
  rw [AxisAlignedCubeGeometry.center]
  have hc := h.count
  split
  · rename_i h0
    rw [h0] at hc
    rw [no_axes hc i hi]; simp
  · rename_i h0
    rw [fold_setV, if_pos hi]
    by_cases ha : g.axes i = true
    · rw [if_pos ha]; ring
    · rw [h.flat h0 i hi (by simpa using ha), if_neg ha]; ring

theorem and_pow_ne_zero (k i : Nat) : (k &&& 2 ^ i ≠ 0) ↔ k.testBit i = true := by
  rw [Nat.and_two_pow]
  cases k.testBit i <;> simp

theorem corner_spec (h : Valid g) (k i : Nat) (hi : i < g.coorddim) :
    g.corner k i = g.lower i + if g.axes i then (if k.testBit (count g.axes i) then g.upper i - g.lower i else 0) else 0 := by
  rw [AxisAlignedCubeGeometry.corner]
  have hc := h.count
  split
  · rename_i hd
    rw [hd] at hc
    obtain ⟨h1, h2⟩ := all_axes hc i hi
    rw [fold_setV, if_pos hi, h1, h2, if_pos rfl, Nat.one_shiftLeft]
    simp only [and_pow_ne_zero]
    split <;> simp
  · split
    · rename_i h0
      rw [h0] at hc
      rw [no_axes hc i hi]; simp
    · have := (fold_mask g.axes (fun i m => if k &&& m ≠ 0 then g.upper i else g.lower i) g.lower g.coorddim).2 i hi
      rw [this]
      simp only [and_pow_ne_zero]
      split
      · split <;> simp
      · simp

theorem volume_spec (h : Valid g) :
    g.volume = ∏ i ∈ range g.coorddim, if g.axes i then g.upper i - g.lower i else 1 := by
  rw [AxisAlignedCubeGeometry.volume]
  have hc := h.count
  split
  · rename_i hd
    rw [hd] at hc
    have e : (List.range g.dim).foldl (fun vol i => vol * (g.upper i - g.lower i)) 1 =
        ∏ i ∈ range g.dim, (g.upper i - g.lower i) := by
      have := fold_prod (fun _ => true) (fun i => g.upper i - g.lower i) g.dim
      simpa using this
    rw [e, hd]
    refine prod_congr rfl fun i hi => ?_
    rw [(all_axes hc i (mem_range.1 hi)).1, if_pos rfl]
  · split
    · rw [fold_prod]
    · rename_i h0
      push Not at h0
      rw [h0] at hc
      symm
      apply prod_eq_one
      intro i hi
      rw [no_axes hc i (mem_range.1 hi)]; rfl

end Verif.Cube
