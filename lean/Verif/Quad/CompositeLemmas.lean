import Verif.Quad.Composite
import Verif.Quad.Tiling
import Verif.MultiLinear.NewtonProps
import Verif.RefElem.Props

/-! The composite rule in closed form. -/

namespace Verif.Quad

open Verif.RefGeom Verif.RefTopo Verif.Refine Verif.Typ Verif.MultiLinear Verif.MatHelp MeasureTheory
open Finset hiding ext
open scoped Matrix

noncomputable section

variable {d n : Nat} {tol : ℝ} {jit : Mat ℝ} {detInv : ℝ}

/-- the data `cells` supplies for one element -/
def Cell (d n : Nat) (c : Nat → Nat → ℝ) (it : ElementIterator) : Prop :=
  ∃ corners, it.geometry (K := ℝ) d = some corners ∧ corners.length = d + 1 ∧ (∀ i, i ≤ d → corners[i]? = some (c i)) ∧
    (∀ z : Nat → ℝ, ∃ y, it.global d z = some y ∧ ∀ i, i < d → y i = interp d c z i) ∧ (cellMat d c).det = 1 / (n : ℝ) ^ d

theorem sub_geometry (hn : 0 < n) (htol : 0 < tol ∧ tol < 1) {c : Nat → Nat → ℝ} {it : ElementIterator} (h : Cell d n c it) :
    ∃ g g', subGeometry d tol jit detInv it = some g ∧ g.volume = some (g', 1 / (n : ℝ) ^ d * referenceVolume d 0) ∧
      ∀ x, ∃ y, g.global x = some y ∧ ∀ i, i < d → y i = interp d c x i := by
  obtain ⟨corners, h1, h2, h3, -, h5⟩ := h
  have hn' : (0 : ℝ) < 1 / (n : ℝ) ^ d := by positivity
  let m : MultiLinearGeometry := ⟨d, d, (Typ.simplex d).id, fun i => corners.getD i fun _ => 0, tol⟩
  have hid : (Typ.simplex d).id = 0 := rfl
  have hcor : ∀ i, i ≤ d → m.corners_ i = c i := fun i hi => by
    change corners.getD i _ = _
    rw [List.getD_eq_getElem?_getD, h3 i hi]; rfl
  have hs : IsSimplexId m.mydim m.id := fun k _ _ => Nat.zero_testBit k
  have hleg : Legal m := ⟨Nat.two_pow_pos d, htol.1, htol.2⟩
  have himg := imageOf_simplex m hs
  obtain ⟨haff, hJ⟩ := C33_complete m hleg _ _ himg
  have hc0 := (corner_zero hleg himg).1
  let g := CachedMultiLinearGeometry.mk' m jit detInv
  have hga : g.affine = true := haff
  have hjt : ∀ r j, r < d → j < d → g.jt r j = c (r + 1) j - c 0 j := fun r j hr hj => by
    rw [← hcor (r + 1) (by omega), ← hcor 0 (by omega)]
    exact hJ garbage r j hr hj
  have hmat : mat d d g.jt = (cellMat d c)ᵀ := by
    funext r j
    exact hjt r j r.2 j.2
  have hdet : (mat d d g.jt).det = 1 / (n : ℝ) ^ d := by rw [hmat, Matrix.det_transpose, h5]
  have hli : LinearIndependent ℝ (mat d d g.jt).row :=
    Matrix.linearIndependent_rows_iff_isUnit.2 ((Matrix.isUnit_iff_isUnit_det _).2 (by rw [hdet]; exact hn'.ne'.isUnit))
  have hie : sqrtDetAAT d d g.jt = some (1 / (n : ℝ) ^ d) := by
    rw [C27_sqrtDetAAT_partial d d g.jt (Or.inl hli), Matrix.det_mul, Matrix.det_transpose, hdet, Real.sqrt_mul_self hn'.le]
  obtain ⟨p, hp⟩ : ∃ p, position (K := ℝ) d 0 0 0 = some p := by
    have hsz : 0 < refSize d 0 0 := by
      rw [refSize, size_eq (rep_topoOf d 0) 0 (Nat.zero_le _)]
      exact Topo.sz_pos _ _ (Nat.zero_le _)
    obtain ⟨p, h, -⟩ := C21_mean (K := ℝ) d 0 0 0 (Nat.two_pow_pos d) (Nat.zero_le _) hsz
    exact ⟨p, h⟩
  refine ⟨g, { g with detInv := 1 / (n : ℝ) ^ d, ieComputed := true }, ?_, ?_, fun x =>
    ⟨fun j => addLoop (m.corners_ 0 j) 0 d fun i => g.jt i j * x i, ?_, ?_⟩⟩
  · rw [subGeometry, h1]; rfl
  · have hb : g.base = m := rfl
    have hi : g.ieComputed = false := rfl
    rw [CachedMultiLinearGeometry.volume, if_pos hga, hb]
    change (position (K := ℝ) d 0 0 0).bind _ = _
    rw [hp, Option.bind_some, CachedMultiLinearGeometry.integrationElement, if_pos hga, hi, hb]
    rw [if_pos (show (!false) = true from rfl)]
    have hie' : sqrtDetAAT m.mydim m.cdim g.jt = some (1 / (n : ℝ) ^ d) := hie
    rw [hie']; rfl
  · rw [CachedMultiLinearGeometry.global, if_pos hga]
    change (m.corner 0).bind _ = _
    rw [hc0, Option.bind_some]; rfl
  · intro i hi
    beta_reduce
    rw [addLoop_eq, hcor 0 (by omega), interp, ← range_eq_Ico]
    congr 1
    refine sum_congr rfl fun l hl => ?_
    rw [hjt l i (mem_range.1 hl) hi, mul_comm]

/-- `q'` is `q` in the cell with corners `c` -/
def InCell (d n : Nat) (c : Nat → Nat → ℝ) (q q' : QPoint ℝ) : Prop :=
  (∀ i, i < d → q'.position i = interp d c q.position i) ∧ q'.weight = 1 / (n : ℝ) ^ d * q.weight

theorem sub_points {g : CachedMultiLinearGeometry} {c : Nat → Nat → ℝ} {v : ℝ} (hv : v = 1 / (n : ℝ) ^ d)
    (hg : ∀ x, ∃ y, g.global x = some y ∧ ∀ i, i < d → y i = interp d c x i) :
    ∀ pts : List (QPoint ℝ), ∃ l, subPoints g v pts = some l ∧ List.Forall₂ (InCell d n c) pts l
  | [] => ⟨[], rfl, .nil⟩
  | q :: qs => by
    obtain ⟨y, h1, h2⟩ := hg q.position
    obtain ⟨l, h3, h4⟩ := sub_points hv hg qs
    refine ⟨⟨y, v * q.weight⟩ :: l, ?_, .cons ⟨h2, by rw [hv]⟩ h4⟩
    rw [subPoints, h1, h3]; rfl

/-- the dimensions for which the reference volume is representable -/
theorem volume_ne_zero {d id : Nat} (hd : d ≤ 31) (hid : id / 2 = 0) : (referenceVolume d id : ℝ) ≠ 0 ∧
    (referenceVolume d id : ℝ) = referenceVolume d 0 := by
  have h0 : referenceVolumeInverse d id = referenceVolumeInverse d 0 := RefElem.volumeInverse_congr (by rw [hid])
  have h1 : ∀ d, d ≤ 31 → referenceVolumeInverse d 0 ≠ 0 := by decide
  have h2 := h1 d hd
  rw [referenceVolume, referenceVolume, h0]
  exact ⟨one_div_ne_zero (Nat.cast_ne_zero.2 h2), rfl⟩

theorem loop_eq' (hd : 0 < d) (hn : 0 < n) (htol : 0 < tol ∧ tol < 1) {volume : ℝ} (hvol : volume ≠ 0 ∧ volume = referenceVolume d 0)
    {c : Nat → Nat → Nat → ℝ} (hc : ∀ k, k < nElements d n → ∃ it, eAt d n k = some it ∧ Cell d n (c k) it)
    (pts : List (QPoint ℝ)) : ∀ (m k fuel : Nat) (it : ElementIterator), k + m = nElements d n → m < fuel → eAt d n k = some it →
    ∃ L : List (List (QPoint ℝ)), compositeLoop d tol jit detInv pts volume (eEnd d n) fuel it = some L.flatten ∧ L.length = m ∧
      ∀ j l, L[j]? = some l → List.Forall₂ (InCell d n (c (k + j))) pts l
  | m, k, 0, it, h1, h2, h3 => by omega
  | 0, k, fuel + 1, it, h1, h2, h3 => by
    refine ⟨[], ?_, rfl, by simp⟩
    have : it.size = (eEnd d n).size ∧ it.index_ = (eEnd d n).index_ := (C41_end d n hd k (by omega) it h3).2 (by omega)
    rw [compositeLoop, if_pos this]; rfl
  | m + 1, k, fuel + 1, it, h1, h2, h3 => by
    have hne : ¬ (it.size = (eEnd d n).size ∧ it.index_ = (eEnd d n).index_) := fun h => by
      have := (C41_end d n hd k (by omega) it h3).1 h
      omega
    obtain ⟨it', e1, e2⟩ := hc k (by omega)
    obtain rfl := Option.some.inj (h3.symm.trans e1)
    obtain ⟨g, g', g1, g2, g3⟩ := sub_geometry (jit := jit) (detInv := detInv) hn htol e2
    have hv : 1 / (n : ℝ) ^ d * referenceVolume d 0 / volume = 1 / (n : ℝ) ^ d := by
      rw [← hvol.2]; exact mul_div_cancel_right₀ _ hvol.1
    obtain ⟨here, p1, p2⟩ := sub_points hv g3 pts
    obtain ⟨next, n1, -, -⟩ := C41_index d n hd (k + 1) (by omega)
    have n2 : it.increment d = some next := by
      rw [eAt, h3, Option.bind_some] at n1; exact n1
    obtain ⟨L, l1, l2, l3⟩ := loop_eq' hd hn htol hvol hc pts m (k + 1) fuel next (by omega) (by omega) n1
    refine ⟨here :: L, ?_, by simp [l2], ?_⟩
    · rw [compositeLoop, if_neg hne]
      change (subGeometry d tol jit detInv it).bind _ = _
      rw [g1, Option.bind_some]
      change g.volume.bind _ = _
      rw [g2, Option.bind_some]
      change (subPoints g _ pts).bind _ = _
      rw [p1, Option.bind_some]
      change (it.increment d).bind _ = _
      rw [n2, Option.bind_some]
      change (compositeLoop d tol jit detInv pts volume (eEnd d n) fuel next).bind _ = _
      rw [l1]; rfl
    · intro j l hj
      cases j with
      | zero =>
        obtain rfl := Option.some.inj hj
        exact p2
      | succ j =>
        rw [← Nat.add_assoc, Nat.add_right_comm]
        exact l3 j l hj

/-- The composite rule is the concatenation of the copies of the base rule in the cells. -/
theorem composite_eq (hd : 0 < d) (hd' : d ≤ 31) (hn : 0 < n) (htol : 0 < tol ∧ tol < 1) {fuel : Nat} (hf : nElements d n < fuel)
    {quad : Rule ℝ} (hs : isSimplex quad.type = true) (hdim : quad.type.dim = d)
    {c : Nat → Nat → Nat → ℝ} (hc : ∀ k, k < nElements d n → ∃ it, eAt d n k = some it ∧ Cell d n (c k) it) :
    ∃ L : List (List (QPoint ℝ)), compositeRule d tol jit detInv fuel quad n = some ⟨quad.type, quad.order, L.flatten⟩ ∧
      L.length = nElements d n ∧ ∀ j l, L[j]? = some l → List.Forall₂ (InCell d n (c j)) quad.pts l := by
  have hid : quad.type.id / 2 = 0 := by
    rw [isSimplex, Bool.and_eq_true, beq_iff_eq] at hs
    have h1 : quad.type.id ||| 1 = 1 := hs.2
    have h2 : quad.type.id ≤ 1 := by rw [← h1]; exact Nat.left_le_or
    omega
  obtain ⟨L, l1, l2, l3⟩ := loop_eq' (jit := jit) (detInv := detInv) hd hn htol (volume_ne_zero hd' hid) hc quad.pts
    (nElements d n) 0 fuel (eBegin n) (by omega) hf rfl
  refine ⟨L, ?_, l2, fun j l hj => by simpa using l3 j l hj⟩
  rw [compositeRule, if_pos ⟨hs, hdim⟩]
  change (compositeLoop d tol jit detInv quad.pts _ (eEnd d n) fuel (eBegin n)).bind _ = _
  rw [l1]; rfl

theorem quadOf_append (f : (Fin d → ℝ) → ℝ) (l l' : List (QPoint ℝ)) : quadOf f (l ++ l') = quadOf f l + quadOf f l' := by
  simp [quadOf]

theorem quadOf_cell (f : (Fin d → ℝ) → ℝ) {c : Nat → Nat → ℝ} {pts l : List (QPoint ℝ)} (h : List.Forall₂ (InCell d n c) pts l) :
    quadOf f l = 1 / (n : ℝ) ^ d * quadOf (fun x => f (cellMap d c x)) pts := by
  induction h with
  | nil => simp [quadOf]
  | @cons q q' qs qs' h1 h2 ih =>
    have e : (fun i : Fin d => q'.position i) = cellMap d c fun i => q.position i := by
      funext i
      rw [h1.1 i i.2, cellMap]
      exact (interp_congr_arg (ext_restrict q.position) i).symm
    have ih' : (qs'.map fun q => q.weight * f fun i => q.position i).sum =
      1 / (n : ℝ) ^ d * (qs.map fun q => q.weight * f (cellMap d c fun i => q.position i)).sum := ih
    rw [quadOf, quadOf, List.map_cons, List.map_cons, List.sum_cons, List.sum_cons, ih', e, h1.2]
    ring

theorem quadOf_flatten (f : (Fin d → ℝ) → ℝ) {pts : List (QPoint ℝ)} :
    ∀ (L : List (List (QPoint ℝ))) {c : Nat → Nat → Nat → ℝ},
      (∀ j l, L[j]? = some l → List.Forall₂ (InCell d n (c j)) pts l) →
      quadOf f L.flatten = ∑ k ∈ range L.length, 1 / (n : ℝ) ^ d * quadOf (fun x => f (cellMap d (c k) x)) pts
  | [], _, _ => by simp [quadOf]
  | l :: L, c, h => by
    rw [List.flatten_cons, quadOf_append, quadOf_cell f (h 0 l rfl), quadOf_flatten f L (c := fun j => c (j + 1)) fun j l' hj => h (j + 1) l' hj,
      List.length_cons, sum_range_succ', add_comm]

end

end Verif.Quad
