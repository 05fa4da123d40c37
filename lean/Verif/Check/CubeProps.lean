import Verif.Check.CubeModel
import Verif.Check.Props
import Verif.Cube.Props

/-!
Property theorems: which affine and axis-aligned geometries `checkGeometry` accepts (C80).
-/

namespace Verif.Check

open Verif.RefGeom Verif.MatHelp Verif.RefTopo Verif.Typ Verif.Affine Verif.Cube Finset
open Matrix hiding vec

/-- half the diagonal of the box -/
noncomputable def halfDiagonal (g : AxisAlignedCubeGeometry) : ℝ :=
  Real.sqrt (∑ i ∈ range g.coorddim, if g.axes i then ((g.upper i - g.lower i) / 2) ^ 2 else 0)

/-- C80: a regular affine geometry is accepted exactly if its corners are not too close to the center and its volume is not too small -/
theorem C80_affine_iff (m n id : Nat) (o : Vec ℝ) (jt : Mat ℝ) (hmn : m ≤ n) (hid : id < 2 ^ m) (g : AffineGeometry)
    (hg : AffineGeometry.ofJacobian m n id o jt = some g) (tol : ℝ) (htol : 0 < tol) (pts : List (Vec ℝ)) (z : Vec ℝ)
    (hz : g.center = some z) :
    checkGeometry (ofAffine g) tol pts = .ok true ↔
      (1 < g.corners → ∀ i c, g.corner i = some c → tol < euclid n c z) ∧ tol ≤ g.volume := by
  refine ⟨fun h => ?_, fun h => C80_affine m n id o jt hmn hid g hg tol htol pts z hz h.1 h.2⟩
  obtain ⟨hcs, hcorner, -⟩ := C28_corner_center m n id o jt hmn hid g hg
  obtain ⟨rfl, rfl, rfl, -, -, -⟩ := ofJacobian_good hmn hg
  obtain ⟨b, hb, -⟩ : ∃ b, position g.mydim g.id 0 0 = some b ∧ g.global b = z := by
    have := hz
    rw [AffineGeometry.center, Option.map_eq_some_iff] at this
    exact this
  obtain ⟨-, -, hn, -, -⟩ := (C80_checkGeometry (ofAffine g) tol pts (fun i => g.global (RefGeom.corner g.mydim g.id i)) z b
    ⟨hcorner, hz⟩ rfl hb).2.1.1 h
  refine ⟨fun h1 i c hc => ?_, hn.volume⟩
  by_cases hi : i < g.corners
  · rw [hcorner i hi] at hc
    obtain rfl := Option.some.inj hc
    exact (hn.several h1 i hi).1
  · rw [AffineGeometry.corner, Option.map_eq_some_iff] at hc
    obtain ⟨p, hp, -⟩ := hc
    rw [C21_vertex, List.getElem?_eq_none (by rw [C17_count]; omega)] at hp
    cases hp

/-- C80: an AxisAlignedCubeGeometry with ordered bounds is accepted exactly if half its diagonal and its volume are not too small -/
theorem C80_cube (g : AxisAlignedCubeGeometry) (hb : Built g) (ho : Ordered g) (tol : ℝ) (htol : 0 < tol) (pts : List (Vec ℝ)) :
    checkGeometry (ofCube g) tol pts = .ok true ↔ (0 < g.dim → tol < halfDiagonal g) ∧ tol ≤ g.volume := by
  have hv := hb.valid
  have hle : g.dim ≤ g.coorddim := by rw [← hv.count]; exact count_le _ _
  have hid : 2 ^ g.dim - 1 < 2 ^ g.dim := Nat.sub_lt (Nat.two_pow_pos _) Nat.one_pos
  obtain ⟨a, ha, hgl, hlo, hjit, hj, hji, hie, hvol, hcs, hcor, z, hz, hz'⟩ := C30_affine g hb ho
  obtain ⟨hacs, hacor, -⟩ := C28_corner_center _ _ _ _ _ hle hid a ha
  obtain ⟨-, hJ, hJi, hinv1, hinv2⟩ := C29_jacobians _ _ _ _ _ hle a ha
  obtain ⟨haie, hpos, hav⟩ := C29_integrationElement _ _ _ _ _ hle a ha
  have hN : g.corners = 2 ^ g.dim := by rw [AxisAlignedCubeGeometry.corners, Nat.one_shiftLeft]
  obtain ⟨b, hbp, hgb⟩ : ∃ b, position g.dim (2 ^ g.dim - 1) 0 0 = some b ∧ a.global b = z := by
    have h := hz
    obtain ⟨e1, e2, e3, -, -, -⟩ := ofJacobian_good hle ha
    rw [AffineGeometry.center, Option.map_eq_some_iff, e1, e3] at h
    exact h
  have cen : ∀ i < g.coorddim, g.center i = g.global b i := fun i hi => by
    have h1 := congrFun hz' ⟨i, hi⟩
    have h2 := congrFun (hgl b) ⟨i, hi⟩
    rw [hgb] at h2
    exact h1.trans h2.symm
  have hcorner : ∀ k < g.corners, ∀ i < g.coorddim, g.corner k i = g.global (RefGeom.corner g.dim (2 ^ g.dim - 1) k) i := fun k hk i hi => by
    obtain ⟨c, h1, h2⟩ := hcor k hk
    rw [hacor k (by omega)] at h1
    obtain rfl := Option.some.inj h1
    exact (congrFun h2 ⟨i, hi⟩).trans (congrFun (hgl _) ⟨i, hi⟩).symm
  have far : ∀ k, euclid g.coorddim (g.corner k) g.center = halfDiagonal g := fun k => by
    rw [euclid, halfDiagonal]
    congr 1
    refine sum_congr rfl fun i hi => ?_
    rw [corner_spec hv k i (mem_range.1 hi), center_spec hv i (mem_range.1 hi)]
    split_ifs <;> ring
  have hmean : ∀ i < g.coorddim, mean g.corners g.corner i = g.center i := fun i hi => by
    rw [mean, sum_congr rfl fun k _ => corner_spec hv k i hi, center_spec hv i hi, hN, sum_add_distrib, sum_const, card_range, nsmul_eq_mul]
    have h0 : ((2 ^ g.dim : ℕ) : ℝ) ≠ 0 := by positivity
    rw [div_eq_iff h0, add_mul, mul_comm]
    congr 1
    by_cases hax : g.axes i = true
    · have hr := count_lt g.axes hi hax
      rw [hv.count] at hr
      have := sum_bits g.dim (count g.axes i) hr
      simp only [hax, if_true]
      have e : ∀ k : Nat, (if k.testBit (count g.axes i) then g.upper i - g.lower i else 0) =
          (if k.testBit (count g.axes i) then (1 : ℝ) else 0) * (g.upper i - g.lower i) := fun k => by split_ifs <;> ring
      rw [sum_congr rfl fun k _ => e k, ← sum_mul]
      push_cast
      rw [← this]; ring
    · simp [hax]
  have hd1 : 1 < g.corners ↔ 0 < g.dim := by
    rw [hN]
    exact ⟨fun h => by by_contra h0; rw [Nat.eq_zero_of_not_pos h0] at h; omega, fun h => Nat.one_lt_two_pow (by omega)⟩
  rw [(C80_checkGeometry (ofCube g) tol pts g.corner g.center b ⟨fun _ _ => rfl, rfl⟩ rfl hbp).2.1]
  constructor
  · rintro ⟨-, -, hn, -, -⟩
    refine ⟨fun h => ?_, hn.volume⟩
    have := (hn.several (hd1.2 h) 0 (by change 0 < g.corners; rw [hN]; positivity)).1
    change tol < euclid g.coorddim _ _ at this
    rwa [far] at this
  · rintro ⟨h1, h2⟩
    refine ⟨?_, ?_, ⟨fun h i _ => ?_, fun h => ?_, h2⟩, ⟨?_, fun i hi => ?_⟩, fun x _ => ?_⟩
    · change g.corners ≠ 0; rw [hN]; positivity
    · change euclid g.coorddim g.center (g.global b) ≤ tol
      rw [euclid_eq_zero cen]; exact htol.le
    · change tol < euclid g.coorddim _ _ ∧ tol < euclid g.coorddim _ (mean g.corners _)
      rw [euclid_congr hmean, far]
      exact ⟨h1 (hd1.1 h), h1 (hd1.1 h)⟩
    · change euclid g.coorddim _ (mean g.corners _) ≤ tol
      rw [euclid_congr hmean, euclid_self]; exact htol.le
    · change g.corners = refSize g.dim (2 ^ g.dim - 1) g.dim
      rw [hcs, hacs]
    · change euclid g.coorddim (g.corner i) (g.global (RefGeom.corner g.dim (2 ^ g.dim - 1) i)) ≤ tol
      rw [euclid_eq_zero (hcorner i hi)]; exact htol.le
    · have e1 : matrixOf g.dim g.coorddim ((ofCube g).jacobianTransposed x) = mat g.dim g.coorddim g.jacobianTransposed := matrixOf_mv _ _ _
      have e2 : matrixOf g.coorddim g.dim ((ofCube g).jacobianInverseTransposed x) =
        mat g.coorddim g.dim g.jacobianInverseTransposed := matrixOf_mv _ _ _
      have e3 : matrixOf g.coorddim g.dim ((ofCube g).jacobian x) = mat g.coorddim g.dim g.jacobian := matrixOf_mv _ _ _
      have e4 : matrixOf g.dim g.coorddim ((ofCube g).jacobianInverse x) = mat g.dim g.coorddim g.jacobianInverse := matrixOf_mv _ _ _
      have t1 : mat g.dim g.coorddim g.jacobianTransposed = (mat g.coorddim g.dim g.jacobian)ᵀ := rfl
      have t2 : mat g.coorddim g.dim g.jacobianInverseTransposed = (mat g.dim g.coorddim g.jacobianInverse)ᵀ := rfl
      have inv : mat g.dim g.coorddim g.jacobianInverse * mat g.coorddim g.dim g.jacobian = 1 := by rw [hj, hji, hinv1]
      refine ⟨?_, fun i j => ?_, fun i j => ?_, ?_, ?_, ?_, ?_, fun _ => ?_⟩
      · change euclid g.dim x (g.local_ (g.global x)) ≤ tol
        rw [euclid_eq_zero fun r hr => ((C30_inverse g hb ho).1 x r hr).symm]; exact htol.le
      · change |(matrixOf g.dim g.coorddim _ * matrixOf g.coorddim g.dim _) i j - _| < tol
        rw [e1, e2, t1, t2, ← Matrix.transpose_mul, inv, Matrix.transpose_one]
        change |(1 : Matrix (Fin g.dim) (Fin g.dim) ℝ) i j - (1 : Matrix (Fin g.dim) (Fin g.dim) ℝ) i j| < tol
        rw [sub_self, abs_zero]; exact htol
      · change |(matrixOf g.dim g.coorddim _ * matrixOf g.coorddim g.dim _) i j - _| < tol
        rw [e3, e4, inv]
        change |(1 : Matrix (Fin g.dim) (Fin g.dim) ℝ) i j - (1 : Matrix (Fin g.dim) (Fin g.dim) ℝ) i j| < tol
        rw [sub_self, abs_zero]; exact htol
      · change matrixOf g.dim g.coorddim _ = (matrixOf g.coorddim g.dim _)ᵀ
        rw [e1, e3, t1]
      · change matrixOf g.coorddim g.dim _ = (matrixOf g.dim g.coorddim _)ᵀ
        rw [e2, e4, t2]
      · change 0 ≤ g.integrationElement
        rw [hie]; exact hpos.le
      · change |Real.sqrt ((matrixOf g.coorddim g.dim _)ᵀ * matrixOf g.coorddim g.dim _).det - g.integrationElement| ≤ tol
        rw [e3, hj, hie, ← haie, sub_self, abs_zero]; exact htol.le
      · change |g.volume - referenceVolume g.dim (2 ^ g.dim - 1) * g.integrationElement| ≤ tol
        rw [hvol, hie, hav, mul_comm, sub_self, abs_zero]; exact htol.le

/-- C80: with exchanged bounds on an odd number of axes it is rejected -/
theorem C80_cube_reversed (g : AxisAlignedCubeGeometry) (tol : ℝ) (htol : 0 < tol) (hneg : g.volume < 0) (pts : List (Vec ℝ)) :
    checkGeometry (ofCube g) tol pts ≠ .ok true := by
  intro h
  obtain ⟨b, hb⟩ : ∃ b, position (K := ℝ) g.dim (2 ^ g.dim - 1) 0 0 = some b := by
    obtain ⟨p, hp, -⟩ := C21_mean (K := ℝ) g.dim (2 ^ g.dim - 1) 0 0 (Nat.sub_lt (Nat.two_pow_pos _) Nat.one_pos)
      (Nat.zero_le _) (by rw [refSize, size_zero]; exact one_pos)
    exact ⟨p, hp⟩
  have := ((C80_checkGeometry (ofCube g) tol pts g.corner g.center b ⟨fun _ _ => rfl, rfl⟩ rfl hb).2.1.1 h).2.2.1.volume
  change tol ≤ g.volume at this
  linarith

/-- C80: the check would notice a wrong volume, since the geometry says that it is affine -/
theorem C80_cube_volume (g : AxisAlignedCubeGeometry) (hb : Built g) (ho : Ordered g) (tol v : ℝ) (hv' : tol < |v - g.volume|)
    (pts : List (Vec ℝ)) (hne : pts ≠ []) : checkGeometry { ofCube g with volume := v } tol pts ≠ .ok true := by
  intro h
  have hv := hb.valid
  have hle : g.dim ≤ g.coorddim := by rw [← hv.count]; exact count_le _ _
  obtain ⟨a, ha, -, -, -, -, -, hie, hvol, -⟩ := C30_affine g hb ho
  obtain ⟨-, -, hav⟩ := C29_integrationElement _ _ _ _ _ hle a ha
  obtain ⟨b, hbp⟩ : ∃ b, position (K := ℝ) g.dim (2 ^ g.dim - 1) 0 0 = some b := by
    obtain ⟨p, hp, -⟩ := C21_mean (K := ℝ) g.dim (2 ^ g.dim - 1) 0 0 (Nat.sub_lt (Nat.two_pow_pos _) Nat.one_pos)
      (Nat.zero_le _) (by rw [refSize, size_zero]; exact one_pos)
    exact ⟨p, hp⟩
  obtain ⟨x, hx⟩ := List.exists_mem_of_ne_nil pts hne
  have := (((C80_checkGeometry { ofCube g with volume := v } tol pts g.corner g.center b ⟨fun _ _ => rfl, rfl⟩ rfl hbp).2.1.1 h).2.2.2.2
    x hx).volume rfl
  change |v - referenceVolume g.dim (2 ^ g.dim - 1) * g.integrationElement| ≤ tol at this
  rw [mul_comm, hie, ← hav, ← hvol] at this
  linarith

/-- C80: the same for AffineGeometry -/
theorem C80_affine_volume (m n id : Nat) (o : Vec ℝ) (jt : Mat ℝ) (hmn : m ≤ n) (hid : id < 2 ^ m) (g : AffineGeometry)
    (hg : AffineGeometry.ofJacobian m n id o jt = some g) (tol v : ℝ) (hv : tol < |v - g.volume|) (pts : List (Vec ℝ)) (hne : pts ≠ []) :
    checkGeometry { ofAffine g with volume := v } tol pts ≠ .ok true := by
  intro h
  obtain ⟨e1, e2, e3, -, -, -⟩ := ofJacobian_good hmn hg
  obtain ⟨hcs, hcor, z, hz, -⟩ := C28_corner_center _ _ _ _ _ hmn hid g hg
  obtain ⟨-, -, hav⟩ := C29_integrationElement _ _ _ _ _ hmn g hg
  obtain ⟨b, hbp, -⟩ : ∃ b, position (K := ℝ) g.mydim g.id 0 0 = some b ∧ g.global b = g.global z := by
    have h := hz
    rw [AffineGeometry.center, Option.map_eq_some_iff] at h
    exact h
  obtain ⟨x, hx⟩ := List.exists_mem_of_ne_nil pts hne
  have := (((C80_checkGeometry { ofAffine g with volume := v } tol pts _ (g.global z) b ⟨fun i hi => hcor i hi, hz⟩ rfl hbp).2.1.1 h).2.2.2.2
    x hx).volume rfl
  change |v - referenceVolume g.mydim g.id * g.integrationElement| ≤ tol at this
  rw [mul_comm, e1, e3, ← hav] at this
  linarith

/-- the unit square in the plane -/
example (pts : List (Vec ℝ)) : checkGeometry (ofCube (ofCorners 2 (fun _ => 0) fun _ => 1)) (1 / 1000) pts = .ok true := by
  refine (C80_cube _ (Built.corners 2 _ _) (fun i _ _ => by simp [ofCorners]) _ (by norm_num) pts).2 ⟨fun _ => ?_, ?_⟩
  · rw [halfDiagonal, Real.lt_sqrt (by norm_num)]
    norm_num [ofCorners, sum_range_succ]
  · norm_num [ofCorners, AxisAlignedCubeGeometry.volume, List.range_succ]

/-- the unit square with volume 2 -/
example (x : Vec ℝ) : checkGeometry { ofCube (ofCorners 2 (fun _ => 0) fun _ => 1) with volume := 2 } (1 / 1000) [x] ≠ .ok true := by
  refine C80_cube_volume _ (Built.corners 2 _ _) (fun i _ _ => by simp [ofCorners]) _ _ ?_ _ (by simp)
  norm_num [ofCorners, AxisAlignedCubeGeometry.volume, List.range_succ]

/-- a reversed interval -/
example (pts : List (Vec ℝ)) : checkGeometry (ofCube (ofCorners 1 (fun _ => 1) fun _ => 0)) (1 / 1000) pts ≠ .ok true :=
  C80_cube_reversed _ _ (by norm_num) C30_reversed_counterexample.1 pts

end Verif.Check
