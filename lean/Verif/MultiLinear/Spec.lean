import Verif.MultiLinear.Model
import Verif.RefGeom.Props
import Verif.MatHelp.Props

/-! The map of MultiLinearGeometry and its Jacobian by recursion over the topology, one component at a time. -/

namespace Verif.MultiLinear

open Verif.RefGeom Verif.MatHelp Verif.RefTopo Verif.Typ Finset
open MultiLinearGeometry

noncomputable section

/-- number of vertices -/
abbrev nv (t : Topo) : Nat := t.sz t.dim

/-- the guard of the code in the pyramid -/
def far (tol a : ℝ) : Prop := a > tol ∨ a < -tol

open Classical in
/-- the map, one component; `c k` is the component of corner `k` -/
def ML (tol : ℝ) : Topo → (Nat → ℝ) → Vec ℝ → ℝ
  | .pt, c, _ => c 0
  | .prism t, c, z => (1 - z t.dim) * ML tol t c z + z t.dim * ML tol t (fun k => c (nv t + k)) z
  | .pyr t, c, z =>
    (if far tol (1 - z t.dim) then (1 - z t.dim) * ML tol t c (fun r => z r / (1 - z t.dim)) else 0) +
      z t.dim * c (nv t)

open Classical in
/-- inverse of the distance to the apex; 0 near the apex -/
def scale (tol a : ℝ) : ℝ := if far tol (1 - a) then 1 / (1 - a) else 0

/-- the Jacobian, one component: entry for direction `r` -/
def MLd (tol : ℝ) : Topo → (Nat → ℝ) → Vec ℝ → Nat → ℝ
  | .pt, _, _, _ => 0
  | .prism t, c, z, r =>
    if r = t.dim then ML tol t (fun k => c (nv t + k)) z - ML tol t c z
    else (1 - z t.dim) * MLd tol t c z r + z t.dim * MLd tol t (fun k => c (nv t + k)) z r
  | .pyr t, c, z, r =>
    let s := scale tol (z t.dim)
    if r = t.dim then
      -ML tol t c (fun r => s * z r) + c (nv t) + ∑ j ∈ range t.dim, s * z j * MLd tol t c (fun r => s * z r) j
    else MLd tol t c (fun r => s * z r) r

theorem nv_prism (t : Topo) : nv (.prism t) = nv t + nv t := by
  change t.sz (t.dim + 1) + 2 * t.sz t.dim = _
  rw [Topo.sz_eq_zero t _ (by omega)]; simp only [nv]; omega

theorem nv_pyr (t : Topo) : nv (.pyr t) = nv t + 1 := by
  change t.sz t.dim + (t.sz (t.dim + 1) + if t.dim = t.dim then 1 else 0) = _
  rw [Topo.sz_eq_zero t (t.dim + 1) (by omega), if_pos rfl, Nat.zero_add]

/-- the topology formed by the first `d` constructions -/
def sub (id d : Nat) : Topo := topoOf d (id % 2 ^ d)

theorem sub_dim (id d : Nat) : (sub id d).dim = d := (rep_topoOf d _).dim_eq

theorem sub_succ (id d m : Nat) (h : d < m) :
    (implIsPrism id m (m - (d + 1)) = true → sub id (d + 1) = .prism (sub id d)) ∧
    (implIsPrism id m (m - (d + 1)) = false → sub id (d + 1) = .pyr (sub id d)) := by
  have e : implIsPrism id m (m - (d + 1)) = implIsPrism id (d + 1) 0 := by
    simp only [implIsPrism]; congr 3; omega
  have e2 : id % 2 ^ (d + 1) % 2 ^ d = id % 2 ^ d := Nat.mod_mod_of_dvd _ (pow_dvd_pow 2 (by omega))
  have e3 : (id % 2 ^ (d + 1)).testBit d = id.testBit d := by rw [Nat.testBit_mod_two_pow]; simp
  rw [e, implIsPrism_eq]
  constructor
  · intro hp
    have hp' : d = 0 ∨ id.testBit d = true := by simpa using hp
    rw [sub, topoOf, e2, e3, if_pos hp', sub]
  · intro hp
    have hp' : ¬ (d = 0 ∨ id.testBit d = true) := by simpa using hp
    rw [sub, topoOf, e2, e3, if_neg hp', sub]

theorem sub_self {id m : Nat} (h : id < 2 ^ m) : sub id m = topoOf m id := by rw [sub, Nat.mod_eq_of_lt h]

theorem setRow_same (M : Mat ℝ) (r : Nat) (v : Vec ℝ) : setRow M r v r = v := if_pos rfl
theorem setRow_ne (M : Mat ℝ) {r i : Nat} (v : Vec ℝ) (h : i ≠ r) : setRow M r v i = M i := if_neg h

theorem ML_pyr_far {tol : ℝ} {t : Topo} {c : Nat → ℝ} {z : Vec ℝ} (h : far tol (1 - z t.dim)) :
    ML tol (.pyr t) c z = (1 - z t.dim) * ML tol t c (fun r => z r / (1 - z t.dim)) + z t.dim * c (nv t) := by
  rw [ML, if_pos h]

theorem ML_pyr_near {tol : ℝ} {t : Topo} {c : Nat → ℝ} {z : Vec ℝ} (h : ¬ far tol (1 - z t.dim)) :
    ML tol (.pyr t) c z = z t.dim * c (nv t) := by
  rw [ML, if_neg h, zero_add]

theorem far_iff (tol a : ℝ) : far tol a ↔ (a > tol ∨ a < -tol) := Iff.rfl

/-- the code of `global` computes `ML` -/
theorem globalS_eq (g : MultiLinearGeometry) (x : Vec ℝ) (d : Nat) (hd : d ≤ g.mydim) :
    ∀ (add : Bool) (cit : Nat) (df rf : ℝ) (y : Vec ℝ),
    (g.globalS add d cit df x rf y).1 = cit + nv (sub g.id d) ∧
    ∀ j, (g.globalS add d cit df x rf y).2 j = (if add then y j else 0) +
      rf * ML g.tol (sub g.id d) (fun k => g.corners_ (cit + k) j) (fun r => df * x r) := by
  induction d with
  | zero =>
    intro add cit df rf y
    refine ⟨rfl, fun j => ?_⟩
    cases add <;> simp [globalS, sub, topoOf, ML]
  | succ d ih =>
    intro add cit df rf y
    have ih := ih (by omega)
    obtain ⟨hs1, hs2⟩ := sub_succ g.id d g.mydim hd
    have hdim := sub_dim g.id d
    rw [globalS]
    simp only
    cases hp : implIsPrism g.id g.mydim (g.mydim - (d + 1)) with
    | true =>
      rw [hs1 hp, nv_prism]
      rw [if_pos rfl]
      obtain ⟨h1, h2⟩ := ih add cit df (rf * (1 - df * x d)) y
      obtain ⟨h3, h4⟩ := ih true (g.globalS add d cit df x (rf * (1 - df * x d)) y).1 df (rf * (df * x d))
        (g.globalS add d cit df x (rf * (1 - df * x d)) y).2
      refine ⟨by rw [h3, h1]; omega, fun j => ?_⟩
      rw [h4 j, h2 j, h1, ML, hdim, if_pos rfl]
      simp only [Nat.add_assoc]
      ring
    | false =>
      rw [hs2 hp, nv_pyr]
      rw [if_neg (by simp)]
      by_cases hf : far g.tol (1 - df * x d)
      · have hf' := hf
        rw [far_iff] at hf'
        obtain ⟨h1, h2⟩ := ih add cit (df / (1 - df * x d)) (rf * (1 - df * x d)) y
        rw [if_pos hf']
        refine ⟨by simp only [h1]; omega, fun j => ?_⟩
        rw [ML_pyr_far (by rw [hdim]; exact hf), hdim]
        simp only [axpy, h1]
        rw [h2 j]
        have e : (fun r => df / (1 - df * x d) * x r) = fun r => df * x r / (1 - df * x d) := by
          funext r; ring
        rw [e]; ring
      · have hf' := hf
        rw [far_iff] at hf'
        obtain ⟨h1, h2⟩ := ih add cit df 0 y
        rw [if_neg hf']
        refine ⟨by simp only [h1]; omega, fun j => ?_⟩
        rw [ML_pyr_near (by rw [hdim]; exact hf), hdim]
        simp only [axpy, h1]
        rw [h2 j]; ring

theorem fold_add (jt2 : Mat ℝ) (w : Nat → ℝ) (d : Nat) : ∀ (k : Nat), k ≤ d → ∀ (jt : Mat ℝ),
    let R := (List.range k).foldl (fun jt j =>
          let jt := setRow jt j (fun i => jt j i + jt2 j i)
          setRow jt d (axpy (jt d) (w j) (jt2 j))) jt
    (∀ r, r < k → ∀ i, R r i = jt r i + jt2 r i) ∧ (∀ r, k ≤ r → r ≠ d → R r = jt r) ∧
      ∀ i, R d i = jt d i + ∑ j ∈ range k, w j * jt2 j i := by
  intro k
  induction k with
  | zero => intro _ jt; simp
  | succ k ih =>
    intro hk jt
    simp only at ih ⊢
    obtain ⟨h1, h2, h3⟩ := ih (by omega) jt
    rw [List.range_succ, List.foldl_append, List.foldl_cons, List.foldl_nil]
    generalize (List.range k).foldl _ jt = R at h1 h2 h3 ⊢
    refine ⟨fun r hr i => ?_, fun r hr hrd => ?_, fun i => ?_⟩
    · simp only [setRow]
      rw [if_neg (by omega)]
      by_cases hrk : r = k
      · rw [if_pos hrk, hrk, h2 k (le_refl _) (by omega)]
      · rw [if_neg hrk, h1 r (by omega)]
    · simp only [setRow]
      rw [if_neg hrd, if_neg (by omega), h2 r (by omega) hrd]
    · rw [setRow_same, axpy, setRow_ne _ _ (by omega), h3, sum_range_succ]; ring

theorem fold_noadd (w : Nat → ℝ) (d : Nat) : ∀ (k : Nat), k ≤ d → ∀ (jt : Mat ℝ),
    let R := (List.range k).foldl (fun jt j => setRow jt d (axpy (jt d) (w j) (jt j))) jt
    (∀ r, r ≠ d → R r = jt r) ∧ ∀ i, R d i = jt d i + ∑ j ∈ range k, w j * jt j i := by
  intro k
  induction k with
  | zero => intro _ jt; simp
  | succ k ih =>
    intro hk jt
    simp only at ih ⊢
    obtain ⟨h1, h2⟩ := ih (by omega) jt
    rw [List.range_succ, List.foldl_append, List.foldl_cons, List.foldl_nil]
    generalize (List.range k).foldl _ jt = R at h1 h2 ⊢
    refine ⟨fun r hr => ?_, fun i => ?_⟩
    · simp only [setRow]
      rw [if_neg hr, h1 r hr]
    · rw [setRow_same, axpy, h2, h1 k (by omega), sum_range_succ]; ring

theorem scale_eq (tol df xd : ℝ) :
    (if 1 - df * xd > tol ∨ 1 - df * xd < -tol then df / (1 - df * xd) else 0) = scale tol (df * xd) * df := by
  unfold scale
  by_cases hf : far tol (1 - df * xd)
  · have hf' := hf
    rw [far_iff] at hf'
    rw [if_pos hf, if_pos hf']; ring
  · have hf' := hf
    rw [far_iff] at hf'
    rw [if_neg hf, if_neg hf', zero_mul]

/-- the code of `jacobianTransposed` computes `MLd` -/
theorem jacS_eq (g : MultiLinearGeometry) (x : Vec ℝ) (d : Nat) (hd : d ≤ g.mydim) :
    ∀ (add : Bool) (cit : Nat) (df rf : ℝ) (jt : Mat ℝ),
    (g.jacobianTransposedS add d cit df x rf jt).1 = cit + nv (sub g.id d) ∧
    (∀ r, r < d → ∀ j, (g.jacobianTransposedS add d cit df x rf jt).2 r j = (if add then jt r j else 0) +
      rf * MLd g.tol (sub g.id d) (fun k => g.corners_ (cit + k) j) (fun r => df * x r) r) ∧
    ∀ r, d ≤ r → (g.jacobianTransposedS add d cit df x rf jt).2 r = jt r := by
  induction d with
  | zero =>
    intro add cit df rf jt
    refine ⟨rfl, fun r hr => absurd hr (by omega), fun r _ => rfl⟩
  | succ d ih =>
    intro add cit df rf jt
    have ih := ih (by omega)
    have hg := globalS_eq g x d (by omega)
    obtain ⟨hs1, hs2⟩ := sub_succ g.id d g.mydim hd
    have hdim := sub_dim g.id d
    rw [jacobianTransposedS]
    simp only
    cases hp : implIsPrism g.id g.mydim (g.mydim - (d + 1)) with
    | true =>
      rw [hs1 hp, nv_prism, if_pos rfl]
      obtain ⟨a1, a2, a3⟩ := ih add cit df (rf * (1 - df * x d)) jt
      set J1 := g.jacobianTransposedS add d cit df x (rf * (1 - df * x d)) jt
      obtain ⟨b1, b2, b3⟩ := ih true J1.1 df (rf * (df * x d)) J1.2
      set J2 := g.jacobianTransposedS true d J1.1 df x (rf * (df * x d)) J1.2
      obtain ⟨c1, c2⟩ := hg add cit df (-rf) (J2.2 d)
      set G1 := g.globalS add d cit df x (-rf) (J2.2 d)
      obtain ⟨e1, e2⟩ := hg true G1.1 df rf G1.2
      set G2 := g.globalS true d G1.1 df x rf G1.2
      refine ⟨by simp only [e1, c1]; omega, fun r hr j => ?_, fun r hr => ?_⟩
      · simp only [setRow, MLd, hdim]
        by_cases hrd : r = d
        · subst hrd
          rw [if_pos rfl, if_pos rfl, e2, c2, if_pos rfl, b3 r (le_refl _), a3 r (le_refl _), c1]
          simp only [Nat.add_assoc]
          ring
        · rw [if_neg hrd, if_neg hrd, b2 r (by omega), a2 r (by omega), if_pos rfl, a1]
          simp only [Nat.add_assoc]
          ring
      · simp only [setRow]
        rw [if_neg (by omega), b3 r (by omega), a3 r (by omega)]
    | false =>
      rw [hs2 hp, nv_pyr, if_neg (by simp)]
      rw [scale_eq]
      set s := scale g.tol (df * x d) with hs
      have ez : (fun r => s * df * x r) = fun r => s * (df * x r) := by funext r; ring
      obtain ⟨c1, c2⟩ := hg add cit (s * df) (-rf) (jt d)
      set G1 := g.globalS add d cit (s * df) x (-rf) (jt d)
      cases add with
      | true =>
        rw [if_pos rfl]
        obtain ⟨a1, a2, a3⟩ := ih false cit (s * df) rf garbage
        set J := g.jacobianTransposedS false d cit (s * df) x rf garbage
        obtain ⟨f1, f2, f3⟩ := fold_add J.2 (fun j => s * df * x j) d d (le_refl _)
          (setRow (setRow jt d G1.2) d (axpy (setRow jt d G1.2 d) rf (g.corners_ G1.1)))
        simp only
        generalize (List.range d).foldl _ _ = R at f1 f2 f3 ⊢
        refine ⟨by simp only [c1]; omega, fun r hr j => ?_, fun r hr => ?_⟩
        · simp only [MLd, hdim, ← hs]
          by_cases hrd : r = d
          · subst hrd
            rw [f3, if_pos trivial, if_pos rfl, setRow_same, setRow_same]
            simp only [axpy]
            rw [c2, if_pos rfl, ez, c1]
            rw [sum_congr rfl (g := fun j' => rf * (s * (df * x j') * MLd g.tol (sub g.id r)
              (fun k => g.corners_ (cit + k) j) (fun r => s * (df * x r)) j'))
              fun j' hj => by rw [a2 j' (mem_range.1 hj), if_neg (by simp), ez]; ring]
            rw [← mul_sum]
            ring
          · rw [f1 r (by omega), if_neg hrd, a2 r (by omega), ez, if_neg (by simp), if_pos trivial, setRow_ne _ _ hrd, setRow_ne _ _ hrd, zero_add]
        · rw [f2 r (by omega) (by omega)]
          simp only [setRow]
          rw [if_neg (by omega), if_neg (by omega)]
      | false =>
        rw [if_neg (by simp)]
        obtain ⟨a1, a2, a3⟩ := ih false cit (s * df) rf
          (setRow (setRow jt d G1.2) d (axpy (setRow jt d G1.2 d) rf (g.corners_ G1.1)))
        set J := g.jacobianTransposedS false d cit (s * df) x rf
          (setRow (setRow jt d G1.2) d (axpy (setRow jt d G1.2 d) rf (g.corners_ G1.1)))
        obtain ⟨f1, f2⟩ := fold_noadd (fun j => s * df * x j) d d (le_refl _) J.2
        simp only
        generalize (List.range d).foldl _ _ = R at f1 f2 ⊢
        refine ⟨by simp only [c1]; omega, fun r hr j => ?_, fun r hr => ?_⟩
        · simp only [MLd, hdim, ← hs]
          by_cases hrd : r = d
          · subst hrd
            rw [f2, if_pos rfl, a3 r (le_refl _), setRow_same, setRow_same]
            simp only [axpy]
            rw [c2, if_neg (by simp), ez, c1]
            rw [sum_congr rfl (g := fun j' => rf * (s * (df * x j') * MLd g.tol (sub g.id r)
              (fun k => g.corners_ (cit + k) j) (fun r => s * (df * x r)) j'))
              fun j' hj => by rw [a2 j' (mem_range.1 hj), if_neg (by simp), ez]; ring]
            rw [← mul_sum]
            ring
          · rw [f1 r hrd, if_neg hrd, a2 r (by omega), ez]; simp
        · rw [f1 r (by omega), a3 r (by omega)]
          simp only [setRow]
          rw [if_neg (by omega), if_neg (by omega)]

theorem global_eq (g : MultiLinearGeometry) (hid : g.id < 2 ^ g.mydim) (x : Vec ℝ) (j : Nat) :
    g.global x j = ML g.tol (topoOf g.mydim g.id) (fun k => g.corners_ k j) x := by
  have h := (globalS_eq g x g.mydim (le_refl _) false 0 1 1 (garbage 0)).2 j
  rw [sub_self hid] at h
  rw [global, h]
  simp

theorem jt_eq (g : MultiLinearGeometry) (hid : g.id < 2 ^ g.mydim) (x : Vec ℝ) (r j : Nat) (hr : r < g.mydim) :
    g.jacobianTransposed x r j = MLd g.tol (topoOf g.mydim g.id) (fun k => g.corners_ k j) x r := by
  have h := (jacS_eq g x g.mydim (le_refl _) false 0 1 1 garbage).2.1 r hr j
  rw [sub_self hid] at h
  rw [jacobianTransposed, h]
  simp

end

end Verif.MultiLinear
