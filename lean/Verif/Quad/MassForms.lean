import Verif.Quad.MassModel
import Verif.Quad.MassRules
import Verif.Affine.Props
import Verif.MultiLinear.Props
import Mathlib.LinearAlgebra.Matrix.PosDef

/-!
The quadratic forms of the element matrices.
-/

namespace Verif.Quad

open Verif.Typ Verif.RefTopo Verif.RefGeom
open Finset hiding ext
open MvPolynomial
open Matrix hiding vec
open MeasureTheory

variable {d N c : Nat}

/-! ### The quadratic forms -/

theorem foldl_matrix {α : Type} (f : α → Fin N → Fin N → ℝ) : ∀ (l : List α) (M : Matrix (Fin N) (Fin N) ℝ) (i j : Fin N),
    l.foldl (fun M q => M + of (f q)) M i j = M i j + (l.map fun q => f q i j).sum
  | [], M, i, j => by simp
  | q :: l, M, i, j => by
    rw [List.foldl_cons, foldl_matrix f l, List.map_cons, List.sum_cons]
    simp only [Matrix.add_apply, of_apply]
    ring

theorem massMatrix_apply (φ : Fin N → (Fin d → ℝ) → ℝ) (ie : (Fin d → ℝ) → ℝ) (l : List (QPoint ℝ)) (i j : Fin N) :
    massMatrix φ ie l i j = quadOf (fun x => φ i x * φ j x * ie x) l := by
  rw [massMatrix, foldl_matrix (f := fun (q : QPoint ℝ) i j => φ i (q.at d) * φ j (q.at d) * (q.weight * ie (q.at d))), Matrix.zero_apply, zero_add, quadOf]
  congr 1
  refine List.map_congr_left fun q _ => ?_
  change _ = q.weight * (φ i (q.at d) * φ j (q.at d) * ie (q.at d))
  ring

theorem stiffnessMatrix_apply (g : Fin N → (Fin d → ℝ) → Fin d → ℝ) (jit : Matrix (Fin c) (Fin d) ℝ) (ie : (Fin d → ℝ) → ℝ)
    (l : List (QPoint ℝ)) (i j : Fin N) :
    stiffnessMatrix g jit ie l i j = quadOf (fun x => (jit *ᵥ g i x) ⬝ᵥ (jit *ᵥ g j x) * ie x) l := by
  rw [stiffnessMatrix, foldl_matrix (f := fun (q : QPoint ℝ) i j => (jit *ᵥ g i (q.at d)) ⬝ᵥ (jit *ᵥ g j (q.at d)) * (q.weight * ie (q.at d))),
    Matrix.zero_apply, zero_add, quadOf]
  congr 1
  refine List.map_congr_left fun q _ => ?_
  change _ = q.weight * ((jit *ᵥ g i (q.at d)) ⬝ᵥ (jit *ᵥ g j (q.at d)) * ie (q.at d))
  ring

theorem form_eq (M : Matrix (Fin N) (Fin N) ℝ) (v : Fin N → ℝ) : star v ⬝ᵥ (M *ᵥ v) = ∑ i, ∑ j, v i * v j * M i j := by
  simp only [dotProduct, mulVec, Pi.star_apply, star_trivial, mul_sum]
  exact sum_congr rfl fun i _ => sum_congr rfl fun j _ => by ring

theorem mass_form (φ : Fin N → (Fin d → ℝ) → ℝ) (ie : (Fin d → ℝ) → ℝ) (l : List (QPoint ℝ)) (v : Fin N → ℝ) :
    star v ⬝ᵥ (massMatrix φ ie l *ᵥ v) = quadOf (fun x => (∑ i, v i * φ i x) ^ 2 * ie x) l := by
  rw [form_eq]
  simp only [massMatrix_apply, ← quadOf_const_mul, ← quadOf_sum]
  congr 1
  funext x
  rw [sq, sum_mul_sum, sum_mul]
  refine sum_congr rfl fun i _ => ?_
  rw [sum_mul]
  exact sum_congr rfl fun j _ => by ring

theorem stiffness_form (g : Fin N → (Fin d → ℝ) → Fin d → ℝ) (jit : Matrix (Fin c) (Fin d) ℝ) (ie : (Fin d → ℝ) → ℝ) (l : List (QPoint ℝ))
    (v : Fin N → ℝ) : star v ⬝ᵥ (stiffnessMatrix g jit ie l *ᵥ v) =
      ∑ r, quadOf (fun x => (∑ i, v i * (jit *ᵥ g i x) r) ^ 2 * ie x) l := by
  rw [form_eq]
  simp only [stiffnessMatrix_apply, ← quadOf_const_mul, ← quadOf_sum]
  congr 1
  funext x
  simp only [sq, sum_mul, dotProduct, mul_sum]
  rw [sum_comm' (t' := univ) (s' := fun _ => univ) (by simp)]
  rw [sum_comm]
  conv_rhs => rw [sum_comm]
  rw [sum_comm]
  refine sum_congr rfl fun i _ => ?_
  conv_rhs => rw [sum_comm]
  refine sum_congr rfl fun j _ => sum_congr rfl fun r _ => by ring

theorem mass_symm (φ : Fin N → (Fin d → ℝ) → ℝ) (ie : (Fin d → ℝ) → ℝ) (l : List (QPoint ℝ)) : (massMatrix φ ie l).IsHermitian := by
  ext i j
  rw [conjTranspose_apply, star_trivial, massMatrix_apply, massMatrix_apply]
  simp only [mul_comm (φ j _)]

theorem stiffness_symm (g : Fin N → (Fin d → ℝ) → Fin d → ℝ) (jit : Matrix (Fin c) (Fin d) ℝ) (ie : (Fin d → ℝ) → ℝ) (l : List (QPoint ℝ)) :
    (stiffnessMatrix g jit ie l).IsHermitian := by
  ext i j
  rw [conjTranspose_apply, star_trivial, stiffnessMatrix_apply, stiffnessMatrix_apply]
  simp only [dotProduct_comm (jit *ᵥ g j _)]

/-- a polynomial without derivatives is constant -/
theorem const_of_pderiv {P : MvPolynomial (Fin d) ℝ} (h : ∀ i, pderiv i P = 0) : P = C (P.coeff 0) := by
  refine MvPolynomial.ext _ _ fun s => ?_
  rw [coeff_C]
  by_cases hs : (0 : Fin d →₀ Nat) = s
  · rw [if_pos hs, hs]
  rw [if_neg hs]
  obtain ⟨i, hi⟩ : ∃ i, s i ≠ 0 := by
    by_contra h0
    push Not at h0
    exact hs (Finsupp.ext fun i => (h0 i).symm)
  have h1 := coeff_pderiv (i := i) P (s - Finsupp.single i 1)
  rw [h i, coeff_zero] at h1
  have h2 : s - Finsupp.single i 1 + Finsupp.single i 1 = s := by
    refine Finsupp.ext fun j => ?_
    simp only [Finsupp.add_apply, Finsupp.tsub_apply, Finsupp.single_apply]
    split
    · next h => subst h; omega
    · omega
  rw [h2] at h1
  rcases mul_eq_zero.1 h1.symm with h3 | h3
  · exact h3
  · exact absurd h3 (by positivity)

/-! ### Cubes -/

/-- the rule has nonnegative weights, and a point of positive weight at every point of the grid -/
def Grid (S : Finset ℝ) (d : Nat) (l : List (QPoint ℝ)) : Prop :=
  (∀ q ∈ l, 0 ≤ q.weight) ∧ ∀ z : Nat → ℝ, (∀ i < d, z i ∈ S) → ∃ q ∈ l, 0 < q.weight ∧ ∀ i < d, q.position i = z i

theorem grid_tensor {S : Finset ℝ} {B O : List (QPoint ℝ)} (hB : Grid S d B) (hn : ∀ o ∈ O, 0 ≤ o.weight)
    (hO : ∀ z ∈ S, ∃ o ∈ O, o.position 0 = z ∧ 0 < o.weight) : Grid S (d + 1) (tensorProduct (d + 1) B O) := by
  constructor
  · intro q hq
    obtain ⟨b, hb, o, ho, rfl⟩ := mem_tensor.1 hq
    exact mul_nonneg (hB.1 b hb) (hn o ho)
  · intro z hz
    obtain ⟨b, hb, h1, h2⟩ := hB.2 z fun i hi => hz i (by omega)
    obtain ⟨o, ho, h3, h4⟩ := hO _ (hz d (by omega))
    refine ⟨_, mem_tensor.2 ⟨b, hb, o, ho, rfl⟩, mul_pos h1 h4, fun i hi => ?_⟩
    by_cases hid : i = d
    · simpa only [hid, if_true] using h3
    · simpa only [if_neg hid, if_pos (show i < d by omega)] using h2 i (by omega)

theorem grid_zero {S : Finset ℝ} {l : List (QPoint ℝ)} (hl : Grid S d l) {ie : (Fin d → ℝ) → ℝ} (hie : ∀ q ∈ l, 0 < ie (q.at d))
    {P : MvPolynomial (Fin d) ℝ} (hP : ∀ i, P.degreeOf i < #S) (h : quadOf (fun x => P.eval x ^ 2 * ie x) l = 0) : P = 0 := by
  refine eq_zero_of_eval_zero_at_prod_finset P (fun _ => S) hP fun x hx => ?_
  obtain ⟨q, hq, h1, h2⟩ := hl.2 (RefGeom.ext x) fun i hi => by rw [RefGeom.ext, dif_pos hi]; exact hx _
  have h3 : ∀ v ∈ l.map fun q => q.weight * (P.eval (q.at d) ^ 2 * ie (q.at d)), 0 ≤ v := by
    intro v hv
    obtain ⟨q, hq, rfl⟩ := List.mem_map.1 hv
    exact mul_nonneg (hl.1 q hq) (mul_nonneg (sq_nonneg _) (hie q hq).le)
  have h4 := List.all_zero_of_le_zero_le_of_sum_eq_zero h3 h (List.mem_map.2 ⟨q, hq, rfl⟩)
  have h5 : q.at d = x := _root_.funext fun i => by
    rw [QPoint.at, h2 i i.2, RefGeom.ext, dif_pos i.2]
  rw [h5] at h4
  have h6 := hie q hq
  rw [h5] at h6
  rcases mul_eq_zero.1 h4 with h4 | h4
  · exact absurd h4 h1.ne'
  rcases mul_eq_zero.1 h4 with h4 | h4
  · exact pow_eq_zero_iff two_ne_zero |>.1 h4
  · exact absurd h4 h6.ne'

theorem rule_grid (env : Env ℝ) {qt : QType} (hq : IsPlain qt) {d id p m k : Nat} (hd : d ≤ 30) (hid : id < 2 ^ d) (hc : IsCubeId d id)
    (hm : maxOrder d ⟨d, false, id⟩ qt = .ok m) (hp : p ≤ m) (hk : 2 * k ≤ p) :
    ∃ r S, rule env d ⟨d, false, id⟩ p qt = .ok r ∧ Grid S d r.pts ∧ (0 < d → k < #S) := by
  obtain ⟨tab, h, ht⟩ : ∃ tab h, tableOf qt = some (tab, h) := by
    rcases hq with rfl | rfl | rfl | rfl <;> exact ⟨_, _, rfl⟩
  have hok : tab.all (Row.ok1 0) = true := by
    rcases hq with rfl | rfl | rfl | rfl <;> cases ht
    exacts [gauss_ok, lobatto_ok, radauLeft_ok, radauRight_ok]
  have h0 : ∀ S, Grid S 0 [⟨fun _ => 0, 1⟩] := fun S => ⟨fun q hq => by rw [List.mem_singleton.1 hq]; exact zero_le_one,
    fun z _ => ⟨_, List.mem_singleton.2 rfl, one_pos, fun i hi => absurd hi (Nat.not_lt_zero i)⟩⟩
  obtain ⟨S, hS, hRS⟩ : ∃ S : Finset ℝ, (0 < d → k < #S) ∧ ∀ row, 0 < d → initHelper tab p = .ok row →
      ∀ z ∈ S, ∃ o ∈ row.pts.map (Node.point (K := ℝ)), o.position 0 = z ∧ 0 < o.weight := by
    obtain _ | d := d
    · exact ⟨∅, fun h => absurd h (Nat.lt_irrefl 0), fun _ h => absurd h (Nat.lt_irrefl 0)⟩
    obtain ⟨h30, h61, -⟩ := plain_table (K := ℝ) hq ht (p := 0) (Nat.zero_le _)
    obtain ⟨m', e1, e2⟩ := maxOrder_tab ht h30 h61 d id hd hid
    rw [e1] at hm
    cases hm
    have hph : p ≤ h := hp.trans e2.1
    obtain ⟨-, -, row, e, -⟩ := plain_table (K := ℝ) hq ht hph
    obtain ⟨S, h1, h2⟩ := ((rich_row hq ht hph e).1 hk).many
    refine ⟨S, fun _ => h1, fun row' _ e' z hz => ?_⟩
    rw [e] at e'
    cases e'
    obtain ⟨o, ho, h3, h4, -⟩ := h2 z hz
    exact ⟨o, ho, h3, h4⟩
  have hten : ∀ (t : Topo) (B : List (QPoint ℝ)), (∀ n, t = Topo.cube n → Grid S n B) → ∀ row ∈ tab, (∀ z ∈ S, ∃ o ∈ row.pts.map (Node.point (K := ℝ)), o.position 0 = z ∧ 0 < o.weight) →
      ∀ n, Topo.prism t = Topo.cube n → Grid S n (tensorProduct (t.dim + 1) B (row.pts.map Node.point)) := by
    intro t B hB row hr hR n hn
    obtain _ | n := n
    · exact absurd hn (by simp [Topo.cube])
    have e : t = Topo.cube n := by simpa [Topo.cube] using hn
    have hdim : t.dim = n := by rw [e]; exact (rep_cube n).dim_eq
    have hrow := List.all_eq_true.mp hok row hr
    simp only [Row.ok1, Bool.and_eq_true] at hrow
    have hpos : PosW (row.pts.map (Node.point (K := ℝ))) := posW_sound hrow.2
    rw [hdim]
    refine grid_tensor (hB n e) (fun o ho => (hpos o ho).le) hR
  obtain ⟨r, h1, h2⟩ := rule_induct2 env hq ht p d (fun row => ∀ z ∈ S, ∃ o ∈ row.pts.map (Node.point (K := ℝ)), o.position 0 = z ∧ 0 < o.weight) (fun _ => True)
    (fun row h0 _ hr _ => hRS row h0 hr) (fun _ _ _ _ _ _ _ => trivial)
    (fun t l => ∀ n, t = Topo.cube n → Grid S n l) (fun n hn => by
      obtain _ | n := n
      · exact h0 S
      · exact absurd hn (by simp [Topo.cube]))
    (fun row hr hR => one_of_tensor (P := fun t l => ∀ n, t = Topo.cube n → Grid S n l) hok hr (hten .pt _ (fun n hn => by
      obtain _ | n := n
      · exact h0 S
      · exact absurd hn (by simp [Topo.cube])) row hr hR))
    hten (fun t B hB row _ _ n hn => by obtain _ | n := n <;> exact absurd hn (by simp [Topo.cube]))
    (fun _ h => by
      obtain ⟨r, h1, -⟩ := simplex2_good (K := ℝ) (qt := .GaussLegendre) h (Or.inl rfl)
      exact ⟨r, h1, fun n hn => by obtain _ | n := n <;> exact absurd hn (by simp [Topo.cube])⟩)
    (fun _ h => by
      obtain ⟨r, h1, -⟩ := simplex3_good (K := ℝ) (qt := .GaussLegendre) h
      exact ⟨r, h1, fun n hn => by obtain _ | n := n <;> exact absurd hn (by simp [Topo.cube])⟩)
    (fun _ h => by
      obtain ⟨r, h1, -⟩ := prism3_good (K := ℝ) (qt := .GaussLegendre) h
      exact ⟨r, h1, fun n hn => by
        obtain _ | _ | n := n <;> exact absurd hn (by simp [Topo.cube])⟩) d id m hd le_rfl hid hm hp
  exact ⟨r, S, h1, h2 d (MultiLinear.topoOf_cube d id hc), hS⟩

end Verif.Quad
