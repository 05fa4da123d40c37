import Verif.Quad.NodesProps
import Verif.Quad.MapPoly
import Verif.Quad.DiscreteDivergence
import Mathlib.RingTheory.Polynomial.Basic
import Mathlib.Combinatorics.Nullstellensatz
import Mathlib.Algebra.MvPolynomial.Funext

/-! Discrete inner products of polynomials: products of rules, and rules close to an integral. -/

namespace Verif.Quad

open Verif.Typ Verif.RefTopo Verif.RefGeom
open Finset hiding ext
open MvPolynomial
open MeasureTheory

/-- the sum of `P²` is positive for all polynomials other than zero of degree at most `k` -/
def Definite (d k : Nat) (l : List (QPoint ℝ)) : Prop :=
  ∀ P : MvPolynomial (Fin d) ℝ, P.totalDegree ≤ k → 0 ≤ quadOf (fun x => P.eval x ^ 2) l ∧ (quadOf (fun x => P.eval x ^ 2) l = 0 → P = 0)

/-! ### Products -/

theorem sum_flatMap_swap {α β γ : Type} (g : γ → ℝ) (f : β → α → γ) (O : List α) : ∀ B : List β,
    ((B.flatMap fun b => O.map (f b)).map g).sum = (O.map fun o => (B.map fun b => g (f b o)).sum).sum
  | [] => by simp
  | b :: B => by
    rw [List.flatMap_cons, List.map_append, List.sum_append, sum_flatMap_swap g f O B, List.map_map, ← List.sum_map_add]
    rfl

/-- the polynomial `x ↦ P (c x, z)` -/
noncomputable def slice {d : Nat} (c z : ℝ) (P : MvPolynomial (Fin (d + 1)) ℝ) : MvPolynomial (Fin d) ℝ :=
  bind₁ (fun j : Fin (d + 1) => if h : (j : Nat) < d then C c * X ⟨j, h⟩ else C z) P

theorem slice_eval {d : Nat} (c z : ℝ) (P : MvPolynomial (Fin (d + 1)) ℝ) (x : Fin d → ℝ) :
    (slice c z P).eval x = P.eval fun j : Fin (d + 1) => if h : (j : Nat) < d then c * x ⟨j, h⟩ else z := by
  rw [slice, eval_bind]
  congr 1
  refine congrArg _ (_root_.funext fun j => ?_)
  by_cases hj : (j : Nat) < d
  · simp [hj]
  · simp [hj]

theorem slice_degree {d : Nat} (c z : ℝ) (P : MvPolynomial (Fin (d + 1)) ℝ) : (slice c z P).totalDegree ≤ P.totalDegree := by
  have := (degLike_total (d := d)).bind_le (c := 1) (fun j : Fin (d + 1) => if h : (j : Nat) < d then C c * X ⟨j, h⟩ else C z) (fun j => by
    split
    · refine (totalDegree_mul _ _).trans ?_
      rw [totalDegree_C, zero_add]
      exact (totalDegree_X _).le
    · rw [totalDegree_C]; exact Nat.zero_le _) P
  rwa [one_mul] at this

/-- a polynomial that vanishes on more than `k` parallel slices is zero -/
theorem zero_of_slices {d k : Nat} {P : MvPolynomial (Fin (d + 1)) ℝ} (hP : P.totalDegree ≤ k) {S : Finset ℝ} (hS : k < #S)
    (c : ℝ → ℝ) (hc : ∀ z ∈ S, c z ≠ 0) (h : ∀ z ∈ S, slice (c z) z P = 0) : P = 0 := by
  refine MvPolynomial.funext fun x => ?_
  rw [map_zero]
  set L : Polynomial ℝ := aeval (fun j : Fin (d + 1) => if (j : Nat) < d then Polynomial.C (x j) else Polynomial.X) P with hL
  have hev : ∀ z, L.eval z = P.eval fun j : Fin (d + 1) => if (j : Nat) < d then x j else z := by
    intro z
    rw [hL, ← Polynomial.coe_evalRingHom, aeval_def, eval₂_eq', eval_eq', map_sum]
    refine sum_congr rfl fun s _ => ?_
    rw [map_mul, map_prod]
    congr 1
    · simp
    · refine prod_congr rfl fun j _ => ?_
      rw [map_pow]
      by_cases hj : (j : Nat) < d
      · simp [hj]
      · simp [hj]
  have hdeg : L.natDegree ≤ k := by
    have := aeval_natDegree_le P hP (fun j : Fin (d + 1) => if (j : Nat) < d then Polynomial.C (x j) else Polynomial.X) (n := 1) fun j => by
      split
      · rw [Polynomial.natDegree_C]; exact Nat.zero_le _
      · exact Polynomial.natDegree_X_le
    rwa [mul_one] at this
  have hz : L = 0 := by
    refine Polynomial.eq_zero_of_natDegree_lt_card_of_eval_eq_zero' L S (fun z hz => ?_) (lt_of_le_of_lt hdeg hS)
    rw [hev]
    have := slice_eval (c z) z P fun j => x j.castSucc / c z
    rw [h z hz, map_zero] at this
    rw [this]
    refine congrArg (fun v => eval v P) (_root_.funext fun j => ?_)
    by_cases hj : (j : Nat) < d
    · simp only [dif_pos hj, if_pos hj]
      rw [mul_div_cancel₀ _ (hc z hz)]
      rfl
    · simp only [dif_neg hj, if_neg hj]
  have := hev (x (Fin.last d))
  rw [hz, Polynomial.eval_zero] at this
  rw [this]
  refine congrArg (fun v => eval v P) (_root_.funext fun j => ?_)
  by_cases hj : (j : Nat) < d
  · simp only [if_pos hj]
  · simp only [if_neg hj]
    congr 1
    exact Fin.ext (by have := j.2; simp only [Fin.val_last]; omega)

/-- the one dimensional rule has nonnegative weights and more than `k` points of positive weight; with `b` only points other than the
tip are counted -/
structure Rich (b : Bool) (k : Nat) (O : List (QPoint ℝ)) : Prop where
  nonneg : ∀ o ∈ O, 0 ≤ o.weight
  le_one : ∀ o ∈ O, o.position 0 ≤ 1
  many : ∃ S : Finset ℝ, k < #S ∧ ∀ z ∈ S, ∃ o ∈ O, o.position 0 = z ∧ 0 < o.weight ∧ (b = true → z < 1)

theorem definite_product {d k : Nat} {B O l : List (QPoint ℝ)} {b : Bool} (hO : Rich b k O) (hB : Definite d k B) (c : ℝ → ℝ) (e : ℝ → ℝ)
    (hc : ∀ z, (b = true → z < 1) → c z ≠ 0) (he : ∀ z ≤ 1, 0 ≤ e z) (he' : ∀ z, (b = true → z < 1) → 0 < e z)
    (hl : ∀ P : MvPolynomial (Fin (d + 1)) ℝ, quadOf (fun x => P.eval x ^ 2) l =
      (O.map fun o => o.weight * e (o.position 0) * quadOf (fun x => (slice (c (o.position 0)) (o.position 0) P).eval x ^ 2) B).sum) :
    Definite (d + 1) k l := by
  intro P hP
  have hs := fun c z => hB (slice c z P) ((slice_degree c z P).trans hP)
  have hnn : ∀ v ∈ O.map fun o => o.weight * e (o.position 0) * quadOf (fun x => (slice (c (o.position 0)) (o.position 0) P).eval x ^ 2) B, 0 ≤ v := by
    intro v hv
    obtain ⟨o, ho, rfl⟩ := List.mem_map.1 hv
    exact mul_nonneg (mul_nonneg (hO.nonneg o ho) (he _ (hO.le_one o ho))) (hs _ _).1
  rw [hl]
  refine ⟨List.sum_nonneg hnn, fun h0 => ?_⟩
  obtain ⟨S, hS, hS'⟩ := hO.many
  refine zero_of_slices hP hS c (fun z hz => ?_) fun z hz => ?_
  · obtain ⟨o, -, -, -, h⟩ := hS' z hz
    exact hc z h
  · obtain ⟨o, ho, rfl, hw, h⟩ := hS' z hz
    have := List.all_zero_of_le_zero_le_of_sum_eq_zero hnn h0 (List.mem_map_of_mem ho)
    exact (hs _ _).2 ((mul_eq_zero.1 this).resolve_left (mul_pos hw (he' _ h)).ne')

theorem definite_tensor {d k : Nat} {B O : List (QPoint ℝ)} (hB : Definite d k B) (hO : Rich false k O) :
    Definite (d + 1) k (tensorProduct (d + 1) B O) := by
  refine definite_product hO hB (fun _ => 1) (fun _ => 1) (fun _ _ => one_ne_zero) (fun _ _ => zero_le_one) (fun _ _ => one_pos) fun P => ?_
  rw [quadOf, tensorProduct, sum_flatMap_swap]
  congr 1
  refine List.map_congr_left fun o _ => ?_
  rw [mul_one, quadOf, ← List.sum_map_mul_left]
  congr 1
  refine List.map_congr_left fun b _ => ?_
  rw [slice_eval]
  have : (fun j : Fin (d + 1) => setV (fun i => if i < d + 1 - 1 then b.position i else 0) (d + 1 - 1) (o.position 0) j) =
      fun j : Fin (d + 1) => if h : (j : Nat) < d then 1 * b.position ((⟨j, h⟩ : Fin d) : Nat) else o.position 0 := by
    funext j
    by_cases hj : (j : Nat) < d
    · rw [setV_ne _ (by omega), dif_pos hj, one_mul]
      exact if_pos hj
    · have : (j : Nat) = d := by have := j.2; omega
      rw [dif_neg hj, Nat.add_sub_cancel, this, setV_same]
  simp only [this]
  ring

theorem definite_conical {d k : Nat} {B O : List (QPoint ℝ)} (hB : Definite d k B) (hO : Rich true k O) :
    Definite (d + 1) k (conicalProduct (d + 1) false B O) := by
  refine definite_product hO hB (fun z => 1 - z) (fun z => (1 - z) ^ d) (fun z h => by have := h rfl; linarith) (fun z h => pow_nonneg (by linarith) _)
    (fun z h => pow_pos (by have := h rfl; linarith) _) fun P => ?_
  rw [quadOf, conicalProduct, sum_flatMap_swap]
  congr 1
  refine List.map_congr_left fun o _ => ?_
  rw [quadOf, ← List.sum_map_mul_left]
  congr 1
  refine List.map_congr_left fun b _ => ?_
  rw [slice_eval]
  have : (fun j : Fin (d + 1) => setV (fun i => if i < d + 1 - 1 then (1 - o.position 0) * b.position i else 0) (d + 1 - 1) (o.position 0) j) =
      fun j : Fin (d + 1) => if h : (j : Nat) < d then (1 - o.position 0) * b.position ((⟨j, h⟩ : Fin d) : Nat) else o.position 0 := by
    funext j
    by_cases hj : (j : Nat) < d
    · rw [setV_ne _ (by omega), dif_pos hj]
      exact if_pos hj
    · have : (j : Nat) = d := by have := j.2; omega
      rw [dif_neg hj, Nat.add_sub_cancel, this, setV_same]
  dsimp only
  rw [this]
  simp only [Bool.false_eq_true, if_false, mulPow_eq, Nat.add_sub_cancel]
  ring

theorem definite_pt (k : Nat) : Definite 0 k [⟨fun _ => 0, 1⟩] := by
  intro P _
  have e : quadOf (fun x => P.eval x ^ 2) [(⟨fun _ => 0, 1⟩ : QPoint ℝ)] = P.eval (fun _ : Fin 0 => (0 : ℝ)) ^ 2 := by simp [quadOf]
  rw [e]
  refine ⟨sq_nonneg _, fun h => MvPolynomial.funext fun x => ?_⟩
  rw [map_zero, ← pow_eq_zero_iff two_ne_zero, ← h]
  exact congrArg (fun v => eval v P ^ 2) (_root_.funext fun i => i.elim0)

/-! ### Rules close to the integral -/

/-- Cauchy-Schwarz with a dual basis: the coefficients are bounded by the quadratic form -/
theorem dual_bound {ι : Type} [Fintype ι] [DecidableEq ι] (G D : ι → ι → ℝ) (hsym : ∀ i j, G i j = G j i)
    (hG : ∀ v : ι → ℝ, 0 ≤ ∑ i, ∑ j, v i * v j * G i j) (hD : ∀ i j, ∑ k, D i k * G k j = if i = j then 1 else 0) (a : ι → ℝ) :
    (∑ i, |a i|) ^ 2 ≤ Fintype.card ι * (∑ i, D i i) * ∑ i, ∑ j, a i * a j * G i j := by
  have h1 : ∀ i (v : ι → ℝ), ∑ k, ∑ j, D i k * v j * G k j = v i := by
    intro i v
    rw [sum_comm]
    have : ∀ j, ∑ k, D i k * v j * G k j = v j * ∑ k, D i k * G k j := fun j => by
      rw [mul_sum]; exact sum_congr rfl fun k _ => by ring
    simp only [this, hD, mul_ite, mul_one, mul_zero, sum_ite_eq, mem_univ, if_true]
  have h2 : ∀ i, a i ^ 2 ≤ D i i * ∑ i, ∑ j, a i * a j * G i j := by
    intro i
    have := discrim_le_zero (a := D i i) (b := -2 * a i) (c := ∑ i, ∑ j, a i * a j * G i j) fun t => by
      have h := hG fun j => a j - t * D i j
      have e : ∑ k, ∑ j, (a k - t * D i k) * (a j - t * D i j) * G k j = ∑ i, ∑ j, a i * a j * G i j -
          2 * t * (∑ k, ∑ j, D i k * a j * G k j) + t * t * ∑ k, ∑ j, D i k * D i j * G k j := by
        have e1 : ∑ k, ∑ j, D i k * a j * G k j = ∑ k, ∑ j, a k * D i j * G k j := by
          rw [sum_comm]
          exact sum_congr rfl fun k _ => sum_congr rfl fun j _ => by rw [hsym j k]; ring
        have e2 : 2 * t * (∑ k, ∑ j, D i k * a j * G k j) = t * (∑ k, ∑ j, D i k * a j * G k j) + t * ∑ k, ∑ j, a k * D i j * G k j := by
          rw [← e1]; ring
        rw [e2]
        simp only [mul_sum, ← sum_add_distrib, ← sum_sub_distrib]
        exact sum_congr rfl fun k _ => sum_congr rfl fun j _ => by ring
      rw [e, h1, h1] at h
      linarith
    rw [discrim] at this
    linarith
  calc (∑ i, |a i|) ^ 2 ≤ Fintype.card ι * ∑ i, |a i| ^ 2 := sq_sum_le_card_mul_sum_sq
    _ = Fintype.card ι * ∑ i, a i ^ 2 := by simp only [sq_abs]
    _ ≤ Fintype.card ι * ∑ i, D i i * ∑ i, ∑ j, a i * a j * G i j :=
        mul_le_mul_of_nonneg_left (sum_le_sum fun i _ => h2 i) (Nat.cast_nonneg _)
    _ = _ := by rw [← sum_mul, mul_assoc]

end Verif.Quad
