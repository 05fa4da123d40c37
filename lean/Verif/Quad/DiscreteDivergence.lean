import Verif.Quad.ErrorLemmas
import Verif.Quad.MapPoly
import Verif.Float.EmbedLemmas

/-! Lemmas for the divergence theorem of quadrature rules: orders available on sub-entities, sizes of the coefficients of
products, derivatives and compositions of polynomials. -/

namespace Verif.Quad

open Verif.Typ Verif.RefTopo Verif.RefGeom MvPolynomial
open Finset hiding ext

/-! ### Orders on sub-entities -/

/-- the dimension of the base of the last cone of the construction -/
def coneDim : Topo → Nat
  | .pt => 0
  | .prism t => coneDim t
  | .pyr t => t.dim

theorem coneDim_le : ∀ t : Topo, coneDim t ≤ t.dim
  | .pt => le_refl _
  | .prism t => (coneDim_le t).trans (Nat.le_succ _)
  | .pyr t => Nat.le_succ _

theorem shape_dim_le {t : Topo} (f : Face t) : f.shape.dim ≤ t.dim := by
  have := Face.codim_add_dim f
  omega

theorem coneDim_face : ∀ {t : Topo} (f : Face t), coneDim f.shape ≤ coneDim t
  | _, .pt => le_refl _
  | _, .edge f => coneDim_face f
  | _, .bot f => coneDim_face f
  | _, .top f => coneDim_face f
  | _, .base f => (coneDim_le _).trans (shape_dim_le f)
  | _, .cone f => shape_dim_le f
  | _, .apex => Nat.zero_le _

theorem coneDim_spec {d id : Nat} {t : Topo} (hr : Rep d id t) :
    (∀ k, 1 ≤ k → k < d → id.testBit k = false → k ≤ coneDim t) ∧
    (coneDim t = 0 ∨ (1 ≤ coneDim t ∧ coneDim t < d ∧ id.testBit (coneDim t) = false)) := by
  induction hr with
  | pt id => exact ⟨fun k _ h => by omega, Or.inl rfl⟩
  | @prism d id t hb hr ih =>
    refine ⟨fun k h1 h2 h3 => ?_, ?_⟩
    · have hk : k < d := by
        rcases Nat.lt_succ_iff_lt_or_eq.1 h2 with h | rfl
        · exact h
        · rcases hb with rfl | hb
          · omega
          · rw [hb] at h3; cases h3
      exact ih.1 k h1 hk (by rw [testBit_mod' hk]; exact h3)
    · rcases ih.2 with h | ⟨h1, h2, h3⟩
      · exact Or.inl h
      · exact Or.inr ⟨h1, Nat.lt_succ_of_lt h2, by rw [testBit_mod' h2] at h3; exact h3⟩
  | @pyr d id t hb hr ih =>
    have e : coneDim (.pyr t) = d := hr.dim_eq
    rw [e]
    refine ⟨fun k _ h2 _ => Nat.lt_succ_iff.1 h2, ?_⟩
    rcases hb with hb | hb
    · exact Or.inl hb
    · rcases Nat.eq_zero_or_pos d with h | h
      · exact Or.inl h
      · exact Or.inr ⟨h, Nat.lt_succ_self _, hb⟩

theorem maxSpec_eq {h d id m : Nat} {t : Topo} (hr : Rep d id t) (hm : MaxSpec h d id m) : m + coneDim t = h := by
  obtain ⟨h1, h2⟩ := coneDim_spec hr
  obtain ⟨m1, m2, m3⟩ := hm
  rcases h2 with h2 | ⟨a, b, c⟩
  · rcases m3 with rfl | ⟨k, k1, k2, k3, k4⟩
    · rw [h2, add_zero]
    · have := h1 k k1 k2 k3
      omega
  · have := m2 _ a b c
    rcases m3 with rfl | ⟨k, k1, k2, k3, k4⟩
    · omega
    · have := h1 k k1 k2 k3
      omega

/-- a sub-entity has rules of every order which the element has rules of -/
theorem maxOrder_sub {qt : QType} (hq : IsPlain qt) {d id m : Nat} (hd : d ≤ 30) (hid : id < 2 ^ d)
    (hm : maxOrder d ⟨d, false, id⟩ qt = .ok m) (f : Face (topoOf d id)) :
    ∃ m', maxOrder (d - f.codim) ⟨d - f.codim, false, subTopologyId d id f.codim f.idx⟩ qt = .ok m' ∧ m ≤ m' := by
  have hr := rep_topoOf d id
  have hs := rep_sub hr hid f
  have hcd := Face.codim_le f
  rw [hr.dim_eq] at hcd
  have hlt := subTopologyId_lt d id f.codim f.idx hid hcd
  obtain ⟨tab, h, ht⟩ : ∃ tab h, tableOf qt = some (tab, h) := by
    rcases hq with rfl | rfl | rfl | rfl <;> exact ⟨_, _, rfl⟩
  obtain ⟨h30, h61, -⟩ := plain_table (K := ℝ) hq ht (p := 0) (Nat.zero_le _)
  match d, hd, hid, hm, f, hr, hs, hcd, hlt with
  | 0, _, hid, hm, f, hr, hs, hcd, hlt =>
    have e0 : f.codim = 0 := by omega
    rw [e0] at hlt ⊢
    refine ⟨m, ?_, le_refl _⟩
    simp [maxOrder, isVertex] at hm ⊢
    exact hm
  | d + 1, hd, hid, hm, f, hr, hs, hcd, hlt =>
    obtain ⟨m₁, a1, a2⟩ := maxOrder_tab ht h30 h61 d id hd hid
    rw [a1] at hm
    cases hm
    have b := maxSpec_eq hr a2
    rcases Nat.eq_zero_or_pos (d + 1 - f.codim) with e | e
    · rw [e]
      refine ⟨2 ^ 31 - 1, by simp [maxOrder, isVertex], ?_⟩
      have : h ≤ 2 ^ 31 - 1 := by omega
      omega
    · obtain ⟨e', he'⟩ : ∃ e', d + 1 - f.codim = e' + 1 := ⟨d + 1 - f.codim - 1, by omega⟩
      rw [he'] at hlt hs ⊢
      obtain ⟨m₂, c1, c2⟩ := maxOrder_tab ht h30 h61 e' _ (by omega) hlt
      refine ⟨m₂, c1, ?_⟩
      have := maxSpec_eq hs c2
      have := coneDim_face f
      omega

/-! ### Coefficients -/

theorem coeffSum_mul {d : Nat} (P Q : MvPolynomial (Fin d) ℝ) : coeffSum (P * Q) ≤ coeffSum P * coeffSum Q := by
  have e : P * Q = ∑ s ∈ P.support, ∑ t ∈ Q.support, monomial (s + t) (P.coeff s * Q.coeff t) := by
    conv_lhs => rw [P.as_sum, Q.as_sum, sum_mul_sum]
    exact sum_congr rfl fun s _ => sum_congr rfl fun t _ => by rw [monomial_mul]
  rw [e]
  refine (coeffSum_sum _ _).trans ?_
  conv_rhs => rw [coeffSum, coeffSum, sum_mul_sum]
  refine sum_le_sum fun s _ => (coeffSum_sum _ _).trans (sum_le_sum fun t _ => (coeffSum_monomial _ _).trans ?_)
  rw [abs_mul]

theorem coeffSum_C {d : Nat} (a : ℝ) : coeffSum (C a : MvPolynomial (Fin d) ℝ) ≤ |a| := coeffSum_monomial 0 a

theorem coeffSum_X {d : Nat} (i : Fin d) : coeffSum (X i : MvPolynomial (Fin d) ℝ) ≤ 1 :=
  (coeffSum_monomial (Finsupp.single i 1) 1).trans (by simp)

theorem coeffSum_pow {d : Nat} (P : MvPolynomial (Fin d) ℝ) : ∀ n : Nat, coeffSum (P ^ n) ≤ coeffSum P ^ n
  | 0 => by rw [pow_zero, pow_zero, ← C_1]; exact (coeffSum_C 1).trans (by simp)
  | n + 1 => by
    rw [pow_succ, pow_succ]
    exact (coeffSum_mul _ _).trans (mul_le_mul_of_nonneg_right (coeffSum_pow P n) (coeffSum_nonneg P))

theorem coeffSum_prod {d : Nat} {ι : Type} (s : Finset ι) (P : ι → MvPolynomial (Fin d) ℝ) :
    coeffSum (∏ i ∈ s, P i) ≤ ∏ i ∈ s, coeffSum (P i) := by
  classical
  induction s using Finset.induction_on with
  | empty => rw [prod_empty, prod_empty, ← C_1]; exact (coeffSum_C 1).trans (by simp)
  | insert a s ha ih =>
    rw [prod_insert ha, prod_insert ha]
    exact (coeffSum_mul _ _).trans (mul_le_mul_of_nonneg_left ih (coeffSum_nonneg _))

/-- the coefficients of a composition -/
theorem coeffSum_bind {d m : Nat} (G : Fin m → MvPolynomial (Fin d) ℝ) {c : ℝ} (hc : 1 ≤ c) (hG : ∀ j, coeffSum (G j) ≤ c)
    (P : MvPolynomial (Fin m) ℝ) {p : Nat} (hP : P.totalDegree ≤ p) : coeffSum (bind₁ G P) ≤ c ^ p * coeffSum P := by
  conv_lhs => rw [P.as_sum, map_sum]
  refine (coeffSum_sum _ _).trans ?_
  rw [coeffSum, mul_sum]
  refine sum_le_sum fun s hs => ?_
  rw [bind₁_monomial, mul_comm (c ^ p)]
  refine (coeffSum_mul _ _).trans (mul_le_mul (coeffSum_C _) ?_ (coeffSum_nonneg _) (abs_nonneg _))
  refine (coeffSum_prod _ _).trans ?_
  calc ∏ i ∈ s.support, coeffSum (G i ^ s i) ≤ ∏ i ∈ s.support, c ^ s i :=
        prod_le_prod (fun _ _ => coeffSum_nonneg _) fun i _ => (coeffSum_pow _ _).trans
          (pow_le_pow_left₀ (coeffSum_nonneg _) (hG i) _)
    _ = c ^ (s.sum fun _ e => e) := by rw [prod_pow_eq_pow_sum]; rfl
    _ ≤ c ^ p := pow_le_pow_right₀ hc ((le_totalDegree hs).trans hP)

/-- the coefficients of a derivative -/
theorem coeffSum_pderiv {d : Nat} (k : Fin d) (P : MvPolynomial (Fin d) ℝ) {p : Nat} (hP : P.totalDegree ≤ p) :
    coeffSum (pderiv k P) ≤ p * coeffSum P := by
  conv_lhs => rw [P.as_sum, map_sum]
  refine (coeffSum_sum _ _).trans ?_
  rw [coeffSum, mul_sum]
  refine sum_le_sum fun s hs => ?_
  rw [pderiv_monomial]
  refine (coeffSum_monomial _ _).trans ?_
  rw [abs_mul, Nat.abs_cast, mul_comm]
  refine mul_le_mul_of_nonneg_right ?_ (abs_nonneg _)
  have h1 : s k ≤ p := by
    refine le_trans ?_ ((le_totalDegree hs).trans hP)
    by_cases h : k ∈ s.support
    · exact single_le_sum (f := fun i => s i) (fun _ _ => Nat.zero_le _) h
    · rw [Finsupp.notMem_support_iff.1 h]; exact Nat.zero_le _
  exact_mod_cast h1

/-- evaluation of a composition -/
theorem eval_bind {d m : Nat} (G : Fin m → MvPolynomial (Fin d) ℝ) (P : MvPolynomial (Fin m) ℝ) (x : Fin d → ℝ) :
    (bind₁ G P).eval x = P.eval fun j => (G j).eval x := by
  have := hom_bind₁ (eval x) G P
  rw [this]
  have e2 : ((eval x).comp (C : ℝ →+* MvPolynomial (Fin d) ℝ)) = RingHom.id ℝ := RingHom.ext fun a => by simp
  rw [e2]
  rfl

theorem partialDeriv_eval {d : Nat} (P : MvPolynomial (Fin d) ℝ) (k : Fin d) (x : Fin d → ℝ) :
    partialDeriv (fun y => P.eval y) k x = (pderiv k P).eval x := by
  rw [partialDeriv, (hasFDerivAt_eval P x).fderiv]
  simp [Pi.single_apply]

theorem contDiff_eval {d : Nat} (P : MvPolynomial (Fin d) ℝ) : ContDiff ℝ 1 fun y : Fin d → ℝ => P.eval y := by
  induction P using MvPolynomial.induction_on with
  | C a => simpa using contDiff_const
  | add p q hp hq => simpa only [map_add] using hp.add hq
  | mul_X p i hp => simpa only [map_mul, eval_X] using hp.mul (contDiff_apply ℝ ℝ i)

/-! ### Facets -/

/-- an affine map as polynomials -/
noncomputable def affPoly (m : Nat) (e : Vec ℝ × Mat ℝ) (j : Nat) : MvPolynomial (Fin m) ℝ :=
  C (e.1 j) + ∑ r : Fin m, C (e.2 r j) * X r

theorem eval_affPoly (m : Nat) (e : Vec ℝ × Mat ℝ) (j : Nat) (y : Fin m → ℝ) :
    (affPoly m e j).eval y = embed m e (ext y) j := by
  simp only [affPoly, embed, map_add, map_sum, map_mul, eval_C, eval_X]
  rw [← Fin.sum_univ_eq_sum_range (fun r => e.2 r j * ext y r) m]
  congr 1
  exact sum_congr rfl fun r _ => by simp [RefGeom.ext]

theorem totalDegree_affPoly (m : Nat) (e : Vec ℝ × Mat ℝ) (j : Nat) : (affPoly m e j).totalDegree ≤ 1 := by
  refine (degLike_total.add _ _).trans (max_le (by rw [degLike_total.const]; omega) ?_)
  refine degLike_total.sum_le _ _ fun l _ => (degLike_total.mul _ _).trans ?_
  rw [degLike_total.const, totalDegree_X]

theorem coeffSum_affPoly (m : Nat) (e : Vec ℝ × Mat ℝ) (j : Nat) :
    coeffSum (affPoly m e j) ≤ |e.1 j| + ∑ r : Fin m, |e.2 r j| := by
  refine (coeffSum_add _ _).trans (add_le_add (coeffSum_C _) ((coeffSum_sum _ _).trans (sum_le_sum fun r _ => ?_)))
  refine (coeffSum_mul _ _).trans ?_
  have h1 := coeffSum_C (d := m) (e.2 r j)
  have h2 := coeffSum_X r
  calc _ ≤ |e.2 r j| * 1 := mul_le_mul h1 h2 (coeffSum_nonneg _) (abs_nonneg _)
    _ = _ := mul_one _

theorem quadOf_const_mul {d : Nat} (c : ℝ) (f : (Fin d → ℝ) → ℝ) (l : List (QPoint ℝ)) :
    quadOf (fun x => c * f x) l = c * quadOf f l := by
  unfold quadOf
  rw [← List.sum_map_mul_left]
  congr 1
  exact List.map_congr_left fun q _ => by ring

theorem quadOf_sum {d : Nat} {ι : Type} (s : Finset ι) (f : ι → (Fin d → ℝ) → ℝ) (l : List (QPoint ℝ)) :
    quadOf (fun x => ∑ j ∈ s, f j x) l = ∑ j ∈ s, quadOf (f j) l := by
  unfold quadOf
  induction l with
  | nil => simp
  | cons q l ih =>
    simp only [List.map_cons, List.sum_cons, sum_add_distrib]
    rw [ih, mul_sum]

/-- an element has at most two facets for each dimension -/
theorem facets_le : ∀ t : Topo, t.sz 1 ≤ 2 * t.dim
  | .pt => by simp [Topo.sz]
  | .prism t => by
    have := facets_le t
    have h0 : t.sz 0 = 1 := Topo.sz_zero t
    simp only [Topo.sz, Topo.dim, zero_add]
    omega
  | .pyr t => by
    have := facets_le t
    have h0 : t.sz 0 = 1 := Topo.sz_zero t
    simp only [Topo.sz, Topo.dim, zero_add]
    split <;> omega

end Verif.Quad
