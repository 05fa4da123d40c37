import Verif.Piola.DivergenceProps
import Verif.Flux.NodesProps
import Verif.Float.EmbedGlobal

/-! Lemmas for C123: degrees of cofactors and of restrictions to the facets of a cube. -/

namespace Verif.Balance

open Verif.Typ Verif.RefTopo Verif.RefGeom Verif.MatHelp Verif.Affine Verif.MultiLinear MvPolynomial MeasureTheory
open Verif.Quad hiding jac
open Matrix hiding vec
open Finset hiding ext

variable {d : Nat}

/-- the coefficients of a derivative, with the degree in one variable -/
theorem coeffSum_pderiv_of (k : Fin d) (P : MvPolynomial (Fin d) ℝ) {p : Nat} (hP : P.degreeOf k ≤ p) :
    coeffSum (pderiv k P) ≤ p * coeffSum P := by
  conv_lhs => rw [P.as_sum, map_sum]
  refine (coeffSum_sum _ _).trans ?_
  rw [coeffSum, mul_sum]
  refine sum_le_sum fun s hs => ?_
  rw [pderiv_monomial]
  refine (coeffSum_monomial _ _).trans ?_
  rw [abs_mul, Nat.abs_cast, mul_comm]
  refine mul_le_mul_of_nonneg_right ?_ (abs_nonneg _)
  exact_mod_cast (monomial_le_degreeOf k hs).trans hP

/-- the entries of the adjugate of the Jacobian of a map of degree 1 in each variable -/
theorem adjugate_degree {G : Fin d → MvPolynomial (Fin d) ℝ} (hG : ∀ i j, (G j).degreeOf i ≤ 1) (i j k : Fin d) :
    (adjugate (jacPoly G) j k).degreeOf i ≤ if i = j then d - 1 else d - 2 := by
  have e : adjugate (jacPoly G) j k = ((jacPoly G).updateCol j (Pi.single k 1)).det := by
    rw [← det_transpose, ← updateRow_transpose, ← adjugate_apply, ← adjugate_transpose, transpose_apply]
  rw [e]
  refine ((degLike_of i).det_le _ (c := fun l => if l = j then 0 else 1 - if i = l then 1 else 0) fun a l => ?_).trans (le_of_eq ?_)
  · rw [updateCol_apply]
    split_ifs with h1 h2
    · rcases eq_or_ne a k with rfl | h
      · rw [Pi.single_eq_same, ← C_1, degreeOf_C]
      · rw [Pi.single_eq_of_ne h, degreeOf_zero]
    · exact (degreeOf_pderiv i l _).trans (by rw [if_pos h2]; have := hG i a; omega)
    · exact (degreeOf_pderiv i l _).trans (by rw [if_neg h2]; have := hG i a; omega)
  · have h : ∀ l : Fin d, (if l = j then 0 else 1 - if i = l then 1 else 0) = if l ∈ (univ.erase j).erase i then 1 else 0 := by
      intro l
      by_cases h1 : l = j
      · simp [h1]
      · by_cases h2 : i = l
        · simp [h2]
        · simp [h1, h2, Ne.symm h2]
    simp only [h]
    rw [sum_ite_mem, univ_inter, sum_const, smul_eq_mul, mul_one]
    split_ifs with h1
    · subst h1
      rw [erase_eq_of_notMem (by simp), card_erase_of_mem (mem_univ _), card_univ, Fintype.card_fin]
    · rw [card_erase_of_mem (by simp [h1]), card_erase_of_mem (mem_univ _), card_univ, Fintype.card_fin]
      omega

/-- composition with a map whose components, apart from one, do not depend on a variable -/
theorem degreeOf_bind {m : Nat} (G : Fin m → MvPolynomial (Fin d) ℝ) (r : Fin d) (c : Fin m)
    (hc : (G c).degreeOf r ≤ 1) (hG : ∀ j, j ≠ c → (G j).degreeOf r = 0) (P : MvPolynomial (Fin m) ℝ) :
    (bind₁ G P).degreeOf r ≤ P.degreeOf c := by
  rw [P.as_sum, map_sum]
  refine (degLike_of r).sum_le _ _ fun s hs => ?_
  rw [bind₁_monomial]
  refine ((degLike_of r).mul _ _).trans ?_
  rw [(degLike_of r).const, zero_add, ← P.as_sum]
  refine ((degLike_of r).prod_le _ _).trans ?_
  refine (sum_le_sum (g := fun i => if i = c then s c else 0) fun i _ => ?_).trans ?_
  · refine ((degLike_of r).pow_le _ _).trans ?_
    split_ifs with h
    · subst h; exact (Nat.mul_le_mul_left _ hc).trans (by omega)
    · rw [hG i h, Nat.mul_zero]
  · rw [sum_ite_eq']
    split_ifs
    · exact monomial_le_degreeOf c hs
    · exact Nat.zero_le _

/-- the facets of a cube: the values of a polynomial are those of a polynomial in the coordinates of the facet; the normal vanishes in the
directions of these coordinates -/
theorem cube_facet {id p : Nat} (hc : IsCubeId d id) (h0 : 0 < d) (hd : d ≤ 31) (hid : id < 2 ^ d) {i : Nat} (hi : i < refSize d id 1)
    (P : MvPolynomial (Fin d) ℝ) (j : Fin d) (hj : normal d id i j ≠ 0) (hP : ∀ l, l ≠ j → P.degreeOf l ≤ p) :
    ∃ Q : MvPolynomial (Fin (refType d id i 1).dim) ℝ, (∀ y, Q.eval y = P.eval (facetPoint d id i y)) ∧
      (∀ r, Q.degreeOf r ≤ p) ∧ coeffSum Q ≤ coeffSum P := by
  have hT : refType d id i 1 = ⟨d - 1, false, subTopologyId d id 1 i⟩ := refType_eq d id _ _ hd hid h0
  have hr : Rep d id (Topo.cube d) := topoOf_cube _ _ hc ▸ rep_topoOf _ _
  obtain ⟨f, hf, rfl⟩ := Face.idx_surj (Topo.cube d) 1 i (by rw [← size_eq hr 1 h0]; exact hi)
  have hdim : f.shape.dim = d - 1 := by
    have := Face.codim_add_dim f
    rw [hr.dim_eq] at this
    omega
  have he := embedding_face (K := ℝ) hr f
  rw [hf] at he
  have hn : ∀ k, normal d id f.idx k = nrm f k := by
    intro k
    rw [normal, List.getD_eq_getElem?_getD, normal_face hr f hf, Option.getD_some]
  rw [hT]
  set e := (referenceEmbeddings (K := ℝ) d id 1).getD f.idx (fun _ => 0, fun _ _ => 0) with hed
  have hee : e = (orig f, RefGeom.jac f) := by rw [hed, List.getD_eq_getElem?_getD, he, Option.getD_some]
  have he1 : e.1 = orig f := by rw [hee]
  have he2 : e.2 = RefGeom.jac f := by rw [hee]
  have hJ : ∀ r < d - 1, ∀ c, RefGeom.jac (K := ℝ) f r c = if c = FloatEmbed.piv f r then 1 else 0 := fun r hr c =>
    FloatEmbed.unit_cube d f r c (by omega)
  have hps := fun r (hr : r < d - 1) => FloatEmbed.piv_spec f r (by omega)
  have hdd : (Topo.cube d).dim = d := hr.dim_eq
  -- the normal has no entry at the pivots
  have hpj : ∀ r < d - 1, FloatEmbed.piv f r ≠ j := by
    intro r hr' h
    have := nrm_orthogonal (K := ℝ) f hf r (by omega)
    rw [dot, hdd, sum_eq_single (j : ℕ)] at this
    · rw [hJ r hr', if_pos h.symm, mul_one] at this
      exact hj (by rw [hn]; exact this)
    · intro b _ hb
      rw [hJ r hr', if_neg (fun h' => hb (h'.trans h)), mul_zero]
    · intro h; exact absurd (mem_range.2 j.2) h
  -- the components: a variable or a constant
  have hcomp : ∀ c : Fin d, (∃ r : Fin (d - 1), (c : ℕ) = FloatEmbed.piv f r ∧ affPoly (d - 1) e c = X r) ∨
      ((∀ r < d - 1, (c : ℕ) ≠ FloatEmbed.piv f r) ∧ ∃ a : ℝ, |a| ≤ 1 ∧ affPoly (d - 1) e c = C a) := by
    intro c
    by_cases h : ∃ r : Fin (d - 1), (c : ℕ) = FloatEmbed.piv f r
    · obtain ⟨r, hr⟩ := h
      refine Or.inl ⟨r, hr, ?_⟩
      rw [affPoly, he1, he2, hr, (hps r r.2).2.1, C_0, zero_add]
      simp only [(hps r r.2).2.2]
      rw [sum_eq_single r]
      · simp
      · intro b _ hb
        rw [if_neg (fun h => hb (Fin.ext h)), C_0, zero_mul]
      · simp
    · push Not at h
      refine Or.inr ⟨fun r hr => h ⟨r, hr⟩, orig f c, ?_, ?_⟩
      · rcases orig_zero_one (K := ℝ) f c with e | e <;> rw [e] <;> norm_num
      · rw [affPoly, he1, he2]
        rw [sum_eq_zero, add_zero]
        intro r _
        rw [hJ r r.2, if_neg (h r), C_0, zero_mul]
  refine ⟨bind₁ (fun j : Fin d => affPoly (d - 1) e j) P, fun y => ?_, fun r => ?_, ?_⟩
  · rw [eval_bind]
    congr 1
    congr 1
    funext j
    rw [eval_affPoly]
    rfl
  · have hlt : FloatEmbed.piv f r < d := by have := (hps r r.2).1; omega
    refine (degreeOf_bind (fun j : Fin d => affPoly (d - 1) e j) r ⟨FloatEmbed.piv f r, hlt⟩ ?_ ?_ P).trans
      (hP _ fun h => hpj r r.2 (by rw [← h]))
    · rcases hcomp ⟨FloatEmbed.piv f r, hlt⟩ with ⟨r', _, h⟩ | ⟨h, _⟩
      · rw [h, degreeOf_X]; split_ifs <;> omega
      · exact absurd rfl (h r r.2)
    · intro c hcr
      rcases hcomp c with ⟨r', h', h⟩ | ⟨_, a, _, h⟩
      · rw [h, degreeOf_X_of_ne]
        rintro rfl
        exact hcr (Fin.ext h')
      · rw [h, degreeOf_C]
  · have := coeffSum_bind (fun j : Fin d => affPoly (d - 1) e j) le_rfl (fun c => by
      rcases hcomp c with ⟨r', _, h⟩ | ⟨_, a, ha, h⟩
      · rw [h]; exact coeffSum_X _
      · rw [h]; exact (coeffSum_C _).trans ha) P le_rfl
    rwa [one_pow, one_mul] at this

end Verif.Balance
