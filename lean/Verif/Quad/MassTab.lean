import Verif.Quad.MassLemmas

/-!
Lower bounds for the integral of a square over the triangle, the tetrahedron and the prism, by dual bases: `triDual` is the inverse of
the matrix of the moments of degree up to 12, and so on.  The tables are checked by the kernel.
-/

namespace Verif.Quad

open Verif.Typ Verif.RefTopo Verif.RefGeom
open Finset hiding ext
open MvPolynomial
open MeasureTheory

def triExps : List (List Nat) := [[0, 0], [0, 1], [0, 2], [0, 3], [0, 4], [0, 5], [0, 6], [1, 0], [1, 1], [1, 2], [1, 3], [1, 4], [1, 5], [2, 0], [2, 1], [2, 2], [2, 3], [2, 4], [3, 0], [3, 1], [3, 2], [3, 3], [4, 0], [4, 1], [4, 2], [5, 0], [5, 1], [6, 0]]

def triDual : List (List Int) := [
  [1568, -28224, 176400, -517440, 776160, -576576, 168168, -28224, 352800, -1552320, 3104640, -2882880, 1009008, 176400, -1552320, 4656960, -5765760, 2522520, -517440, 3104640, -5765760, 3363360, 776160, -2882880, 2522520, -576576, 1009008, 168168],
  [-28224, 762048, -5715360, 18627840, -29937600, 23351328, -7063056, 381024, -7620480, 41912640, -95800320, 97297200, -36324288, -1905120, 27941760, -107775360, 155675520, -75675600, 4656960, -47900160, 116756640, -80720640, -5987520, 38918880, -45405360, 3891888, -12108096, -1009008],
  [176400, -5715360, 47628000, -166320000, 280665000, -227026800, 70630560, -1905120, 47628000, -299376000, 748440000, -810810000, 317837520, 7938000, -149688000, 673596000, -1081080000, 567567000, -16632000, 224532000, -648648000, 504504000, 18711000, -162162000, 227026800, -10810800, 45405360, 2522520],
  [-517440, 18627840, -166320000, 609840000, -1067220000, 887927040, -282522240, 4656960, -133056000, 914760000, -2439360000, 2774772000, -1130088960, -16632000, 365904000, -1829520000, 3171168000, -1765764000, 30492000, -487872000, 1585584000, -1345344000, -30492000, 317116800, -504504000, 15855840, -80720640, -3363360],
  [776160, -29937600, 280665000, -1067220000, 1920996000, -1634592960, 529729200, -5987520, 187110000, -1372140000, 3841992000, -4540536000, 1907025120, 18711000, -457380000, 2469852000, -4540536000, 2648646000, -30492000, 548856000, -1945944000, 1765764000, 27442800, -324324000, 567567000, -12972960, 75675600, 2522520],
  [-576576, 23351328, -227026800, 887927040, -1634592960, 1416647232, -466161696, 3891888, -129729600, 998917920, -2905943040, 3541618080, -1525620096, -10810800, 285405120, -1634592960, 3148104960, -1907025120, 15855840, -311351040, 1180539360, -1130088960, -12972960, 168648480, -317837520, 5621616, -36324288, -1009008],
  [168168, -7063056, 70630560, -282522240, 529729200, -466161696, 155387232, -1009008, 35315280, -282522240, 847566720, -1059458400, 466161696, 2522520, -70630560, 423783360, -847566720, 529729200, -3363360, 70630560, -282522240, 282522240, 2522520, -35315280, 70630560, -1009008, 7063056, 168168],
  [-28224, 381024, -1905120, 4656960, -5987520, 3891888, -1009008, 762048, -7620480, 27941760, -47900160, 38918880, -12108096, -5715360, 41912640, -107775360, 116756640, -45405360, 18627840, -95800320, 155675520, -80720640, -29937600, 97297200, -75675600, 23351328, -36324288, -7063056],
  [352800, -7620480, 47628000, -133056000, 187110000, -129729600, 35315280, -7620480, 127008000, -598752000, 1197504000, -1081080000, 363242880, 47628000, -598752000, 2020788000, -2594592000, 1135134000, -133056000, 1197504000, -2594592000, 1614412800, 187110000, -1081080000, 1135134000, -129729600, 363242880, 35315280],
  [-1552320, 41912640, -299376000, 914760000, -1372140000, 998917920, -282522240, 27941760, -598752000, 3293136000, -7318080000, 7135128000, -2542700160, -149688000, 2469852000, -9879408000, 14270256000, -6810804000, 365904000, -4390848000, 11416204800, -8072064000, -457380000, 3567564000, -4540536000, 285405120, -1089728640, -70630560],
  [3104640, -95800320, 748440000, -2439360000, 3841992000, -2905943040, 847566720, -47900160, 1197504000, -7318080000, 17563392000, -18162144000, 6780533760, 224532000, -4390848000, 19758816000, -31135104000, 15891876000, -487872000, 7025356800, -20756736000, 16144128000, 548856000, -5189184000, 7567560000, -311351040, 1452971520, 70630560],
  [-2882880, 97297200, -810810000, 2774772000, -4540536000, 3541618080, -1059458400, 38918880, -1081080000, 7135128000, -18162144000, 19675656000, -7628100480, -162162000, 3567564000, -17513496000, 29513484000, -15891876000, 317116800, -5189184000, 16864848000, -14126112000, -324324000, 3513510000, -5675670000, 168648480, -908107200, -35315280],
  [1009008, -36324288, 317837520, -1130088960, 1907025120, -1525620096, 466161696, -12108096, 363242880, -2542700160, 6780533760, -7628100480, 3051240192, 45405360, -1089728640, 5721075360, -10170800640, 5721075360, -80720640, 1452971520, -5085400320, 4520355840, 75675600, -908107200, 1589187600, -36324288, 217945728, 7063056],
  [176400, -1905120, 7938000, -16632000, 18711000, -10810800, 2522520, -5715360, 47628000, -149688000, 224532000, -162162000, 45405360, 47628000, -299376000, 673596000, -648648000, 227026800, -166320000, 748440000, -1081080000, 504504000, 280665000, -810810000, 567567000, -227026800, 317837520, 70630560],
  [-1552320, 27941760, -149688000, 365904000, -457380000, 285405120, -70630560, 41912640, -598752000, 2469852000, -4390848000, 3567564000, -1089728640, -299376000, 3293136000, -9879408000, 11416204800, -4540536000, 914760000, -7318080000, 14270256000, -8072064000, -1372140000, 7135128000, -6810804000, 998917920, -2542700160, -282522240],
  [4656960, -107775360, 673596000, -1829520000, 2469852000, -1634592960, 423783360, -107775360, 2020788000, -9879408000, 19758816000, -17513496000, 5721075360, 673596000, -9879408000, 35565868800, -46702656000, 20432412000, -1829520000, 19758816000, -46702656000, 30270240000, 2469852000, -17513496000, 20432412000, -1634592960, 5721075360, 423783360],
  [-5765760, 155675520, -1081080000, 3171168000, -4540536000, 3148104960, -847566720, 116756640, -2594592000, 14270256000, -31135104000, 29513484000, -10170800640, -648648000, 11416204800, -46702656000, 67459392000, -31783752000, 1585584000, -20756736000, 56216160000, -40360320000, -1945944000, 16864848000, -22702680000, 1180539360, -5085400320, -282522240],
  [2522520, -75675600, 567567000, -1765764000, 2648646000, -1907025120, 529729200, -45405360, 1135134000, -6810804000, 15891876000, -15891876000, 5721075360, 227026800, -4540536000, 20432412000, -31783752000, 15891876000, -504504000, 7567560000, -22702680000, 17657640000, 567567000, -5675670000, 8513505000, -317837520, 1589187600, 70630560],
  [-517440, 4656960, -16632000, 30492000, -30492000, 15855840, -3363360, 18627840, -133056000, 365904000, -487872000, 317116800, -80720640, -166320000, 914760000, -1829520000, 1585584000, -504504000, 609840000, -2439360000, 3171168000, -1345344000, -1067220000, 2774772000, -1765764000, 887927040, -1130088960, -282522240],
  [3104640, -47900160, 224532000, -487872000, 548856000, -311351040, 70630560, -95800320, 1197504000, -4390848000, 7025356800, -5189184000, 1452971520, 748440000, -7318080000, 19758816000, -20756736000, 7567560000, -2439360000, 17563392000, -31135104000, 16144128000, 3841992000, -18162144000, 15891876000, -2905943040, 6780533760, 847566720],
  [-5765760, 116756640, -648648000, 1585584000, -1945944000, 1180539360, -282522240, 155675520, -2594592000, 11416204800, -20756736000, 16864848000, -5085400320, -1081080000, 14270256000, -46702656000, 56216160000, -22702680000, 3171168000, -31135104000, 67459392000, -40360320000, -4540536000, 29513484000, -31783752000, 3148104960, -10170800640, -847566720],
  [3363360, -80720640, 504504000, -1345344000, 1765764000, -1130088960, 282522240, -80720640, 1614412800, -8072064000, 16144128000, -14126112000, 4520355840, 504504000, -8072064000, 30270240000, -40360320000, 17657640000, -1345344000, 16144128000, -40360320000, 26906880000, 1765764000, -14126112000, 17657640000, -1130088960, 4520355840, 282522240],
  [776160, -5987520, 18711000, -30492000, 27442800, -12972960, 2522520, -29937600, 187110000, -457380000, 548856000, -324324000, 75675600, 280665000, -1372140000, 2469852000, -1945944000, 567567000, -1067220000, 3841992000, -4540536000, 1765764000, 1920996000, -4540536000, 2648646000, -1634592960, 1907025120, 529729200],
  [-2882880, 38918880, -162162000, 317116800, -324324000, 168648480, -35315280, 97297200, -1081080000, 3567564000, -5189184000, 3513510000, -908107200, -810810000, 7135128000, -17513496000, 16864848000, -5675670000, 2774772000, -18162144000, 29513484000, -14126112000, -4540536000, 19675656000, -15891876000, 3541618080, -7628100480, -1059458400],
  [2522520, -45405360, 227026800, -504504000, 567567000, -317837520, 70630560, -75675600, 1135134000, -4540536000, 7567560000, -5675670000, 1589187600, 567567000, -6810804000, 20432412000, -22702680000, 8513505000, -1765764000, 15891876000, -31783752000, 17657640000, 2648646000, -15891876000, 15891876000, -1907025120, 5721075360, 529729200],
  [-576576, 3891888, -10810800, 15855840, -12972960, 5621616, -1009008, 23351328, -129729600, 285405120, -311351040, 168648480, -36324288, -227026800, 998917920, -1634592960, 1180539360, -317837520, 887927040, -2905943040, 3148104960, -1130088960, -1634592960, 3541618080, -1907025120, 1416647232, -1525620096, -466161696],
  [1009008, -12108096, 45405360, -80720640, 75675600, -36324288, 7063056, -36324288, 363242880, -1089728640, 1452971520, -908107200, 217945728, 317837520, -2542700160, 5721075360, -5085400320, 1589187600, -1130088960, 6780533760, -10170800640, 4520355840, 1907025120, -7628100480, 5721075360, -1525620096, 3051240192, 466161696],
  [168168, -1009008, 2522520, -3363360, 2522520, -1009008, 168168, -7063056, 35315280, -70630560, 70630560, -35315280, 7063056, 70630560, -282522240, 423783360, -282522240, 70630560, -282522240, 847566720, -847566720, 282522240, 529729200, -1059458400, 529729200, -466161696, 466161696, 155387232]]

def tetExps : List (List Nat) := [[0, 0, 0], [0, 0, 1], [0, 0, 2], [0, 1, 0], [0, 1, 1], [0, 2, 0], [1, 0, 0], [1, 0, 1], [1, 1, 0], [2, 0, 0]]

def tetDual : List (List Int) := [
  [600, -1800, 1260, -1800, 2520, 1260, -1800, 2520, 2520, 1260],
  [-1800, 8640, -7560, 4320, -10080, -2520, 4320, -10080, -5040, -2520],
  [1260, -7560, 7560, -2520, 7560, 1260, -2520, 7560, 2520, 1260],
  [-1800, 4320, -2520, 8640, -10080, -7560, 4320, -5040, -10080, -2520],
  [2520, -10080, 7560, -10080, 20160, 7560, -5040, 10080, 10080, 2520],
  [1260, -2520, 1260, -7560, 7560, 7560, -2520, 2520, 7560, 1260],
  [-1800, 4320, -2520, 4320, -5040, -2520, 8640, -10080, -10080, -7560],
  [2520, -10080, 7560, -5040, 10080, 2520, -10080, 20160, 10080, 7560],
  [2520, -5040, 2520, -10080, 10080, 7560, -10080, 10080, 20160, 7560],
  [1260, -2520, 1260, -2520, 2520, 1260, -7560, 7560, 7560, 7560]]

def prismExps : List (List Nat) := [[0, 0, 0], [0, 0, 1], [0, 1, 0], [1, 0, 0]]

def prismDual : List (List Int) := [
  [24, -12, -24, -24],
  [-12, 24, 0, 0],
  [-24, 0, 48, 24],
  [-24, 0, 24, 48]]

/-! ### The check -/

def dualDot (f : List Nat → Nat) : List Int → List (List Nat) → Int
  | r :: R, α :: A => r * f α + dualDot f R A
  | _, _ => 0

/-- `T` is the inverse of the matrix `m (α + β) / N` -/
def gramOK (A : List (List Nat)) (T : List (List Int)) (m : List Nat → Nat) (N : Nat) : Bool :=
  (List.range A.length).all fun j => (List.range A.length).all fun i =>
    dualDot (fun α => m (List.zipWith (· + ·) α (A.getD j []))) (T.getD i []) A == if i = j then (N : Int) else 0

/-- numerators of the moments over the triangle, for the denominator `14!` -/
def gramTri (α : List Nat) : Nat := (α.getD 0 0).factorial * (α.getD 1 0).factorial * (Nat.factorial 14 / (α.getD 0 0 + α.getD 1 0 + 2).factorial)

/-- numerators of the moments over the tetrahedron, for the denominator `7!` -/
def gramTet (α : List Nat) : Nat := (α.getD 0 0).factorial * (α.getD 1 0).factorial * (α.getD 2 0).factorial *
  (Nat.factorial 7 / (α.getD 0 0 + α.getD 1 0 + α.getD 2 0 + 3).factorial)

/-- numerators of the moments over the prism, for the denominator `4! 6` -/
def gramPrism (α : List Nat) : Nat := (α.getD 0 0).factorial * (α.getD 1 0).factorial * (Nat.factorial 4 / (α.getD 0 0 + α.getD 1 0 + 2).factorial) *
  (6 / (α.getD 2 0 + 1))

theorem tri_check : gramOK triExps triDual gramTri (Nat.factorial 14) = true := by decide +kernel

theorem tet_check : gramOK tetExps tetDual gramTet (Nat.factorial 7) = true := by decide +kernel

theorem prism_check : gramOK prismExps prismDual gramPrism (Nat.factorial 4 * 6) = true := by decide +kernel

/-! ### Bounds for the coefficients -/

theorem dualDot_eq (f : List Nat → Nat) : ∀ (A : List (List Nat)) (R : List Int),
    dualDot f R A = ∑ k : Fin A.length, R.getD k 0 * f A[k]
  | [], R => by cases R <;> simp [dualDot]
  | α :: A, [] => by simp [dualDot]
  | α :: A, r :: R => by
    rw [dualDot, dualDot_eq f A R]
    change _ = ∑ k : Fin (A.length + 1), _
    rw [Fin.sum_univ_succ]
    rfl

/-- exponents of a monomial -/
noncomputable def expFin (d : Nat) (α : List Nat) : Fin d →₀ Nat := Finsupp.equivFunOnFinite.symm fun k => α.getD k 0

theorem mom_congr : ∀ (t : Topo) {a b : Nat → Nat}, (∀ k < t.dim, a k = b k) → mom ℝ t a = mom ℝ t b
  | .pt, _, _, _ => rfl
  | .prism t, a, b, h => by
    have hd : (Topo.prism t).dim = t.dim + 1 := rfl
    rw [mom, mom, mom_congr t fun k hk => h k (by omega), h t.dim (by omega)]
  | .pyr t, a, b, h => by
    have hd : (Topo.pyr t).dim = t.dim + 1 := rfl
    have h1 : deg t.dim a = deg t.dim b := sum_congr rfl fun k hk => h k (by have := mem_range.1 hk; omega)
    rw [mom, mom, mom_congr t fun k hk => h k (by omega), h t.dim (by omega), h1]

theorem coeff_bound {d id K : Nat} {t : Topo} (hr : Rep d id t) (A : List (List Nat)) (T : List (List Int)) (m : List Nat → Nat) (N : Nat)
    (hN : 0 < N) (hlen : ∀ α ∈ A, α.length = d) (hnd : A.Nodup) (hall : ∀ s : Fin d →₀ Nat, (s.sum fun _ e => e) ≤ K → List.ofFn s ∈ A)
    (hm : ∀ α ∈ A, ∀ β ∈ A, mom ℝ t (fun k => α.getD k 0 + β.getD k 0) = m (List.zipWith (· + ·) α β) / N)
    (hchk : gramOK A T m N = true) (P : MvPolynomial (Fin d) ℝ) (hP : P.totalDegree ≤ K) :
    coeffSum P ^ 2 ≤ A.length * ((∑ i : Fin A.length, (T.getD i []).getD i 0 : Int) : ℝ) * ∫ x in refSet d id, P.eval x ^ 2 := by
  have hd : t.dim = d := hr.dim_eq
  set e : Fin A.length → (Fin d →₀ Nat) := fun i => expFin d A[i] with he
  have hofFn : ∀ i, List.ofFn (e i) = A[i] := by
    intro i
    have h1 : (A[i]).length = d := hlen _ (List.getElem_mem i.2)
    refine List.ext_getElem (by rw [List.length_ofFn, h1]) fun k hk hk' => ?_
    rw [List.getElem_ofFn]
    change (A[i]).getD k 0 = _
    rw [List.getD_eq_getElem _ _ hk']
  have hinj : Function.Injective e := by
    intro i j hij
    have h1 : A[i] = A[j] := by rw [← hofFn, ← hofFn, hij]
    exact Fin.ext ((List.Nodup.getElem_inj_iff hnd).1 h1)
  have hsurj : ∀ s : Fin d →₀ Nat, (s.sum fun _ e => e) ≤ K → ∃ i, e i = s := by
    intro s hs
    obtain ⟨i, hi, h1⟩ := List.getElem_of_mem (hall s hs)
    refine ⟨⟨i, hi⟩, ?_⟩
    have := hofFn ⟨i, hi⟩
    change List.ofFn (e ⟨i, hi⟩) = A[i] at this
    rw [h1] at this
    exact DFunLike.coe_injective (List.ofFn_injective this)
  -- the quadratic form is the integral of the square
  have hform : ∀ v : Fin A.length → ℝ, ∫ x in refSet d id, (∑ i, v i * mono d (expo (e i)) (ext x)) ^ 2 =
      ∑ i, ∑ j, v i * v j * mom ℝ t (fun k => (A[i]).getD k 0 + (A[j]).getD k 0) := by
    intro v
    have h1 : ∀ x : Fin d → ℝ, (∑ i, v i * mono d (expo (e i)) (ext x)) ^ 2 =
        ∑ i, ∑ j, v i * v j * mono d (fun k => (A[i]).getD k 0 + (A[j]).getD k 0) (ext x) := by
      intro x
      rw [sq, sum_mul_sum]
      refine sum_congr rfl fun i _ => sum_congr rfl fun j _ => ?_
      have h2 : mono d (fun k => (A[i]).getD k 0 + (A[j]).getD k 0) (ext x) = mono d (expo (e i)) (ext x) * mono d (expo (e j)) (ext x) := by
        simp only [mono]
        rw [← prod_mul_distrib]
        refine prod_congr rfl fun k hk => ?_
        have h3 : ∀ i, expo (e i) k = (A[i]).getD k 0 := fun i => by rw [expo, dif_pos (mem_range.1 hk)]; rfl
        rw [h3, h3, pow_add]
      rw [h2]; ring
    have hcont : ∀ a, Continuous fun x : Fin d → ℝ => mono d a (ext x) := fun a =>
      continuous_finset_prod _ fun k hk => by
        have : ∀ x : Fin d → ℝ, ext x k = x ⟨k, mem_range.1 hk⟩ := fun x => dif_pos (mem_range.1 hk)
        simp only [this]
        exact (continuous_apply _).pow _
    simp only [h1]
    rw [integral_finset_sum _ fun i _ => integrable_finset_sum _ fun j _ => ((integrableOn_refSet (hcont _)).const_mul _)]
    refine sum_congr rfl fun i _ => ?_
    rw [integral_finset_sum _ fun j _ => ((integrableOn_refSet (hcont _)).const_mul _)]
    refine sum_congr rfl fun j _ => ?_
    rw [integral_const_mul, integral_refSet hr]
  have hdual : ∀ i j : Fin A.length, ∑ k : Fin A.length, ((T.getD i []).getD k 0 : ℝ) * mom ℝ t (fun r => (A[k]).getD r 0 + (A[j]).getD r 0) =
      if i = j then 1 else 0 := by
    intro i j
    have h1 := List.all_eq_true.1 (List.all_eq_true.1 hchk j (List.mem_range.2 j.2)) i (List.mem_range.2 i.2)
    rw [beq_iff_eq, dualDot_eq] at h1
    have hj : A.getD j [] = A[j] := List.getD_eq_getElem _ _ j.2
    rw [hj] at h1
    have h2 : ((∑ k : Fin A.length, (T.getD i []).getD k 0 * (m (List.zipWith (· + ·) A[k] A[j]) : Int) : Int) : ℝ) = if i = j then (N : ℝ) else 0 := by
      rw [h1]
      by_cases hij : i = j
      · rw [if_pos hij, if_pos (by rw [hij])]; norm_cast
      · rw [if_neg hij, if_neg (fun h => hij (Fin.ext h))]; norm_cast
    have hN' : (N : ℝ) ≠ 0 := Nat.cast_ne_zero.2 hN.ne'
    have h3 : ∀ k : Fin A.length, ((T.getD i []).getD k 0 : ℝ) * mom ℝ t (fun r => (A[k]).getD r 0 + (A[j]).getD r 0) =
        (((T.getD i []).getD k 0 * (m (List.zipWith (· + ·) A[k] A[j]) : Int) : Int) : ℝ) / N := fun k => by
      rw [hm A[k] (List.getElem_mem k.2) A[j] (List.getElem_mem j.2)]
      push_cast
      ring
    rw [sum_congr rfl fun k _ => h3 k, ← sum_div, ← Int.cast_sum, h2]
    by_cases hij : i = j
    · rw [if_pos hij, if_pos hij, div_self hN']
    · rw [if_neg hij, if_neg hij, zero_div]
  have key := dual_bound (fun i j : Fin A.length => mom ℝ t (fun k => (A[i]).getD k 0 + (A[j]).getD k 0))
    (fun i j => ((T.getD i []).getD j 0 : ℝ)) (fun i j => by simp only [add_comm]) (fun v => by
      rw [← hform]
      exact setIntegral_nonneg (measurableSet_refSet _ _) fun x _ => sq_nonneg _) hdual fun i => P.coeff (e i)
  rw [← hform, Fintype.card_fin] at key
  have hPe : ∀ x : Fin d → ℝ, P.eval x = ∑ i, P.coeff (e i) * mono d (expo (e i)) (ext x) := by
    intro x
    have h1 := eval_mono P (ext x)
    rw [ext_fin] at h1
    rw [h1, ← sum_image (s := univ) (g := e) (f := fun s => P.coeff s * mono d (expo s) (ext x)) (fun i _ j _ h => hinj h)]
    refine sum_subset (fun s hs => ?_) fun s _ hs => by rw [notMem_support_iff.1 hs, zero_mul]
    obtain ⟨i, hi⟩ := hsurj s ((le_totalDegree hs).trans hP)
    exact mem_image.2 ⟨i, mem_univ _, hi⟩
  have hcs : coeffSum P = ∑ i, |P.coeff (e i)| := by
    rw [coeffSum, ← sum_image (s := univ) (g := e) (f := fun s => |P.coeff s|) (fun i _ j _ h => hinj h)]
    refine sum_subset (fun s hs => ?_) fun s _ hs => by rw [notMem_support_iff.1 hs, abs_zero]
    obtain ⟨i, hi⟩ := hsurj s ((le_totalDegree hs).trans hP)
    exact mem_image.2 ⟨i, mem_univ _, hi⟩
  simp only [← hPe] at key
  rw [hcs]
  push_cast
  exact key

/-- a rule whose error is small compared to the bound is definite -/
theorem definite_of_exact {d id p k : Nat} {ε κ : ℝ} {l : List (QPoint ℝ)} (hl : ExactUpTo d id p ε l) (hk : 2 * k ≤ p) (hε : 0 ≤ ε)
    (hκ : ∀ P : MvPolynomial (Fin d) ℝ, P.totalDegree ≤ k → coeffSum P ^ 2 ≤ κ * ∫ x in refSet d id, P.eval x ^ 2) (h : ε * κ < 1) :
    Definite d k l := by
  intro P hP
  have h1 := hl (P ^ 2) ((totalDegree_pow _ _).trans ((Nat.mul_le_mul_left 2 hP).trans hk))
  simp only [map_pow] at h1
  have h2 : coeffSum (P ^ 2) ≤ coeffSum P ^ 2 := by rw [sq, sq]; exact coeffSum_mul P P
  have h3 := hκ P hP
  have h4 : 0 ≤ ∫ x in refSet d id, P.eval x ^ 2 := setIntegral_nonneg (measurableSet_refSet _ _) fun x _ => sq_nonneg _
  set I := ∫ x in refSet d id, P.eval x ^ 2
  have h5 : ε * coeffSum (P ^ 2) ≤ ε * κ * I := by
    rw [mul_assoc]
    exact mul_le_mul_of_nonneg_left (h2.trans h3) hε
  have h6 := (abs_le.1 (h1.trans h5)).1
  have h7 : (1 - ε * κ) * I ≤ quadOf (fun x => P.eval x ^ 2) l := by linarith
  refine ⟨(mul_nonneg (by linarith) h4).trans h7, fun h0 => ?_⟩
  rw [h0] at h7
  have h8 : I = 0 := le_antisymm (by by_contra hI; push Not at hI; nlinarith) h4
  rw [h8, mul_zero] at h3
  have h9 : coeffSum P = 0 := pow_eq_zero_iff two_ne_zero |>.1 (le_antisymm h3 (sq_nonneg _))
  refine MvPolynomial.ext _ _ fun s => ?_
  rw [coeff_zero]
  by_contra hs
  have := (sum_eq_zero_iff_of_nonneg fun s _ => abs_nonneg (P.coeff s)).1 h9 s (mem_support_iff.2 hs)
  exact hs (abs_eq_zero.1 this)

end Verif.Quad
