import Verif.Float.QuadRel
import Verif.Float.Inside
import Verif.Float.Near
import Mathlib.Data.List.Forall2
import Mathlib.Tactic.GCongr

/-! Errors of the points and weights of quadrature rules in floating-point arithmetic. -/

namespace Verif.FloatQuad

open Verif.Typ hiding Res
open Verif.RefTopo Verif.RefGeom Verif.Float
open Verif.Quad (Res Rule QPoint QType Row Node Lit Env initHelper tableOf maxOrder maxOrder1 lastBlock simplex2Highest simplex3Highest
  prism3Highest simplex2Index simplex3Index baseTypeOf)

variable {φ : Format}

/-- `a` has the relative error of `k` roundings -/
def Close (φ : Format) (k : ℕ) (a b : ℝ) : Prop := |a - b| ≤ ((1 + φ.u) ^ k - 1) * |b|

theorem Close.near {k : ℕ} {a b : ℝ} (h : Close φ k a b) : Near φ k 0 a b |b| := by
  refine ⟨le_refl _, le_refl _, ?_⟩
  unfold Close at h
  linarith

theorem Close.zero {k : ℕ} {a : ℝ} (h : Close φ k a 0) : a = 0 := by
  unfold Close at h
  rw [abs_zero, mul_zero, sub_zero] at h
  exact abs_eq_zero.1 (le_antisymm h (abs_nonneg _))

theorem Close.mono {k l : ℕ} {a b : ℝ} (h : Close φ k a b) (hk : k ≤ l) : Close φ l a b := by
  refine h.trans (mul_le_mul_of_nonneg_right ?_ (abs_nonneg _))
  have : (1 + φ.u) ^ k ≤ (1 + φ.u) ^ l := pow_le_pow_right₀ (by linarith [φ.u_nonneg]) hk
  linarith

theorem Close.refl (k : ℕ) (a : ℝ) : Close φ k a a := by
  unfold Close
  rw [sub_self, abs_zero]
  exact mul_nonneg (by linarith [Near.one_le_pow φ k]) (abs_nonneg _)

/-- the rows of the one dimensional tables -/
def rows1 : List Row :=
  Quad.Gauss.table ++ Quad.Jacobi1.table ++ Quad.Jacobi2.table ++ Quad.Lobatto.table ++ Quad.RadauLeft.table ++ Quad.RadauRight.table

/-- the rows of the tables of dimension two and three that are used -/
def rows23 : List Row := Quad.Simplex2.blocks ++ Quad.Simplex3.blocks ++ [Quad.Prism3.block1]

/-- The tables of the number type are accurate: the conversion of the positions of the one dimensional tables commits an absolute
error of `k` roundings and leaves the unit interval invariant (some tables have `10^-118` for zero, a number that underflows),
the conversion of the weights and of the other tables a relative error of `k` roundings. -/
structure Accurate (k : ℕ) (T : Tables (Fl φ)) : Prop where
  pos : ∀ row ∈ rows1, ∀ n ∈ row.pts, ∀ l ∈ n.x, |(T.lit l).val - l.val| ≤ (1 + φ.u) ^ k - 1 ∧ 0 ≤ (T.lit l).val ∧ (T.lit l).val ≤ 1
  weight : ∀ row ∈ rows1, ∀ n ∈ row.pts, Close φ k (T.lit n.w).val n.w.val
  block : ∀ row ∈ rows23, List.Forall₂ (fun (q : QPoint (Fl φ)) (n : Node) =>
    (∀ i, Close φ k (q.position i).val ((Node.point (K := ℝ) n).position i)) ∧ Close φ k q.weight.val (Node.point (K := ℝ) n).weight)
    (T.block row) row.pts

/-! ### What is used of the tables -/

/-- one position in the unit interval, a weight in `(0, 2]` that is not tiny -/
def shape1 (r : Row) : Bool := r.pts.all fun n => match n.x with
  | [l] => decide (0 ≤ l.num) && decide (l.num ≤ l.den) && decide (l.den ≠ 0) &&
      decide (0 < n.w.num) && decide (n.w.den ≠ 0) && decide ((n.w.den : Int) ≤ 2 ^ 40 * n.w.num) && decide (n.w.num ≤ 2 * n.w.den)
  | _ => false

theorem rows1_shape : rows1.all shape1 = true := by decide +kernel

/-- weights at most one -/
def weight1 (r : Row) : Bool := r.pts.all fun n => decide (n.w.num ≤ n.w.den)

theorem plain_weight1 : (Quad.Gauss.table ++ Quad.Lobatto.table ++ Quad.RadauLeft.table ++ Quad.RadauRight.table).all weight1 = true := by
  decide +kernel

theorem shape1_spec {row : Row} (h : row ∈ rows1) {n : Node} (hn : n ∈ row.pts) :
    ∃ l, n.x = [l] ∧ 0 ≤ (l.val : ℝ) ∧ (l.val : ℝ) ≤ 1 ∧
      0 < (n.w.val : ℝ) ∧ 1 / 2 ^ 40 ≤ (n.w.val : ℝ) ∧ (n.w.val : ℝ) ≤ 2 := by
  have h1 := List.all_eq_true.mp (List.all_eq_true.mp rows1_shape row h) n hn
  revert h1
  obtain ⟨xs, w⟩ := n
  match xs with
  | [] => simp
  | _ :: _ :: _ => simp
  | [l] =>
    simp only [Bool.and_eq_true, Bool.or_eq_true, decide_eq_true_eq]
    rintro ⟨⟨⟨⟨⟨⟨h1, h2⟩, h3⟩, h5⟩, h6⟩, h7⟩, h8⟩
    have hd : (0 : ℝ) < l.den := by exact_mod_cast Nat.pos_of_ne_zero h3
    have hw : (0 : ℝ) < w.den := by exact_mod_cast Nat.pos_of_ne_zero h6
    refine ⟨l, rfl, ?_, ?_, ?_, ?_, ?_⟩
    · exact div_nonneg (by exact_mod_cast h1) hd.le
    · rw [Lit.val, div_le_one hd]; exact_mod_cast h2
    · exact div_pos (by exact_mod_cast h5) hw
    · rw [Lit.val, div_le_div_iff₀ (by positivity) hw, one_mul, mul_comm]
      exact_mod_cast h7
    · rw [Lit.val, div_le_iff₀ hw]; exact_mod_cast h8

theorem tab_sub {qt : QType} {tab : List Row} {h : Nat} (ht : tableOf qt = some (tab, h)) : ∀ row ∈ tab, row ∈ rows1 := by
  intro row hrow
  simp only [rows1, List.mem_append]
  cases qt <;> simp only [tableOf, Option.some.injEq, Prod.mk.injEq, reduceCtorEq] at ht <;> obtain ⟨rfl, rfl⟩ := ht <;> simp [hrow]

/-- the position of a tabulated point and the position for the number type -/
theorem node_pos {k : ℕ} {T : Tables (Fl φ)} (hT : Accurate k T) {row : Row} (h : row ∈ rows1) {n : Node} (hn : n ∈ row.pts) :
    |((nodePoint T n).position 0).val - (nodePoint (exactTables ℝ) n).position 0| ≤ (1 + φ.u) ^ k - 1 ∧
    (0 ≤ ((nodePoint T n).position 0).val ∧ ((nodePoint T n).position 0).val ≤ 1) ∧
    (0 ≤ (nodePoint (exactTables ℝ) n).position 0 ∧ (nodePoint (exactTables ℝ) n).position 0 ≤ 1) ∧
    ∀ i, 1 ≤ i → (nodePoint (exactTables ℝ) n).position i = 0 ∧ ((nodePoint T n).position i) = 0 := by
  obtain ⟨l, hl, h0, h1, -⟩ := shape1_spec h hn
  obtain ⟨xs, w⟩ := n
  simp only at hl
  subst hl
  obtain ⟨h3, h4⟩ := hT.pos row h _ hn l (by simp)
  have e : ∀ i, 1 ≤ i → (nodePoint (exactTables ℝ) ⟨[l], w⟩).position i = 0 ∧ ((nodePoint T ⟨[l], w⟩).position i) = 0 := by
    intro i hi
    simp only [nodePoint]
    rw [dif_neg (by simp; omega), dif_neg (by simp; omega)]
    exact ⟨rfl, rfl⟩
  exact ⟨h3, h4, ⟨h0, h1⟩, e⟩

/-! ### The steps of the products -/

/-- the factor `1 - z` of the conical product, compared with the exact nodes -/
theorem scale_near {k : ℕ} {zh : Fl φ} {z : ℝ} (h : |zh.val - z| ≤ (1 + φ.u) ^ k - 1) (h0 : 0 ≤ zh.val) (h1 : zh.val ≤ 1) (z0 : 0 ≤ z) (z1 : z ≤ 1) :
    Near φ (k + 1) 0 (1 - zh).val (1 - z) 1 := by
  refine ⟨by rw [abs_le]; constructor <;> linarith, le_refl _, ?_⟩
  have h2 := Fl.sub_err (1 : Fl φ) zh
  rw [Fl.one_val] at h2
  have h3 : |1 - zh.val| ≤ 1 := by rw [abs_le]; constructor <;> linarith
  have h4 := abs_sub_le ((1 - zh : Fl φ).val) (1 - zh.val) (1 - z)
  have h5 : |1 - zh.val - (1 - z)| = |zh.val - z| := by rw [abs_sub_comm]; congr 1; ring
  have hp := Near.one_le_pow φ k
  have hu := φ.u_nonneg
  have h7 : φ.u * |1 - zh.val| ≤ φ.u := by nlinarith
  rw [pow_succ]
  nlinarith

theorem mulPow_near {k l : ℕ} {s : ℝ} {wh sh : Fl φ} {w c m : ℝ} (h : Near φ k s wh.val w m) (hs : Near φ l 0 sh.val c 1) :
    ∀ n : ℕ, Near φ (k + n * (l + 1)) (s + n * φ.η) (mulPow wh sh n).val (mulPow w c n) m
  | 0 => by simpa [mulPow] using h
  | n + 1 => by
    have h1 := (mulPow_near h hs n).mul hs
    rw [mulPow, mulPow]
    have e1 : k + n * (l + 1) + l + 1 = k + (n + 1) * (l + 1) := by ring
    have e2 : (s + n * φ.η) * 1 + 0 * m + (s + n * φ.η) * 0 + φ.η = s + (n + 1 : ℕ) * φ.η := by push_cast; ring
    rw [e1, e2, mul_one] at h1
    exact h1

/-! ### Positions -/

/-- positions of the two rules: the coordinates differ by the errors of `(k + 2) d` roundings -/
def PosRel (φ : Format) (k : ℕ) (t : Topo) (L : List (QPoint ℝ × QPoint (Fl φ))) : Prop :=
  ∀ q ∈ L, (∀ i, Near φ ((k + 2) * t.dim) (t.dim * φ.η) (q.2.position i).val (q.1.position i) 1) ∧
    ∀ i, t.dim ≤ i → q.1.position i = 0 ∧ q.2.position i = 0

theorem near_one {k : ℕ} {a b : ℝ} (h : |a - b| ≤ (1 + φ.u) ^ k - 1) (b0 : 0 ≤ b) (b1 : b ≤ 1) : Near φ k 0 a b 1 :=
  ⟨by rw [abs_le]; constructor <;> linarith, le_refl _, by linarith⟩

theorem near_zero (k : ℕ) {s : ℝ} (hs : 0 ≤ s) : Near φ k s (0 : Fl φ).val 0 1 := by
  refine ⟨by simp, hs, ?_⟩
  have := Near.one_le_pow φ k
  rw [Fl.zero_val]
  simp
  nlinarith

theorem blocks_forall {k : ℕ} {T : Tables (Fl φ)} (hT : Accurate k T) {row : Row} (hrow : row ∈ rows23) :
    ∃ L : List (QPoint ℝ × QPoint (Fl φ)), L.map Prod.fst = (exactTables ℝ).block row ∧ L.map Prod.snd = T.block row ∧
      (∀ q ∈ L, (∀ i, Close φ k (q.2.position i).val (q.1.position i)) ∧ Close φ k q.2.weight.val q.1.weight ∧
        q.1 ∈ row.pts.map (Node.point (K := ℝ))) := by
  have h := hT.block row hrow
  have key : ∀ (l : List (QPoint (Fl φ))) (ns : List Node), List.Forall₂ (fun (q : QPoint (Fl φ)) (n : Node) =>
      (∀ i, Close φ k (q.position i).val ((Node.point (K := ℝ) n).position i)) ∧ Close φ k q.weight.val (Node.point (K := ℝ) n).weight) l ns →
      ∃ L : List (QPoint ℝ × QPoint (Fl φ)), L.map Prod.fst = ns.map Node.point ∧ L.map Prod.snd = l ∧
        (∀ q ∈ L, (∀ i, Close φ k (q.2.position i).val (q.1.position i)) ∧ Close φ k q.2.weight.val q.1.weight ∧
          q.1 ∈ ns.map (Node.point (K := ℝ))) := by
    intro l ns h
    induction h with
    | nil => exact ⟨[], rfl, rfl, by simp⟩
    | @cons q n l ns h _ ih =>
      obtain ⟨L, e1, e2, e3⟩ := ih
      refine ⟨(Node.point n, q) :: L, by simp [e1], by simp [e2], ?_⟩
      intro p hp
      rcases List.mem_cons.1 hp with rfl | hp
      · exact ⟨h.1, h.2, by simp⟩
      · obtain ⟨g1, g2, g3⟩ := e3 p hp
        exact ⟨g1, g2, by rw [List.map_cons]; exact List.mem_cons_of_mem _ g3⟩
  exact key _ _ h

theorem posRel_tensor {k : ℕ} {T : Tables (Fl φ)} (hT : Accurate k T) {t : Topo} {B : List (QPoint ℝ × QPoint (Fl φ))}
    (hB : PosRel φ k t B) {row : Row} (hrow : row ∈ rows1) :
    PosRel φ k (.prism t) (pairs2 (tensorPoint (t.dim + 1)) (tensorPoint (t.dim + 1)) B (pairs (exactTables ℝ) T row)) := by
  intro q hq
  simp only [pairs2, pairs, List.mem_flatMap, List.mem_map, List.map_map] at hq
  obtain ⟨b, hb, n, hn, rfl⟩ := hq
  obtain ⟨h1, h2, h3, h4⟩ := node_pos hT hrow hn
  obtain ⟨b1, b2⟩ := hB b hb
  have hη := φ.η_nonneg
  simp only [Function.comp_apply, tensorPoint, Topo.dim, Nat.add_sub_cancel]
  refine ⟨fun i => ?_, fun i hi => ?_⟩
  · by_cases hi : i = t.dim
    · rw [if_pos hi, if_pos hi]
      refine (near_one h1 h3.1 h3.2).mono (by nlinarith) (by positivity)
    · rw [if_neg hi, if_neg hi]
      by_cases hi' : i < t.dim
      · rw [if_pos hi', if_pos hi']
        refine (b1 i).mono (by nlinarith) ?_
        push_cast; linarith
      · rw [if_neg hi', if_neg hi']
        exact near_zero _ (by positivity)
  · rw [if_neg (by omega), if_neg (by omega), if_neg (by omega), if_neg (by omega)]
    exact ⟨rfl, rfl⟩

theorem posRel_conical {k : ℕ} {T : Tables (Fl φ)} (hT : Accurate k T) {t : Topo} {B : List (QPoint ℝ × QPoint (Fl φ))}
    (hB : PosRel φ k t B) {row : Row} (hrow : row ∈ rows1) :
    PosRel φ k (.pyr t) (pairs2 (conicalPoint (t.dim + 1) false) (conicalPoint (t.dim + 1) false) B (pairs (exactTables ℝ) T row)) := by
  intro q hq
  simp only [pairs2, pairs, List.mem_flatMap, List.mem_map, List.map_map] at hq
  obtain ⟨b, hb, n, hn, rfl⟩ := hq
  obtain ⟨h1, h2, h3, h4⟩ := node_pos hT hrow hn
  obtain ⟨b1, b2⟩ := hB b hb
  have hη := φ.η_nonneg
  simp only [Function.comp_apply, conicalPoint, Topo.dim, Nat.add_sub_cancel]
  refine ⟨fun i => ?_, fun i hi => ?_⟩
  · by_cases hi : i = t.dim
    · rw [if_pos hi, if_pos hi]
      refine (near_one h1 h3.1 h3.2).mono (by nlinarith) (by positivity)
    · rw [if_neg hi, if_neg hi]
      by_cases hi' : i < t.dim
      · rw [if_pos hi', if_pos hi']
        have := (scale_near h1 h2.1 h2.2 h3.1 h3.2).mul (b1 i)
        rw [show (1:ℝ) * 1 = 1 from mul_one 1] at this
        refine this.mono (by nlinarith) ?_
        push_cast; linarith
      · rw [if_neg hi', if_neg hi']
        exact near_zero _ (by positivity)
  · rw [if_neg (by omega), if_neg (by omega), if_neg (by omega), if_neg (by omega)]
    exact ⟨rfl, rfl⟩

end Verif.FloatQuad
