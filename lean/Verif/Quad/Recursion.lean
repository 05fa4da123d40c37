import Verif.Quad.Deliver

/-! Tabulated rules of dimension two and three, and the recursion over the dimension. -/

namespace Verif.Quad

open Verif.Typ Verif.RefTopo Verif.RefGeom
open Finset hiding ext

set_option linter.unusedSectionVars false

variable {K : Type} [Field K] [LinearOrder K] [IsStrictOrderedRing K]

/-- the accuracy of the tabulated rules in dimension two and three -/
def epsT (K : Type) [Field K] : K := 1 / (4 * 10 ^ 14)

/-! ### Closed forms -/

theorem mom_tri (a : Nat → Nat) : mom K (.pyr (.prism .pt)) a =
    ((a 0).factorial : K) * (a 1).factorial / ((a 0 + a 1 + 2).factorial : K) := by
  have h1 : ((a 0 + a 1 + 2).factorial : K) ≠ 0 := by exact_mod_cast Nat.factorial_ne_zero _
  have h2 : ((a 0 : K) + 1) ≠ 0 := by positivity
  simp only [mom, Topo.dim, deg, sum_range_succ, sum_range_zero, zero_add, one_mul]
  rw [show a 1 + (1 + a 0) + 1 = a 0 + a 1 + 2 by ring, show 1 + a 0 = a 0 + 1 by ring, Nat.factorial_succ (a 0)]
  push_cast
  field_simp

theorem mom_tet (a : Nat → Nat) : mom K (.pyr (.pyr (.prism .pt))) a =
    ((a 0).factorial : K) * (a 1).factorial * (a 2).factorial / ((a 0 + a 1 + a 2 + 3).factorial : K) := by
  have h1 : ((a 0 + a 1 + a 2 + 3).factorial : K) ≠ 0 := by exact_mod_cast Nat.factorial_ne_zero _
  have h2 : ((a 0 + a 1 + 2).factorial : K) ≠ 0 := by exact_mod_cast Nat.factorial_ne_zero _
  rw [mom, mom_tri]
  simp only [Topo.dim, deg, sum_range_succ, sum_range_zero, zero_add, Nat.reduceAdd]
  rw [show a 2 + (2 + (a 0 + a 1)) + 1 = a 0 + a 1 + a 2 + 3 by ring, show 2 + (a 0 + a 1) = a 0 + a 1 + 2 by ring]
  field_simp

theorem mom_pri (a : Nat → Nat) : mom K (.prism (.pyr (.prism .pt))) a =
    ((a 0).factorial : K) * (a 1).factorial / (((a 0 + a 1 + 2).factorial : K) * (a 2 + 1)) := by
  rw [mom, mom_tri]
  simp only [Topo.dim, zero_add, Nat.reduceAdd]
  rw [div_mul_div_comm, mul_one]

/-! ### From the checks to the rules -/

theorem Node.fits_sound {d S : Nat} {n : Node} (h : n.fits d S = true) :
    n.x.length = d ∧ (∀ i (hi : i < n.x.length), (n.x[i].sc S : K) = S * n.x[i].val ∧ 0 ≤ n.x[i].sc S) := by
  simp only [Node.fits, Bool.and_eq_true, beq_iff_eq] at h
  refine ⟨h.1.1, fun i hi => ?_⟩
  have := List.all_eq_true.mp h.1.2 n.x[i] (List.getElem_mem hi)
  simp only [Bool.and_eq_true, decide_eq_true_eq] at this
  exact ⟨sc_val this.1, mul_nonneg this.2 (Int.natCast_nonneg _)⟩

theorem point_pos (n : Node) {i : Nat} (hi : i < n.x.length) : (n.point (K := K)).position i = n.x[i].val := by
  simp [Node.point, hi]

theorem point_zero (n : Node) {i : Nat} (hi : n.x.length ≤ i) : (n.point (K := K)).position i = 0 := by
  simp [Node.point, Nat.not_lt.mpr hi]

theorem row_zero {d : Nat} {S T : Nat} {e : List Nat → Nat × Nat} {r : Row} (h : r.momentsOK d S T e = true) :
    ∀ q ∈ r.pts.map (Node.point (K := K)), ∀ k, d ≤ k → q.position k = 0 := by
  simp only [Row.momentsOK, Bool.and_eq_true, decide_eq_true_eq] at h
  intro q hq k hk
  rw [List.mem_map] at hq
  obtain ⟨n, hn, rfl⟩ := hq
  have := (Node.fits_sound (K := K) (List.all_eq_true.mp h.1.2 n hn)).1
  exact point_zero n (by omega)

theorem scale_le {S : Nat} (hS : S ≠ 0) {x c : K} {z : Int} (hz : (z : K) = S * x) :
    (0 ≤ z → 0 ≤ x) ∧ (z ≤ S → x ≤ 1) := by
  have h : (0 : K) < S := by exact_mod_cast Nat.pos_of_ne_zero hS
  constructor
  · intro h0
    have : (0 : K) ≤ z := by exact_mod_cast h0
    rw [hz] at this
    exact nonneg_of_mul_nonneg_right this h
  · intro h1
    have : (z : K) ≤ S := by exact_mod_cast h1
    rw [hz] at this
    by_contra hc
    push Not at hc
    nlinarith

theorem tri_good {r : Row} (h : r.okTri = true) (hw : (r.posW || r.order == 3) = true) (t : GeometryType) {qt : QType}
    {p : Nat} (hp : p ≤ r.order) (h3 : p ≠ 3 → r.order ≠ 3) (hq : qt = .GaussLegendre ∨ qt = .GaussJacobi_n_0) :
    Good (.pyr (.prism .pt)) qt p (epsT K) (⟨t, r.order, r.pts.map Node.point⟩ : Rule K) := by
  simp only [Row.okTri, Bool.and_eq_true] at h
  obtain ⟨hm, hs⟩ := h
  have hpos : NonnegCase qt p → PosW (r.pts.map (Node.point (K := K))) := by
    intro hn
    have hp3 : p ≠ 3 := fun e => hn ⟨e, hq⟩
    have : (r.order == 3) = false := by simpa using h3 hp3
    rw [this, Bool.or_false] at hw
    exact posW_sound hw
  refine ⟨by simpa using hp, ?_, ?_, row_zero hm, fun hn q hq => (hpos hn q hq).le, fun hn => hpos hn.1⟩
  · simp only [Int.toNat_natCast]
    intro a ha
    have := row_moment (K := K) hm a ha
    rw [mom_tri]
    have e : (((simplexMom ((List.range 2).map a)).1 : Nat) : K) / (((simplexMom ((List.range 2).map a)).2 : Nat) : K) =
        ((a 0).factorial : K) * (a 1).factorial / ((a 0 + a 1 + 2).factorial : K) := by
      simp [simplexMom, List.range_succ]
    rw [e] at this
    refine this.trans ?_
    unfold epsT
    split <;> norm_num
  · intro q hq
    have hm' := hm
    simp only [Row.momentsOK, Bool.and_eq_true, decide_eq_true_eq] at hm'
    rw [List.mem_map] at hq
    obtain ⟨n, hn, rfl⟩ := hq
    obtain ⟨hl, hf⟩ := Node.fits_sound (K := K) (List.all_eq_true.mp hm'.1.2 n hn)
    have hin := List.all_eq_true.mp hs n hn
    have h0 := hf 0 (by omega)
    have h1 := hf 1 (by omega)
    have p0 := point_pos (K := K) n (i := 0) (by omega)
    have p1 := point_pos (K := K) n (i := 1) (by omega)
    obtain ⟨xs, w⟩ := n
    obtain ⟨x, y, rfl⟩ : ∃ x y, xs = [x, y] := by
      match xs, hl with
      | [x, y], _ => exact ⟨x, y, rfl⟩
    simp only [List.getElem_cons_zero, List.getElem_cons_succ] at h0 h1 p0 p1
    simp only [Node.inSimplex, List.map_cons, List.map_nil, List.sum_cons, List.sum_nil, add_zero,
      decide_eq_true_eq] at hin
    have hS : (6 * 10 ^ 34 : Nat) ≠ 0 := by norm_num
    have n0 := (scale_le (c := (0 : K)) hS h0.1).1 h0.2
    have n1 := (scale_le (c := (0 : K)) hS h1.1).1 h1.2
    have hsum : ((x.sc (6 * 10 ^ 34) + y.sc (6 * 10 ^ 34) : Int) : K) = (6 * 10 ^ 34 : Nat) * (x.val + y.val) := by
      rw [Int.cast_add, h0.1, h1.1, mul_add]
    have h2 := (scale_le (c := (0 : K)) hS hsum).2 (by exact_mod_cast hin)
    simp only [Dom, Topo.dim]
    rw [p0, show (0 : Nat) + 1 = 1 from rfl, p1]
    exact ⟨n1, by linarith, n0, by linarith, trivial⟩

theorem tet_good {r : Row} (h : r.okTet = true) (hw : r.posW = true) (t : GeometryType) {qt : QType}
    {p : Nat} (hp : p ≤ r.order) :
    Good (.pyr (.pyr (.prism .pt))) qt p (epsT K) (⟨t, r.order, r.pts.map Node.point⟩ : Rule K) := by
  simp only [Row.okTet, Bool.and_eq_true] at h
  obtain ⟨hm, hs⟩ := h
  have hpos : PosW (r.pts.map (Node.point (K := K))) := posW_sound hw
  refine ⟨by simpa using hp, ?_, ?_, row_zero hm, fun hn q hq => (hpos q hq).le, fun hn => hpos⟩
  · simp only [Int.toNat_natCast]
    intro a ha
    have := row_moment (K := K) hm a ha
    rw [mom_tet]
    have e : (((simplexMom ((List.range 3).map a)).1 : Nat) : K) / (((simplexMom ((List.range 3).map a)).2 : Nat) : K) =
        ((a 0).factorial : K) * (a 1).factorial * (a 2).factorial / ((a 0 + a 1 + a 2 + 3).factorial : K) := by
      simp [simplexMom, List.range_succ, mul_assoc, add_assoc]
    rw [e] at this
    refine this.trans ?_
    unfold epsT
    norm_num
  · intro q hq
    have hm' := hm
    simp only [Row.momentsOK, Bool.and_eq_true, decide_eq_true_eq] at hm'
    rw [List.mem_map] at hq
    obtain ⟨n, hn, rfl⟩ := hq
    obtain ⟨hl, hf⟩ := Node.fits_sound (K := K) (List.all_eq_true.mp hm'.1.2 n hn)
    have hin := List.all_eq_true.mp hs n hn
    have h0 := hf 0 (by omega)
    have h1 := hf 1 (by omega)
    have h2 := hf 2 (by omega)
    have p0 := point_pos (K := K) n (i := 0) (by omega)
    have p1 := point_pos (K := K) n (i := 1) (by omega)
    have p2 := point_pos (K := K) n (i := 2) (by omega)
    obtain ⟨xs, w⟩ := n
    obtain ⟨x, y, z, rfl⟩ : ∃ x y z, xs = [x, y, z] := by
      match xs, hl with
      | [x, y, z], _ => exact ⟨x, y, z, rfl⟩
    simp only [List.getElem_cons_zero, List.getElem_cons_succ] at h0 h1 h2 p0 p1 p2
    simp only [Node.inSimplex, List.map_cons, List.map_nil, List.sum_cons, List.sum_nil, add_zero,
      decide_eq_true_eq] at hin
    have hS : (15 * 10 ^ 21 : Nat) ≠ 0 := by norm_num
    have n0 := (scale_le (c := (0 : K)) hS h0.1).1 h0.2
    have n1 := (scale_le (c := (0 : K)) hS h1.1).1 h1.2
    have n2 := (scale_le (c := (0 : K)) hS h2.1).1 h2.2
    have hsum : ((x.sc (15 * 10 ^ 21) + (y.sc (15 * 10 ^ 21) + z.sc (15 * 10 ^ 21)) : Int) : K) =
        (15 * 10 ^ 21 : Nat) * (x.val + (y.val + z.val)) := by
      rw [Int.cast_add, Int.cast_add, h0.1, h1.1, h2.1, mul_add, mul_add]
    have h3 := (scale_le (c := (0 : K)) hS hsum).2 (by exact_mod_cast hin)
    simp only [Dom, Topo.dim]
    rw [p0, show (0 : Nat) + 1 = 1 from rfl, show (1 : Nat) + 1 = 2 from rfl, p1, p2]
    exact ⟨n2, by linarith, n1, by linarith, n0, by linarith, trivial⟩

theorem pri_good {r : Row} (h : r.okPrism = true) (hw : r.posW = true) (t : GeometryType) {qt : QType}
    {p : Nat} (hp : p ≤ r.order) :
    Good (.prism (.pyr (.prism .pt))) qt p (epsT K) (⟨t, r.order, r.pts.map Node.point⟩ : Rule K) := by
  simp only [Row.okPrism, Bool.and_eq_true] at h
  obtain ⟨hm, hs⟩ := h
  have hpos : PosW (r.pts.map (Node.point (K := K))) := posW_sound hw
  refine ⟨by simpa using hp, ?_, ?_, row_zero hm, fun hn q hq => (hpos q hq).le, fun hn => hpos⟩
  · simp only [Int.toNat_natCast]
    intro a ha
    have := row_moment (K := K) hm a ha
    rw [mom_pri]
    have e : (((prismMom ((List.range 3).map a)).1 : Nat) : K) / (((prismMom ((List.range 3).map a)).2 : Nat) : K) =
        ((a 0).factorial : K) * (a 1).factorial / (((a 0 + a 1 + 2).factorial : K) * (a 2 + 1)) := by
      simp [prismMom, List.range_succ]
    rw [e] at this
    refine this.trans ?_
    unfold epsT
    norm_num
  · intro q hq
    have hm' := hm
    simp only [Row.momentsOK, Bool.and_eq_true, decide_eq_true_eq] at hm'
    rw [List.mem_map] at hq
    obtain ⟨n, hn, rfl⟩ := hq
    obtain ⟨hl, hf⟩ := Node.fits_sound (K := K) (List.all_eq_true.mp hm'.1.2 n hn)
    have hin := List.all_eq_true.mp hs n hn
    have h0 := hf 0 (by omega)
    have h1 := hf 1 (by omega)
    have h2 := hf 2 (by omega)
    have p0 := point_pos (K := K) n (i := 0) (by omega)
    have p1 := point_pos (K := K) n (i := 1) (by omega)
    have p2 := point_pos (K := K) n (i := 2) (by omega)
    obtain ⟨xs, w⟩ := n
    obtain ⟨x, y, z, rfl⟩ : ∃ x y z, xs = [x, y, z] := by
      match xs, hl with
      | [x, y, z], _ => exact ⟨x, y, z, rfl⟩
    simp only [List.getElem_cons_zero, List.getElem_cons_succ] at h0 h1 h2 p0 p1 p2
    simp only [Node.inPrism, Bool.and_eq_true, decide_eq_true_eq] at hin
    have hS : (10 ^ 18 : Nat) ≠ 0 := by norm_num
    have n0 := (scale_le (c := (0 : K)) hS h0.1).1 h0.2
    have n1 := (scale_le (c := (0 : K)) hS h1.1).1 h1.2
    have n2 := scale_le (c := (0 : K)) hS h2.1
    have hsum : ((x.sc (10 ^ 18) + y.sc (10 ^ 18) : Int) : K) = (10 ^ 18 : Nat) * (x.val + y.val) := by
      rw [Int.cast_add, h0.1, h1.1, mul_add]
    have h3 := (scale_le (c := (0 : K)) hS hsum).2 (by exact_mod_cast hin.1)
    simp only [Dom, Topo.dim]
    rw [p0, show (0 : Nat) + 1 = 1 from rfl, show (1 : Nat) + 1 = 2 from rfl, p1, p2]
    exact ⟨n2.1 h2.2, n2.2 (by exact_mod_cast hin.2), n1, by linarith, n0, by linarith, trivial⟩

/-! ### Selection of the tables -/

/-- the block selected for order `p` has at least that order, and order 3 only if `p = 3` -/
def selOK (blocks : List Row) (idx : Nat → Nat) (h : Nat) : Bool :=
  (List.range (h + 1)).all fun p => match lastBlock blocks (idx p) with
    | some r => decide (p ≤ r.order) && (p == 3 || r.order != 3)
    | none => false

theorem simplex2_sel : selOK Simplex2.blocks (fun p => simplex2Index p) 12 = true := by decide +kernel
theorem simplex3_sel : ((List.range 6).all fun p => match lastBlock Simplex3.blocks (simplex3Index p) with
    | some r => decide (p ≤ r.order)
    | none => false) = true := by decide +kernel
theorem prism3_sel : lastBlock Prism3.blocks 6 = some Prism3.block1 ∧ Prism3.block1.order = 2 := by
  constructor
  · rfl
  · rfl

theorem lastBlock_mem {blocks : List Row} {m : Nat} {r : Row} (h : lastBlock blocks m = some r) : r ∈ blocks :=
  List.mem_reverse.mp (List.mem_of_find?_eq_some h)

theorem simplex2_good {qt : QType} {p : Nat} (hp : p ≤ 12) (hq : qt = .GaussLegendre ∨ qt = .GaussJacobi_n_0) :
    ∃ r, simplex2Rule (K := K) p = .ok r ∧ r.type = triangle ∧ Good (.pyr (.prism .pt)) qt p (epsT K) r := by
  have h := List.all_eq_true.mp simplex2_sel p (List.mem_range.mpr (by omega))
  unfold simplex2Rule blockRule
  rw [if_neg (by simp only [simplex2Highest]; omega)]
  revert h
  cases e : lastBlock Simplex2.blocks (simplex2Index p) with
  | none => simp
  | some r =>
    simp only [Bool.and_eq_true, decide_eq_true_eq, Bool.or_eq_true, beq_iff_eq, bne_iff_ne]
    rintro ⟨h1, h2⟩
    have hm := lastBlock_mem e
    refine ⟨_, rfl, rfl, tri_good (List.all_eq_true.mp simplex2_ok r hm)
      (List.all_eq_true.mp simplex_posW.1 r hm) _ h1 (fun h3 => ?_) hq⟩
    exact h2.resolve_left h3

theorem simplex3_good {qt : QType} {p : Nat} (hp : p ≤ 5) :
    ∃ r, simplex3Rule (K := K) p = .ok r ∧ r.type = tetrahedron ∧ Good (.pyr (.pyr (.prism .pt))) qt p (epsT K) r := by
  have h := List.all_eq_true.mp simplex3_sel p (List.mem_range.mpr (by omega))
  unfold simplex3Rule blockRule
  rw [if_neg (by simp only [simplex3Highest]; omega)]
  revert h
  cases e : lastBlock Simplex3.blocks (simplex3Index p) with
  | none => simp
  | some r =>
    simp only [decide_eq_true_eq]
    intro h1
    have hm := lastBlock_mem e
    exact ⟨_, rfl, rfl, tet_good (List.all_eq_true.mp simplex3_ok r hm)
      (List.all_eq_true.mp simplex_posW.2.1 r hm) _ h1⟩

theorem prism3_good {qt : QType} {p : Nat} (hp : p ≤ 2) :
    ∃ r, prism3Rule (K := K) p = .ok r ∧ r.type = prism ∧ Good (.prism (.pyr (.prism .pt))) qt p (epsT K) r := by
  unfold prism3Rule blockRule
  rw [prism3_sel.1]
  exact ⟨_, rfl, rfl, pri_good prism3_ok simplex_posW.2.2 _ (by rw [prism3_sel.2]; exact hp)⟩

/-! ### The recursion -/

theorem oned_good {qt : QType} {p : Nat} {δ : K} {r : Rule K} {B : Prop} (h : Oned 0 p δ B r) :
    Good (.prism .pt) qt p δ r := by
  refine ⟨h.order, ?_, ?_, h.zero, fun _ q hq => (h.pos q hq).le, fun _ => h.pos⟩
  · intro a ha
    have := h.approx (a 0) 0 (by simpa [deg, Topo.dim] using ha)
    have e : mono (Topo.prism .pt).dim a = (fun x : Vec K => x 0 ^ a 0 * (1 - x 0) ^ 0) := by
      funext x; simp [mono, Topo.dim]
    rw [e, mom_prism]
    simpa [mom, Topo.dim] using this
  · intro q hq
    have := h.in01 q hq
    exact ⟨this.1, this.2, trivial⟩

/-- the error after `d` products -/
def errD (K : Type) [Field K] (d : Nat) (δ : K) : K := epsT K + 2 * d * δ

theorem topoOf_tri {id : Nat} (h : id < 2) : topoOf 2 id = .pyr (.prism .pt) := by
  interval_cases id <;> decide

theorem isSimplex_iff {d id : Nat} : isSimplex ⟨d, false, id⟩ = true ↔ id < 2 := by
  simp only [isSimplex, Bool.not_false, Bool.true_and, beq_iff_eq, or_one_eq]; omega

theorem errD_le {d : Nat} (hd : d ≤ 30) {δ : K} (h1 : δ ≤ 1 / 100) : errD K d δ ≤ 1 := by
  have hd' : (d : K) ≤ 30 := by exact_mod_cast hd
  have hd0 : (0 : K) ≤ d := Nat.cast_nonneg d
  have h2 : (d : K) * δ ≤ 30 * (1 / 100) := by nlinarith
  have : epsT K ≤ 1 / 10 := by unfold epsT; norm_num
  unfold errD
  linarith

theorem epsT_le_errD (d : Nat) {δ : K} (h0 : 0 ≤ δ) : epsT K ≤ errD K d δ := by
  have hd0 : (0 : K) ≤ d := Nat.cast_nonneg d
  unfold errD
  nlinarith [mul_nonneg hd0 h0]

theorem mod_pow_mod {id k d : Nat} (h : k ≤ d) : id % 2 ^ d % 2 ^ k = id % 2 ^ k :=
  Nat.mod_mod_of_dvd _ (Nat.pow_dvd_pow 2 h)

theorem point_good (env : Env K) (qt : QType) {p id : Nat} (hp : p < 2 ^ 31) (hid : id < 2 ^ 0) {ε : K} (hE : 0 ≤ ε) :
    ∃ r, rule env 0 ⟨0, false, id⟩ p qt = .ok r ∧ eq r.type ⟨0, false, id⟩ = true ∧ Good (topoOf 0 id) qt p ε r := by
  have hid0 : id = 0 := by simpa using hid
  subst hid0
  rw [rule, ruleWith_ok (by omega) hid (Or.inl rfl)]
  refine ⟨pointRule, by simp [factory, isVertex], ?_, ?_⟩
  · change eq vertex ⟨0, false, 0⟩ = true
    decide
  refine ⟨?_, ?_, ?_, ?_, ?_, ?_⟩
  · simp only [pointRule]; omega
  · intro a _
    simp only [topoOf, Topo.dim, mom, pointRule, quadSum, mono]
    simpa using hE
  · intro q _; trivial
  · intro q hq k _
    simp only [pointRule, List.mem_singleton] at hq
    subst hq; rfl
  · intro _ q hq
    simp only [pointRule, List.mem_singleton] at hq
    subst hq; exact zero_le_one
  · intro _ q hq
    simp only [pointRule, List.mem_singleton] at hq
    subst hq; exact one_pos

/-- the rule of dimension `d`, given that the one dimensional rules used on the way are good -/
theorem rule_good (env : Env K) (qt : QType) (p : Nat) (hp : p < 2 ^ 31) (δ : K) (h0 : 0 ≤ δ) (h1 : δ ≤ 1 / 100) :
    ∀ (d id : Nat), d ≤ 30 → id < 2 ^ d →
    (∀ k, 1 ≤ k → k ≤ d → ∃ m : Nat, maxOrder k ⟨k, false, id % 2 ^ k⟩ qt = .ok m ∧ p ≤ m) →
    (∀ id, id < 2 → ∃ o, rule1 env ⟨1, false, id⟩ p qt = .ok o ∧ o.type = line ∧ Oned 0 p δ False o) →
    (∀ k, 1 ≤ k → k < d → StepOK env k (id.testBit k) p qt δ) →
    ∃ r, rule env d ⟨d, false, id⟩ p qt = .ok r ∧ eq r.type ⟨d, false, id⟩ = true ∧
      Good (topoOf d id) qt p (errD K d δ) r
  | 0, id, _, hid, _, _, _ => point_good env qt hp hid (by unfold errD epsT; norm_num)
  | 1, id, _, hid, hmax, hone, _ => by
    obtain ⟨o, e1, e2, e3⟩ := hone id (by simpa using hid)
    have hr : rule env 1 ⟨1, false, id⟩ p qt = rule1 env ⟨1, false, id⟩ p qt := rfl
    refine ⟨o, by rw [hr, e1], ?_, ?_⟩
    · rw [e2, line_eq, eq_iff]
      have : id < 2 := by simpa using hid
      refine ⟨rfl, Or.inr ⟨rfl, by simp only; omega⟩⟩
    · have : topoOf 1 id = .prism .pt := by simp [topoOf]
      rw [this]
      refine (oned_good (qt := qt) e3).mono ?_
      have : (0 : K) ≤ epsT K := by unfold epsT; norm_num
      unfold errD; push_cast; linarith
  | d + 2, id, hd, hid, hmax, hone, hstep => by
    obtain ⟨B, b1, b2, b3⟩ := rule_good env qt p hp δ h0 h1 (d + 1) (id % 2 ^ (d + 1)) (by omega)
      (Nat.mod_lt _ (Nat.two_pow_pos _))
      (fun k hk1 hk2 => by rw [mod_pow_mod hk2]; exact hmax k hk1 (by omega)) hone
      (fun k hk1 hk2 => by rw [testBit_mod' hk2]; exact hstep k hk1 (by omega))
    obtain ⟨m, hm, hpm⟩ := hmax (d + 2) (by omega) (le_refl _)
    rw [Nat.mod_eq_of_lt hid] at hm
    have hr : rule env (d + 2) ⟨d + 2, false, id⟩ p qt =
        factory env (d + 2) ⟨d + 2, false, id⟩ p qt (.ok B) := by
      rw [rule, ruleWith_ok hd hid (Or.inr ⟨m, hm, by omega, by omega⟩)]
      simp only
      rw [baseTypeOf_eq (by omega) hid, b1]
    obtain ⟨r, t1, t2, t3, t4⟩ := tensor_good (env := env) hd hid (rep_topoOf (d + 1) (id % 2 ^ (d + 1))).dim_eq b3
      h0 (errD_le (by omega) h1) (hstep (d + 1) (by omega) (by omega))
    have htopo : topoOf (d + 2) id = if id.testBit (d + 1) then .prism (topoOf (d + 1) (id % 2 ^ (d + 1)))
        else .pyr (topoOf (d + 1) (id % 2 ^ (d + 1))) := by
      rw [topoOf]; simp
    have herr : errD K (d + 1) δ + 2 * δ = errD K (d + 2) δ := by unfold errD; push_cast; ring
    rw [← htopo, herr] at t4
    have htens : ∃ r, tensorRule env (d + 2) id p qt (.ok B) = .ok r ∧ eq r.type ⟨d + 2, false, id⟩ = true ∧
        Good (topoOf (d + 2) id) qt p (errD K (d + 2) δ) r := by
      refine ⟨r, t1, ?_, t4⟩
      rw [t2, eq_iff]; simp
    rw [hr]
    match d, hd, hid, htens with
    | 0, hd, hid, htens =>
      simp only [factory]
      split
      · rename_i h
        obtain ⟨hs, hq, hp2⟩ := h
        have hid2 : id < 2 := isSimplex_iff.mp hs
        obtain ⟨r, s1, s2, s3⟩ := simplex2_good (K := K) (qt := qt) (p := p) (by simp only [simplex2Highest] at hp2; omega) hq
        refine ⟨r, s1, ?_, ?_⟩
        · rw [s2, eq_iff]
          have : triangle = ⟨2, false, 0⟩ := by decide
          rw [this]; exact ⟨rfl, Or.inr ⟨rfl, by simp only; omega⟩⟩
        · rw [topoOf_tri hid2]; exact s3.mono (epsT_le_errD _ h0)
      · exact htens
    | 1, hd, hid, htens =>
      simp only [factory]
      split
      · rename_i h
        obtain ⟨hs, hq, hp2⟩ := h
        have hid2 : id < 2 := isSimplex_iff.mp hs
        obtain ⟨r, s1, s2, s3⟩ := simplex3_good (K := K) (qt := qt) (p := p) (by simp only [simplex3Highest] at hp2; omega)
        refine ⟨r, s1, ?_, ?_⟩
        · rw [s2, eq_iff]
          have : tetrahedron = ⟨3, false, 0⟩ := by decide
          rw [this]; exact ⟨rfl, Or.inr ⟨rfl, by simp only; omega⟩⟩
        · have : topoOf 3 id = .pyr (.pyr (.prism .pt)) := by interval_cases id <;> decide
          rw [this]; exact s3.mono (epsT_le_errD _ h0)
      · split
        · rename_i h
          obtain ⟨hs, hq, hp2⟩ := h
          have hid2 : id / 2 = 2 := by
            simp only [isPrism, Bool.not_false, Bool.true_and, Bool.and_eq_true, beq_iff_eq, or_one_eq] at hs; omega
          obtain ⟨r, s1, s2, s3⟩ := prism3_good (K := K) (qt := qt) (p := p) (by simp only [prism3Highest] at hp2; omega)
          refine ⟨r, s1, ?_, ?_⟩
          · rw [s2, eq_iff]
            have : prism = ⟨3, false, 5⟩ := by decide
            rw [this]; exact ⟨rfl, Or.inr ⟨rfl, by simp only; omega⟩⟩
          · have : topoOf 3 id = .prism (.pyr (.prism .pt)) := by
              have h1 : 4 ≤ id := by omega
              have h2 : id ≤ 5 := by omega
              interval_cases id <;> decide
            rw [this]; exact s3.mono (epsT_le_errD _ h0)
        · exact htens
    | d + 2, hd, hid, htens =>
      simp only [factory]
      exact htens

theorem eps1_bounds : (0 : K) ≤ eps1 K ∧ eps1 K ≤ 1 / 100 := by unfold eps1; constructor <;> norm_num

theorem MaxSpec.anti {h d id m : Nat} (hm : MaxSpec h d id m) {k m' : Nat} (hk : k ≤ d)
    (hm' : MaxSpec h k (id % 2 ^ k) m') : m ≤ m' := by
  rcases hm'.2.2 with rfl | ⟨j, hj1, hj2, hj3, hj4⟩
  · exact hm.1
  · rw [testBit_mod' hj2] at hj3
    have := hm.2.1 j hj1 (by omega) hj3
    omega

/-- Gauss, Lobatto and Radau rules -/
theorem plain_good (env : Env K) {qt : QType} (hq : IsPlain qt) {d id m p : Nat} (hd : d ≤ 30) (hid : id < 2 ^ d)
    (hm : maxOrder d ⟨d, false, id⟩ qt = .ok m) (hp : p ≤ m) :
    ∃ r, rule env d ⟨d, false, id⟩ p qt = .ok r ∧ eq r.type ⟨d, false, id⟩ = true ∧
      Good (topoOf d id) qt p (errD K d (eps1 K)) r := by
  obtain ⟨tab, h, ht⟩ : ∃ tab h, tableOf qt = some (tab, h) := by
    rcases hq with rfl | rfl | rfl | rfl <;> exact ⟨_, _, rfl⟩
  obtain ⟨h30, h61, -⟩ := plain_table (K := K) hq ht (p := 0) (Nat.zero_le _)
  match d, hd, hid, hm with
  | 0, hd, hid, hm =>
    have : m = 2 ^ 31 - 1 := by simp [maxOrder, isVertex] at hm; omega
    exact point_good env qt (by omega) hid (by unfold errD epsT; norm_num)
  | d + 1, hd, hid, hm =>
    obtain ⟨m', h1, h2⟩ := maxOrder_tab ht h30 h61 d id hd hid
    rw [h1] at hm
    cases hm
    refine rule_good env qt p (by have := h2.1; omega) (eps1 K) eps1_bounds.1 eps1_bounds.2 (d + 1) id hd hid ?_ ?_ ?_
    · intro k hk1 hk2
      obtain ⟨k, rfl⟩ : ∃ j, k = j + 1 := ⟨k - 1, by omega⟩
      obtain ⟨m'', h3, h4⟩ := maxOrder_tab ht h30 h61 k (id % 2 ^ (k + 1)) (by omega) (Nat.mod_lt _ (Nat.two_pow_pos _))
      exact ⟨m'', h3, hp.trans (h2.anti hk2 h4)⟩
    · intro i hi
      obtain ⟨o, e1, e2, e3⟩ := plain_rule1 env hq ht (hp.trans h2.1) hi
      exact ⟨o, e1, e2, e3.weaken False.elim⟩
    · intro k hk1 hk2
      exact plain_step env hq ht h2 hp hk2 hk1

/-- Gauss-Jacobi rules, given the one dimensional rules for the exponents below the dimension -/
theorem jacobi_good (env : Env K) {d id p : Nat} (hd : d ≤ 30) (hid : id < 2 ^ d) (hp : p ≤ 127) {δ : K} (h0 : 0 ≤ δ)
    (h1 : δ ≤ 1 / 100)
    (hj : ∀ α, α < d → ∃ o, jacobiN env p α = .ok o ∧ o.type = line ∧ Oned α p δ False o) :
    ∃ r, rule env d ⟨d, false, id⟩ p .GaussJacobi_n_0 = .ok r ∧ eq r.type ⟨d, false, id⟩ = true ∧
      Good (topoOf d id) .GaussJacobi_n_0 p (errD K d δ) r := by
  match d, hd, hid, hj with
  | 0, hd, hid, hj => exact point_good env _ (by omega) hid (by unfold errD epsT; norm_num)
  | d + 1, hd, hid, hj =>
    have hone : ∀ i, i < 2 → ∃ o, rule1 env ⟨1, false, i⟩ p .GaussJacobi_n_0 = .ok o ∧ o.type = line ∧
        Oned 0 p δ False o := by
      intro i hi
      obtain ⟨o, e1, e2, e3⟩ := hj 0 (by omega)
      exact ⟨o, by rw [rule1_n_eq env hi hp]; exact e1, e2, e3⟩
    refine rule_good env _ p (by omega) δ h0 h1 (d + 1) id hd hid ?_ hone ?_
    · intro k hk1 hk2
      obtain ⟨k, rfl⟩ : ∃ j, k = j + 1 := ⟨k - 1, by omega⟩
      exact ⟨127, maxOrder_n k _ (by omega) (Nat.mod_lt _ (Nat.two_pow_pos _)), hp⟩
    · intro k hk1 hk2
      unfold StepOK
      by_cases hb : id.testBit k = true
      · rw [if_pos hb]
        obtain ⟨o, e1, -, e3⟩ := hone 0 (by omega)
        exact ⟨o, by rw [line_eq]; exact e1, e3⟩
      · rw [if_neg hb, if_neg (by simp)]
        obtain ⟨o, e1, -, e3⟩ := hj k (by omega)
        exact ⟨o, e1, e3⟩

end Verif.Quad
