import Verif.Quad.Rules

/-! Every supported request is answered by a good rule. -/

namespace Verif.Quad

open Verif.Typ Verif.RefTopo Verif.RefGeom
open Finset hiding ext

set_option linter.unusedSectionVars false

variable {K : Type} [Field K] [LinearOrder K] [IsStrictOrderedRing K]

/-! ### One dimension -/

/-- the quadrature types that integrate against the constant weight -/
def IsPlain (qt : QType) : Prop :=
  qt = .GaussLegendre ∨ qt = .GaussLobatto ∨ qt = .GaussRadauLeft ∨ qt = .GaussRadauRight

theorem order_le_61 : ((Gauss.table ++ Lobatto.table ++ RadauLeft.table ++ RadauRight.table ++ Jacobi1.table ++
    Jacobi2.table).all fun r => decide (r.order ≤ 61)) = true := by decide +kernel

theorem below1_sound {r : Row} (h : r.below1 = true) (h' : r.in01 = true) :
    ∀ q ∈ r.pts.map (Node.point (K := K)), q.position 0 < 1 := by
  intro q hq
  rw [List.mem_map] at hq
  obtain ⟨n, hn, rfl⟩ := hq
  have h1 := List.all_eq_true.mp h n hn
  have h2 := List.all_eq_true.mp h' n hn
  revert h1 h2
  obtain ⟨xs, w⟩ := n
  match xs with
  | [] => simp
  | [l] =>
    simp only [Bool.and_eq_true, decide_eq_true_eq, Node.point]
    rintro h1 ⟨-, h2⟩
    have hd : (0 : K) < l.den := by exact_mod_cast Nat.pos_of_ne_zero h2
    simp only [List.length_singleton, Nat.lt_one_iff, dif_pos, List.getElem_cons_zero, Lit.val]
    rw [div_lt_one hd]; exact_mod_cast h1
  | _ :: _ :: _ => simp

theorem zero_sound {r : Row} (h : r.in01 = true) :
    ∀ q ∈ r.pts.map (Node.point (K := K)), ∀ k, 1 ≤ k → q.position k = 0 := by
  intro q hq k hk
  rw [List.mem_map] at hq
  obtain ⟨n, hn, rfl⟩ := hq
  have h1 := List.all_eq_true.mp h n hn
  revert h1
  obtain ⟨xs, w⟩ := n
  match xs with
  | [] => simp
  | [l] => intro _; simp only [Node.point]; rw [dif_neg (by simp; omega)]
  | _ :: _ :: _ => simp

theorem row_oned {α : Nat} {r : Row} (h : r.ok1 α = true) (h61 : r.order ≤ 61) {p : Nat} (hp : p ≤ r.order)
    (t : GeometryType) (B : Prop) (hB : B → r.below1 = true) :
    Approx1 α r.order (2 ^ α) (eps1 K) (r.pts.map (Node.point (K := K))) ∧
    (α = 0 → Oned 0 p (eps1 K) B (⟨t, r.order, r.pts.map Node.point⟩ : Rule K)) := by
  have ha := ok1_approx (K := K) h (le_refl _) h61
  refine ⟨ha, ?_⟩
  rintro rfl
  simp only [pow_zero] at ha
  have h5 := h
  simp only [Row.ok1, Bool.and_eq_true] at h5
  exact ⟨by simpa using hp, by simpa using ha, in01_sound h5.1.2, zero_sound h5.1.2, posW_sound h5.2,
    fun hb => below1_sound (hB hb) h5.1.2⟩

/-- a table of the constant weight: every order up to the highest is delivered -/
theorem plain_table {qt : QType} {tab : List Row} {h : Nat} (hq : IsPlain qt) (ht : tableOf qt = some (tab, h))
    {p : Nat} (hp : p ≤ h) :
    30 ≤ h ∧ h ≤ 61 ∧ ∃ r, initHelper tab p = .ok r ∧
      Oned 0 p (eps1 K) (qt ≠ .GaussLobatto ∧ qt ≠ .GaussRadauRight)
        (⟨line, r.order, r.pts.map Node.point⟩ : Rule K) := by
  have key : ∀ (tab : List Row) (h : Nat), tab.all (Row.ok1 0) = true → coverOK tab h = true →
      (tab.all fun r => decide (r.order ≤ 61)) = true → ∀ B : Prop, (B → tab.all Row.below1 = true) → p ≤ h →
      ∃ r, initHelper tab p = .ok r ∧ Oned 0 p (eps1 K) B (⟨line, r.order, r.pts.map Node.point⟩ : Rule K) := by
    intro tab h h1 h2 h3 B h4 hp
    obtain ⟨r, e1, e2, e3⟩ := cover_row h2 hp
    refine ⟨r, e1, (row_oned (List.all_eq_true.mp h1 r e2) ?_ e3 line B fun hb => ?_).2 rfl⟩
    · simpa using List.all_eq_true.mp h3 r e2
    · exact List.all_eq_true.mp (h4 hb) r e2
  have ho := order_le_61
  simp only [List.all_append, Bool.and_eq_true] at ho
  obtain ⟨⟨⟨⟨⟨o1, o2⟩, o3⟩, o4⟩, -⟩, -⟩ := ho
  rcases hq with rfl | rfl | rfl | rfl <;> simp only [tableOf, Option.some.injEq, Prod.mk.injEq] at ht <;>
    obtain ⟨rfl, rfl⟩ := ht
  · exact ⟨by omega, by omega, key _ _ gauss_ok gauss_cover o1 _ (fun _ => gauss_below1) hp⟩
  · exact ⟨by omega, by omega, key _ _ lobatto_ok lobatto_cover o2 _ (by simp) hp⟩
  · exact ⟨by omega, by omega, key _ _ radauLeft_ok radauLeft_cover o3 _ (fun _ => radauLeft_below1) hp⟩
  · exact ⟨by omega, by omega, key _ _ radauRight_ok radauRight_cover o4 _ (by simp) hp⟩

theorem rule1_eq (env : Env K) {id : Nat} (hid : id < 2) {p : Nat} {qt : QType} {tab : List Row} {h : Nat}
    (ht : tableOf qt = some (tab, h)) (hp : p ≤ h) :
    rule1 env ⟨1, false, id⟩ p qt = rule1D tab p := by
  unfold rule1
  rw [ruleWith_ok (by omega) (by simpa using hid) (Or.inr ⟨h, by simp [maxOrder1, isLine, ht], by omega, by omega⟩)]
  simp [factory1, isLine, ht]

theorem rule1_n_eq (env : Env K) {id : Nat} (hid : id < 2) {p : Nat} (hp : p ≤ 127) :
    rule1 env ⟨1, false, id⟩ p .GaussJacobi_n_0 = jacobiN env p 0 := by
  unfold rule1
  rw [ruleWith_ok (by omega) (by simpa using hid)
    (Or.inr ⟨127, by simp [maxOrder1, isLine, tableOf, jacobiNMaxOrder], by omega, by omega⟩)]
  simp [factory1, isLine, tableOf]

theorem line_eq : line = ⟨1, false, 0⟩ := by decide

theorem plain_rule1 (env : Env K) {qt : QType} {tab : List Row} {h : Nat} (hq : IsPlain qt)
    (ht : tableOf qt = some (tab, h)) {p : Nat} (hp : p ≤ h) {id : Nat} (hid : id < 2) :
    ∃ o, rule1 env ⟨1, false, id⟩ p qt = .ok o ∧ o.type = line ∧
      Oned 0 p (eps1 K) (qt ≠ .GaussLobatto ∧ qt ≠ .GaussRadauRight) o := by
  obtain ⟨-, -, r, h1, h2⟩ := plain_table (K := K) hq ht hp
  rw [rule1_eq env hid ht hp, rule1D, h1]
  exact ⟨_, rfl, rfl, h2⟩

theorem Oned.weaken {α p : Nat} {δ : K} {A B : Prop} {r : Rule K} (h : Oned α p δ A r) (hAB : B → A) :
    Oned α p δ B r := ⟨h.order, h.approx, h.in01, h.zero, h.pos, fun b => h.below (hAB b)⟩

theorem Oned.le {α p : Nat} {δ δ' : K} {A : Prop} {r : Rule K} (h : Oned α p δ A r) (hd : δ ≤ δ') :
    Oned α p δ' A r := ⟨h.order, fun k m hkm => (h.approx k m hkm).trans hd, h.in01, h.zero, h.pos, h.below⟩

theorem plain_step (env : Env K) {qt : QType} {tab : List Row} {h : Nat} (hq : IsPlain qt)
    (ht : tableOf qt = some (tab, h)) {d id m p : Nat} (hm : MaxSpec h d id m) (hp : p ≤ m) {k : Nat} (hk : k < d)
    (hk1 : 1 ≤ k) : StepOK env k (id.testBit k) p qt (eps1 K) := by
  unfold StepOK
  have hn : qt ≠ .GaussJacobi_n_0 := by rintro rfl; simp [tableOf] at ht
  by_cases hb : id.testBit k = true
  · rw [if_pos hb]
    obtain ⟨o, h1, -, h2⟩ := plain_rule1 env hq ht (p := p) (hp.trans hm.1) (id := 0) (by omega)
    rw [line_eq]
    exact ⟨o, h1, h2.weaken False.elim⟩
  · rw [if_neg hb, if_pos hn]
    have := hm.2.1 k hk1 hk (by simpa using hb)
    obtain ⟨o, h1, -, h2⟩ := plain_rule1 env hq ht (p := p + k) (by omega) (id := 0) (by omega)
    rw [line_eq]
    exact ⟨o, by rw [← Nat.cast_add]; exact h1, h2⟩

/-! ### Gauss-Jacobi rules for the conical product -/

/-- for orders below 61 and exponents up to 2 the tables are used -/
theorem jacobi_table (env : Env K) {p α : Nat} (hp : p ≤ 60) (hα : α ≤ 2) :
    ∃ o, jacobiN env p α = .ok o ∧ o.type = line ∧ Oned α p (eps1 K) False o := by
  have hu : toU32 (p : Int) = p := toU32_ofNat (by omega)
  have ho := order_le_61
  simp only [List.all_append, Bool.and_eq_true] at ho
  obtain ⟨⟨⟨⟨⟨o1, -⟩, -⟩, -⟩, o5⟩, o6⟩ := ho
  have hr : ∀ qt tab, tableOf qt = some (tab, 61) → coverOK tab 61 = true →
      ∃ row, rule1Tab (K := K) line p qt = .ok ⟨line, row.order, row.pts.map Node.point⟩ ∧ row ∈ tab ∧
        p ≤ row.order := by
    intro qt tab ht hc
    obtain ⟨row, e1, e2, e3⟩ := cover_row hc (p := p) (by omega)
    refine ⟨row, ?_, e2, e3⟩
    unfold rule1Tab
    rw [line_eq, ruleWith_ok (by omega) (by omega) (Or.inr ⟨61, by simp [maxOrder1, isLine, ht], by omega, by omega⟩)]
    simp [factory1Tab, isLine, ht, rule1D, e1, line_eq]
  have hg : ∀ row : Row, row.gaussShape = true → ((row.order : Nat) : Int) = 2 * (row.pts.length : Int) - 1 := by
    intro row h
    simp only [Row.gaussShape, Bool.and_eq_true, decide_eq_true_eq] at h
    omega
  unfold jacobiN decideRule decideRuleExponent
  have hj : ¬ p > jacobiNMaxOrder := by unfold jacobiNMaxOrder; omega
  have h61 : p < 61 := by omega
  rw [hu, if_neg hj, if_pos h61]
  have hsc : ∀ (c : K) (row : Row), 0 < c → Row.ok1 α row = true → row.order ≤ 61 → p ≤ row.order →
      row.gaussShape = true → c ≤ 1 → c * 2 ^ α = 1 →
      Oned α p (eps1 K) False ⟨line, 2 * (scaleWeights c (row.pts.map (Node.point (K := K)))).length - 1,
        scaleWeights c (row.pts.map (Node.point (K := K)))⟩ := by
    intro c row hc hok h61 hpo hsh hc1 hc2
    have h5 := hok
    simp only [Row.ok1, Bool.and_eq_true] at h5
    have hl : (2 * ((scaleWeights c (row.pts.map (Node.point (K := K)))).length : Int) - 1) = row.order := by
      rw [hg row hsh]; simp [scaleWeights]
    have hmem : ∀ q ∈ scaleWeights c (row.pts.map (Node.point (K := K))), ∃ q' ∈ row.pts.map (Node.point (K := K)),
        q.position = q'.position ∧ q.weight = c * q'.weight := by
      intro q hq
      simp only [scaleWeights, List.mem_map] at hq
      obtain ⟨q', hq', rfl⟩ := hq
      exact ⟨q', by simpa using hq', rfl, rfl⟩
    refine ⟨by simp only [hl]; omega, ?_, ?_, ?_, ?_, fun h => h.elim⟩
    · simp only [hl, Int.toNat_natCast]
      intro k m hkm
      rw [quadSum_scale]
      have := (row_oned (K := K) hok h61 hpo line False False.elim).1 k m hkm
      have e : c * quadSum (fun x => x 0 ^ k * (1 - x 0) ^ m) (row.pts.map (Node.point (K := K))) -
          1 * bet K k (m + α) = c * (quadSum (fun x => x 0 ^ k * (1 - x 0) ^ m) (row.pts.map (Node.point (K := K))) -
            2 ^ α * bet K k (m + α)) := by
        rw [mul_sub, ← mul_assoc, hc2]
      rw [e, abs_mul, abs_of_pos hc]
      exact (mul_le_of_le_one_left (abs_nonneg _) hc1).trans this
    · intro q hq
      obtain ⟨q', hq', e1, -⟩ := hmem q hq
      rw [e1]; exact in01_sound h5.1.2 q' hq'
    · intro q hq k hk
      obtain ⟨q', hq', e1, -⟩ := hmem q hq
      rw [e1]; exact zero_sound h5.1.2 q' hq' k hk
    · intro q hq
      obtain ⟨q', hq', -, e1⟩ := hmem q hq
      rw [e1]; exact mul_pos hc (posW_sound h5.2 q' hq')
  have hs1 : ∀ l : List (QPoint K), scaleWeights 1 l = l := by intro l; simp [scaleWeights]
  obtain rfl | rfl | rfl : α = 0 ∨ α = 1 ∨ α = 2 := by omega
  · obtain ⟨row, e1, e2, e3⟩ := hr .GaussLegendre _ rfl gauss_cover
    rw [if_pos (by simp), e1]
    refine ⟨_, rfl, rfl, ?_⟩
    have := hsc 1 row one_pos (List.all_eq_true.mp gauss_ok row e2) (by simpa using List.all_eq_true.mp o1 row e2) e3
      (List.all_eq_true.mp gauss_shape row e2) (le_refl _) (by norm_num)
    rw [hs1] at this
    exact this
  · obtain ⟨row, e1, e2, e3⟩ := hr .GaussJacobi_1_0 _ rfl jacobi1_cover
    rw [if_neg (by simp), if_pos (by simp), e1]
    exact ⟨_, rfl, rfl, hsc (1 / 2) row (by norm_num) (List.all_eq_true.mp jacobi1_ok row e2)
      (by simpa using List.all_eq_true.mp o5 row e2) e3
      (List.all_eq_true.mp jacobi1_shape row e2) (by norm_num) (by norm_num)⟩
  · obtain ⟨row, e1, e2, e3⟩ := hr .GaussJacobi_2_0 _ rfl jacobi2_cover
    rw [if_neg (by simp), if_neg (by simp), if_pos (by simp), e1]
    exact ⟨_, rfl, rfl, hsc (1 / 4) row (by norm_num) (List.all_eq_true.mp jacobi2_ok row e2)
      (by simpa using List.all_eq_true.mp o6 row e2) e3
      (List.all_eq_true.mp jacobi2_shape row e2) (by norm_num) (by norm_num)⟩

/-- the eigenvalue solver delivers `degree/2 + 1` nodes in `[0,1]` with positive weights that integrate
`z^k (1-z)^m (1-z)^alpha`, `k + m ≤ 2 (degree/2) + 1`, up to `δ` -/
def LapackOK (env : Env K) (δ : K) : Prop :=
  ∃ f, env.lapack = some f ∧ ∀ degree alpha : Nat, degree ≤ 127 → alpha < 30 →
    (f degree alpha).length = degree / 2 + 1 ∧ Approx1 alpha (2 * (degree / 2) + 1) 1 δ (f degree alpha) ∧
    In01 (f degree alpha) ∧ PosW (f degree alpha) ∧ ∀ q ∈ f degree alpha, ∀ k, 1 ≤ k → q.position k = 0

theorem jacobi_lapack {env : Env K} {δ : K} (hl : LapackOK env δ) (hδ : eps1 K ≤ δ) {p α : Nat} (hp : p ≤ 127)
    (hα : α < 30) : ∃ o, jacobiN env p α = .ok o ∧ o.type = line ∧ Oned α p δ False o := by
  by_cases h : p ≤ 60 ∧ α ≤ 2
  · obtain ⟨o, h1, h2, h3⟩ := jacobi_table env h.1 h.2
    exact ⟨o, h1, h2, h3.le hδ⟩
  · obtain ⟨f, hf, hF⟩ := hl
    obtain ⟨h1, h2, h3, h4, h5⟩ := hF p α hp hα
    have hu : toU32 (p : Int) = p := toU32_ofNat (by omega)
    have : jacobiN env p α = .ok ⟨line, 2 * ((f p α).length : Int) - 1, f p α⟩ := by
      unfold jacobiN decideRule decideRuleExponent useLapackOrError
      have hj : ¬ p > jacobiNMaxOrder := by unfold jacobiNMaxOrder; omega
      rw [hu, hf, if_neg hj]
      by_cases h61 : p < 61
      · rw [if_pos h61, if_neg (by omega), if_neg (by omega), if_neg (by omega)]; rfl
      · rw [if_neg h61]; rfl
    refine ⟨_, this, rfl, ?_⟩
    have e : (2 * ((f p α).length : Int) - 1).toNat = 2 * (p / 2) + 1 := by rw [h1]; omega
    exact ⟨by simp only [h1]; omega, by simp only [e]; exact h2, h3, h5, h4, fun h => h.elim⟩

end Verif.Quad
