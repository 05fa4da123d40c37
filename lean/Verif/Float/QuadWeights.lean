import Verif.Float.QuadInside

/-! Weights of quadrature rules in floating-point arithmetic, the quadrature loop. -/

namespace Verif.FloatQuad

open Verif.Typ hiding Res
open Verif.RefTopo Verif.RefGeom Verif.Float
open Verif.Quad (Res Rule QPoint QType Row Node Lit Env initHelper tableOf maxOrder maxOrder1 lastBlock simplex2Highest simplex3Highest
  prism3Highest simplex2Index simplex3Index baseTypeOf IsPlain)

variable {φ : Format}

/-! ### Positions -/

theorem posRel_block {k : ℕ} {T : Tables (Fl φ)} (hT : Accurate k T) {row : Row} (hrow : row ∈ rows23) {t : Topo} (ht : 1 ≤ t.dim)
    (h1 : Quad.InDom t (row.pts.map (Node.point (K := ℝ)))) (h2 : ∀ q ∈ row.pts.map (Node.point (K := ℝ)), ∀ i, t.dim ≤ i → q.position i = 0) :
    ∃ L, L.map Prod.fst = (exactTables ℝ).block row ∧ L.map Prod.snd = T.block row ∧ PosRel φ k t L := by
  obtain ⟨L, e1, e2, e3⟩ := blocks_forall hT hrow
  have hη := φ.η_nonneg
  refine ⟨L, e1, e2, fun q hq => ?_⟩
  obtain ⟨g1, -, g3⟩ := e3 q hq
  have hb : ∀ (t : Topo) (f : ℝ), f ≤ 1 → Dom t f q.1.position → ∀ i, i < t.dim → q.1.position i ≤ 1 := by
    intro t
    induction t with
    | pt => intro f _ _ i hi; exact absurd hi (Nat.not_lt_zero i)
    | prism t ih =>
      intro f hf h i hi
      by_cases e : i = t.dim
      · subst e; linarith [h.2.1]
      · exact ih f hf h.2.2 i (by simp only [Topo.dim] at hi; omega)
    | pyr t ih =>
      intro f hf h i hi
      by_cases e : i = t.dim
      · subst e; linarith [h.2.1]
      · exact ih _ (by linarith [h.1]) h.2.2 i (by simp only [Topo.dim] at hi; omega)
  refine ⟨fun i => ?_, fun i hi => ?_⟩
  · refine ((g1 i).near.mono_m ?_).mono (by nlinarith) (by positivity)
    by_cases hi : i < t.dim
    · rw [abs_of_nonneg (dom_nonneg t 1 (h1 _ g3) i hi)]
      exact hb t 1 (le_refl _) (h1 _ g3) i hi
    · rw [h2 _ g3 i (by omega)]; simp
  · have e := h2 _ g3 i hi
    have g := g1 i
    rw [e] at g
    exact ⟨e, Fl.ext g.zero⟩

/-- every rule in floating-point arithmetic: errors of the positions -/
theorem rule_posRel {k : ℕ} {T : Tables (Fl φ)} (hT : Accurate k T) (jac : Int → Int → Res (Rule ℝ)) (jac' : Int → Int → Res (Rule (Fl φ)))
    {qt : QType} (hq : qt ≠ .GaussJacobi_n_0) (d id : Nat) (hd : d ≤ 30) (hid : id < 2 ^ d) (p : Int) :
    RelRes (PosRel φ k (topoOf d id)) (rule (exactTables ℝ) jac d ⟨d, false, id⟩ p qt) (rule T jac' d ⟨d, false, id⟩ p qt) := by
  obtain ⟨tab, h, ht⟩ : ∃ tab h, tableOf qt = some (tab, h) := by
    cases qt <;> first | exact ⟨_, _, rfl⟩ | exact absurd rfl hq
  have hη := φ.η_nonneg
  obtain ⟨s2, s3, p3⟩ := blocks_dom
  have m2 : ∀ row ∈ Quad.Simplex2.blocks, row ∈ rows23 := fun row h => by simp [rows23, h]
  have m3 : ∀ row ∈ Quad.Simplex3.blocks, row ∈ rows23 := fun row h => by simp [rows23, h]
  have hpt : PosRel φ k .pt [(⟨fun _ => 0, 1⟩, ⟨fun _ => 0, 1⟩)] := by
    intro q hq
    rw [List.mem_singleton] at hq
    subst hq
    exact ⟨fun i => near_zero _ (by positivity), fun i _ => ⟨rfl, rfl⟩⟩
  have hrow1 : ∀ row ∈ tab, PosRel φ k (.prism .pt) (pairs (exactTables ℝ) T row) := by
    intro row hrow q hq
    simp only [pairs, List.mem_map] at hq
    obtain ⟨n, hn, rfl⟩ := hq
    obtain ⟨h1, h2, h3, h4⟩ := node_pos hT (tab_sub ht row hrow) hn
    refine ⟨fun i => ?_, fun i hi => h4 i hi⟩
    by_cases hi : i = 0
    · subst hi
      exact (near_one h1 h3.1 h3.2).mono (by simp [Topo.dim]) (by positivity)
    · rw [(h4 i (by omega)).1, (h4 i (by omega)).2]
      exact near_zero _ (by positivity)
  refine rule_rel (exactTables ℝ) T jac jac' hq ht (PosRel φ k) hpt hrow1
    (fun t B _ hB row hrow => posRel_tensor hT hB (tab_sub ht row hrow)) (fun t B _ hB row hrow => posRel_conical hT hB (tab_sub ht row hrow))
    (fun _ row hrow => posRel_block hT (m2 row hrow) (by simp [Topo.dim]) (s2 row hrow).1 (s2 row hrow).2)
    (fun _ row hrow => posRel_block hT (m3 row hrow) (by simp [Topo.dim]) (s3 row hrow).1 (s3 row hrow).2)
    (fun _ row hrow hl => ?_) d id hd hid p
  rw [lastBlock_prism] at hl
  cases hl
  exact posRel_block hT (by simp [rows23]) (by simp [Topo.dim]) p3.1 p3.2

/-! ### Weights -/

/-- one weight, its exact value and its magnitude: the product of the absolute values of the tabulated weights -/
def WNear (φ : Format) (k d : ℕ) (q : QPoint ℝ × QPoint (Fl φ)) (m : ℝ) : Prop :=
  Near φ ((k + 2) * d ^ 2) (d ^ 2 * φ.η) q.2.weight.val q.1.weight m

/-- the weights of the two rules; the sum of the magnitudes -/
def WRel (φ : Format) (k : ℕ) (t : Topo) (L : List (QPoint ℝ × QPoint (Fl φ))) : Prop :=
  ∃ M : List ℝ, List.Forall₂ (WNear φ k t.dim) L M ∧ M.sum ≤ 17 / 16 * (1 + Quad.eps1 ℝ) ^ t.dim

theorem forall₂_pairs {α β γ : Type} {R : α → ℝ → Prop} {R' : β → ℝ → Prop} {Q : γ → ℝ → Prop} (f : α → β → γ)
    (hf : ∀ a m b n, R a m → R' b n → Q (f a b) (m * n)) {O : List β} {N : List ℝ} (hO : List.Forall₂ R' O N) :
    ∀ {B : List α} {M : List ℝ}, List.Forall₂ R B M →
      List.Forall₂ Q (B.flatMap fun b => O.map (f b)) (M.flatMap fun m => N.map (m * ·)) := by
  intro B M h
  induction h with
  | nil => exact .nil
  | @cons a m B M h _ ih =>
    rw [List.flatMap_cons, List.flatMap_cons]
    refine List.rel_append ?_ ih
    clear ih
    induction hO with
    | nil => exact .nil
    | @cons b n O N h' _ ih' => exact .cons (hf _ _ _ _ h h') ih'

theorem sum_pairs (N : List ℝ) : ∀ M : List ℝ, (M.flatMap fun m => N.map (m * ·)).sum = M.sum * N.sum
  | [] => by simp
  | m :: M => by
    rw [List.flatMap_cons, List.sum_append, sum_pairs N M, List.sum_map_mul_left, List.sum_cons, add_mul]
    simp

theorem forall₂_nonneg {R : QPoint ℝ × QPoint (Fl φ) → ℝ → Prop} (hR : ∀ q m, R q m → 0 ≤ m) {L : List (QPoint ℝ × QPoint (Fl φ))} {M : List ℝ}
    (h : List.Forall₂ R L M) : 0 ≤ M.sum := by
  induction h with
  | nil => simp
  | cons h _ ih => rw [List.sum_cons]; linarith [hR _ _ h]

/-- the table of a quadrature type with constant weight function -/
theorem plain_sub {qt : QType} (hq : IsPlain qt) {tab : List Row} {h : Nat} (ht : tableOf qt = some (tab, h)) :
    ∀ row ∈ tab, row ∈ rows1 ∧ (∀ n ∈ row.pts, (n.w.val : ℝ) ≤ 1) ∧ (row.pts.map fun n => (n.w.val : ℝ)).sum ≤ 1 + Quad.eps1 ℝ := by
  intro row hrow
  have h1 := tab_sub ht row hrow
  have key : (Quad.Row.ok1 0 row = true) ∧ weight1 row = true ∧ row.order ≤ 61 := by
    have ho := Quad.order_le_61
    have hw := plain_weight1
    simp only [List.all_append, Bool.and_eq_true] at ho hw
    obtain ⟨⟨⟨⟨⟨o1, o2⟩, o3⟩, o4⟩, -⟩, -⟩ := ho
    obtain ⟨⟨⟨w1, w2⟩, w3⟩, w4⟩ := hw
    rcases hq with rfl | rfl | rfl | rfl <;> simp only [tableOf, Option.some.injEq, Prod.mk.injEq] at ht <;> obtain ⟨rfl, rfl⟩ := ht
    · exact ⟨List.all_eq_true.mp Quad.gauss_ok row hrow, List.all_eq_true.mp w1 row hrow, by simpa using List.all_eq_true.mp o1 row hrow⟩
    · exact ⟨List.all_eq_true.mp Quad.lobatto_ok row hrow, List.all_eq_true.mp w2 row hrow, by simpa using List.all_eq_true.mp o2 row hrow⟩
    · exact ⟨List.all_eq_true.mp Quad.radauLeft_ok row hrow, List.all_eq_true.mp w3 row hrow, by simpa using List.all_eq_true.mp o3 row hrow⟩
    · exact ⟨List.all_eq_true.mp Quad.radauRight_ok row hrow, List.all_eq_true.mp w4 row hrow, by simpa using List.all_eq_true.mp o4 row hrow⟩
  obtain ⟨k1, k2, k3⟩ := key
  refine ⟨h1, fun n hn => ?_, ?_⟩
  · have h2 := List.all_eq_true.mp k2 n hn
    simp only [decide_eq_true_eq] at h2
    obtain ⟨l, -, -, -, h3, -, -⟩ := shape1_spec h1 hn
    have hd : (0:ℝ) < n.w.den := by
      rcases Nat.eq_zero_or_pos n.w.den with e | e
      · rw [Lit.val, e] at h3; simp at h3
      · exact_mod_cast e
    rw [Lit.val, div_le_one hd]
    exact_mod_cast h2
  · have h2 := Quad.ok1_approx (K := ℝ) k1 (p := row.order) (le_refl _) k3 0 0 (Nat.zero_le _)
    rw [abs_le] at h2
    have e : Quad.quadSum (fun x => x 0 ^ 0 * (1 - x 0) ^ 0) (row.pts.map (Node.point (K := ℝ))) = (row.pts.map fun n => (n.w.val : ℝ)).sum := by
      simp [Quad.quadSum, List.map_map, Function.comp_def, Node.point]
    rw [e] at h2
    have e2 : (2:ℝ) ^ 0 * Quad.bet ℝ 0 (0 + 0) = 1 := by simp [Quad.bet]
    rw [e2] at h2
    linarith [h2.2]

theorem near_row {k : ℕ} {T : Tables (Fl φ)} (hT : Accurate k T) {row : Row} (hrow : row ∈ rows1) (hw : ∀ n ∈ row.pts, (n.w.val : ℝ) ≤ 1) :
    List.Forall₂ (fun (o : QPoint ℝ × QPoint (Fl φ)) m => Near φ k 0 o.2.weight.val o.1.weight m ∧ m ≤ 1 ∧
        Near φ (k + 1) 0 (1 - o.2.position 0).val (1 - o.1.position 0) 1)
      (pairs (exactTables ℝ) T row) (row.pts.map fun n => (n.w.val : ℝ)) := by
  have : ∀ ns : List Node, (∀ n ∈ ns, n ∈ row.pts) →
      List.Forall₂ (fun (o : QPoint ℝ × QPoint (Fl φ)) m => Near φ k 0 o.2.weight.val o.1.weight m ∧ m ≤ 1 ∧
        Near φ (k + 1) 0 (1 - o.2.position 0).val (1 - o.1.position 0) 1)
      (ns.map fun n => (nodePoint (exactTables ℝ) n, nodePoint T n)) (ns.map fun n => (n.w.val : ℝ)) := by
    intro ns
    induction ns with
    | nil => intro _; exact .nil
    | cons n ns ih =>
      intro hns
      have hn := hns n (by simp)
      refine .cons ⟨?_, hw n hn, ?_⟩ (ih fun m hm => hns m (by simp [hm]))
      · have h := (hT.weight row hrow n hn).near
        obtain ⟨l, -, -, -, h3, -, -⟩ := shape1_spec hrow hn
        rw [abs_of_pos h3] at h
        exact h
      · obtain ⟨h1, h2, h3, -⟩ := node_pos hT hrow hn
        exact scale_near h1 h2.1 h2.2 h3.1 h3.2
  exact this row.pts fun n hn => hn

/-- the product of a base rule with a row -/
theorem wRel_product {k : ℕ} {T : Tables (Fl φ)} (hT : Accurate k T) {t t' : Topo} (hdim : t'.dim = t.dim + 1) {B : List (QPoint ℝ × QPoint (Fl φ))}
    (hB : WRel φ k t B) {row : Row} (hrow : row ∈ rows1) (hw : ∀ n ∈ row.pts, (n.w.val : ℝ) ≤ 1)
    (hs : (row.pts.map fun n => (n.w.val : ℝ)).sum ≤ 1 + Quad.eps1 ℝ)
    (f : QPoint ℝ → QPoint ℝ → QPoint ℝ) (f' : QPoint (Fl φ) → QPoint (Fl φ) → QPoint (Fl φ))
    (hf : ∀ (b o : QPoint ℝ × QPoint (Fl φ)) m n, WNear φ k t.dim b m → Near φ k 0 o.2.weight.val o.1.weight n → n ≤ 1 →
      Near φ (k + 1) 0 (1 - o.2.position 0).val (1 - o.1.position 0) 1 → WNear φ k (t.dim + 1) (f b.1 o.1, f' b.2 o.2) (m * n)) :
    WRel φ k t' (pairs2 f f' B (pairs (exactTables ℝ) T row)) := by
  obtain ⟨M, hM, hMs⟩ := hB
  refine ⟨_, forall₂_pairs (fun b o => (f b.1 o.1, f' b.2 o.2)) (fun b m o n h1 h2 => ?_) (near_row hT hrow hw) hM, ?_⟩
  · rw [hdim]; exact hf b o m n h1 h2.1 h2.2.1 h2.2.2
  · rw [sum_pairs, hdim, pow_succ, ← mul_assoc]
    have h0 : 0 ≤ M.sum := forall₂_nonneg (fun q m h => h.m_nonneg) hM
    have h1 : 0 ≤ (row.pts.map fun n => (n.w.val : ℝ)).sum := List.sum_nonneg fun x hx => by
      obtain ⟨n, hn, rfl⟩ := List.mem_map.1 hx
      obtain ⟨l, -, -, -, h3, -, -⟩ := shape1_spec hrow hn
      exact h3.le
    exact mul_le_mul hMs hs h1 (h0.trans hMs)

theorem wNear_mul {k d : ℕ} {b o : QPoint ℝ × QPoint (Fl φ)} {m n : ℝ} (hb : WNear φ k d b m) (ho : Near φ k 0 o.2.weight.val o.1.weight n)
    (hn : n ≤ 1) : Near φ ((k + 2) * d ^ 2 + k + 1) (d ^ 2 * φ.η + φ.η) (b.2.weight * o.2.weight).val (b.1.weight * o.1.weight) (m * n) := by
  have hη := φ.η_nonneg
  refine (hb.mul ho).mono (le_refl _) ?_
  have : (d:ℝ) ^ 2 * φ.η * n ≤ d ^ 2 * φ.η := mul_le_of_le_one_right (by positivity) hn
  linarith

theorem wNear_tensor {k d : ℕ} {b o : QPoint ℝ × QPoint (Fl φ)} {m n : ℝ} (hb : WNear φ k d b m) (ho : Near φ k 0 o.2.weight.val o.1.weight n)
    (hn : n ≤ 1) : WNear φ k (d + 1) (tensorPoint (d + 1) b.1 o.1, tensorPoint (d + 1) b.2 o.2) (m * n) := by
  have hη := φ.η_nonneg
  refine (wNear_mul hb ho hn).mono ?_ ?_
  · nlinarith [Nat.zero_le (k * d), Nat.zero_le d, Nat.zero_le k]
  · push_cast; nlinarith [(Nat.cast_nonneg d : (0:ℝ) ≤ d)]

theorem wNear_conical {k d : ℕ} {b o : QPoint ℝ × QPoint (Fl φ)} {m n : ℝ} (hb : WNear φ k d b m) (ho : Near φ k 0 o.2.weight.val o.1.weight n)
    (hn : n ≤ 1) (hs : Near φ (k + 1) 0 (1 - o.2.position 0).val (1 - o.1.position 0) 1) :
    WNear φ k (d + 1) (conicalPoint (d + 1) false b.1 o.1, conicalPoint (d + 1) false b.2 o.2) (m * n) := by
  have hη := φ.η_nonneg
  have h := mulPow_near (wNear_mul hb ho hn) hs d
  unfold WNear
  simp only [conicalPoint, Bool.false_eq_true, if_false, Nat.add_sub_cancel]
  refine h.mono ?_ ?_
  · nlinarith [Nat.zero_le (k * d), Nat.zero_le d, Nat.zero_le k]
  · push_cast; nlinarith [(Nat.cast_nonneg d : (0:ℝ) ≤ d)]

/-- sum of the absolute values of the weights -/
def absSum (r : Row) : ℚ := (r.pts.map fun n => |(n.w.num : ℚ) / n.w.den|).sum

theorem rows23_absSum : (rows23.all fun r => decide (absSum r ≤ 17 / 16)) = true := by decide +kernel

theorem eps1_nonneg : (0:ℝ) ≤ Quad.eps1 ℝ := Quad.eps1_bounds.1

theorem wRel_block {k : ℕ} {T : Tables (Fl φ)} (hT : Accurate k T) {row : Row} (hrow : row ∈ rows23) {t : Topo} (ht : 1 ≤ t.dim) :
    ∃ L, L.map Prod.fst = (exactTables ℝ).block row ∧ L.map Prod.snd = T.block row ∧ WRel φ k t L := by
  obtain ⟨L, e1, e2, e3⟩ := blocks_forall hT hrow
  have hη := φ.η_nonneg
  refine ⟨L, e1, e2, L.map fun q => |q.1.weight|, ?_, ?_⟩
  · have key : ∀ L : List (QPoint ℝ × QPoint (Fl φ)), (∀ q ∈ L, Close φ k q.2.weight.val q.1.weight) →
        List.Forall₂ (WNear φ k t.dim) L (L.map fun q => |q.1.weight|) := by
      intro L
      induction L with
      | nil => intro _; exact .nil
      | cons q L ih =>
        intro h
        refine .cons ?_ (ih fun q hq => h q (by simp [hq]))
        have h2 : 1 ≤ t.dim ^ 2 := Nat.one_le_pow _ _ ht
        exact (h q (by simp)).near.mono (by nlinarith) (by positivity)
    exact key L fun q hq => (e3 q hq).2.1
  · have h1 : (L.map fun q => |q.1.weight|) = row.pts.map fun n => |(n.w.val : ℝ)| := by
      have : (L.map fun q => |q.1.weight|) = (L.map Prod.fst).map fun q => |q.weight| := by rw [List.map_map]; rfl
      rw [this, e1]
      simp [exactTables, List.map_map, Function.comp_def, Node.point]
    have h2 := List.all_eq_true.mp rows23_absSum row hrow
    simp only [decide_eq_true_eq] at h2
    have h3 : ((absSum row : ℚ) : ℝ) = (row.pts.map fun n => |(n.w.val : ℝ)|).sum := by
      unfold absSum
      induction row.pts with
      | nil => simp
      | cons n ns ih => simp only [List.map_cons, List.sum_cons, Rat.cast_add, ih, Rat.cast_abs, Rat.cast_div, Rat.cast_intCast, Rat.cast_natCast, Lit.val]
    rw [h1, ← h3]
    have h4 : ((absSum row : ℚ) : ℝ) ≤ 17 / 16 := by
      have : ((absSum row : ℚ) : ℝ) ≤ ((17 / 16 : ℚ) : ℝ) := by exact_mod_cast h2
      refine this.trans ?_
      norm_num
    have h5 : (1:ℝ) ≤ (1 + Quad.eps1 ℝ) ^ t.dim := one_le_pow₀ (by linarith [eps1_nonneg])
    nlinarith

/-- every rule in floating-point arithmetic: errors of the weights -/
theorem rule_wRel {k : ℕ} {T : Tables (Fl φ)} (hT : Accurate k T) (jac : Int → Int → Res (Rule ℝ)) (jac' : Int → Int → Res (Rule (Fl φ)))
    {qt : QType} (hq : IsPlain qt) (d id : Nat) (hd : d ≤ 30) (hid : id < 2 ^ d) (p : Int) :
    RelRes (WRel φ k (topoOf d id)) (rule (exactTables ℝ) jac d ⟨d, false, id⟩ p qt) (rule T jac' d ⟨d, false, id⟩ p qt) := by
  obtain ⟨tab, h, ht⟩ : ∃ tab h, tableOf qt = some (tab, h) := by
    rcases hq with rfl | rfl | rfl | rfl <;> exact ⟨_, _, rfl⟩
  have hn : qt ≠ .GaussJacobi_n_0 := by rintro rfl; simp [tableOf] at ht
  have hη := φ.η_nonneg
  have m2 : ∀ row ∈ Quad.Simplex2.blocks, row ∈ rows23 := fun row h => by simp [rows23, h]
  have m3 : ∀ row ∈ Quad.Simplex3.blocks, row ∈ rows23 := fun row h => by simp [rows23, h]
  have hpt : WRel φ k .pt [(⟨fun _ => 0, 1⟩, ⟨fun _ => 0, 1⟩)] := by
    refine ⟨[1], .cons ?_ .nil, by norm_num [Topo.dim]⟩
    have := (Near.exact (φ := φ) 1).mono (Nat.zero_le ((k + 2) * 0 ^ 2)) (show (0:ℝ) ≤ ((0:ℕ):ℝ) ^ 2 * φ.η by positivity)
    rw [abs_one] at this
    exact this
  have hrow1 : ∀ row ∈ tab, WRel φ k (.prism .pt) (pairs (exactTables ℝ) T row) := by
    intro row hrow
    obtain ⟨g1, g2, g3⟩ := plain_sub hq ht row hrow
    refine ⟨_, (near_row hT g1 g2).imp fun q m h => h.1.mono (by simp [Topo.dim]) (by positivity), g3.trans ?_⟩
    have := eps1_nonneg
    simp only [Topo.dim, zero_add, pow_one]
    linarith
  refine rule_rel (exactTables ℝ) T jac jac' hn ht (WRel φ k) hpt hrow1 (fun t B _ hB row hrow => ?_) (fun t B _ hB row hrow => ?_)
    (fun _ row hrow => wRel_block hT (m2 row hrow) (by simp [Topo.dim])) (fun _ row hrow => wRel_block hT (m3 row hrow) (by simp [Topo.dim]))
    (fun _ row hrow hl => ?_) d id hd hid p
  · obtain ⟨g1, g2, g3⟩ := plain_sub hq ht row hrow
    exact wRel_product hT rfl hB g1 g2 g3 _ _ fun b o m n h1 h2 h3 _ => wNear_tensor h1 h2 h3
  · obtain ⟨g1, g2, g3⟩ := plain_sub hq ht row hrow
    exact wRel_product hT rfl hB g1 g2 g3 _ _ fun b o m n h1 h2 h3 h4 => wNear_conical h1 h2 h3 h4
  · rw [lastBlock_prism] at hl
    cases hl
    exact wRel_block hT (by simp [rows23]) (by simp [Topo.dim])

theorem sum_bound {d : ℕ} (hd : d ≤ 30) : 17 / 16 * (1 + Quad.eps1 ℝ) ^ d ≤ 11 / 10 := by
  have h0 := eps1_nonneg
  have h1 : Quad.eps1 ℝ ≤ 1 / 10000 := by unfold Quad.eps1; norm_num
  have : (1 + Quad.eps1 ℝ) ^ d ≤ (1 + 1 / 10000) ^ 30 :=
    (pow_le_pow_left₀ (by linarith) (by linarith) d).trans (pow_le_pow_right₀ (by norm_num) hd)
  have h2 : ((1:ℝ) + 1 / 10000) ^ 30 ≤ 17 / 16 * (16 / 17) ^ 2 * (11 / 10) := by norm_num
  linarith

/-! ### The quadrature loop -/

/-- `for (auto&& qp : rule) result += qp.weight() * f(qp.position());`, test-quadrature.cc:105-113 -/
noncomputable def quadLoop (f : Vec (Fl φ) → Fl φ) (l : List (QPoint (Fl φ))) : Fl φ :=
  l.foldl (fun s q => s + q.weight * f q.position) 0

/-- `for (; qp!=qend; ++qp) volume += qp->weight();`, test-quadrature.cc:155-162 -/
noncomputable def weightLoop (l : List (QPoint (Fl φ))) : Fl φ := l.foldl (fun v q => v + q.weight) 0

theorem loop_near {K : ℕ} {sw ε F : ℝ} (hF : 0 ≤ F) (hε : 0 ≤ ε) (fh : Vec (Fl φ) → Fl φ) (f : Vec ℝ → ℝ) :
    ∀ (L : List (QPoint ℝ × QPoint (Fl φ))) (M : List ℝ) (a : ℕ) (S : Fl φ) (b σ μ : ℝ),
      List.Forall₂ (fun q m => Near φ K sw q.2.weight.val q.1.weight m) L M →
      (∀ q ∈ L, |f q.1.position| ≤ F ∧ |(fh q.2.position).val - f q.1.position| ≤ ε) →
      Near φ (K + 1 + a) σ S.val b μ →
      Near φ (K + 1 + a + L.length) (σ + L.length * (sw * (F + ε) + φ.η) + ε * M.sum)
        ((L.map Prod.snd).foldl (fun s q => s + q.weight * fh q.position) S).val
        (b + Quad.quadSum f (L.map Prod.fst)) (μ + M.sum * F)
  | [], _, a, S, b, σ, μ, h, _, hS => by
    cases h
    simpa [Quad.quadSum] using hS
  | q :: L, _, a, S, b, σ, μ, h, hf, hS => by
    cases h with
    | @cons _ m _ M h hL =>
    obtain ⟨f1, f2⟩ := hf q (by simp)
    have nf : Near φ 0 ε (fh q.2.position).val (f q.1.position) F := ⟨f1, hε, by rw [pow_zero]; linarith⟩
    have hη := φ.η_nonneg
    have t1 := (h.mul nf).mono (show K + 0 + 1 ≤ K + 1 + a by omega) (le_refl _)
    have t2 := hS.add t1
    have t3 := loop_near hF hε fh f L M (a + 1) _ _ _ _ hL (fun q hq => hf q (by simp [hq])) (by rw [← add_assoc]; exact t2)
    simp only [List.map_cons, List.foldl_cons, List.length_cons, List.sum_cons, Quad.quadSum] at t3 ⊢
    have e1 : K + 1 + (a + 1) + L.length = K + 1 + a + (L.length + 1) := by ring
    rw [e1, add_assoc b] at t3
    have e2 : μ + m * F + M.sum * F = μ + (m + M.sum) * F := by ring
    rw [e2] at t3
    refine t3.mono (le_refl _) (le_of_eq ?_)
    push_cast
    ring

/-- the sum of the errors of the weights -/
theorem weights_near {K : ℕ} {sw : ℝ} : ∀ (L : List (QPoint ℝ × QPoint (Fl φ))) (M : List ℝ),
      List.Forall₂ (fun q m => Near φ K sw q.2.weight.val q.1.weight m) L M →
      (L.map fun q => |q.2.weight.val - q.1.weight|).sum ≤ ((1 + φ.u) ^ K - 1) * M.sum + (1 + φ.u) ^ K * (L.length * sw)
  | [], _, h => by cases h; simp
  | q :: L, _, h => by
    cases h with
    | @cons _ m _ M h hL =>
    have ih := weights_near L M hL
    have := h.bound
    simp only [List.map_cons, List.sum_cons, List.length_cons]
    push_cast
    linarith

theorem pairs_unique {α β : Type} : ∀ {L L' : List (α × β)}, L.map Prod.fst = L'.map Prod.fst → L.map Prod.snd = L'.map Prod.snd → L = L'
  | [], [], _, _ => rfl
  | [], _ :: _, h, _ => by simp at h
  | _ :: _, [], h, _ => by simp at h
  | a :: L, b :: L', h, h' => by
    simp only [List.map_cons, List.cons.injEq] at h h'
    rw [pairs_unique h.2 h'.2, Prod.ext h.1 h'.1]

end Verif.FloatQuad
