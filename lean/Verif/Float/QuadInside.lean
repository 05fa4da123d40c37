import Verif.Float.QuadError
import Verif.Float.InsideProps

/-! Quadrature points in floating-point arithmetic and `checkInside`. -/

namespace Verif.FloatQuad

open Verif.Typ hiding Res
open Verif.RefTopo Verif.RefGeom Verif.Float
open Verif.Quad (Res Rule QPoint QType Row Node Lit Env initHelper tableOf maxOrder maxOrder1 lastBlock simplex2Highest simplex3Highest
  prism3Highest simplex2Index simplex3Index baseTypeOf)

variable {φ : Format}

/-! ### Points with small relative errors are accepted -/

/-- one step: the error of `factor - x` -/
theorem sub_step_rel (fh xh : Fl φ) {f x e r δ : ℝ} (hf : |fh.val - f| ≤ e) (hx : |xh.val - x| ≤ r * x + δ) (hr : 0 ≤ r) (hδ : 0 ≤ δ)
    (x0 : 0 ≤ x) (h0 : x ≤ f) (h1 : f ≤ 1) :
    |(fh - xh).val - (f - x)| ≤ (1 + φ.u) * (1 + e + r * f + δ) - 1 - r * (f - x) := by
  have h := Fl.sub_err fh xh
  have hu := φ.u_nonneg
  rw [abs_le] at hf hx
  have hrx : r * x ≤ r * f := mul_le_mul_of_nonneg_left h0 hr
  have hb : |fh.val - xh.val| ≤ 1 + e + r * f + δ := by rw [abs_le]; constructor <;> linarith
  have := mul_le_mul_of_nonneg_left hb hu
  have h := h.trans this
  rw [abs_le] at h ⊢
  constructor <;> linarith

/-- a point whose coordinates have the relative error `r` and the absolute error `δ` is accepted -/
theorem accept_rel {tol : Fl φ} {r δ : ℝ} (hr : 0 ≤ r) (hδ : 0 ≤ δ) {x : Nat → Fl φ} {y : Vec ℝ} : ∀ (t : Topo) (fh : Fl φ) (f e : ℝ),
    f ≤ 1 → 0 ≤ f → 0 ≤ e → |fh.val - f| ≤ e → Dom t f y → (∀ k, k < t.dim → |(x k).val - y k| ≤ r * y k + δ) →
    (1 + φ.u) ^ t.dim * (1 + e + r * f + t.dim * δ) - 1 < tol.val → FInside tol t fh x := by
  have hu := φ.u_nonneg
  have h1u : 1 ≤ 1 + φ.u := by linarith
  have common : ∀ (n : ℕ) (e f g : ℝ), 0 ≤ e → 0 ≤ f → 0 ≤ g → g ≤ f →
      (1 + φ.u) ^ n * (1 + ((1 + φ.u) * (1 + e + r * f + δ) - 1 - r * g) + r * g + n * δ) ≤
        (1 + φ.u) ^ (n + 1) * (1 + e + r * f + (n + 1 : ℕ) * δ) := by
    intro n e f g he hf hg hgf
    rw [pow_succ, mul_assoc]
    refine mul_le_mul_of_nonneg_left ?_ (by positivity)
    push_cast
    have : 0 ≤ φ.u * (n * δ) := by positivity
    nlinarith
  have low : ∀ (n : ℕ) (E : ℝ), 0 ≤ E → E ≤ (1 + φ.u) ^ n * (1 + E + n * δ) - 1 := by
    intro n E hE
    have h1 : 1 ≤ (1 + φ.u) ^ n := one_le_pow₀ h1u
    have : 0 ≤ (n:ℝ) * δ := by positivity
    nlinarith
  have step : ∀ (t : Topo) (fh : Fl φ) (f e : ℝ), f ≤ 1 → 0 ≤ f → 0 ≤ e → |fh.val - f| ≤ e → 0 ≤ y t.dim → y t.dim ≤ f →
      |(x t.dim).val - y t.dim| ≤ r * y t.dim + δ → (1 + φ.u) ^ (t.dim + 1) * (1 + e + r * f + (t.dim + 1 : ℕ) * δ) - 1 < tol.val →
      -tol < x t.dim ∧ -tol < fh - x t.dim := by
    intro t fh f e hf hf0 he hfe h0 h1 hx ht
    have hs := sub_step_rel fh (x t.dim) hfe hx hr hδ h0 h1 hf
    have hrf : r * y t.dim ≤ r * f := mul_le_mul_of_nonneg_left h1 hr
    have hry : 0 ≤ r * y t.dim := mul_nonneg hr h0
    have hE : 0 ≤ (1 + φ.u) * (1 + e + r * f + δ) - 1 := by nlinarith [mul_nonneg hr hf0]
    have h2 := low t.dim _ hE
    have h3 := common t.dim e f 0 he hf0 (le_refl _) hf0
    rw [mul_zero, sub_zero, add_zero] at h3
    have h4 : r * f + δ ≤ (1 + φ.u) * (1 + e + r * f + δ) - 1 := by nlinarith [mul_nonneg hr hf0]
    have h5 : 0 ≤ r * (f - y t.dim) := mul_nonneg hr (by linarith)
    rw [abs_le] at hs hx
    rw [Fl.lt_iff, Fl.lt_iff, Fl.neg_val]
    constructor <;> linarith
  intro t
  induction t with
  | pt => intros; trivial
  | prism t ih =>
    intro fh f e hf hf0 he hfe hd hx ht
    obtain ⟨h0, h1, hd⟩ := hd
    simp only [Topo.dim] at hx ht
    obtain ⟨h2, h3⟩ := step t fh f e hf hf0 he hfe h0 h1 (hx _ (by omega)) ht
    refine ⟨h2, h3, ih fh f e hf hf0 he hfe hd (fun k hk => hx k (by omega)) ?_⟩
    have h4 := common t.dim e f 0 he hf0 (le_refl _) hf0
    rw [mul_zero, sub_zero, add_zero] at h4
    have h5 : (1 + φ.u) ^ t.dim * (1 + e + r * f + t.dim * δ) ≤
        (1 + φ.u) ^ t.dim * (1 + ((1 + φ.u) * (1 + e + r * f + δ) - 1) + t.dim * δ) :=
      mul_le_mul_of_nonneg_left (by nlinarith [mul_nonneg hr hf0]) (by positivity)
    linarith
  | pyr t ih =>
    intro fh f e hf hf0 he hfe hd hx ht
    obtain ⟨h0, h1, hd⟩ := hd
    simp only [Topo.dim] at hx ht
    obtain ⟨h2, h3⟩ := step t fh f e hf hf0 he hfe h0 h1 (hx _ (by omega)) ht
    have h4 := common t.dim e f (f - y t.dim) he hf0 (by linarith) (by linarith)
    have h5 := sub_step_rel fh (x t.dim) hfe (hx _ (by omega)) hr hδ h0 h1 hf
    exact ⟨h2, h3, ih _ _ _ (by linarith) (by linarith) ((abs_nonneg _).trans h5) h5 hd (fun k hk => hx k (by omega)) (by linarith)⟩

/-! ### The points of the rules -/

/-- exact arithmetic with the nodes of the number type -/
noncomputable def nodeTables (T : Tables (Fl φ)) : Tables ℝ := ⟨fun l => (T.lit l).val, fun r => r.pts.map Node.point⟩

/-- a point of the element and a computed point next to it, with small relative errors -/
def InRel (φ : Format) (k : ℕ) (t : Topo) (L : List (QPoint ℝ × QPoint (Fl φ))) : Prop :=
  ∀ q ∈ L, Dom t 1 q.1.position ∧ ∀ i, 0 ≤ q.1.position i ∧
    Near φ (k + 2 * t.dim) (t.dim * φ.η) (q.2.position i).val (q.1.position i) (q.1.position i)

theorem near_same (a : Fl φ) (h : 0 ≤ a.val) {k : ℕ} {s : ℝ} (hs : 0 ≤ s) : Near φ k s a.val a.val a.val := by
  have := (Near.exact (φ := φ) a.val).mono (Nat.zero_le k) hs
  rwa [abs_of_nonneg h] at this

theorem node_pos' {k : ℕ} {T : Tables (Fl φ)} (hT : Accurate k T) {row : Row} (h : row ∈ rows1) {n : Node} (hn : n ∈ row.pts) :
    (nodePoint (nodeTables T) n).position 0 = ((nodePoint T n).position 0).val ∧
    0 ≤ ((nodePoint T n).position 0).val ∧ ((nodePoint T n).position 0).val ≤ 1 := by
  refine ⟨?_, (node_pos hT h hn).2.1⟩
  obtain ⟨l, hl, -⟩ := shape1_spec h hn
  obtain ⟨xs, w⟩ := n
  simp only at hl
  subst hl
  rfl

theorem inRel_row {k : ℕ} {T : Tables (Fl φ)} (hT : Accurate k T) {row : Row} (hrow : row ∈ rows1) :
    InRel φ k (.prism .pt) (pairs (nodeTables T) T row) := by
  intro q hq
  simp only [pairs, List.mem_map] at hq
  obtain ⟨n, hn, rfl⟩ := hq
  obtain ⟨e, h0, h1⟩ := node_pos' hT hrow hn
  have e' : ∀ i, (nodePoint (nodeTables T) n).position i = ((nodePoint T n).position i).val := by
    intro i
    simp only [nodePoint, nodeTables]
    split <;> rfl
  have h0' : ∀ i, 0 ≤ ((nodePoint T n).position i).val := by
    intro i
    by_cases hi : i = 0
    · subst hi; exact h0
    · rw [((node_pos hT hrow hn).2.2.2 i (by omega)).2]; exact le_refl _
  have hη := φ.η_nonneg
  refine ⟨⟨?_, ?_, trivial⟩, fun i => ?_⟩
  · change 0 ≤ (nodePoint (nodeTables T) n).position 0; rw [e]; exact h0
  · change (nodePoint (nodeTables T) n).position 0 ≤ 1; rw [e]; exact h1
  · simp only [e']
    exact ⟨h0' i, near_same _ (h0' i) (by positivity)⟩

theorem near_zero' (k : ℕ) {s : ℝ} (hs : 0 ≤ s) : Near φ k s (0 : Fl φ).val 0 0 := near_same (0 : Fl φ) (le_refl _) hs

theorem inRel_tensor {k : ℕ} {T : Tables (Fl φ)} (hT : Accurate k T) {t : Topo} {B : List (QPoint ℝ × QPoint (Fl φ))}
    (hB : InRel φ k t B) {row : Row} (hrow : row ∈ rows1) :
    InRel φ k (.prism t) (pairs2 (tensorPoint (t.dim + 1)) (tensorPoint (t.dim + 1)) B (pairs (nodeTables T) T row)) := by
  intro q hq
  simp only [pairs2, pairs, List.mem_flatMap, List.mem_map, List.map_map] at hq
  obtain ⟨b, hb, n, hn, rfl⟩ := hq
  obtain ⟨e, h0, h1⟩ := node_pos' hT hrow hn
  obtain ⟨b1, b2⟩ := hB b hb
  have hη := φ.η_nonneg
  simp only [Function.comp_apply, tensorPoint, Topo.dim, Nat.add_sub_cancel, e]
  refine ⟨⟨by simpa using h0, by simpa using h1, dom_congr t 1 (fun i hi => ?_) b1⟩, fun i => ?_⟩
  · rw [if_neg (by omega), if_pos hi]
  · by_cases hi : i = t.dim
    · rw [if_pos hi, if_pos hi]
      exact ⟨h0, near_same _ h0 (by positivity)⟩
    · rw [if_neg hi, if_neg hi]
      by_cases hi' : i < t.dim
      · rw [if_pos hi', if_pos hi']
        refine ⟨(b2 i).1, (b2 i).2.mono (by omega) ?_⟩
        push_cast; linarith
      · rw [if_neg hi', if_neg hi']
        exact ⟨le_refl _, near_zero' _ (by positivity)⟩

theorem inRel_conical {k : ℕ} {T : Tables (Fl φ)} (hT : Accurate k T) {t : Topo} {B : List (QPoint ℝ × QPoint (Fl φ))}
    (hB : InRel φ k t B) {row : Row} (hrow : row ∈ rows1) :
    InRel φ k (.pyr t) (pairs2 (conicalPoint (t.dim + 1) false) (conicalPoint (t.dim + 1) false) B (pairs (nodeTables T) T row)) := by
  intro q hq
  simp only [pairs2, pairs, List.mem_flatMap, List.mem_map, List.map_map] at hq
  obtain ⟨b, hb, n, hn, rfl⟩ := hq
  obtain ⟨e, h0, h1⟩ := node_pos' hT hrow hn
  obtain ⟨b1, b2⟩ := hB b hb
  have hη := φ.η_nonneg
  simp only [Function.comp_apply, conicalPoint, Topo.dim, Nat.add_sub_cancel, e]
  refine ⟨⟨by simpa using h0, by simpa using h1, ?_⟩, fun i => ?_⟩
  · have h := Quad.dom_scale t (sub_nonneg.mpr h1) b1
    rw [mul_one] at h
    simp only [if_true]
    refine dom_congr t _ (fun i hi => ?_) h
    rw [if_neg (by omega), if_pos hi]
  · by_cases hi : i = t.dim
    · rw [if_pos hi, if_pos hi]
      exact ⟨h0, near_same _ h0 (by positivity)⟩
    · rw [if_neg hi, if_neg hi]
      by_cases hi' : i < t.dim
      · rw [if_pos hi', if_pos hi']
        obtain ⟨g1, g2⟩ := b2 i
        refine ⟨mul_nonneg (by linarith) g1, ?_⟩
        have hs := Near.sub_exact (1 : Fl φ) ((nodePoint T n).position 0)
        rw [Fl.one_val, abs_of_nonneg (show 0 ≤ 1 - ((nodePoint T n).position 0).val by linarith)] at hs
        refine (hs.mul g2).mono (by omega) ?_
        push_cast
        have : (t.dim : ℝ) * φ.η * (1 - ((nodePoint T n).position 0).val) ≤ t.dim * φ.η :=
          mul_le_of_le_one_right (by positivity) (by linarith)
        linarith
      · rw [if_neg hi', if_neg hi']
        exact ⟨le_refl _, near_zero' _ (by positivity)⟩

theorem dom_nonneg {y : Vec ℝ} : ∀ (t : Topo) (f : ℝ), Dom t f y → ∀ i, i < t.dim → 0 ≤ y i
  | .pt, _, _, i, hi => absurd hi (Nat.not_lt_zero i)
  | .prism t, f, h, i, hi => by
    by_cases e : i = t.dim
    · subst e; exact h.1
    · exact dom_nonneg t f h.2.2 i (by simp only [Topo.dim] at hi; omega)
  | .pyr t, f, h, i, hi => by
    by_cases e : i = t.dim
    · subst e; exact h.1
    · exact dom_nonneg t _ h.2.2 i (by simp only [Topo.dim] at hi; omega)

theorem inRel_block {k : ℕ} {T : Tables (Fl φ)} (hT : Accurate k T) {row : Row} (hrow : row ∈ rows23) {t : Topo}
    (h1 : Quad.InDom t (row.pts.map (Node.point (K := ℝ)))) (h2 : ∀ q ∈ row.pts.map (Node.point (K := ℝ)), ∀ i, t.dim ≤ i → q.position i = 0) :
    ∃ L, L.map Prod.fst = (nodeTables T).block row ∧ L.map Prod.snd = T.block row ∧ InRel φ k t L := by
  obtain ⟨L, e1, e2, e3⟩ := blocks_forall hT hrow
  have hη := φ.η_nonneg
  refine ⟨L, e1, e2, fun q hq => ?_⟩
  obtain ⟨g1, -, g3⟩ := e3 q hq
  have hn : ∀ i, 0 ≤ q.1.position i := fun i => by
    by_cases hi : i < t.dim
    · exact dom_nonneg t 1 (h1 _ g3) i hi
    · rw [h2 _ g3 i (by omega)]
  refine ⟨h1 _ g3, fun i => ⟨hn i, ?_⟩⟩
  have := (g1 i).near
  rw [abs_of_nonneg (hn i)] at this
  exact this.mono (by omega) (by positivity)

theorem blocks_dom : (∀ row ∈ Quad.Simplex2.blocks, Quad.InDom (.pyr (.prism .pt)) (row.pts.map (Node.point (K := ℝ))) ∧
      ∀ q ∈ row.pts.map (Node.point (K := ℝ)), ∀ i, 2 ≤ i → q.position i = 0) ∧
    (∀ row ∈ Quad.Simplex3.blocks, Quad.InDom (.pyr (.pyr (.prism .pt))) (row.pts.map (Node.point (K := ℝ))) ∧
      ∀ q ∈ row.pts.map (Node.point (K := ℝ)), ∀ i, 3 ≤ i → q.position i = 0) ∧
    (Quad.InDom (.prism (.pyr (.prism .pt))) (Quad.Prism3.block1.pts.map (Node.point (K := ℝ))) ∧
      ∀ q ∈ Quad.Prism3.block1.pts.map (Node.point (K := ℝ)), ∀ i, 3 ≤ i → q.position i = 0) := by
  obtain ⟨w1, w2, w3⟩ := Quad.simplex_posW
  refine ⟨fun row hrow => ?_, fun row hrow => ?_, ?_⟩
  · have h := Quad.tri_good (K := ℝ) (List.all_eq_true.mp Quad.simplex2_ok row hrow) (List.all_eq_true.mp w1 row hrow) line (p := row.order)
      (le_refl _) id (Or.inl rfl : (.GaussLegendre : QType) = .GaussLegendre ∨ _)
    exact ⟨h.inDom, h.zero⟩
  · have h := Quad.tet_good (K := ℝ) (List.all_eq_true.mp Quad.simplex3_ok row hrow) (List.all_eq_true.mp w2 row hrow) line (p := row.order)
      (qt := .GaussLegendre) (le_refl _)
    exact ⟨h.inDom, h.zero⟩
  · have h := Quad.pri_good (K := ℝ) Quad.prism3_ok w3 line (p := Quad.Prism3.block1.order) (qt := .GaussLegendre) (le_refl _)
    exact ⟨h.inDom, h.zero⟩

theorem lastBlock_prism : lastBlock Quad.Prism3.blocks 6 = some Quad.Prism3.block1 := rfl

/-- every rule in floating-point arithmetic: next to points of the element -/
theorem rule_inRel {k : ℕ} {T : Tables (Fl φ)} (hT : Accurate k T) (jac : Int → Int → Res (Rule ℝ)) (jac' : Int → Int → Res (Rule (Fl φ)))
    {qt : QType} (hq : qt ≠ .GaussJacobi_n_0) (d id : Nat) (hd : d ≤ 30) (hid : id < 2 ^ d) (p : Int) :
    RelRes (InRel φ k (topoOf d id)) (rule (nodeTables T) jac d ⟨d, false, id⟩ p qt) (rule T jac' d ⟨d, false, id⟩ p qt) := by
  obtain ⟨tab, h, ht⟩ : ∃ tab h, tableOf qt = some (tab, h) := by
    cases qt <;> first | exact ⟨_, _, rfl⟩ | exact absurd rfl hq
  have hη := φ.η_nonneg
  obtain ⟨s2, s3, p3⟩ := blocks_dom
  have m2 : ∀ row ∈ Quad.Simplex2.blocks, row ∈ rows23 := fun row h => by simp [rows23, h]
  have m3 : ∀ row ∈ Quad.Simplex3.blocks, row ∈ rows23 := fun row h => by simp [rows23, h]
  refine rule_rel (nodeTables T) T jac jac' hq ht (InRel φ k) ?_ (fun row hrow => inRel_row hT (tab_sub ht row hrow))
    (fun t B _ hB row hrow => inRel_tensor hT hB (tab_sub ht row hrow)) (fun t B _ hB row hrow => inRel_conical hT hB (tab_sub ht row hrow))
    (fun _ row hrow => inRel_block hT (m2 row hrow) (s2 row hrow).1 (s2 row hrow).2)
    (fun _ row hrow => inRel_block hT (m3 row hrow) (s3 row hrow).1 (s3 row hrow).2)
    (fun _ row hrow hl => ?_) d id hd hid p
  · intro q hq
    rw [List.mem_singleton] at hq
    subst hq
    exact ⟨trivial, fun i => ⟨le_refl _, near_zero' _ (by positivity)⟩⟩
  · rw [lastBlock_prism] at hl
    cases hl
    exact inRel_block hT (by simp [rows23]) p3.1 p3.2

end Verif.FloatQuad
