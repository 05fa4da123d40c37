import Verif.Quad.Nodal
import Verif.Quad.DiscreteDivergenceProps

/-!
Nodes of Gauss-Lobatto rules of cubes on sub-entities.
-/

namespace Verif.Quad

open Verif.Typ Verif.RefTopo Verif.RefGeom
open Finset hiding ext

/-! ### Sub-entities of cubes fix some coordinates -/

theorem cube_shape : ∀ (n : Nat) (f : Face (Topo.cube n)), f.shape = Topo.cube f.shape.dim
  | 0, f => by cases f; rfl
  | n + 1, .edge f => by
    have := cube_shape n f
    simp only [Face.shape, Topo.dim, Topo.cube]
    rw [← this]
  | n + 1, .bot f => cube_shape n f
  | n + 1, .top f => cube_shape n f

theorem isCube_of_rep : ∀ d id, Rep d id (Topo.cube d) → IsCubeId d id
  | 0, _, _ => fun k _ h => absurd h (Nat.not_lt_zero k)
  | d + 1, id, h => fun k h1 h2 => by
    cases h with
    | prism hb hr =>
      by_cases hk : k = d
      · subst hk
        exact hb.resolve_left (by omega)
      · have := isCube_of_rep d _ hr k h1 (by omega)
        rw [Nat.testBit_mod_two_pow] at this
        simpa [show k < d by omega] using this

/-- the coordinates of the sub-entity in the element, the others are 0 or 1 -/
theorem cube_emb : ∀ (n : Nat) (f : Face (Topo.cube n)), ∃ ι : Nat → Nat,
    (∀ j < f.shape.dim, ι j < n ∧ ∀ y : Vec ℝ, emb f y (ι j) = y j) ∧
    ∀ i < n, (∃ j < f.shape.dim, i = ι j) ∨ (∀ y : Vec ℝ, emb f y i = 0) ∨ ∀ y : Vec ℝ, emb f y i = 1
  | 0, f => ⟨id, fun j hj => by cases f; exact absurd hj (Nat.not_lt_zero j), fun i hi => absurd hi (Nat.not_lt_zero i)⟩
  | n + 1, .edge f => by
    obtain ⟨ι, h1, h2⟩ := cube_emb n f
    have hd : (Topo.cube n).dim = n := (rep_cube n).dim_eq
    have he : ∀ (y : Vec ℝ) (i : Nat), emb (t := Topo.cube (n + 1)) (.edge f) y i = if i = n then y f.shape.dim else emb f y i := fun y i => by
      have := congrFun (emb_edge f y) i
      rw [hd] at this
      exact this
    obtain ⟨κ, k1, k2⟩ : ∃ κ : Nat → Nat, κ f.shape.dim = n ∧ ∀ j < f.shape.dim, κ j = ι j :=
      ⟨fun j => if j = f.shape.dim then n else ι j, if_pos rfl, fun j hj => if_neg hj.ne⟩
    refine ⟨κ, fun j hj => ?_, fun i hi => ?_⟩
    · change j < f.shape.dim + 1 at hj
      by_cases hjd : j = f.shape.dim
      · subst hjd
        rw [k1]
        exact ⟨Nat.lt_succ_self n, fun y => (he y n).trans (if_pos rfl)⟩
      · obtain ⟨h3, h4⟩ := h1 j (by omega)
        rw [k2 j (by omega)]
        exact ⟨by omega, fun y => ((he y _).trans (if_neg h3.ne)).trans (h4 y)⟩
    · by_cases hin : i = n
      · exact Or.inl ⟨f.shape.dim, Nat.lt_succ_self _, by rw [k1, hin]⟩
      · rcases h2 i (by omega) with ⟨j, hj, rfl⟩ | h | h
        · exact Or.inl ⟨j, Nat.lt_succ_of_lt hj, (k2 j hj).symm⟩
        · exact Or.inr (Or.inl fun y => ((he y _).trans (if_neg hin)).trans (h y))
        · exact Or.inr (Or.inr fun y => ((he y _).trans (if_neg hin)).trans (h y))
  | n + 1, .bot f => by
    obtain ⟨ι, h1, h2⟩ := cube_emb n f
    have hd : (Topo.cube n).dim = n := (rep_cube n).dim_eq
    refine ⟨ι, fun j hj => ⟨(h1 j hj).1.trans (Nat.lt_succ_self n), (h1 j hj).2⟩, fun i hi => ?_⟩
    by_cases hin : i = n
    · exact Or.inr (Or.inl fun y => emb_zero f y i (by omega))
    · exact h2 i (by omega)
  | n + 1, .top f => by
    obtain ⟨ι, h1, h2⟩ := cube_emb n f
    have hd : (Topo.cube n).dim = n := (rep_cube n).dim_eq
    have he : ∀ (y : Vec ℝ) (i : Nat), emb (t := Topo.cube (n + 1)) (.top f) y i = if i = n then 1 else emb f y i := fun y i => by
      have := congrFun (emb_top f y) i
      rw [setV, hd] at this
      exact this
    refine ⟨ι, fun j hj => ⟨(h1 j hj).1.trans (Nat.lt_succ_self n), fun y => by rw [he, if_neg (h1 j hj).1.ne]; exact (h1 j hj).2 y⟩, fun i hi => ?_⟩
    by_cases hin : i = n
    · exact Or.inr (Or.inr fun y => by rw [he, if_pos hin])
    · rcases h2 i (by omega) with h | h | h
      · exact Or.inl h
      · exact Or.inr (Or.inl fun y => by rw [he, if_neg hin]; exact h y)
      · exact Or.inr (Or.inr fun y => by rw [he, if_neg hin]; exact h y)

/-! ### The end points of the table -/

/-- the end points are nodes up to `δ`, and the other nodes are far from them -/
structure EndNodes (δ : ℝ) (S : Finset ℝ) : Prop where
  zero : ∃ s ∈ S, |s| ≤ δ
  one : ∃ s ∈ S, |s - 1| ≤ δ
  far0 : ∀ s ∈ S, |s| < 1 / 1000 → |s| ≤ δ
  far1 : ∀ s ∈ S, |s - 1| < 1 / 1000 → |s - 1| ≤ δ

/-- a node is within `E / D` of the end points or at least `1 / 1000` away -/
def Node.far (E D : Nat) (n : Node) : Bool :=
  match n.x with
  | [l] => decide (0 < l.den) && (n.near0 E D || decide (l.den ≤ l.num * 1000)) && (n.near1 E D || decide (l.den ≤ (l.den - l.num) * 1000))
  | _ => false

theorem far_sound {E D : Nat} (hD : 0 < D) {n : Node} (h : n.far E D = true) :
    (|(Node.point (K := ℝ) n).position 0| < 1 / 1000 → |(Node.point (K := ℝ) n).position 0| ≤ E / D) ∧
      (|(Node.point (K := ℝ) n).position 0 - 1| < 1 / 1000 → |(Node.point (K := ℝ) n).position 0 - 1| ≤ E / D) := by
  obtain ⟨xs, w⟩ := n
  match xs with
  | [] => simp [Node.far] at h
  | [l] =>
    simp only [Node.far, Bool.and_eq_true, Bool.or_eq_true, decide_eq_true_eq] at h
    obtain ⟨⟨h1, h2⟩, h3⟩ := h
    have hd : (0 : ℝ) < l.den := by exact_mod_cast h1
    have e : (Node.point (K := ℝ) ⟨[l], w⟩).position 0 = l.num / l.den := by
      simp only [Node.point, List.length_singleton, Nat.lt_one_iff, dif_pos, List.getElem_cons_zero, Lit.val]
    constructor
    · rcases h2 with h2 | h2
      · have := near0_sound (K := ℝ) hD h2
        intro _
        rw [abs_of_nonneg this.1]
        exact this.2
      · intro h
        have h4 : (l.den : ℝ) ≤ l.num * 1000 := by exact_mod_cast h2
        have h5 := (le_abs_self _).trans_lt h
        rw [e, div_lt_iff₀ hd] at h5
        linarith
    · rcases h3 with h2 | h2
      · have := near1_sound (K := ℝ) hD h2
        intro _
        rw [abs_sub_comm, abs_of_nonneg this.1]
        exact this.2
      · intro h
        have h4 : (l.den : ℝ) ≤ (l.den - l.num) * 1000 := by exact_mod_cast h2
        rw [abs_sub_comm] at h
        have h5 := (le_abs_self _).trans_lt h
        rw [e, show (1 : ℝ) - l.num / l.den = (l.den - l.num) / l.den by field_simp, div_lt_iff₀ hd] at h5
        linarith
  | _ :: _ :: _ => simp [Node.far] at h

/-- a row with end points up to `E / D` -/
def Row.ended (E D : Nat) (row : Row) : Bool := row.pts.any (Node.near0 E D) && row.pts.any (Node.near1 E D) && row.pts.all (Node.far E D)

theorem ended_sound {E D : Nat} (hD : 0 < D) {row : Row} (h : row.ended E D = true) : EndNodes (E / D) row.nodes := by
  simp only [Row.ended, Bool.and_eq_true] at h
  obtain ⟨⟨h1, h2⟩, h3⟩ := h
  obtain ⟨n, hn, hn'⟩ := List.any_eq_true.mp h1
  obtain ⟨k, hk, hk'⟩ := List.any_eq_true.mp h2
  have hn'' := near0_sound (K := ℝ) hD hn'
  have hk'' := near1_sound (K := ℝ) hD hk'
  refine ⟨⟨_, mem_nodes.2 ⟨_, List.mem_map.mpr ⟨n, hn, rfl⟩, rfl⟩, ?_⟩, ⟨_, mem_nodes.2 ⟨_, List.mem_map.mpr ⟨k, hk, rfl⟩, rfl⟩, ?_⟩, fun s hs => ?_, fun s hs => ?_⟩
  · rw [abs_of_nonneg hn''.1]; exact hn''.2
  · rw [abs_sub_comm, abs_of_nonneg hk''.1]; exact hk''.2
  all_goals
    obtain ⟨o, ho, rfl⟩ := mem_nodes.1 hs
    obtain ⟨a, ha, rfl⟩ := List.mem_map.1 ho
    have := far_sound hD (List.all_eq_true.mp h3 a ha)
  exacts [this.1, this.2]

theorem lobatto_ended : (Lobatto.table.all (Row.ended 1 (10 ^ 99))) = true := by decide +kernel

/-- the orders for which both end points are tabulated exactly -/
def exactEnds : List Nat := [0, 1, 2, 3, 4, 5, 6, 7, 8, 9, 14, 15, 18, 19, 30, 31]

theorem lobatto_ended_exact : (exactEnds.all fun p => match initHelper Lobatto.table p with
    | .ok r => r.ended 0 1
    | _ => false) = true := by decide +kernel

/-! ### Points on sub-entities -/

theorem facet_nodes {δ : ℝ} {S : Finset ℝ} (hS : EndNodes δ S) (hδ : 0 ≤ δ) {n : Nat} (f : Face (Topo.cube n)) {l L : List (QPoint ℝ)}
    (hl : IsGrid S n l) (hL : IsGrid S f.shape.dim L) :
    (∀ q ∈ L, ∃ q' ∈ l, ∀ j < n, |q'.position j - emb f q.position j| ≤ δ) ∧
    ∀ q' ∈ l, (∃ y : Vec ℝ, ∀ j < n, |q'.position j - emb f y j| < 1 / 1000) → ∃ q ∈ L, ∀ j < n, |q'.position j - emb f q.position j| ≤ δ := by
  obtain ⟨ι, h1, h2⟩ := cube_emb n f
  constructor
  · intro q hq
    have : ∀ i : Fin n, ∃ s ∈ S, |s - emb f q.position i| ≤ δ := by
      intro i
      rcases h2 i i.2 with ⟨j, hj, hij⟩ | h | h
      · refine ⟨q.position j, hL.mem q hq j hj, ?_⟩
        rw [hij, (h1 j hj).2, _root_.sub_self, abs_zero]
        exact hδ
      · obtain ⟨s, hs, h3⟩ := hS.zero
        exact ⟨s, hs, by rw [h, sub_zero]; exact h3⟩
      · obtain ⟨s, hs, h3⟩ := hS.one
        exact ⟨s, hs, by rw [h]; exact h3⟩
    choose z hz hz' using this
    obtain ⟨q', hq', h3⟩ := hl.exists z hz
    exact ⟨q', hq', fun j hj => by have := congrFun h3 ⟨j, hj⟩; rw [show q'.position j = z ⟨j, hj⟩ from this]; exact hz' ⟨j, hj⟩⟩
  · rintro q' hq' ⟨y, hy⟩
    obtain ⟨q, hq, h3⟩ := hL.exists (fun j => q'.position (ι j)) fun j => hl.mem q' hq' _ (h1 j j.2).1
    refine ⟨q, hq, fun i hi => ?_⟩
    have h5 := hl.mem q' hq' i hi
    have h6 := hy i hi
    rcases h2 i hi with ⟨j, hj, rfl⟩ | h | h
    · have h4 := congrFun h3 ⟨j, hj⟩
      rw [(h1 j hj).2, show q.position j = q'.position (ι j) from h4, _root_.sub_self, abs_zero]
      exact hδ
    · rw [h, sub_zero] at h6 ⊢
      exact hS.far0 _ h5 h6
    · rw [h] at h6 ⊢
      exact hS.far1 _ h5 h6

end Verif.Quad
