import Verif.RefTopo.Model
import Verif.RefTopo.FaceOrder
import Verif.Type.Lemmas

/-! The numerical model agrees with the face specification. -/

namespace Verif.RefTopo

open Verif.Typ

/-- `Rep d id t`: the topology id `id` of dimension `d` describes the topology `t`.  In the first
step (`d = 0`) prism and pyramid construction both give the line. -/
inductive Rep : Nat → Nat → Topo → Prop where
  | pt (id) : Rep 0 id .pt
  | prism {d id t} : (d = 0 ∨ id.testBit d = true) → Rep d (id % 2 ^ d) t → Rep (d + 1) id (.prism t)
  | pyr {d id t} : (d = 0 ∨ id.testBit d = false) → Rep d (id % 2 ^ d) t → Rep (d + 1) id (.pyr t)

theorem Rep.dim_eq {d id : Nat} {t : Topo} (h : Rep d id t) : t.dim = d := by
  induction h with
  | pt => rfl
  | prism _ _ ih => simp [Topo.dim, ih]
  | pyr _ _ ih => simp [Topo.dim, ih]

/-- the topology that an id describes, taking the prism for the line as the code does -/
def topoOf : Nat → Nat → Topo
  | 0, _ => .pt
  | d + 1, id => if d = 0 ∨ id.testBit d = true then .prism (topoOf d (id % 2 ^ d)) else .pyr (topoOf d (id % 2 ^ d))

theorem rep_topoOf : ∀ d id, Rep d id (topoOf d id)
  | 0, id => .pt id
  | d + 1, id => by
    unfold topoOf
    split
    · exact .prism (by assumption) (rep_topoOf d _)
    · exact .pyr (by rename_i h; rw [not_or] at h; right; simpa using h.2) (rep_topoOf d _)

theorem size_zero (d id : Nat) : size d id 0 = 1 := by cases d <;> rfl

theorem subTopologyId_zero (d id i : Nat) : subTopologyId d id 0 i = id := by cases d <;> rfl

theorem size_prism {d id : Nat} (h : d = 0 ∨ id.testBit d = true) (c : Nat) :
    size (d + 1) id (c + 1) =
      (if c + 1 < d + 1 then size d (id % 2 ^ d) (c + 1) else 0) + 2 * size d (id % 2 ^ d) c := by
  have hp : implIsPrism id (d + 1) 0 = true := by rw [implIsPrism_eq]; rcases h with h | h <;> simp [h]
  simp only [size, implBase_eq, hp, if_true, Nat.add_sub_cancel]

theorem size_pyr {d id : Nat} (h0 : d ≠ 0) (h : id.testBit d = false) (c : Nat) :
    size (d + 1) id (c + 1) =
      size d (id % 2 ^ d) c + (if c + 1 < d + 1 then size d (id % 2 ^ d) (c + 1) else 1) := by
  have hp : implIsPrism id (d + 1) 0 = false := by rw [implIsPrism_eq]; simp [h, h0]
  simp only [size, implBase_eq, hp, Nat.add_sub_cancel, Bool.false_eq_true, if_false]

theorem size_eq {d id : Nat} {t : Topo} (h : Rep d id t) : ∀ c, c ≤ d → size d id c = t.sz c := by
  induction h with
  | pt id => intro c hc; obtain rfl : c = 0 := by omega
             simp [size]
  | @prism d id t hb hr ih =>
    intro c hc
    cases c with
    | zero => simp [size]
    | succ c =>
      rw [size_prism hb, Topo.sz, ih c (by omega)]
      congr 1
      by_cases hcd : c + 1 < d + 1
      · rw [if_pos hcd, ih (c + 1) (by omega)]
      · rw [if_neg hcd, Topo.sz_eq_zero t (c + 1) (by rw [hr.dim_eq]; omega)]
  | @pyr d id t hb hr ih =>
    intro c hc
    cases c with
    | zero => simp [size]
    | succ c =>
      by_cases hd : d = 0
      · subst hd
        obtain rfl : c = 0 := by omega
        rw [size_prism (Or.inl rfl), if_neg (by omega), Topo.sz, ih 0 (by omega),
          Topo.sz_eq_zero t 1 (by rw [hr.dim_eq]; omega), if_pos (by rw [hr.dim_eq])]
        simp
      · rw [size_pyr hd (by simpa [hd] using hb), Topo.sz, ih c (by omega)]
        congr 1
        by_cases hcd : c + 1 < d + 1
        · rw [if_pos hcd, ih (c + 1) (by omega), if_neg (by rw [hr.dim_eq]; omega)]; rfl
        · rw [if_neg hcd, Topo.sz_eq_zero t (c + 1) (by rw [hr.dim_eq]; omega),
            if_pos (by rw [hr.dim_eq]; omega)]

/-- Sub-topology ids are valid for their dimension. -/
theorem subTopologyId_lt : ∀ (d id c i : Nat), id < 2 ^ d → c ≤ d → subTopologyId d id c i < 2 ^ (d - c)
  | d, id, 0, i, h, _ => by simpa [subTopologyId_zero] using h
  | 0, id, c + 1, i, h, hc => by omega
  | d + 1, id, c + 1, i, h, hc => by
    have hb : id % 2 ^ d < 2 ^ d := Nat.mod_lt _ (Nat.two_pow_pos d)
    have e1 : d + 1 - (c + 1) = d - c := by omega
    simp only [subTopologyId, implBase_eq, Nat.add_sub_cancel, e1]
    have r1 := fun j => subTopologyId_lt d (id % 2 ^ d) c j hb (by omega)
    have r2 : c + 1 ≤ d → ∀ j, subTopologyId d (id % 2 ^ d) (c + 1) j < 2 ^ (d - c - 1) := fun h' j => by
      have := subTopologyId_lt d (id % 2 ^ d) (c + 1) j hb h'
      rwa [Nat.sub_sub]
    have hle : 2 ^ (d - c - 1) ≤ 2 ^ (d - c) := Nat.pow_le_pow_right (by omega) (by omega)
    split
    · generalize hn : (if c + 1 < d + 1 then size d (id % 2 ^ d) (c + 1) else 0) = n
      by_cases hlt : i < n
      · rw [if_pos hlt]
        have hcd : c + 1 ≤ d := by
          by_contra hcd
          rw [if_neg (by omega)] at hn; omega
        apply Nat.or_lt_two_pow (lt_of_lt_of_le (r2 hcd _) hle)
        rw [Nat.one_shiftLeft]
        exact Nat.pow_lt_pow_right (by omega) (by omega)
      · rw [if_neg hlt]; exact r1 _
    · split
      · exact r1 _
      · split
        · rw [Nat.zero_shiftLeft, Nat.or_zero]
          exact lt_of_lt_of_le (r2 (by omega) _) hle
        · exact Nat.two_pow_pos _

theorem Rep.id_irrel_zero {id id' : Nat} {t : Topo} (h : Rep 0 id t) : Rep 0 id' t := by
  cases h; exact .pt _

/-- The id of a sub-entity describes the shape of the face. -/
theorem rep_sub {d id : Nat} {t : Topo} (h : Rep d id t) (hid : id < 2 ^ d) :
    ∀ f : Face t, Rep (d - f.codim) (subTopologyId d id f.codim f.idx) f.shape := by
  induction h with
  | pt id => intro f; cases f; exact .pt _
  | @prism d id t hb hr ih =>
    intro f
    have hp : implIsPrism id (d + 1) 0 = true := by rw [implIsPrism_eq]; rcases hb with h | h <;> simp [h]
    have hmod : id % 2 ^ d < 2 ^ d := Nat.mod_lt _ (Nat.two_pow_pos d)
    have ih := ih hmod
    have hdim := hr.dim_eq
    have hs := size_eq hr
    cases f with
    | edge f =>
      have hf := Face.codim_le f
      have hi := Face.idx_lt f
      simp only [Face.codim, Face.idx, Face.shape]
      cases hc : f.codim with
      | zero =>
        rw [subTopologyId_zero, Face.shape_of_codim_zero f hc]; exact .prism hb hr
      | succ c =>
        have hcd : c + 1 ≤ d := by omega
        have r := ih f
        have hlt := subTopologyId_lt d (id % 2 ^ d) (c + 1) f.idx hmod hcd
        rw [hc] at r hi
        have e1 : d + 1 - (c + 1) = d - (c + 1) + 1 := by omega
        simp only [subTopologyId, implBase_eq, hp, if_true, Nat.add_sub_cancel, e1, Nat.one_shiftLeft]
        rw [if_pos (by omega : c + 1 < d + 1), hs (c + 1) hcd, if_pos hi]
        refine .prism ?_ ?_
        · right; rw [Nat.testBit_or, Nat.testBit_two_pow]; simp
        · have : (subTopologyId d (id % 2 ^ d) (c + 1) f.idx ||| 2 ^ (d - (c + 1))) % 2 ^ (d - (c + 1))
              = subTopologyId d (id % 2 ^ d) (c + 1) f.idx := by
            rw [Nat.or_mod_two_pow, Nat.mod_self, Nat.or_zero, Nat.mod_eq_of_lt hlt]
          rw [this]; exact r
    | bot f =>
      have hf := Face.codim_le f
      have hi := Face.idx_lt f
      simp only [Face.codim, Face.idx, Face.shape]
      have e1 : d + 1 - (f.codim + 1) = d - f.codim := by omega
      simp only [subTopologyId, implBase_eq, hp, if_true, Nat.add_sub_cancel, e1]
      have hn : (if f.codim + 1 < d + 1 then size d (id % 2 ^ d) (f.codim + 1) else 0) = t.sz (f.codim + 1) := by
        by_cases hcd : f.codim + 1 < d + 1
        · rw [if_pos hcd, hs _ (by omega)]
        · rw [if_neg hcd, Topo.sz_eq_zero _ _ (by omega)]
      rw [hn, hs _ (by omega), if_neg (by omega), if_pos (by omega), Nat.add_sub_cancel_left]
      exact ih f
    | top f =>
      have hf := Face.codim_le f
      have hi := Face.idx_lt f
      simp only [Face.codim, Face.idx, Face.shape]
      have e1 : d + 1 - (f.codim + 1) = d - f.codim := by omega
      simp only [subTopologyId, implBase_eq, hp, if_true, Nat.add_sub_cancel, e1]
      have hn : (if f.codim + 1 < d + 1 then size d (id % 2 ^ d) (f.codim + 1) else 0) = t.sz (f.codim + 1) := by
        by_cases hcd : f.codim + 1 < d + 1
        · rw [if_pos hcd, hs _ (by omega)]
        · rw [if_neg hcd, Topo.sz_eq_zero _ _ (by omega)]
      rw [hn, hs _ (by omega), if_neg (by omega), if_neg (by omega), Nat.add_sub_cancel_left]
      exact ih f
  | @pyr d id t hb hr ih =>
    intro f
    have hmod : id % 2 ^ d < 2 ^ d := Nat.mod_lt _ (Nat.two_pow_pos d)
    have ih := ih hmod
    have hdim := hr.dim_eq
    have hs := size_eq hr
    by_cases hd : d = 0
    · subst hd
      cases f with
      | base f =>
        have hf := Face.codim_le f
        simp only [Face.codim, Face.shape]
        have : f.codim = 0 := by omega
        rw [this]
        have hh := ih f; rw [this] at hh
        exact hh.id_irrel_zero
      | cone f =>
        have hf := Face.codim_le f
        have : f.codim = 0 := by omega
        simp only [Face.codim, Face.shape, this]
        rw [subTopologyId_zero, Face.shape_of_codim_zero f this]
        exact .pyr hb hr
      | apex =>
        simp only [Face.codim, Face.shape, hdim]; exact .pt _
    · have hp : implIsPrism id (d + 1) 0 = false := by rw [implIsPrism_eq]; simp_all
      cases f with
      | base f =>
        have hf := Face.codim_le f
        have hi := Face.idx_lt f
        simp only [Face.codim, Face.idx, Face.shape]
        have e1 : d + 1 - (f.codim + 1) = d - f.codim := by omega
        simp only [subTopologyId, implBase_eq, hp, Bool.false_eq_true, if_false, Nat.add_sub_cancel, e1]
        rw [hs _ (by omega), if_pos hi]
        exact ih f
      | cone f =>
        have hf := Face.codim_le f
        have hi := Face.idx_lt f
        simp only [Face.codim, Face.shape, Face.idx]
        cases hc : f.codim with
        | zero =>
          rw [subTopologyId_zero, Face.shape_of_codim_zero f hc]; exact .pyr hb hr
        | succ c =>
          have hcd : c + 1 ≤ d := by omega
          have r := ih f
          have hlt := subTopologyId_lt d (id % 2 ^ d) (c + 1) f.idx hmod hcd
          rw [hc] at r hi
          have e1 : d + 1 - (c + 1) = d - (c + 1) + 1 := by omega
          simp only [subTopologyId, implBase_eq, hp, Bool.false_eq_true, if_false, Nat.add_sub_cancel, e1,
            Nat.zero_shiftLeft, Nat.or_zero]
          rw [hs _ (by omega), if_neg (by omega), if_pos (by omega), Nat.add_sub_cancel_left]
          refine .pyr ?_ ?_
          · right; exact Nat.testBit_lt_two_pow hlt
          · rw [Nat.mod_eq_of_lt hlt]; exact r
      | apex =>
        simp only [Face.codim, Face.shape, hdim]
        rw [Nat.sub_self]; exact .pt _

theorem getElem?_map_add {l : List Nat} {j x k : Nat} (h : l[j]? = some x) :
    (l.map (· + k))[j]? = some (x + k) := by simp [h]

/-- The numbering computed by the code: entry `idx g` of the list for the face `f` is the number of
the face `g` of `f` in the whole. -/
theorem numbering_eq {d id : Nat} {t : Topo} (h : Rep d id t) (hid : id < 2 ^ d) :
    ∀ (f : Face t) (sc len : Nat), f.codim + sc ≤ d → len = f.shape.sz sc →
      (subTopologyNumbering d id f.codim f.idx sc len).length = len ∧
      ∀ g : Face f.shape, g.codim = sc →
        (subTopologyNumbering d id f.codim f.idx sc len)[g.idx]? = some (Face.comp f g).idx := by
  have triv0 : ∀ {d id : Nat} {t : Topo} (f : Face t) (sc len : Nat), f.codim = 0 → len = f.shape.sz sc →
      subTopologyNumbering d id f.codim f.idx sc len = List.range len →
      (subTopologyNumbering d id f.codim f.idx sc len).length = len ∧
      ∀ g : Face f.shape, g.codim = sc →
        (subTopologyNumbering d id f.codim f.idx sc len)[g.idx]? = some (Face.comp f g).idx := by
    intro d id t f sc len hf hlen heq
    rw [heq]
    refine ⟨by simp, fun g hg => ?_⟩
    have := Face.idx_lt g
    rw [hg, ← hlen] at this
    rw [List.getElem?_range this, Face.idx_comp_of_codim_zero f g hf]
  have triv1 : ∀ {d id : Nat} {t : Topo} (f : Face t) (len : Nat), len = f.shape.sz 0 →
      subTopologyNumbering d id f.codim f.idx 0 len = [f.idx] →
      (subTopologyNumbering d id f.codim f.idx 0 len).length = len ∧
      ∀ g : Face f.shape, g.codim = 0 →
        (subTopologyNumbering d id f.codim f.idx 0 len)[g.idx]? = some (Face.comp f g).idx := by
    intro d id t f len hlen heq
    rw [heq]
    refine ⟨by simp [hlen], fun g hg => ?_⟩
    rw [Face.comp_of_codim_zero f g hg, Face.idx_of_codim_zero g hg]; rfl
  induction h with
  | pt id =>
    intro f sc len hsc hlen
    have hf : f.codim = 0 := by omega
    exact triv0 f sc len hf hlen (by simp [subTopologyNumbering, hf])
  | @prism d id t hb hr ih =>
    intro f sc len hsc hlen
    by_cases hf0 : f.codim = 0
    · exact triv0 f sc len hf0 hlen (by simp [subTopologyNumbering, hf0])
    by_cases hsc0 : sc = 0
    · subst hsc0; exact triv1 f len hlen (by simp [subTopologyNumbering, hf0])
    have hp : implIsPrism id (d + 1) 0 = true := by rw [implIsPrism_eq]; rcases hb with h | h <;> simp [h]
    have hmod : id % 2 ^ d < 2 ^ d := Nat.mod_lt _ (Nat.two_pow_pos d)
    have ih := ih hmod
    have hdim := hr.dim_eq
    have hs := size_eq hr
    have hrs := rep_sub hr hmod
    have hnb : ∀ x, (if x < d + 1 then size d (id % 2 ^ d) x else 0) = t.sz x := by
      intro x
      by_cases hcd : x < d + 1
      · rw [if_pos hcd, hs _ (by omega)]
      · rw [if_neg hcd, Topo.sz_eq_zero _ _ (by omega)]
    have hmb : size d (id % 2 ^ d) (f.codim + sc - 1) = t.sz (f.codim + sc - 1) := hs _ (by omega)
    have hm : size d (id % 2 ^ d) (f.codim - 1) = t.sz (f.codim - 1) := hs _ (by omega)
    have hn : size d (id % 2 ^ d) f.codim = t.sz f.codim := hs _ (by omega)
    cases f with
    | edge f =>
      have hi := Face.idx_lt f
      simp only [Face.codim] at *
      simp only [Face.idx, Face.shape] at *
      have hfc := Face.codim_le f
      have hfd := Face.codim_add_dim f
      have hsub := size_eq (hrs f)
      -- unfold one step of the code
      have hms : size (d - f.codim) (subTopologyId d (id % 2 ^ d) f.codim f.idx) (sc - 1) = f.shape.sz (sc - 1) :=
        hsub _ (by omega)
      obtain ⟨lb, gb⟩ := ih f (sc - 1) _ (by omega) rfl
      have hout1 : ∃ out1 : List Nat,
          (if f.codim + sc < d + 1 then
              subTopologyNumbering d (id % 2 ^ d) f.codim f.idx sc
                (size (d - f.codim) (subTopologyId d (id % 2 ^ d) f.codim f.idx) sc)
            else []) = out1 ∧ out1.length = f.shape.sz sc ∧
            ∀ g : Face f.shape, g.codim = sc → out1[g.idx]? = some (Face.comp f g).idx := by
        by_cases hcd : f.codim + sc < d + 1
        · rw [if_pos hcd]
          have hss : size (d - f.codim) (subTopologyId d (id % 2 ^ d) f.codim f.idx) sc = f.shape.sz sc :=
            hsub _ (by omega)
          obtain ⟨l1, g1⟩ := ih f sc _ (by omega) hss
          exact ⟨_, rfl, by rw [l1, hss], g1⟩
        · rw [if_neg hcd]
          refine ⟨[], rfl, ?_, ?_⟩
          · rw [Topo.sz_eq_zero _ _ (by omega)]; rfl
          · intro g hg; have := Face.codim_le g; omega
      obtain ⟨out1, ho, l1, g1⟩ := hout1
      have hcode : subTopologyNumbering (d + 1) id f.codim f.idx sc len =
          out1 ++ (subTopologyNumbering d (id % 2 ^ d) f.codim f.idx (sc - 1) (f.shape.sz (sc - 1))).map
              (· + t.sz (f.codim + sc)) ++
            (subTopologyNumbering d (id % 2 ^ d) f.codim f.idx (sc - 1) (f.shape.sz (sc - 1))).map
              (· + t.sz (f.codim + sc) + t.sz (f.codim + sc - 1)) := by
        simp only [subTopologyNumbering, implBase_eq, hp, if_true, Nat.add_sub_cancel]
        rw [if_neg hf0, if_neg hsc0, hn, if_pos hi, ho, hms, hnb, hmb]
      rw [hcode]
      obtain ⟨k, rfl⟩ : ∃ k, sc = k + 1 := ⟨sc - 1, by omega⟩
      simp only [Nat.add_sub_cancel] at *
      constructor
      · simp only [List.length_append, List.length_map, l1, lb, hlen, Topo.sz]; omega
      · intro g hg
        change Face (.prism f.shape) at g
        cases g with
        | edge g =>
          have hlt := Face.idx_lt g
          have hg' : g.codim = k + 1 := hg
          rw [hg'] at hlt
          have e := g1 g hg'
          rw [List.append_assoc, List.getElem?_append_left (by rw [l1]; exact hlt)]
          rw [Face.comp_edge_edge]; exact e
        | bot g =>
          have hlt := Face.idx_lt g
          have hg' : g.codim = k := by simp only [Face.codim] at hg; omega
          rw [hg'] at hlt
          have e := gb g hg'
          have hci : (Face.comp f g).codim + 1 = f.codim + (k + 1) := by rw [Face.codim_comp, hg']; omega
          rw [Face.comp_edge_bot]
          simp only [Face.idx, hg', hci]
          rw [List.append_assoc, List.getElem?_append_right (by rw [l1]; omega), l1, Nat.add_sub_cancel_left,
            List.getElem?_append_left (by rw [List.length_map, lb]; exact hlt), getElem?_map_add e,
            Nat.add_comm]
        | top g =>
          have hlt := Face.idx_lt g
          have hg' : g.codim = k := by simp only [Face.codim] at hg; omega
          rw [hg'] at hlt
          have e := gb g hg'
          have hci : (Face.comp f g).codim + 1 = f.codim + (k + 1) := by rw [Face.codim_comp, hg']; omega
          have hci2 : (Face.comp f g).codim = f.codim + k := by omega
          rw [Face.comp_edge_top]
          simp only [Face.idx, hg', hci]
          rw [List.append_assoc, List.getElem?_append_right (by rw [l1]; omega), l1, Nat.add_assoc,
            Nat.add_sub_cancel_left,
            List.getElem?_append_right (by rw [List.length_map, lb]; omega), List.length_map, lb,
            Nat.add_sub_cancel_left]
          simp only [List.getElem?_map, e, Option.map_some, hci2]
          congr 1
          have : f.codim + (k + 1) - 1 = f.codim + k := by omega
          rw [this]; omega
    | bot f =>
      have hi := Face.idx_lt f
      simp only [Face.codim] at *
      simp only [Face.idx] at *
      change len = f.shape.sz sc at hlen
      have hfc := Face.codim_le f
      obtain ⟨lb, gb⟩ := ih f sc len (by omega) hlen
      have e1 : f.codim + 1 + sc - 1 = f.codim + sc := by omega
      have hcode : subTopologyNumbering (d + 1) id (f.codim + 1) (t.sz (f.codim + 1) + f.idx) sc len =
          (subTopologyNumbering d (id % 2 ^ d) f.codim f.idx sc len).map (· + t.sz (f.codim + 1 + sc)) := by
        simp only [subTopologyNumbering, implBase_eq, hp, if_true, Nat.add_sub_cancel]
        simp only [Nat.add_sub_cancel] at hm
        rw [if_neg hf0, if_neg hsc0, hn, if_neg (by omega), hm, hnb,
          if_pos (by omega : t.sz (f.codim + 1) + f.idx < t.sz (f.codim + 1) + t.sz f.codim)]
        simp
      rw [hcode]
      refine ⟨by rw [List.length_map, lb], fun g hg => ?_⟩
      change Face f.shape at g
      change g.codim = sc at hg
      have hci : (Face.comp f g).codim + 1 = f.codim + 1 + sc := by rw [Face.codim_comp, hg]; omega
      refine (getElem?_map_add (gb g hg)).trans ?_
      change _ = some (Face.bot (Face.comp f g)).idx
      simp only [Face.idx, hci]
      rw [Nat.add_comm]
    | top f =>
      have hi := Face.idx_lt f
      simp only [Face.codim] at *
      simp only [Face.idx] at *
      change len = f.shape.sz sc at hlen
      have hfc := Face.codim_le f
      obtain ⟨lb, gb⟩ := ih f sc len (by omega) hlen
      have e1 : f.codim + 1 + sc - 1 = f.codim + sc := by omega
      have hcode : subTopologyNumbering (d + 1) id (f.codim + 1)
          (t.sz (f.codim + 1) + t.sz f.codim + f.idx) sc len =
          (subTopologyNumbering d (id % 2 ^ d) f.codim f.idx sc len).map
            (· + (t.sz (f.codim + 1 + sc) + t.sz (f.codim + sc))) := by
        simp only [subTopologyNumbering, implBase_eq, hp, if_true, Nat.add_sub_cancel]
        simp only [Nat.add_sub_cancel] at hm
        rw [if_neg hf0, if_neg hsc0, hn, if_neg (by omega), hm, hnb, hmb, e1,
          if_neg (by omega : ¬ t.sz (f.codim + 1) + t.sz f.codim + f.idx < t.sz (f.codim + 1) + t.sz f.codim),
          one_mul, one_mul, Nat.add_sub_cancel_left]
      rw [hcode]
      refine ⟨by rw [List.length_map, lb], fun g hg => ?_⟩
      change Face f.shape at g
      change g.codim = sc at hg
      have hci : (Face.comp f g).codim + 1 = f.codim + 1 + sc := by rw [Face.codim_comp, hg]; omega
      have hci2 : (Face.comp f g).codim = f.codim + sc := by omega
      refine (getElem?_map_add (gb g hg)).trans ?_
      change _ = some (Face.top (Face.comp f g)).idx
      simp only [Face.idx, hci]
      rw [hci2, Nat.add_comm]
  | @pyr d id t hb hr ih =>
    intro f sc len hsc hlen
    by_cases hf0 : f.codim = 0
    · exact triv0 f sc len hf0 hlen (by simp [subTopologyNumbering, hf0])
    by_cases hsc0 : sc = 0
    · subst hsc0; exact triv1 f len hlen (by simp [subTopologyNumbering, hf0])
    have hd : d ≠ 0 := by omega
    have hp : implIsPrism id (d + 1) 0 = false := by rw [implIsPrism_eq]; simp_all
    have hmod : id % 2 ^ d < 2 ^ d := Nat.mod_lt _ (Nat.two_pow_pos d)
    have ih := ih hmod
    have hdim := hr.dim_eq
    have hs := size_eq hr
    have hrs := rep_sub hr hmod
    have hmb : size d (id % 2 ^ d) (f.codim + sc - 1) = t.sz (f.codim + sc - 1) := hs _ (by omega)
    have hm : size d (id % 2 ^ d) (f.codim - 1) = t.sz (f.codim - 1) := hs _ (by omega)
    cases f with
    | base f =>
      have hi := Face.idx_lt f
      simp only [Face.codim] at *
      simp only [Face.idx] at *
      change len = f.shape.sz sc at hlen
      have hfc := Face.codim_le f
      obtain ⟨lb, gb⟩ := ih f sc len (by omega) hlen
      have hcode : subTopologyNumbering (d + 1) id (f.codim + 1) f.idx sc len =
          subTopologyNumbering d (id % 2 ^ d) f.codim f.idx sc len := by
        simp only [subTopologyNumbering, implBase_eq, hp, Bool.false_eq_true, if_false, Nat.add_sub_cancel]
        simp only [Nat.add_sub_cancel] at hm
        rw [if_neg hf0, if_neg hsc0, hm, if_pos hi]
      rw [hcode]
      refine ⟨lb, fun g hg => ?_⟩
      change Face f.shape at g
      exact gb g hg
    | cone f =>
      have hi := Face.idx_lt f
      simp only [Face.codim] at *
      change len = (Topo.pyr f.shape).sz sc at hlen
      have hfc := Face.codim_le f
      have hfd := Face.codim_add_dim f
      have hsub := size_eq (hrs f)
      obtain ⟨c, hc⟩ : ∃ c, f.codim = c + 1 := ⟨f.codim - 1, by omega⟩
      obtain ⟨k, rfl⟩ : ∃ k, sc = k + 1 := ⟨sc - 1, by omega⟩
      have hms : size (d - f.codim) (subTopologyId d (id % 2 ^ d) f.codim f.idx) k = f.shape.sz k :=
        hsub _ (by omega)
      obtain ⟨lb, gb⟩ := ih f k _ (by omega) rfl
      have hidx : (Face.cone f).idx = t.sz c + f.idx := by simp only [Face.idx, hc]
      have hlen2 : len - f.shape.sz k = f.shape.sz (k + 1) + if k = f.shape.dim then 1 else 0 := by
        rw [hlen, Topo.sz]; omega
      have hcode : subTopologyNumbering (d + 1) id f.codim (t.sz c + f.idx) (k + 1) len =
          subTopologyNumbering d (id % 2 ^ d) f.codim f.idx k (f.shape.sz k) ++
            if f.codim + (k + 1) < d + 1 then
              (subTopologyNumbering d (id % 2 ^ d) f.codim f.idx (k + 1) (len - f.shape.sz k)).map
                (· + t.sz (f.codim + k))
            else [t.sz (f.codim + k)] := by
        have hm' : size d (id % 2 ^ d) (f.codim - 1) = t.sz c := by rw [hm, hc]; rfl
        have e2 : f.codim + (k + 1) - 1 = f.codim + k := by omega
        rw [e2] at hmb
        simp only [subTopologyNumbering, implBase_eq, hp, Bool.false_eq_true, if_false, Nat.add_sub_cancel]
        rw [if_neg hf0, if_neg hsc0, hm', if_neg (by omega), Nat.add_sub_cancel_left, hms, e2, hmb]
      rw [hidx, hcode]
      by_cases hcd : f.codim + (k + 1) < d + 1
      · rw [if_pos hcd]
        rw [if_neg (by omega), Nat.add_zero] at hlen2
        rw [hlen2]
        obtain ⟨l1, g1⟩ := ih f (k + 1) _ (by omega) rfl
        constructor
        · simp only [List.length_append, List.length_map, l1, lb, hlen, Topo.sz]
          rw [if_neg (by omega)]; omega
        · intro g hg
          change Face (.pyr f.shape) at g
          cases g with
          | base g =>
            have hlt := Face.idx_lt g
            have hg' : g.codim = k := by simp only [Face.codim] at hg; omega
            rw [hg'] at hlt
            rw [List.getElem?_append_left (by rw [lb]; exact hlt)]
            rw [Face.comp_cone_base]; exact gb g hg'
          | cone g =>
            have hg' : g.codim = k + 1 := hg
            have e := g1 g hg'
            have hci : (Face.comp f g).codim = (f.codim + k) + 1 := by rw [Face.codim_comp, hg']; omega
            rw [Face.comp_cone_cone]
            simp only [Face.idx, hg', hci]
            rw [List.getElem?_append_right (by rw [lb]; omega), lb, Nat.add_sub_cancel_left,
              getElem?_map_add e, Nat.add_comm]
          | apex =>
            simp only [Face.codim] at hg; omega
      · rw [if_neg hcd]
        constructor
        · simp only [List.length_append, lb, hlen, Topo.sz, List.length_singleton]
          rw [if_pos (by omega : k = f.shape.dim), Topo.sz_eq_zero f.shape (k + 1) (by omega)]
        · intro g hg
          change Face (.pyr f.shape) at g
          cases g with
          | base g =>
            have hlt := Face.idx_lt g
            have hg' : g.codim = k := by simp only [Face.codim] at hg; omega
            rw [hg'] at hlt
            rw [List.getElem?_append_left (by rw [lb]; exact hlt)]
            rw [Face.comp_cone_base]; exact gb g hg'
          | cone g =>
            have hg' : g.codim = k + 1 := hg
            have := Face.codim_le g; omega
          | apex =>
            have : k = f.shape.dim := by simp only [Face.codim] at hg; omega
            rw [Face.comp_cone_apex]
            simp only [Face.idx]
            rw [← this, List.getElem?_append_right (by rw [lb]), lb, Nat.sub_self]
            have : f.codim + k = t.dim := by omega
            rw [this]; rfl
    | apex =>
      simp only [Face.codim] at hsc; omega

end Verif.RefTopo
