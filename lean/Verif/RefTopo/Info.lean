import Verif.RefTopo.Lemmas

/-! The stored sub-entity information agrees with the face specification. -/

namespace Verif.RefTopo

open Verif.Typ

theorem offsets_le (d c s : Nat) : ∀ k, k ≤ c → offsets d c s k = 0
  | 0, _ => rfl
  | k + 1, h => by rw [offsets, if_pos h]

theorem offsets_succ (d c s k : Nat) (h : c ≤ k) :
    offsets d c s (k + 1) = offsets d c s k + size (d - c) s (k - c) := by
  rw [offsets, if_neg (by omega)]

theorem offsets_mono (d c s : Nat) {a b : Nat} (h : a ≤ b) : offsets d c s a ≤ offsets d c s b := by
  induction b, h using Nat.le_induction with
  | base => exact le_refl _
  | succ k hk ih =>
    by_cases hc : c ≤ k
    · rw [offsets_succ _ _ _ _ hc]; omega
    · rw [offsets_le _ _ _ a (by omega)]; omega

theorem numberingsFrom_slice (d id c i s : Nat)
    (hl : ∀ cc, c ≤ cc → cc ≤ d → (subTopologyNumbering d id c i (cc - c)
      (offsets d c s (cc + 1) - offsets d c s cc)).length = offsets d c s (cc + 1) - offsets d c s cc) :
    ∀ k cc0, c ≤ cc0 → cc0 + k ≤ d + 1 →
      (numberingsFrom d id c i s cc0 k).length = offsets d c s (cc0 + k) - offsets d c s cc0 ∧
      ∀ cc, cc0 ≤ cc → cc < cc0 + k →
      ((numberingsFrom d id c i s cc0 k).drop (offsets d c s cc - offsets d c s cc0)).take
        (offsets d c s (cc + 1) - offsets d c s cc) =
      subTopologyNumbering d id c i (cc - c) (offsets d c s (cc + 1) - offsets d c s cc) := by
  intro k
  induction k with
  | zero => intro cc0 _ _; exact ⟨by simp [numberingsFrom], fun cc h1 h2 => by omega⟩
  | succ k ih =>
    intro cc0 h0 hk
    obtain ⟨il, is⟩ := ih (cc0 + 1) (by omega) (by omega)
    have hl0 := hl cc0 h0 (by omega)
    have m1 := offsets_mono d c s (show cc0 ≤ cc0 + 1 by omega)
    have m2 := offsets_mono d c s (show cc0 + 1 ≤ cc0 + 1 + k by omega)
    refine ⟨?_, ?_⟩
    · rw [numberingsFrom, List.length_append, hl0, il, show cc0 + (k + 1) = cc0 + 1 + k by omega]
      omega
    · intro cc h1 h2
      rw [numberingsFrom]
      by_cases he : cc = cc0
      · subst he
        rw [Nat.sub_self, List.drop_zero, List.take_append_of_le_length (by rw [hl0]),
          List.take_of_length_le (by rw [hl0])]
      · have m3 := offsets_mono d c s (show cc0 + 1 ≤ cc by omega)
        rw [← is cc (by omega) (by omega), List.drop_append, List.drop_of_length_le (by rw [hl0]; omega), hl0,
          List.nil_append]
        congr 2
        omega

variable {d id : Nat} {t : Topo}

/-- The range of sub-entities that is stored is the output of `subTopologyNumbering`. -/
theorem numbers_eq (h : Rep d id t) (hid : id < 2 ^ d) (f : Face t) {cc : Nat} (h1 : f.codim ≤ cc) (h2 : cc ≤ d) :
    subEntities d id f.idx f.codim cc =
      subTopologyNumbering d id f.codim f.idx (cc - f.codim) (f.shape.sz (cc - f.codim)) ∧
    refSize3 d id f.idx f.codim cc = f.shape.sz (cc - f.codim) ∧
    (SubEntityInfo.initialize d id f.codim f.idx).numbering.length =
      (SubEntityInfo.initialize d id f.codim f.idx).capacity d := by
  have hfd := Face.codim_add_dim f
  rw [h.dim_eq] at hfd
  have hrs := size_eq (rep_sub h hid f)
  set s := subTopologyId d id f.codim f.idx with hs
  have hdiff : ∀ cc, f.codim ≤ cc → cc ≤ d →
      offsets d f.codim s (cc + 1) - offsets d f.codim s cc = f.shape.sz (cc - f.codim) := by
    intro cc h1 h2
    rw [offsets_succ _ _ _ _ h1, hrs _ (by omega)]; omega
  have hl : ∀ cc, f.codim ≤ cc → cc ≤ d → (subTopologyNumbering d id f.codim f.idx (cc - f.codim)
      (offsets d f.codim s (cc + 1) - offsets d f.codim s cc)).length =
        offsets d f.codim s (cc + 1) - offsets d f.codim s cc := by
    intro cc h1 h2
    rw [hdiff cc h1 h2]
    exact (numbering_eq h hid f (cc - f.codim) _ (by omega) rfl).1
  obtain ⟨ll, sl⟩ := numberingsFrom_slice d id f.codim f.idx s hl (d + 1 - f.codim) f.codim (le_refl _) (by omega)
  have hz := offsets_le d f.codim s f.codim (le_refl _)
  have e2 : f.codim + (d + 1 - f.codim) = d + 1 := by omega
  refine ⟨?_, ?_, ?_⟩
  · have := sl cc h1 (by omega)
    rw [hz, Nat.sub_zero, hdiff cc h1 h2] at this
    simp only [subEntities, SubEntityInfo.numbers, SubEntityInfo.initialize, ← hs]
    rw [hdiff cc h1 h2, this]
  · simp only [refSize3, SubEntityInfo.size, SubEntityInfo.initialize, ← hs]
    exact hdiff cc h1 h2
  · simp only [SubEntityInfo.initialize, SubEntityInfo.capacity, ← hs]
    rw [ll, hz, e2, Nat.sub_zero]

/-- for codimensions below that of the sub-entity nothing is stored -/
theorem numbers_lt (d id i c cc : Nat) (h : cc < c) :
    subEntities d id i c cc = [] ∧ refSize3 d id i c cc = 0 := by
  simp only [subEntities, SubEntityInfo.numbers, refSize3, SubEntityInfo.size, SubEntityInfo.initialize]
  rw [offsets_le _ _ _ (cc + 1) (by omega)]
  simp

theorem subEntities_length (h : Rep d id t) (hid : id < 2 ^ d) (f : Face t) {cc : Nat} (h1 : f.codim ≤ cc)
    (h2 : cc ≤ d) : (subEntities d id f.idx f.codim cc).length = f.shape.sz (cc - f.codim) := by
  rw [(numbers_eq h hid f h1 h2).1]
  exact (numbering_eq h hid f (cc - f.codim) _ (by omega) rfl).1

theorem subEntities_getElem (h : Rep d id t) (hid : id < 2 ^ d) (f : Face t) (g : Face f.shape) :
    (subEntities d id f.idx f.codim (f.codim + g.codim))[g.idx]? = some (Face.comp f g).idx := by
  have h1 := Face.codim_le g
  have h2 := Face.codim_add_dim f
  rw [h.dim_eq] at h2
  rw [(numbers_eq h hid f (by omega) (by omega)).1, Nat.add_sub_cancel_left]
  exact (numbering_eq h hid f g.codim _ (by omega) rfl).2 g rfl

theorem number_eq (d id i c cc ii : Nat) (h : ii < refSize3 d id i c cc) :
    subEntity d id i c ii cc = (subEntities d id i c cc)[ii]? := by
  simp only [subEntity, SubEntityInfo.number, subEntities, SubEntityInfo.numbers]
  simp only [refSize3, SubEntityInfo.size] at h
  rw [List.getElem?_take_of_lt h, List.getElem?_drop]

/-- `subEntity` is composition of faces. -/
theorem subEntity_eq (h : Rep d id t) (hid : id < 2 ^ d) (f : Face t) (g : Face f.shape) :
    subEntity d id f.idx f.codim g.idx (f.codim + g.codim) = some (Face.comp f g).idx := by
  have h1 := Face.codim_le g
  have h2 := Face.codim_add_dim f
  rw [h.dim_eq] at h2
  rw [number_eq, subEntities_getElem h hid]
  rw [(numbers_eq h hid f (by omega) (by omega)).2.1, Nat.add_sub_cancel_left]
  exact Face.idx_lt g

/-- the numbers in the range `subEntities(i,c,cc)` are those of the faces below `f` -/
theorem mem_subEntities (h : Rep d id t) (hid : id < 2 ^ d) (f : Face t) {cc : Nat}
    (h2 : cc ≤ d) (k : Nat) :
    k ∈ subEntities d id f.idx f.codim cc ↔ ∃ g : Face t, g.codim = cc ∧ g.idx = k ∧ Face.le g f = true := by
  by_cases h1 : f.codim ≤ cc
  · constructor
    · intro hk
      obtain ⟨j, hj⟩ := List.mem_iff_getElem?.1 hk
      have hlt := (List.getElem?_eq_some_iff.1 hj).1
      rw [subEntities_length h hid f h1 h2] at hlt
      obtain ⟨g, hg, rfl⟩ := Face.idx_surj _ _ _ hlt
      have e : f.codim + g.codim = cc := by omega
      rw [← e, subEntities_getElem h hid] at hj
      exact ⟨Face.comp f g, by rw [Face.codim_comp, e], by simpa using hj, Face.comp_le f g⟩
    · rintro ⟨g', hc, hi, hle⟩
      obtain ⟨g, rfl⟩ := Face.exists_comp_of_le hle
      have e := subEntities_getElem h hid f g
      rw [Face.codim_comp] at hc
      rw [hc, hi] at e
      exact List.mem_of_getElem? e
  · rw [(numbers_lt _ _ _ _ _ (by omega)).1]
    constructor
    · intro hk; cases hk
    · rintro ⟨g', hc, hi, hle⟩
      obtain ⟨g, rfl⟩ := Face.exists_comp_of_le hle
      rw [Face.codim_comp] at hc; omega

/-! ### associativity of composition -/

namespace Face

theorem heq_prism {s s' : Topo} (e : s = s') (a : Face (.prism s)) (b : Face (.prism s')) (h : HEq a b) :
    (∃ x y, a = edge x ∧ b = edge y ∧ HEq x y) ∨ (∃ x y, a = bot x ∧ b = bot y ∧ HEq x y) ∨
    (∃ x y, a = top x ∧ b = top y ∧ HEq x y) := by
  subst e
  obtain rfl := eq_of_heq h
  cases a with
  | edge x => exact Or.inl ⟨x, x, rfl, rfl, HEq.rfl⟩
  | bot x => exact Or.inr (Or.inl ⟨x, x, rfl, rfl, HEq.rfl⟩)
  | top x => exact Or.inr (Or.inr ⟨x, x, rfl, rfl, HEq.rfl⟩)

theorem heq_pyr {s s' : Topo} (e : s = s') (a : Face (.pyr s)) (b : Face (.pyr s')) (h : HEq a b) :
    (∃ x y, a = base x ∧ b = base y ∧ HEq x y) ∨ (∃ x y, a = cone x ∧ b = cone y ∧ HEq x y) ∨
    (a = apex ∧ b = apex) := by
  subst e
  obtain rfl := eq_of_heq h
  cases a with
  | base x => exact Or.inl ⟨x, x, rfl, rfl, HEq.rfl⟩
  | cone x => exact Or.inr (Or.inl ⟨x, x, rfl, rfl, HEq.rfl⟩)
  | apex => exact Or.inr (Or.inr ⟨rfl, rfl⟩)

theorem comp_assoc {t : Topo} (f : Face t) (g : Face f.shape) :
    ∀ (h' : Face (comp f g).shape) (h : Face g.shape), HEq h' h → comp (comp f g) h' = comp f (comp g h) := by
  induction f, g using comp_induction with
  | hpt => intro h' h e; cases eq_of_heq e; rfl
  | hee f g ih =>
    intro h' h e
    rcases heq_prism (shape_comp f g) h' h e with ⟨x, y, rfl, rfl, e'⟩ | ⟨x, y, rfl, rfl, e'⟩ | ⟨x, y, rfl, rfl, e'⟩
    · exact congrArg edge (ih x y e')
    · exact congrArg bot (ih x y e')
    · exact congrArg top (ih x y e')
  | heb f g ih => intro h' h e; exact congrArg bot (ih h' h e)
  | het f g ih => intro h' h e; exact congrArg top (ih h' h e)
  | hb f g ih => intro h' h e; exact congrArg bot (ih h' h e)
  | ht f g ih => intro h' h e; exact congrArg top (ih h' h e)
  | hba f g ih => intro h' h e; exact congrArg base (ih h' h e)
  | hcb f g ih => intro h' h e; exact congrArg base (ih h' h e)
  | hcc f g ih =>
    intro h' h e
    rcases heq_pyr (shape_comp f g) h' h e with ⟨x, y, rfl, rfl, e'⟩ | ⟨x, y, rfl, rfl, e'⟩ | ⟨rfl, rfl⟩
    · exact congrArg base (ih x y e')
    · exact congrArg cone (ih x y e')
    · rfl
  | hca f => intro h' h e; cases h; cases h'; rfl
  | ha => intro h' h e; cases h; cases h'; rfl

end Face

/-! ### the lowest bit of the id is irrelevant -/

theorem Rep.congr {d id : Nat} {t : Topo} (h : Rep d id t) : ∀ {id'}, id / 2 = id' / 2 → Rep d id' t := by
  have key : ∀ {d id id' : Nat}, d ≠ 0 → id / 2 = id' / 2 → id.testBit d = id'.testBit d := by
    intro d id id' hd e
    obtain ⟨k, rfl⟩ := Nat.exists_eq_succ_of_ne_zero hd
    rw [Nat.testBit_succ, Nat.testBit_succ, e]
  have key2 : ∀ {d id id' : Nat}, id / 2 = id' / 2 → id % 2 ^ d / 2 = id' % 2 ^ d / 2 := by
    intro d id id' e
    cases d with
    | zero => simp [Nat.mod_one]
    | succ k => rw [pow_succ', Nat.mod_mul_right_div_self, Nat.mod_mul_right_div_self, e]
  induction h with
  | pt id => intro id' _; exact .pt _
  | prism hb _ ih =>
    intro id' e
    refine .prism ?_ (ih (key2 e))
    rcases hb with hb | hb
    · exact Or.inl hb
    · rename_i d _ _ _
      by_cases hd : d = 0
      · exact Or.inl hd
      · exact Or.inr (by rw [← key hd e, hb])
  | pyr hb _ ih =>
    intro id' e
    refine .pyr ?_ (ih (key2 e))
    rcases hb with hb | hb
    · exact Or.inl hb
    · rename_i d _ _ _
      by_cases hd : d = 0
      · exact Or.inl hd
      · exact Or.inr (by rw [← key hd e, hb])

/-- an id describing a topology is determined up to its lowest bit -/
theorem Rep.id_unique {d id : Nat} {t : Topo} (h : Rep d id t) :
    ∀ {id'}, Rep d id' t → id < 2 ^ d → id' < 2 ^ d → id / 2 = id' / 2 := by
  have key : ∀ {d id id' : Nat}, (d = 0 ∨ id.testBit d = id'.testBit d) → id % 2 ^ d / 2 = id' % 2 ^ d / 2 →
      id < 2 ^ (d + 1) → id' < 2 ^ (d + 1) → id / 2 = id' / 2 := by
    intro d id id' hb e h1 h2
    rw [half_eq_iff]
    rw [half_eq_iff] at e
    intro k hk
    rcases lt_trichotomy k d with h | h | h
    · have := e k hk
      simpa [Nat.testBit_mod_two_pow, h] using this
    · subst h; rcases hb with hb | hb
      · omega
      · exact hb
    · have e1 : 2 ^ (d + 1) ≤ 2 ^ k := Nat.pow_le_pow_right (by omega) h
      rw [Nat.testBit_lt_two_pow (by omega), Nat.testBit_lt_two_pow (by omega)]
  induction h with
  | pt id => intro id' _ h1 h2; omega
  | prism hb _ ih =>
    intro id' h' h1 h2
    cases h' with
    | prism hb' h' =>
      refine key ?_ (ih h' (Nat.mod_lt _ (Nat.two_pow_pos _)) (Nat.mod_lt _ (Nat.two_pow_pos _))) h1 h2
      rcases hb with hb | hb
      · exact Or.inl hb
      · rcases hb' with hb' | hb'
        · exact Or.inl hb'
        · exact Or.inr (by rw [hb, hb'])
  | pyr hb _ ih =>
    intro id' h' h1 h2
    cases h' with
    | pyr hb' h' =>
      refine key ?_ (ih h' (Nat.mod_lt _ (Nat.two_pow_pos _)) (Nat.mod_lt _ (Nat.two_pow_pos _))) h1 h2
      rcases hb with hb | hb
      · exact Or.inl hb
      · rcases hb' with hb' | hb'
        · exact Or.inl hb'
        · exact Or.inr (by rw [hb, hb'])

end Verif.RefTopo
