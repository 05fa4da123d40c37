import Verif.RefElem.Model
import Verif.RefGeom.Props

/-! Property theorems for the reference element container: C53. -/

namespace Verif.RefElem

open Verif.Typ Verif.RefTopo Verif.RefGeom

/-! ### The constructor -/

theorem foldl_set {α : Type} (f : Nat → α) : ∀ (n : Nat) (l : List α), n ≤ l.length → ∀ i,
    ((List.range n).foldl (fun l k => l.set k (f k)) l)[i]? = if i < n then some (f i) else l[i]?
  | 0, l, _, i => by simp
  | n + 1, l, h, i => by
    have hl : ∀ (m : Nat) (l : List α), ((List.range m).foldl (fun l k => l.set k (f k)) l).length = l.length := by
      intro m
      induction m with
      | zero => simp
      | succ m ih => intro l; rw [List.range_succ, List.foldl_append]; simp [ih]
    rw [List.range_succ, List.foldl_append]
    simp only [List.foldl_cons, List.foldl_nil]
    rw [List.getElem?_set, foldl_set f n l (by omega) i, hl]
    by_cases h1 : n = i
    · subst h1
      rw [if_pos rfl, if_pos (by omega), if_pos (by omega)]
    · rw [if_neg h1]
      by_cases h2 : i < n
      · rw [if_pos h2, if_pos (by omega)]
      · rw [if_neg h2, if_neg (by omega)]

theorem foldl_pass (l : List Nat) : ∀ c : Container, (l.foldl Container.initPass c) =
    ⟨l.foldl (fun l k => l.set k (some k)) c.implementations, l.foldl (fun l k => l.set k ⟨some k⟩) c.referenceElements⟩ := by
  induction l with
  | nil => intro c; rfl
  | cons a l ih => intro c; simp only [List.foldl_cons, ih, Container.initPass]

/-- the container after construction: element `i` points to implementation `i`, which is that of topology `i` -/
theorem create_spec {dim : Nat} (hd : dim < 32) : ∃ c, Container.create dim = some c ∧
    c.referenceElements = (List.range (2 ^ dim)).map (fun i => ⟨some i⟩) ∧
    c.implementations = (List.range (2 ^ dim)).map some := by
  refine ⟨_, if_pos hd, ?_, ?_⟩
  · apply List.ext_getElem?
    intro i
    rw [foldl_pass]
    simp only
    rw [foldl_set (fun k => (⟨some k⟩ : ReferenceElement)) _ _ (by simp [Container.blank])]
    by_cases h : i < 2 ^ dim
    · simp [h]
    · simp [h, Container.blank]
  · apply List.ext_getElem?
    intro i
    rw [foldl_pass]
    simp only
    rw [foldl_set (fun k => some k) _ _ (by simp [Container.blank])]
    by_cases h : i < 2 ^ dim
    · simp [h]
    · simp [h, Container.blank]

theorem elem_getElem {dim i : Nat} {c : Container} (h : c.referenceElements = (List.range (2 ^ dim)).map (fun i => ⟨some i⟩))
    (hi : i < 2 ^ dim) : c.referenceElements[i]? = some ⟨some i⟩ := by
  rw [h, List.getElem?_map, List.getElem?_range hi]; rfl

theorem deref_eq {dim i : Nat} {c : Container} (h : c.implementations = (List.range (2 ^ dim)).map some) (hi : i < 2 ^ dim) :
    c.deref ⟨some i⟩ = some i := by
  unfold Container.deref
  simp [h, hi]

theorem refType_self {d id : Nat} (hd : d ≤ 31) (hid : id < 2 ^ d) : refType d id 0 0 = ⟨d, false, id⟩ := by
  rw [refType_eq d id 0 0 hd hid (by omega)]
  simp [subTopologyId]

/-! ### C53 -/

/-- C53: `general(type)` returns an element whose `type()` is the requested type. -/
theorem C53_general (d : Nat) (t : GeometryType) (ht : Regular t) (hd : t.dim = d) (h31 : d ≤ 31) :
    ∃ c e, Container.create d = some c ∧ general d t = some e ∧ c.typeOf d e = some t := by
  obtain ⟨c, h1, h2, h3⟩ := create_spec (dim := d) (by omega)
  obtain ⟨dd, n, id⟩ := t
  obtain ⟨hn, hv⟩ := ht
  simp only at hn hd hv
  subst hn hd
  refine ⟨c, ⟨some id⟩, h1, ?_, ?_⟩
  · simp only [general, h1]
    change c.call dd ⟨dd, false, id⟩ = _
    rw [Container.call, if_pos rfl]
    exact elem_getElem h2 hv
  · rw [Container.typeOf, deref_eq h3 hv]
    simp only [Option.bind_eq_bind, Option.bind_some, refType_self h31 hv]
    rfl

/-- C53: the named accessors return the element of that type; the accessors for pyramid and prism are those of
dimension 3. -/
theorem C53_named (d : Nat) (hd : d ≤ 30) : ∃ c, Container.create d = some c ∧
    (∃ e, c.simplex d = some e ∧ general d (simplex d) = some e ∧ c.typeOf d e = some (simplex d)) ∧
    (∃ e t, cube d = some t ∧ c.cube d = some e ∧ general d t = some e ∧ c.typeOf d e = some t) ∧
    (d = 3 → (∃ e, c.pyramid = some e ∧ general d pyramid = some e ∧ c.typeOf d e = some pyramid) ∧
      (∃ e, c.prism = some e ∧ general d prism = some e ∧ c.typeOf d e = some prism)) := by
  obtain ⟨c, h1, h2, h3⟩ := create_spec (dim := d) (by omega)
  have key : ∀ t : GeometryType, Regular t → t.dim = d → ∃ e, c.referenceElements[t.id]? = some e ∧ general d t = some e ∧
      c.typeOf d e = some t := by
    intro t ht htd
    obtain ⟨c', e, g1, g2, g3⟩ := C53_general d t ht htd (by omega)
    obtain rfl : c = c' := by rw [h1] at g1; exact Option.some.inj g1
    refine ⟨e, ?_, g2, g3⟩
    simp only [general, h1] at g2
    change c.call d t = _ at g2
    rwa [Container.call, if_pos htd] at g2
  have hp := Nat.two_pow_pos d
  refine ⟨c, h1, ?_, ?_, ?_⟩
  · have hs : simplex d = ⟨d, false, 0⟩ := by unfold simplex; rw [mk3_eq (by omega) (by omega)]
    exact key _ (by rw [hs]; exact ⟨rfl, hp⟩) (by rw [hs])
  · obtain ⟨t, ht, hr, hdim⟩ : ∃ t, cube d = some t ∧ Regular t ∧ t.dim = d := by
      have h3 := pow_le_30 hd
      by_cases h1 : 1 < d
      · refine ⟨_, cube_eq hd h1, ?_⟩
        rw [mk3_eq (by omega) (by omega)]
        exact ⟨⟨rfl, by simp only; omega⟩, rfl⟩
      · refine ⟨mk3 0 d false, by rw [cube, if_neg h1], ?_⟩
        rw [mk3_eq (by omega) (by omega)]
        exact ⟨⟨rfl, hp⟩, rfl⟩
    obtain ⟨e, e1, e2, e3⟩ := key t hr hdim
    exact ⟨e, t, ht, by rw [Container.cube, ht]; exact e1, e2, e3⟩
  · rintro rfl
    exact ⟨key pyramid ⟨rfl, by decide⟩ rfl, key prism ⟨rfl, by decide⟩ rfl⟩

/-- C53: iterating from `begin()` to `end()` visits every valid type of the dimension exactly once. -/
theorem C53_iterate (d : Nat) (hd : d ≤ 31) : ∃ c, Container.create d = some c ∧
    c.elements.map (c.typeOf d) = (List.range (2 ^ d)).map fun id => some ⟨d, false, id⟩ := by
  obtain ⟨c, h1, h2, h3⟩ := create_spec (dim := d) (by omega)
  refine ⟨c, h1, ?_⟩
  rw [Container.elements, h2, List.map_map]
  refine List.map_congr_left fun i hi => ?_
  have hi := List.mem_range.1 hi
  simp only [Function.comp_apply, Container.typeOf, deref_eq h3 hi, Option.bind_eq_bind, Option.bind_some,
    refType_self hd hi]
  rfl

/-- full statement of the last part of C53: equal types get equal reference elements -/
def C53_equal_full : Prop := ∀ (d : Nat) (s t : GeometryType) (e f : ReferenceElement), Regular s → Regular t → d ≤ 31 →
  general d s = some e → general d t = some f → (eq s t = true ↔ e.equal f = true)

/-- the two topology ids of a line are equal types, but the container holds two elements for them -/
theorem C53_equal_counterexample : ¬ C53_equal_full := by
  intro h
  have := (h 1 ⟨1, false, 0⟩ ⟨1, false, 1⟩ ⟨some 0⟩ ⟨some 1⟩ ⟨rfl, by decide⟩ ⟨rfl, by decide⟩ (by omega) (by decide)
    (by decide)).1 (by decide)
  revert this
  decide

/-- C53: reference elements compare equal exactly if they were requested with the same topology id.  Missing
from the full statement: types that are equal with different topology ids; they get elements with the same
answers (`C53_same_answers`). -/
theorem C53_equal_partial (d : Nat) (s t : GeometryType) (e f : ReferenceElement) (hs : Regular s) (ht : Regular t) (hd : d ≤ 31)
    (he : general d s = some e) (hf : general d t = some f) :
    (e.equal f = true ↔ s.id = t.id) ∧ (e.equal f = true → eq s t = true) ∧ (e.notEqual f = !(e.equal f)) := by
  obtain ⟨c, h1, h2, -⟩ := create_spec (dim := d) (by omega)
  have key : ∀ (s : GeometryType) (e : ReferenceElement), Regular s → general d s = some e → s.dim = d ∧ e = ⟨some s.id⟩ := by
    intro s e hs he
    simp only [general, h1] at he
    change c.call d s = _ at he
    unfold Container.call at he
    by_cases h : s.dim = d
    · rw [if_pos h, elem_getElem h2 (h ▸ hs.2)] at he
      exact ⟨h, (Option.some.inj he).symm⟩
    · rw [if_neg h] at he; cases he
  obtain ⟨k1, rfl⟩ := key s e hs he
  obtain ⟨k2, rfl⟩ := key t f ht hf
  have h : ReferenceElement.equal ⟨some s.id⟩ ⟨some t.id⟩ = true ↔ s.id = t.id := by simp [ReferenceElement.equal]
  refine ⟨h, fun g => ?_, rfl⟩
  have : s = t := by
    obtain ⟨a, b, x⟩ := s
    obtain ⟨a', b', x'⟩ := t
    have e1 := hs.1
    have e2 := ht.1
    have e3 := h.1 g
    simp only at e1 e2 e3 k1 k2
    subst e1 e2 e3 k1 k2
    rfl
  rw [this]
  simp [eq]

/-- a default constructed reference element is equal to no element of a container -/
theorem C53_default (d : Nat) (t : GeometryType) (e : ReferenceElement) (ht : Regular t) (hd : d ≤ 31) (he : general d t = some e) :
    e.equal .default = false := by
  obtain ⟨c, h1, h2, -⟩ := create_spec (dim := d) (by omega)
  simp only [general, h1] at he
  change c.call d t = _ at he
  unfold Container.call at he
  by_cases h : t.dim = d
  · rw [if_pos h, elem_getElem h2 (h ▸ ht.2)] at he
    cases he; rfl
  · rw [if_neg h] at he; cases he

/-- C53: equality of reference elements, default constructed ones included, is an equivalence relation, and `!=` is its
negation; all default constructed elements are equal -/
theorem C53_equivalence (e f g : ReferenceElement) : e.equal e = true ∧ e.equal f = f.equal e ∧
    (e.equal f = true → f.equal g = true → e.equal g = true) ∧ e.notEqual f = !e.equal f ∧
    ReferenceElement.default.equal .default = true := by
  refine ⟨?_, ?_, ?_, rfl, rfl⟩
  · simp only [ReferenceElement.equal, beq_self_eq_true]
  · simp only [ReferenceElement.equal]
    rw [Bool.eq_iff_iff, beq_iff_eq, beq_iff_eq]
    exact eq_comm
  · simp only [ReferenceElement.equal, beq_iff_eq]
    exact fun h1 h2 => h1.trans h2

/-- a request for a type of the wrong dimension, or with a topology id out of range, is undefined -/
theorem C53_undefined (d : Nat) (t : GeometryType) (hd : d ≤ 31) (h : t.dim ≠ d ∨ 2 ^ d ≤ t.id) : general d t = none := by
  obtain ⟨c, h1, h2, -⟩ := create_spec (dim := d) (by omega)
  simp only [general, h1]
  change c.call d t = _
  unfold Container.call
  by_cases hh : t.dim = d
  · rw [if_pos hh, h2, List.getElem?_eq_none]
    simp; omega
  · rw [if_neg hh]

/-- `general` of the none type returns the simplex -/
theorem C53_none_counterexample (d : Nat) (hd : d ≤ 31) : ∃ c e, Container.create d = some c ∧
    general d (noneType d) = some e ∧ c.typeOf d e = some (simplex d) ∧ eq (simplex d) (noneType d) = false := by
  obtain ⟨c, h1, h2, h3⟩ := create_spec (dim := d) (by omega)
  have hs : simplex d = ⟨d, false, 0⟩ := by unfold simplex; rw [mk3_eq (by omega) (by omega)]
  have hn : noneType d = ⟨d, true, 0⟩ := by unfold noneType; rw [mk3_eq (by omega) (by omega)]
  have hp := Nat.two_pow_pos d
  refine ⟨c, ⟨some 0⟩, h1, ?_, ?_, ?_⟩
  · simp only [general, h1, hn]
    change c.call d ⟨d, true, 0⟩ = _
    rw [Container.call, if_pos rfl]
    exact elem_getElem h2 hp
  · rw [Container.typeOf, deref_eq h3 hp, hs]
    simp only [Option.bind_eq_bind, Option.bind_some, refType_self hd hp]
    rfl
  · rw [hs, hn]; simp [eq]

/-! ### Elements of equal types answer alike -/

theorem isPrism_congr {x y d : Nat} (h : x / 2 = y / 2) : implIsPrism x (d + 1) 0 = implIsPrism y (d + 1) 0 := by
  rw [implIsPrism_eq, implIsPrism_eq]
  cases d with
  | zero => simp
  | succ d => simp only [Nat.testBit_succ, h]

theorem base_congr {x y d : Nat} (h : x / 2 = y / 2) :
    implBaseTopologyId x (d + 1) 1 / 2 = implBaseTopologyId y (d + 1) 1 / 2 := by
  rw [implBase_eq, implBase_eq, half_eq_iff]
  rw [half_eq_iff] at h
  intro k hk
  rw [Nat.testBit_mod_two_pow, Nat.testBit_mod_two_pow, h k hk]

section
variable {K : Type} [Field K]

theorem checkInside_congr [LinearOrder K] : ∀ {d x y : Nat}, x / 2 = y / 2 → ∀ (v : Vec K) (tol fac : K),
    checkInside d x v tol fac = checkInside d y v tol fac
  | 0, _, _, _, _, _, _ => rfl
  | d + 1, x, y, h, v, tol, fac => by
    simp only [checkInside, isPrism_congr h, checkInside_congr (base_congr (d := d) h)]

theorem corners_congr : ∀ {d x y : Nat}, x / 2 = y / 2 → (referenceCorners d x : List (Vec K)) = referenceCorners d y
  | 0, _, _, _ => rfl
  | d + 1, x, y, h => by
    simp only [referenceCorners, isPrism_congr h, corners_congr (base_congr (d := d) h)]

theorem volumeInverse_congr : ∀ {d x y : Nat}, x / 2 = y / 2 → referenceVolumeInverse d x = referenceVolumeInverse d y
  | 0, _, _, _ => rfl
  | d + 1, x, y, h => by
    simp only [referenceVolumeInverse, isPrism_congr h, volumeInverse_congr (base_congr (d := d) h)]

theorem origins_congr : ∀ {d x y : Nat}, x / 2 = y / 2 → ∀ c, (referenceOrigins d x c : List (Vec K)) = referenceOrigins d y c
  | 0, _, _, _, 0 => rfl
  | 0, _, _, _, c + 1 => rfl
  | d + 1, x, y, h, 0 => rfl
  | d + 1, x, y, h, c + 1 => by
    simp only [referenceOrigins, isPrism_congr h, origins_congr (base_congr (d := d) h)]

theorem embeddings_congr : ∀ {d x y : Nat}, x / 2 = y / 2 → ∀ c,
    (referenceEmbeddings d x c : List (Vec K × Mat K)) = referenceEmbeddings d y c
  | 0, _, _, _, 0 => rfl
  | 0, _, _, _, c + 1 => rfl
  | d + 1, x, y, h, 0 => rfl
  | d + 1, x, y, h, c + 1 => by
    simp only [referenceEmbeddings, isPrism_congr h, embeddings_congr (base_congr (d := d) h)]

theorem normals_congr (cdim : Nat) : ∀ {d x y : Nat}, x / 2 = y / 2 → ∀ o : List (Vec K),
    outerNormalsRec cdim d x o = outerNormalsRec cdim d y o
  | 0, _, _, _, _ => rfl
  | 1, x, y, h, _ => rfl
  | d + 2, x, y, h, o => by
    simp only [outerNormalsRec, isPrism_congr h, normals_congr cdim (base_congr (d := d + 1) h)]

theorem mapM_congr' {α β : Type} {f g : α → Option β} : ∀ {l : List α}, (∀ a ∈ l, f a = g a) → l.mapM f = l.mapM g
  | [], _ => rfl
  | a :: l, h => by
    simp only [List.mapM_cons, h a (by simp), mapM_congr' (l := l) fun b hb => h b (by simp [hb])]

/-- C53: the reference elements of two types that compare equal answer every query alike: sizes, numbering and
types of sub-entities (up to `==`), positions of all sub-entities, `checkInside`, volume, embeddings and outer
normals. -/
theorem C53_same_answers (a b : GeometryType) (ha : Regular a) (hb : Regular b) (hd : a.dim ≤ 31) (h : eq a b = true)
    [LinearOrder K] :
    (∀ c, c ≤ a.dim → refSize a.dim a.id c = refSize b.dim b.id c) ∧
    (∀ i c, c ≤ a.dim → i < refSize a.dim a.id c →
      eq (refType a.dim a.id i c) (refType b.dim b.id i c) = true ∧
      (∀ cc, cc ≤ a.dim → refSize3 a.dim a.id i c cc = refSize3 b.dim b.id i c cc ∧
        subEntities a.dim a.id i c cc = subEntities b.dim b.id i c cc) ∧
      (position a.dim a.id i c : Option (Vec K)) = position b.dim b.id i c) ∧
    (∀ (x : Vec K) eps, refCheckInside a.dim a.id x eps = refCheckInside b.dim b.id x eps) ∧
    (referenceVolume a.dim a.id : K) = referenceVolume b.dim b.id ∧
    (∀ c, (referenceEmbeddings a.dim a.id c : List (Vec K × Mat K)) = referenceEmbeddings b.dim b.id c) ∧
    (referenceIntegrationOuterNormals a.dim a.dim a.id : List (Vec K)) = referenceIntegrationOuterNormals b.dim b.dim b.id := by
  obtain ⟨hdim, hsh⟩ := (C02_eq_spec a b ha.notNone hb.notNone).1 h
  have hh : a.id / 2 = b.id / 2 := (half_eq_iff _ _).2 hsh
  refine ⟨fun c hc => (C55_equal_types a b ha hb hd h 0 c hc).1, fun i c hc hi => ?_, ?_, ?_, ?_, ?_⟩
  · have h55 := (C55_equal_types a b ha hb hd h i c hc).2 hi
    refine ⟨h55.1, h55.2, ?_⟩
    have e1 := (h55.2 a.dim le_rfl).1
    have e2 := (h55.2 a.dim le_rfl).2
    rw [← hdim] at e1 e2 ⊢
    have e3 : ((List.range (refSize3 a.dim a.id i c a.dim)).mapM fun j =>
          (subEntity a.dim a.id i c j a.dim).bind fun k => (referenceCorners a.dim a.id : List (Vec K))[k]?) =
        ((List.range (refSize3 a.dim b.id i c a.dim)).mapM fun j =>
          (subEntity a.dim b.id i c j a.dim).bind fun k => (referenceCorners a.dim b.id : List (Vec K))[k]?) := by
      rw [← e1, corners_congr hh]
      refine mapM_congr' fun j hj => ?_
      have hj := List.mem_range.1 hj
      rw [number_eq _ _ _ _ _ _ hj, number_eq _ _ _ _ _ _ (e1 ▸ hj), e2]
    simp only [position, Option.bind_eq_bind, e3]
    rw [e1, corners_congr hh]
  · intro x eps
    rw [refCheckInside, refCheckInside, ← hdim, checkInside_congr hh]
  · rw [referenceVolume, referenceVolume, ← hdim, volumeInverse_congr hh]
  · intro c; rw [← hdim, embeddings_congr hh]
  · rw [referenceIntegrationOuterNormals, referenceIntegrationOuterNormals, ← hdim, origins_congr hh, normals_congr _ hh]

end

example : ∃ a b : GeometryType, Regular a ∧ Regular b ∧ a.dim ≤ 31 ∧ eq a b = true ∧ a.id ≠ b.id :=
  ⟨⟨3, false, 4⟩, ⟨3, false, 5⟩, ⟨rfl, by decide⟩, ⟨rfl, by decide⟩, by decide, by decide, by decide⟩

example : ∃ e f, general 3 pyramid = some e ∧ general 3 prism = some f ∧ e.equal f = false :=
  ⟨⟨some 3⟩, ⟨some 5⟩, by decide, by decide, by decide⟩

end Verif.RefElem
