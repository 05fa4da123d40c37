import Verif.Buffer.Geometry

/-!
C106: building a reference element stays within its arrays and within 32 bits.

The functions are those of `Buffer.Model`: they work on memory cells and on `unsigned int`, and every access outside
of an allocation and every read of an unwritten cell is `none`.
-/

namespace Verif.Buffer

open Verif.Typ Verif.RefTopo Verif.RefGeom

/-- Specification: the cells from `p` on contain the list, all other cells are unchanged. -/
def Filled {α : Type} (mem mem' : Mem α) (p : Nat) (l : List α) : Prop :=
  (∀ j (h : j < l.length), mem' (p + j) = some l[j]) ∧ ∀ q, q < p ∨ p + l.length ≤ q → mem' q = mem q

theorem filled_put {α : Type} (mem : Mem α) (p : Nat) (l : List α) : Filled mem (put mem p l) p l := by
  refine ⟨fun j h => ?_, fun q hq => ?_⟩
  · rw [put, if_pos (by omega), Nat.add_sub_cancel_left, List.getElem?_eq_getElem h]
  · rw [put, if_neg (by omega)]

/-- The property: for every dimension that a geometry type can have, the stored information on every sub-entity is
computed without leaving the arrays and without wrapping, i.e. it is that of `RefTopo.Model`. -/
def C106_full : Prop := ∀ d id c i, d ≤ 31 → id < 2 ^ d → c ≤ d → i < refSize d id c →
  ∃ s, initializeM (maxSubEntityCount Nat.choose d) d id c i = some s ∧
    s.numbering = (SubEntityInfo.initialize d id c i).numbering ∧
    s.type = (SubEntityInfo.initialize d id c i).type ∧
    (∀ k, k ≤ d + 1 → s.offset k = (SubEntityInfo.initialize d id c i).offset k) ∧
    (∀ cc, cc ≤ d → ∀ k, s.contains cc k = (SubEntityInfo.initialize d id c i).contains cc k)

/-- C106 up to dimension 20.  Missing: dimension 21 and above, where the code leaves the array
(`C106_offsets_counterexample`). -/
theorem C106_partial (d id c i : Nat) (hd : d ≤ 20) (hid : id < 2 ^ d) (hc : c ≤ d) (hi : i < refSize d id c) :
    ∃ s, initializeM (maxSubEntityCount Nat.choose d) d id c i = some s ∧
      s.numbering = (SubEntityInfo.initialize d id c i).numbering ∧
      s.type = (SubEntityInfo.initialize d id c i).type ∧
      (∀ k, k ≤ d + 1 → s.offset k = (SubEntityInfo.initialize d id c i).offset k) ∧
      (∀ cc, cc ≤ d → ∀ k, s.contains cc k = (SubEntityInfo.initialize d id c i).contains cc k) :=
  initializeM_eq hd hid hc hi

-- a quadrilateral face of the pyramid
example : (3 : Nat) ≤ 20 ∧ (3 : Nat) < 2 ^ 3 ∧ 0 < refSize 3 3 1 ∧
    ((initializeM (maxSubEntityCount Nat.choose 3) 3 3 1 0).map fun s => s.numbering) = some [0, 0, 1, 2, 3, 0, 1, 2, 3] := by
  decide +kernel

/-- C106: the numbers of entities are exact in `unsigned int` up to dimension 21. -/
theorem C106_size (d id c : Nat) (hd : d ≤ 21) (hc : c ≤ d) : sizeM d id c = refSize d id c :=
  sizeM_eq d hd id c hc

/-- C106: so are the ids of sub-entities. -/
theorem C106_subTopologyId (d id c i : Nat) (hd : d ≤ 21) (hc : c ≤ d) (hi : i < refSize d id c) :
    subTopologyIdM d id c i = subTopologyId d id c i := subTopologyIdM_eq d hd id c i hc hi

example : (21 : Nat) ≤ 21 ∧ sizeM 3 3 2 = 8 ∧ (4 : Nat) < refSize 3 3 1 ∧ subTopologyIdM 3 5 1 3 = 1 := by decide

/-- C106: a buffer that has the asserted length takes all numbers of the sub-entities of an entity; the cells around
it stay as they are. -/
theorem C106_numbering (d id c i sc cap b : Nat) (mem : Mem Nat) (hd : d ≤ 21) (hid : id < 2 ^ d) (hc : c + sc ≤ d)
    (hi : i < refSize d id c) (hcap : b + refSize (d - c) (subTopologyId d id c i) sc ≤ cap) :
    ∃ mem', numberingM cap d id c i sc b (b + refSize (d - c) (subTopologyId d id c i) sc) mem = some mem' ∧
      Filled mem mem' b (subTopologyNumbering d id c i sc (refSize (d - c) (subTopologyId d id c i) sc)) :=
  ⟨_, numberingM_eq cap d hd id hid c i sc b mem hc hi hcap, filled_put _ _ _⟩

example : (1 : Nat) + 1 ≤ 3 ∧ (1 : Nat) < refSize 3 3 1 ∧ refSize (3 - 1) (subTopologyId 3 3 1 1) 1 = 3 ∧
    ((numberingM 5 3 3 1 1 1 2 5 fun _ => none).map fun m => (List.range 5).map m) =
      some [none, none, some 0, some 4, some 6] := by
  decide +kernel

variable {K : Type} [Field K]

/-- C106: `referenceCorners` needs exactly as many cells as there are corners and returns their number. -/
theorem C106_corners (d id cap p : Nat) (mem : Mem (Vec K)) (hd : d ≤ 21) (hcap : p + refSize d id d ≤ cap) :
    ∃ mem', cornersM cap d id p mem = some (refSize d id d, mem') ∧ Filled mem mem' p (referenceCorners d id) :=
  ⟨_, cornersM_eq cap d hd id p mem hcap, filled_put _ _ _⟩

/-- C106: `referenceOrigins` -/
theorem C106_origins (d id c cap p : Nat) (mem : Mem (Vec K)) (hd : d ≤ 21) (hc : c ≤ d) (hcap : p + refSize d id c ≤ cap) :
    ∃ mem', originsM cap d id c p mem = some (refSize d id c, mem') ∧ Filled mem mem' p (referenceOrigins d id c) :=
  ⟨_, originsM_eq cap d hd id c p mem hc hcap, filled_put _ _ _⟩

/-- C106: `referenceEmbeddings` -/
theorem C106_embeddings (d id c cap p : Nat) (o : Mem (Vec K)) (J : Mem (Mat K)) (hd : d ≤ 21) (hc : c ≤ d)
    (hcap : p + refSize d id c ≤ cap) :
    ∃ o' J', embeddingsM cap d id c p (o, J) = some (refSize d id c, (o', J')) ∧
      Filled o o' p ((referenceEmbeddings d id c).map Prod.fst) ∧
      Filled J J' p ((referenceEmbeddings d id c).map Prod.snd) :=
  ⟨_, _, embeddingsM_eq cap d hd id c p (o, J) hc hcap, filled_put _ _ _, filled_put _ _ _⟩

/-- C106: `referenceIntegrationOuterNormals`, including the temporary array of origins -/
theorem C106_normals (cdim d id cap p : Nat) (mem : Mem (Vec K)) (hd1 : 1 ≤ d) (hd : d ≤ 21) (hcap : p + refSize d id 1 ≤ cap) :
    ∃ mem', outerNormalsM cdim cap d id p mem = some (refSize d id 1, mem') ∧
      Filled mem mem' p (referenceIntegrationOuterNormals cdim d id) :=
  ⟨_, outerNormalsM_eq cdim cap d id p hd1 hd mem hcap, filled_put _ _ _⟩

-- the arrays of a prism: six corners, nine origins of edges, five normals
example : (0 : Nat) + refSize 3 5 3 ≤ 6 ∧ 0 + refSize 3 5 2 ≤ 9 ∧ 0 + refSize 3 5 1 ≤ 5 := by decide
-- one cell less is not enough
example : (cornersM (K := ℚ) 5 3 5 0 fun _ => none).isNone = true ∧ (originsM (K := ℚ) 8 3 5 2 0 fun _ => none).isNone = true := by
  decide +kernel

/-! ### where it fails -/

theorem loop_none {σ : Type} {body : Nat → σ → Option σ} : ∀ (n j0 j : Nat) (s : σ), j0 ≤ j → j < j0 + n →
    (∀ s, body j s = none) → loop body j0 n s = none
  | 0, _, _, _, h1, h2, _ => by omega
  | n + 1, j0, j, s, h1, h2, h => by
    rw [loop]
    by_cases e : j = j0
    · rw [← e, h s, Option.bind_none]
    · cases body j0 s with
      | none => rfl
      | some s' => exact loop_none n (j0 + 1) j s' (by omega) (by omega) h

theorem offsetsM_mod (d s : Nat) (hd : d ≤ 21) : ∀ k, k ≤ d + 1 → offsetsM d 0 s k = (Finset.range k).sum (refSize d s) % 2 ^ 32
  | 0, _ => rfl
  | k + 1, hk => by
    rw [offsetsM, if_neg (by omega), offsetsM_mod d s hd k (by omega), sizeM_eq (d - 0) (by omega) _ _ (by omega),
      Finset.sum_range_succ, u32, Nat.mod_add_mod]
    rfl

theorem sum_cube (k : Nat) (hk : k ≤ 22) :
    (Finset.range k).sum (refSize 21 (2 ^ 21 - 1)) = (Finset.range k).sum fun c => Nat.choose 21 c * 2 ^ c := by
  refine Finset.sum_congr rfl fun c hc => ?_
  rw [Finset.mem_range] at hc
  refine C10_cube 21 _ c (by norm_num) (fun j _ hj => ?_) (by omega)
  rw [Nat.testBit_two_pow_sub_one, decide_eq_true hj]

/-- The information on the cube of dimension 21 itself cannot be built: `3 ^ 21` numbers are to be stored, but
`offset_` wraps at `2 ^ 32` (hh:751-752), so that the array is too short and the pointer to the end of the vertices of
codimension 14 lies before the pointer to their begin. -/
theorem C106_offsets_counterexample :
    offsetsM 21 0 (2 ^ 21 - 1) 15 < offsetsM 21 0 (2 ^ 21 - 1) 14 ∧
    (∀ maxCount, initializeM maxCount 21 (2 ^ 21 - 1) 0 0 = none) ∧ ¬ C106_full := by
  have h14 : offsetsM 21 0 (2 ^ 21 - 1) 14 = 4176171699 := by
    rw [offsetsM_mod 21 _ (le_refl _) 14 (by omega), sum_cube 14 (by omega)]
    decide +kernel
  have h15 : offsetsM 21 0 (2 ^ 21 - 1) 15 = 1786335923 := by
    rw [offsetsM_mod 21 _ (le_refl _) 15 (by omega), sum_cube 15 (by omega)]
    decide +kernel
  have hnone : ∀ maxCount, initializeM maxCount 21 (2 ^ 21 - 1) 0 0 = none := by
    intro maxCount
    rw [initializeM_def, loop_none (21 + 1 - 0) 0 14 _ (by omega) (by omega), Option.bind_none]
    intro s
    have e : subTopologyIdM 21 (2 ^ 21 - 1) 0 0 = 2 ^ 21 - 1 := rfl
    rw [e, numberingM, if_pos rfl, iter, if_pos]
    have e14 : 0 + 14 = 14 := rfl
    rw [e14, h14, h15]
    norm_num
  refine ⟨by rw [h14, h15]; norm_num, hnone, fun h => ?_⟩
  obtain ⟨s, hs, _⟩ := h 21 (2 ^ 21 - 1) 0 0 (by omega) (by norm_num) (by omega) (C10_bounds 21 _ 0 (by omega)).1
  rw [hnone] at hs
  exact absurd hs (by simp)

theorem sizeM_lt : ∀ d id c, sizeM d id c < 2 ^ 32
  | d, id, 0 => by cases d <;> norm_num [sizeM]
  | 0, id, c + 1 => by norm_num [sizeM]
  | d + 1, id, c + 1 => by
    rw [sizeM]
    split <;> exact Nat.mod_lt _ (by norm_num)

/-- In dimension 22 the count itself is wrong: the cube has more than `2 ^ 32` sub-entities of codimension 15. -/
theorem C106_size_counterexample : sizeM 22 (2 ^ 22 - 1) 15 ≠ refSize 22 (2 ^ 22 - 1) 15 := by
  have h := sizeM_lt 22 (2 ^ 22 - 1) 15
  have e : refSize 22 (2 ^ 22 - 1) 15 = Nat.choose 22 15 * 2 ^ 15 := by
    refine C10_cube 22 _ 15 (by norm_num) (fun j _ hj => ?_) (by omega)
    rw [Nat.testBit_two_pow_sub_one, decide_eq_true hj]
  have : (2 : Nat) ^ 32 < Nat.choose 22 15 * 2 ^ 15 := by decide +kernel
  omega

end Verif.Buffer
