import Verif.Buffer.Model
import Verif.RefGeom.Props

/-! Reading and writing lists of cells; loops; the numbers of entities fit into 32 bits up to dimension 21. -/

namespace Verif.Buffer

open Verif.Typ Verif.RefTopo Verif.RefGeom

/-! ### memory -/

section Memory
variable {α : Type}

/-- the memory after the list `l` has been written from cell `p` on -/
def put (m : Mem α) (p : Nat) (l : List α) : Mem α := fun q => if p ≤ q ∧ q < p + l.length then l[q - p]? else m q

theorem put_nil (m : Mem α) (p : Nat) : put m p [] = m := by
  funext q
  rw [put, if_neg (by simp)]

theorem put_append (m : Mem α) (p : Nat) (l l' : List α) : put (put m p l) (p + l.length) l' = put m p (l ++ l') := by
  funext q
  simp only [put, List.length_append]
  by_cases h1 : p + l.length ≤ q ∧ q < p + l.length + l'.length
  · rw [if_pos h1, if_pos (by omega), List.getElem?_append_right (by omega)]
    congr 1
    omega
  · rw [if_neg h1]
    by_cases h2 : p ≤ q ∧ q < p + l.length
    · rw [if_pos h2, if_pos (by omega), List.getElem?_append_left (by omega)]
    · rw [if_neg h2, if_neg (by omega)]

theorem rd_put {cap : Nat} (m : Mem α) (p : Nat) (l : List α) {j : Nat} (hj : j < l.length) (h : p + j < cap) :
    rd cap (put m p l) (p + j) = some l[j] := by
  rw [rd, if_pos h, put, if_pos (by omega), Nat.add_sub_cancel_left, List.getElem?_eq_getElem hj]

theorem wr_put_end {cap : Nat} (m : Mem α) (p : Nat) (l : List α) (h : p + l.length < cap) (v : α) :
    wr cap (put m p l) (p + l.length) v = some (put m p (l ++ [v])) := by
  rw [wr, if_pos h, ← put_append]
  congr 1
  funext q
  conv_rhs => rw [put]
  by_cases hq : q = p + l.length
  · rw [if_pos hq, if_pos (by simp; omega), hq, Nat.sub_self]
    rfl
  · rw [if_neg hq, if_neg (by simp; omega)]

theorem wr_one {cap : Nat} (m : Mem α) (p : Nat) (h : p < cap) (v : α) : wr cap m p v = some (put m p [v]) := by
  have := wr_put_end (cap := cap) m p [] (by simpa using h) v
  rw [put_nil] at this
  simpa using this

theorem wr_put_mid {cap : Nat} (m : Mem α) (p : Nat) (l : List α) {j : Nat} (hj : j < l.length) (h : p + j < cap) (v : α) :
    wr cap (put m p l) (p + j) v = some (put m p (l.set j v)) := by
  rw [wr, if_pos h]
  congr 1
  funext q
  simp only [put, List.length_set]
  by_cases hq : q = p + j
  · rw [if_pos hq, if_pos (by omega), hq, Nat.add_sub_cancel_left, List.getElem?_set_self hj]
  · rw [if_neg hq]
    by_cases h2 : p ≤ q ∧ q < p + l.length
    · rw [if_pos h2, if_pos h2, List.getElem?_set_ne (by omega)]
    · rw [if_neg h2, if_neg h2]

theorem upd_put {cap : Nat} (m : Mem α) (p : Nat) (l : List α) {j : Nat} (hj : j < l.length) (h : p + j < cap) (f : α → α) :
    upd cap (put m p l) (p + j) f = some (put m p (l.set j (f l[j]))) := by
  rw [upd, rd_put m p l hj h]
  exact wr_put_mid m p l hj h _

theorem wr_upd (cap : Nat) (m : Mem α) (p : Nat) (v : α) (f : α → α) :
    ((wr cap m p v).bind fun m => upd cap m p f) = wr cap m p (f v) := by
  by_cases h : p < cap
  · rw [wr, if_pos h, Option.bind_some, upd, rd, if_pos h, if_pos rfl]
    simp only [Option.bind_eq_bind, Option.bind_some, wr, if_pos h, Option.some.injEq]
    funext q
    by_cases hq : q = p
    · rw [if_pos hq, if_pos hq]
    · rw [if_neg hq, if_neg hq, if_neg hq]
  · simp [wr, if_neg h]

end Memory

/-! ### loops -/

theorem loop_inv' {σ : Type} (body : Nat → σ → Option σ) (S : Nat → σ) : ∀ n j0,
    (∀ j, j0 ≤ j → j < j0 + n → body j (S j) = some (S (j + 1))) → loop body j0 n (S j0) = some (S (j0 + n))
  | 0, _, _ => rfl
  | n + 1, j0, h => by
    rw [loop, h j0 (le_refl _) (by omega), Option.bind_some,
      loop_inv' body S n (j0 + 1) fun j h1 h2 => h j (by omega) (by omega)]
    congr 2
    omega

theorem loop_inv {σ : Type} {body : Nat → σ → Option σ} (S : Nat → σ) {n : Nat}
    (h : ∀ j, j < n → body j (S j) = some (S (j + 1))) : loop body 0 n (S 0) = some (S n) := by
  have := loop_inv' body S n 0 fun j _ hj => h j (by omega)
  rwa [Nat.zero_add] at this

theorem loop_congr {σ : Type} {body body' : Nat → σ → Option σ} (s : σ) : ∀ n j0,
    (∀ j, j0 ≤ j → j < j0 + n → ∀ s, body j s = body' j s) → loop body j0 n s = loop body' j0 n s := by
  intro n
  induction n generalizing s with
  | zero => intro j0 _; rfl
  | succ n ih =>
    intro j0 h
    rw [loop, loop, h j0 (le_refl _) (by omega)]
    cases body' j0 s with
    | none => rfl
    | some s' => exact ih s' (j0 + 1) fun j h1 h2 => h j (by omega) (by omega)

section Loops
variable {α : Type}

theorem loop_upd {cap : Nat} (m : Mem α) (p : Nat) (l : List α) (hp : p + l.length ≤ cap) (f : Nat → α → α) :
    loop (fun j m => upd cap m (p + j) (f j)) 0 l.length (put m p l) = some (put m p (l.mapIdx f)) := by
  have key := loop_inv (body := fun j m => upd cap m (p + j) (f j)) (n := l.length)
    (fun j => put m p (l.mapIdx fun i x => if i < j then f i x else x)) (by
      intro j hj
      beta_reduce
      rw [upd_put _ _ _ (by simpa using hj) (by omega)]
      congr 2
      apply List.ext_getElem
      · simp
      · intro i h1 h2
        rw [List.getElem_set]
        simp only [List.getElem_mapIdx]
        by_cases hij : j = i
        · subst hij
          rw [if_pos rfl, if_neg (by omega), if_pos (by omega)]
        · rw [if_neg hij]
          by_cases hlt : i < j
          · rw [if_pos hlt, if_pos (by omega)]
          · rw [if_neg hlt, if_neg (by omega)])
  have e0 : (l.mapIdx fun i x => if i < 0 then f i x else x) = l := by
    apply List.ext_getElem
    · simp
    · intro i h1 h2
      simp
  have e1 : (l.mapIdx fun i x => if i < l.length then f i x else x) = l.mapIdx f := by
    apply List.ext_getElem
    · simp
    · intro i h1 h2
      have : i < l.length := by simpa using h2
      simp [this]
  rw [e0, e1] at key
  exact key

theorem loop_copy {cap : Nat} (m : Mem α) (p : Nat) (l : List α) (hp : p + l.length + l.length ≤ cap) (f : α → α) :
    loop (fun j m => (rd cap m (p + j)).bind fun x => wr cap m (p + l.length + j) (f x)) 0 l.length (put m p l) =
      some (put m p (l ++ l.map f)) := by
  have key := loop_inv (body := fun j m => (rd cap m (p + j)).bind fun x => wr cap m (p + l.length + j) (f x)) (n := l.length)
    (fun j => put m p (l ++ (l.take j).map f)) (by
      intro j hj
      beta_reduce
      rw [rd_put _ _ _ (by simp; omega) (by omega), Option.bind_some]
      have hlen : (l ++ (l.take j).map f).length = l.length + j := by
        rw [List.length_append, List.length_map, List.length_take]; omega
      have := wr_put_end (cap := cap) m p (l ++ (l.take j).map f) (by omega) (f l[j])
      rw [hlen, ← Nat.add_assoc] at this
      rw [List.getElem_append_left hj, this]
      congr 2
      rw [List.append_assoc, List.take_add_one, List.map_append, List.getElem?_eq_getElem hj]
      rfl)
  simpa using key

theorem loop_fill {cap : Nat} (m : Mem α) (p n : Nat) (hp : p + n ≤ cap) (v : Nat → α) :
    loop (fun j m => wr cap m (p + j) (v j)) 0 n m = some (put m p ((List.range n).map v)) := by
  have key := loop_inv (body := fun j m => wr cap m (p + j) (v j)) (n := n)
    (fun j => put m p ((List.range j).map v)) (by
      intro j hj
      beta_reduce
      have := wr_put_end (cap := cap) m p ((List.range j).map v) (by simp; omega) (v j)
      simp only [List.length_map, List.length_range] at this
      rw [this, List.range_succ, List.map_append]
      rfl)
  simpa [put_nil] using key

/-- the loop in lines 131-135 of `subTopologyNumbering` -/
theorem loop_two {cap : Nat} (m : Mem α) (p : Nat) (l : List α) (hp : p + l.length + l.length ≤ cap) (f g : α → α) :
    loop (fun j m => (upd cap m (p + j) f).bind fun m => (rd cap m (p + j)).bind fun x =>
      wr cap m (p + j + l.length) (g x)) 0 l.length (put m p l) =
      some (put m p (l.map f ++ l.map fun x => g (f x))) := by
  have key := loop_inv (body := fun j m => (upd cap m (p + j) f).bind fun m => (rd cap m (p + j)).bind fun x =>
      wr cap m (p + j + l.length) (g x)) (n := l.length)
    (fun j => put m p ((l.mapIdx fun i x => if i < j then f x else x) ++ (l.take j).map fun x => g (f x))) (by
      intro j hj
      beta_reduce
      have hj' : j < (l.mapIdx fun i x => if i < j then f x else x).length := by simpa using hj
      rw [upd_put _ _ _ (by simp; omega) (by omega), Option.bind_some, rd_put _ _ _ (by simp; omega) (by omega),
        Option.bind_some]
      have e : (((l.mapIdx fun i x => if i < j then f x else x) ++ (l.take j).map fun x => g (f x)).set j
          (f (((l.mapIdx fun i x => if i < j then f x else x) ++ (l.take j).map fun x => g (f x))[j]'(by
            rw [List.length_append]; omega)))) =
          (l.mapIdx fun i x => if i < j + 1 then f x else x) ++ (l.take j).map fun x => g (f x) := by
        rw [List.getElem_append_left hj', List.set_append_left _ _ hj']
        congr 1
        apply List.ext_getElem
        · simp
        · intro i h1 h2
          rw [List.getElem_set]
          simp only [List.getElem_mapIdx]
          by_cases hij : j = i
          · subst hij
            rw [if_pos rfl, if_neg (by omega), if_pos (by omega)]
          · rw [if_neg hij]
            by_cases hlt : i < j
            · rw [if_pos hlt, if_pos (by omega)]
            · rw [if_neg hlt, if_neg (by omega)]
      have hlen : ((l.mapIdx fun i x => if i < j + 1 then f x else x) ++ (l.take j).map fun x => g (f x)).length =
          l.length + j := by
        rw [List.length_append, List.length_map, List.length_take, List.length_mapIdx]; omega
      simp only [e]
      have := wr_put_end (cap := cap) m p ((l.mapIdx fun i x => if i < j + 1 then f x else x) ++
        (l.take j).map fun x => g (f x)) (by omega) (g (f l[j]))
      rw [hlen, show p + (l.length + j) = p + j + l.length by omega] at this
      have e2 : ((l.mapIdx fun i x => if i < j + 1 then f x else x) ++ (l.take j).map fun x => g (f x))[j]'(by omega) = f l[j] := by
        rw [List.getElem_append_left (by simpa using hj), List.getElem_mapIdx, if_pos (by omega)]
      rw [e2, this, List.append_assoc, List.take_add_one, List.map_append, List.getElem?_eq_getElem hj]
      rfl)
  have e0 : (l.mapIdx fun i x => if i < 0 then f x else x) = l := by
    apply List.ext_getElem
    · simp
    · intro i h1 h2
      simp
  have e1 : (l.mapIdx fun i x => if i < l.length then f x else x) = l.map f := by
    apply List.ext_getElem
    · simp
    · intro i h1 h2
      have : i < l.length := by simpa using h2
      simp [this]
  rw [e0, e1, List.take_zero, List.map_nil, List.append_nil, List.take_length] at key
  exact key

end Loops

/-! ### sizes -/

theorem u32_of_lt {x : Nat} (h : x < 2 ^ 32) : u32 x = x := Nat.mod_eq_of_lt h

theorem usub_of_le {a b : Nat} (h : b ≤ a) (ha : a < 2 ^ 32) : usub a b = a - b := by
  rw [usub, show a + (2 ^ 32 - b) = a - b + 2 ^ 32 by omega, Nat.add_mod_right, Nat.mod_eq_of_lt (by omega)]

theorem choose_bound : ∀ c ≤ 21, Nat.choose 21 c * 2 ^ c < intBound := by
  rw [intBound]
  decide +kernel

theorem size_lt_31 {d : Nat} (hd : d ≤ 21) (id c : Nat) (hc : c ≤ d) : size d id c < intBound :=
  lt_of_le_of_lt ((C10_bounds d id c hc).2.trans (Nat.mul_le_mul_right _ (Nat.choose_le_choose c hd)))
    (choose_bound c (by omega))

theorem size_lt {d : Nat} (hd : d ≤ 21) (id c : Nat) (hc : c ≤ d) : size d id c < 2 ^ 32 := by
  refine lt_trans (size_lt_31 hd id c hc) ?_
  rw [intBound]
  norm_num

theorem sizeM_eq : ∀ (d : Nat), d ≤ 21 → ∀ id c, c ≤ d → sizeM d id c = size d id c
  | d, _, _, 0, _ => by cases d <;> rfl
  | 0, _, _, c + 1, h => by omega
  | d + 1, hd, id, c + 1, hc => by
    have hlt := size_lt hd id (c + 1) hc
    simp only [sizeM, size] at hlt ⊢
    rw [sizeM_eq d (by omega) _ c (by omega)]
    have e : ∀ k : Nat, (if c + 1 < d + 1 then sizeM d (implBaseTopologyId id (d + 1) 1) (c + 1) else k) =
        if c + 1 < d + 1 then size d (implBaseTopologyId id (d + 1) 1) (c + 1) else k := by
      intro k
      split
      · rw [sizeM_eq d (by omega) _ (c + 1) (by omega)]
      · rfl
    rw [e, e]
    split
    · rename_i hp
      rw [if_pos hp] at hlt
      rw [u32_of_lt (x := 2 * _) (by omega), u32_of_lt hlt]
    · rename_i hp
      rw [if_neg hp] at hlt
      rw [u32_of_lt hlt]

theorem subTopologyIdM_eq : ∀ (d : Nat), d ≤ 21 → ∀ id c i, c ≤ d → i < size d id c →
    subTopologyIdM d id c i = subTopologyId d id c i
  | d, _, _, 0, _, _, _ => by cases d <;> rfl
  | 0, _, _, c + 1, _, h, _ => by omega
  | d + 1, hd, id, c + 1, i, hc, hi => by
    have hlt := size_lt hd id (c + 1) hc
    simp only [size] at hi hlt
    simp only [subTopologyIdM, subTopologyId]
    rw [sizeM_eq d (by omega) _ c (by omega)]
    have e : (if c + 1 < d + 1 then sizeM d (implBaseTopologyId id (d + 1) 1) (c + 1) else 0) =
        if c + 1 < d + 1 then size d (implBaseTopologyId id (d + 1) 1) (c + 1) else 0 := by
      split
      · rw [sizeM_eq d (by omega) _ (c + 1) (by omega)]
      · rfl
    rw [e]
    by_cases hp : implIsPrism id (d + 1) 0 = true
    · rw [if_pos hp] at hi hlt
      rw [if_pos hp, if_pos hp]
      generalize hn : (if c + 1 < d + 1 then size d (implBaseTopologyId id (d + 1) 1) (c + 1) else 0) = n at hi hlt ⊢
      by_cases hin : i < n
      · have hcd : c + 1 < d + 1 := by
          by_contra h
          rw [if_neg h] at hn
          omega
        rw [if_pos hcd] at hn
        rw [if_pos hin, if_pos hin, subTopologyIdM_eq d (by omega) _ (c + 1) i (by omega) (by omega)]
      · rw [if_neg hin, if_neg hin, u32_of_lt (by omega)]
        have e2 : (if i < n + size d (implBaseTopologyId id (d + 1) 1) c then usub i n
            else usub i (n + size d (implBaseTopologyId id (d + 1) 1) c)) =
            if i < n + size d (implBaseTopologyId id (d + 1) 1) c then i - n
            else i - (n + size d (implBaseTopologyId id (d + 1) 1) c) := by
          split
          · rw [usub_of_le (by omega) (by omega)]
          · rw [usub_of_le (by omega) (by omega)]
        rw [e2, subTopologyIdM_eq d (by omega) _ c _ (by omega)]
        split <;> omega
    · rw [if_neg hp] at hi hlt
      rw [if_neg hp, if_neg hp]
      by_cases him : i < size d (implBaseTopologyId id (d + 1) 1) c
      · rw [if_pos him, if_pos him, subTopologyIdM_eq d (by omega) _ c i (by omega) him]
      · rw [if_neg him, if_neg him]
        by_cases hcd : c + 1 < d + 1
        · rw [if_pos hcd] at hi hlt
          rw [if_pos hcd, if_pos hcd, usub_of_le (by omega) (by omega),
            subTopologyIdM_eq d (by omega) _ (c + 1) _ (by omega) (by omega)]
        · rw [if_neg hcd, if_neg hcd]

end Verif.Buffer
