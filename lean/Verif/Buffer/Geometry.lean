import Verif.Buffer.Info

/-! The arrays of corners, origins, embeddings and normals. -/

namespace Verif.Buffer

open Verif.Typ Verif.RefTopo Verif.RefGeom

variable {K : Type} [Field K]

theorem length_corners (d id : Nat) : (referenceCorners (K := K) d id).length = size d id d := by
  have h := rep_topoOf d id
  rw [corners_eq h, List.length_map, length_faces, size_eq h d (le_refl _)]

theorem length_origins : ∀ d id c, c ≤ d → (referenceOrigins (K := K) d id c).length = size d id c
  | d, id, 0, _ => by cases d <;> rfl
  | 0, id, c + 1, h => by omega
  | d + 1, id, c + 1, h => by
    simp only [referenceOrigins, size]
    split
    · split
      · simp only [List.length_append, List.length_map, length_origins d _ c (by omega), length_origins d _ (c + 1) (by omega)]
        omega
      · simp only [List.length_append, List.length_map, length_origins d _ c (by omega), List.length_nil]
        omega
    · split
      · rw [if_neg (by omega), List.length_append, length_origins d _ c (by omega)]
        rfl
      · rw [if_pos (by omega), List.length_append, length_origins d _ c (by omega), length_origins d _ (c + 1) (by omega)]

theorem length_embeddings : ∀ d id c, c ≤ d → (referenceEmbeddings (K := K) d id c).length = size d id c
  | d, id, 0, _ => by cases d <;> rfl
  | 0, id, c + 1, h => by omega
  | d + 1, id, c + 1, h => by
    simp only [referenceEmbeddings, size]
    split
    · split
      · simp only [List.length_append, List.length_map, length_embeddings d _ c (by omega), length_embeddings d _ (c + 1) (by omega)]
        omega
      · simp only [List.length_append, List.length_map, length_embeddings d _ c (by omega), List.length_nil]
        omega
    · split
      · rw [if_neg (by omega), List.length_append, length_embeddings d _ c (by omega)]
        rfl
      · rw [if_pos (by omega), List.length_append, List.length_map, length_embeddings d _ c (by omega), length_embeddings d _ (c + 1) (by omega)]

theorem length_normals (cdim : Nat) : ∀ d id (L : List (Vec K)), 1 ≤ d → size d id 1 ≤ L.length →
    (outerNormalsRec cdim d id L).length = size d id 1
  | 0, _, _, h, _ => by omega
  | 1, id, L, _, _ => by rw [size_prism (Or.inl rfl)]; rfl
  | d + 2, id, L, _, hL => by
    rw [size] at hL ⊢
    simp only [implBase_eq, Nat.add_sub_cancel, show (0 + 1 < d + 1 + 1) = True by simp, if_true] at hL ⊢
    have e0 : size (d + 1) (id % 2 ^ (d + 1)) 0 = 1 := rfl
    rw [e0, Nat.zero_add] at hL ⊢
    rw [outerNormalsRec]
    simp only [implBase_eq, show d + 2 - 1 = d + 1 from rfl]
    split
    · rename_i hp
      rw [if_pos hp] at hL
      rw [List.length_append, length_normals cdim (d + 1) _ L (by omega) (by omega)]
      rfl
    · rename_i hp
      rw [if_neg hp] at hL
      rw [List.length_cons, List.length_zipWith, length_normals cdim (d + 1) _ L.tail (by omega) (by rw [List.length_tail]; omega),
        List.length_tail]
      omega

theorem loop_upd_const {α : Type} {cap : Nat} (m : Mem α) (p : Nat) (l : List α) (hp : p + l.length ≤ cap) (f : α → α) :
    loop (fun j m => upd cap m (p + j) f) 0 l.length (put m p l) = some (put m p (l.map f)) := by
  have := loop_upd m p l hp fun _ => f
  rw [this]
  congr 2
  apply List.ext_getElem <;> simp

theorem cornersM_eq (cap : Nat) : ∀ d, d ≤ 21 → ∀ id p (mem : Mem (Vec K)), p + size d id d ≤ cap →
    cornersM cap d id p mem = some (size d id d, put mem p (referenceCorners d id))
  | 0, _, id, p, mem, hp => by
    have e : size 0 id 0 = 1 := rfl
    rw [e] at hp ⊢
    rw [cornersM, wr_one _ _ (by omega)]
    rfl
  | d + 1, hd, id, p, mem, hp => by
    have hlt := size_lt hd id (d + 1) (le_refl _)
    have es : size (d + 1) id (d + 1) = _ := size.eq_3 id d d
    simp only [implBase_eq, Nat.add_sub_cancel, Nat.lt_irrefl, if_false] at es
    have hl := length_corners (K := K) d (id % 2 ^ d)
    simp only [cornersM, referenceCorners, implBase_eq, Nat.add_sub_cancel]
    have hpos : size d (id % 2 ^ d) d ≤ size (d + 1) id (d + 1) := by
      rw [es]; split <;> omega
    rw [cornersM_eq cap d (by omega) (id % 2 ^ d) p mem (by omega)]
    simp only [Option.bind_eq_bind, Option.bind_some]
    by_cases hpr : implIsPrism id (d + 1) 0 = true
    · rw [if_pos hpr] at es
      rw [if_pos hpr, if_pos hpr, es, Nat.zero_add]
      rw [es] at hlt hp
      rw [u32_of_lt (by omega), ← hl]
      have c1 := loop_copy (cap := cap) mem p (referenceCorners (K := K) d (id % 2 ^ d)) (by omega) (fun x => x)
      rw [List.map_id'] at c1
      rw [c1]
      simp only [Option.bind_some]
      rw [loop_congr (body' := fun i mem => upd cap mem (p + (referenceCorners (K := K) d (id % 2 ^ d)).length + i) fun c => setV c d 1) _ _ _
        fun j _ hj s => by rw [u32_of_lt (by omega), Nat.add_comm j, Nat.add_assoc]]
      rw [← put_append, loop_upd_const _ _ _ (by omega), put_append]
      rfl
    · rw [if_neg hpr] at es
      rw [if_neg hpr, if_neg hpr, es]
      rw [es] at hlt hp
      rw [u32_of_lt (by omega), ← hl]
      have w := wr_upd cap (put mem p (referenceCorners (K := K) d (id % 2 ^ d))) (p + (referenceCorners (K := K) d (id % 2 ^ d)).length)
        (fun _ => 0) (fun c => setV c d 1)
      rw [wr_put_end _ _ _ (by omega)] at w
      rw [wr_put_end _ _ _ (by omega)]
      simp only [Option.bind_some] at w ⊢
      rw [w, wr_put_end _ _ _ (by omega)]
      rfl

theorem originsM_eq (cap : Nat) : ∀ d, d ≤ 21 → ∀ id c p (mem : Mem (Vec K)), c ≤ d → p + size d id c ≤ cap →
    originsM cap d id c p mem = some (size d id c, put mem p (referenceOrigins d id c))
  | d, _, id, 0, p, mem, _, hp => by
    have e : size d id 0 = 1 := by cases d <;> rfl
    rw [e] at hp ⊢
    have r : referenceOrigins (K := K) d id 0 = [fun _ => 0] := by cases d <;> rfl
    rw [r]
    cases d <;> rw [originsM, wr_one _ _ (by omega)] <;> rfl
  | 0, _, id, c + 1, p, mem, h, _ => by omega
  | d + 1, hd, id, c + 1, p, mem, hc, hp => by
    have hlt := size_lt hd id (c + 1) hc
    have es : size (d + 1) id (c + 1) = _ := size.eq_3 id d c
    simp only [implBase_eq, Nat.add_sub_cancel] at es
    have hl := length_origins (K := K) d (id % 2 ^ d)
    have ih := originsM_eq cap d (by omega) (id % 2 ^ d)
    simp only [originsM, referenceOrigins, implBase_eq, Nat.add_sub_cancel]
    by_cases hpr : implIsPrism id (d + 1) 0 = true
    · rw [if_pos hpr] at es ⊢
      rw [if_pos hpr]
      rw [es] at hp hlt ⊢
      have tail : ∀ (p' n : Nat) (mem : Mem (Vec K)), p' = p + n → n + 2 * size d (id % 2 ^ d) c < 2 ^ 32 → p' + 2 * size d (id % 2 ^ d) c ≤ cap → (do
          let (m, mem) ← originsM cap d (id % 2 ^ d) c (p + n) mem
          let mem ← loop (fun i mem => do
            let x ← rd cap mem (p + u32 (n + i))
            let mem ← wr cap mem (p + u32 (u32 (n + m) + i)) x
            upd cap mem (p + u32 (u32 (n + m) + i)) fun o => setV o d 1) 0 m mem
          return (u32 (n + u32 (2 * m)), mem)) = some (n + 2 * size d (id % 2 ^ d) c,
            put mem p' (referenceOrigins d (id % 2 ^ d) c ++ (referenceOrigins d (id % 2 ^ d) c).map fun o => setV o d 1)) := by
        rintro p' n mem rfl hn hp'
        rw [ih c (p + n) mem (by omega) (by omega)]
        simp only [Option.bind_eq_bind, Option.bind_some]
        rw [u32_of_lt (x := 2 * _) (by omega), u32_of_lt (x := n + 2 * _) (by omega)]
        rw [← hl c (by omega)] at hn hp' ⊢
        rw [loop_congr (body' := fun j m => (rd cap m (p + n + j)).bind fun x =>
          wr cap m (p + n + (referenceOrigins (K := K) d (id % 2 ^ d) c).length + j) (setV x d 1)) _ _ _ (by
            intro j _ hj s
            rw [u32_of_lt (x := n + j) (by omega), u32_of_lt (x := n + List.length _) (by omega), u32_of_lt (x := _ + j) (by omega),
              ← Nat.add_assoc, ← Nat.add_assoc, ← Nat.add_assoc]
            congr 1
            funext x
            exact wr_upd _ _ _ _ _)]
        rw [loop_copy _ _ _ (by omega) (fun x => setV x d 1)]
        rfl
      by_cases hcd : c + 1 < d + 1
      · simp only [if_pos hcd] at hp hlt ⊢
        rw [ih (c + 1) p mem (by omega) (by omega)]
        simp only [Option.bind_eq_bind, Option.bind_some]
        refine (tail (p + size d (id % 2 ^ d) (c + 1)) _ _ rfl (by omega) (by omega)).trans ?_
        rw [← hl (c + 1) (by omega), put_append, List.append_assoc]
      · simp only [if_neg hcd] at hp hlt ⊢
        simp only [Option.bind_eq_bind, Option.bind_some]
        exact tail p 0 _ rfl (by omega) (by omega)
    · rw [if_neg hpr] at es ⊢
      rw [if_neg hpr]
      rw [es] at hp hlt ⊢
      rw [ih c p mem (by omega) (by omega)]
      simp only [Option.bind_eq_bind, Option.bind_some]
      by_cases hcd : c + 1 < d + 1
      · simp only [if_pos hcd] at hp hlt ⊢
        rw [if_neg (show ¬ c + 1 = d + 1 by omega), if_neg (show ¬ c + 1 = d + 1 by omega), ih (c + 1) _ _ (by omega) (by omega)]
        simp only [Option.bind_some]
        rw [u32_of_lt (by omega), ← hl c (by omega), put_append]
        rfl
      · simp only [if_neg hcd] at hp hlt ⊢
        rw [if_pos (show c + 1 = d + 1 by omega), if_pos (show c + 1 = d + 1 by omega), u32_of_lt (by omega), ← hl c (by omega)]
        rw [← hl c (by omega)] at hp
        have w := wr_upd cap (put mem p (referenceOrigins (K := K) d (id % 2 ^ d) c)) (p + (referenceOrigins (K := K) d (id % 2 ^ d) c).length)
          (fun _ => 0) (fun c => setV c d 1)
        rw [wr_put_end _ _ _ (by omega)] at w
        rw [wr_put_end _ _ _ (by omega)]
        simp only [Option.bind_some] at w ⊢
        rw [w, wr_put_end _ _ _ (by omega)]
        rfl

/-- two arrays -/
def put2 (s : Mem (Vec K) × Mem (Mat K)) (p : Nat) (l : List (Vec K × Mat K)) : Mem (Vec K) × Mem (Mat K) :=
  (put s.1 p (l.map Prod.fst), put s.2 p (l.map Prod.snd))

theorem embeddingsM_eq (cap : Nat) : ∀ d, d ≤ 21 → ∀ id c p (s : Mem (Vec K) × Mem (Mat K)), c ≤ d → p + size d id c ≤ cap →
    embeddingsM cap d id c p s = some (size d id c, put2 s p (referenceEmbeddings d id c))
  | d, _, id, 0, p, (o, J), _, hp => by
    have e : size d id 0 = 1 := by cases d <;> rfl
    rw [e] at hp ⊢
    have r : referenceEmbeddings (K := K) d id 0 = [(fun _ => 0, fun r c => if r = c ∧ r < d then 1 else 0)] := by cases d <;> rfl
    rw [r]
    have w := wr_upd cap J p (fun _ _ => (0 : K)) (fun M r c => if r = c ∧ r < d then 1 else M r c)
    rw [wr_one _ _ (by omega)] at w
    simp only [Option.bind_some] at w
    rw [wr_one _ _ (by omega)] at w
    have u : embeddingsM cap d id 0 p (o, J) = (do
      let o ← wr cap o p fun _ => 0
      let J ← wr cap J p fun _ _ => 0
      let J ← upd cap J p fun M r c => if r = c ∧ r < d then 1 else M r c
      return (1, (o, J))) := by cases d <;> rfl
    rw [u, wr_one _ _ (by omega), wr_one _ _ (by omega)]
    simp only [Option.bind_eq_bind, Option.bind_some]
    rw [w]
    rfl
  | 0, _, id, c + 1, p, s, h, _ => by omega
  | d + 1, hd, id, c + 1, p, s, hc, hp => by
    have hlt := size_lt hd id (c + 1) hc
    have es : size (d + 1) id (c + 1) = _ := size.eq_3 id d c
    simp only [implBase_eq, Nat.add_sub_cancel] at es
    have hl := length_embeddings (K := K) d (id % 2 ^ d)
    have ih := embeddingsM_eq cap d (by omega) (id % 2 ^ d)
    simp only [embeddingsM, referenceEmbeddings, implBase_eq, Nat.add_sub_cancel]
    by_cases hpr : implIsPrism id (d + 1) 0 = true
    · rw [if_pos hpr] at es ⊢
      rw [if_pos hpr]
      rw [es] at hp hlt ⊢
      have tail : ∀ (p' n : Nat) (s : Mem (Vec K) × Mem (Mat K)), p' = p + n → n + 2 * size d (id % 2 ^ d) c < 2 ^ 32 →
          p' + 2 * size d (id % 2 ^ d) c ≤ cap → (do
          let (m, s) ← embeddingsM cap d (id % 2 ^ d) c (p + n) s
          let o ← loop (fun j o => do
            let x ← rd cap o (p + n + j)
            wr cap o (p + n + m + j) x) 0 m s.1
          let J ← loop (fun j J => do
            let x ← rd cap J (p + n + j)
            wr cap J (p + n + m + j) x) 0 m s.2
          let o ← loop (fun i o => upd cap o (p + u32 (u32 (n + m) + i)) fun v => setV v d 1) 0 m o
          return (u32 (n + u32 (2 * m)), (o, J))) = some (n + 2 * size d (id % 2 ^ d) c,
            put2 s p' (referenceEmbeddings d (id % 2 ^ d) c ++ (referenceEmbeddings d (id % 2 ^ d) c).map fun q => (setV q.1 d 1, q.2))) := by
        rintro p' n s rfl hn hp'
        rw [ih c (p + n) s (by omega) (by omega)]
        simp only [Option.bind_eq_bind, Option.bind_some, put2]
        rw [u32_of_lt (x := 2 * _) (by omega), u32_of_lt (x := n + 2 * _) (by omega)]
        rw [← hl c (by omega)] at hn hp' ⊢
        generalize referenceEmbeddings (K := K) d (id % 2 ^ d) c = E at hn hp' ⊢
        have c1 := loop_copy (cap := cap) s.1 (p + n) (E.map Prod.fst) (by rw [List.length_map]; omega) (fun x => x)
        have c2 := loop_copy (cap := cap) s.2 (p + n) (E.map Prod.snd) (by rw [List.length_map]; omega) (fun x => x)
        rw [List.length_map, List.map_id'] at c1 c2
        rw [c1, c2]
        simp only [Option.bind_some]
        rw [loop_congr (body' := fun j m => upd cap m (p + n + E.length + j) fun v => setV v d 1) _ _ _ (by
            intro j _ hj s
            rw [u32_of_lt (x := n + List.length _) (by omega), u32_of_lt (x := _ + j) (by omega), ← Nat.add_assoc, ← Nat.add_assoc])]
        have l2 := loop_upd_const (cap := cap) (put s.1 (p + n) (E.map Prod.fst)) (p + n + E.length) (E.map Prod.fst)
          (by rw [List.length_map]; omega) (fun v => setV v d 1)
        have pa := put_append s.1 (p + n) (E.map Prod.fst)
        rw [List.length_map] at l2 pa
        rw [← pa, l2, pa]
        simp only [Option.bind_some, List.map_append, List.map_map]
        rfl
      by_cases hcd : c + 1 < d + 1
      · simp only [if_pos hcd] at hp hlt ⊢
        rw [ih (c + 1) p s (by omega) (by omega)]
        simp only [Option.bind_eq_bind, Option.bind_some]
        have hl1 := hl (c + 1) (by omega)
        generalize hE : referenceEmbeddings (K := K) d (id % 2 ^ d) (c + 1) = E at hl1 ⊢
        rw [← hl1]
        have l2 := loop_upd_const (cap := cap) s.2 p (E.map Prod.snd) (by rw [List.length_map]; omega)
          (fun M => setM M (d + 1 - (c + 1) - 1) d 1)
        rw [List.length_map] at l2
        simp only [put2]
        rw [l2]
        simp only [Option.bind_some]
        refine (tail (p + E.length) _ _ rfl (by omega) (by omega)).trans ?_
        congr 2
        simp only [put2]
        have p1 := put_append s.1 p (E.map Prod.fst)
        have p2 := put_append s.2 p ((E.map Prod.snd).map fun M => setM M (d + 1 - (c + 1) - 1) d 1)
        simp only [List.length_map] at p1 p2
        rw [p1, p2]
        simp only [List.map_append, List.map_map, List.append_assoc]
        rfl
      · simp only [if_neg hcd] at hp hlt ⊢
        simp only [Option.bind_eq_bind, Option.bind_some, loop]
        exact tail p 0 _ rfl (by omega) (by omega)
    · rw [if_neg hpr] at es ⊢
      rw [if_neg hpr]
      rw [es] at hp hlt ⊢
      rw [ih c p s (by omega) (by omega)]
      simp only [Option.bind_eq_bind, Option.bind_some]
      have hl0 := hl c (by omega)
      generalize hE0 : referenceEmbeddings (K := K) d (id % 2 ^ d) c = E0 at hl0 ⊢
      have p1 := put_append s.1 p (E0.map Prod.fst)
      have p2 := put_append s.2 p (E0.map Prod.snd)
      simp only [List.length_map] at p1 p2
      by_cases hcd : c + 1 < d + 1
      · simp only [if_pos hcd] at hp hlt ⊢
        rw [if_neg (show ¬ c + 1 = d + 1 by omega), if_neg (show ¬ c + 1 = d + 1 by omega), ih (c + 1) _ _ (by omega) (by omega)]
        simp only [Option.bind_some]
        have hl1 := hl (c + 1) (by omega)
        generalize hE : referenceEmbeddings (K := K) d (id % 2 ^ d) (c + 1) = E at hl1 ⊢
        rw [← hl0, ← hl1] at hp hlt ⊢
        rw [u32_of_lt (by omega)]
        simp only [put2]
        have lu := loop_upd (cap := cap) (put s.2 p (E0.map Prod.snd)) (p + E0.length) (E.map Prod.snd) (by rw [List.length_map]; omega)
          (fun j (M : Mat K) => setM (fun r k => if r = d + 1 - (c + 1) - 1 ∧ k < d then -(((E[j]?.map Prod.fst).getD (0 : Vec K)) k) else M r k)
            (d + 1 - (c + 1) - 1) d 1)
        rw [List.length_map] at lu
        rw [loop_congr (body' := fun j J => upd cap J (p + E0.length + j) ((fun j (M : Mat K) => setM (fun r k => if r = d + 1 - (c + 1) - 1 ∧ k < d
            then -(((E[j]?.map Prod.fst).getD (0 : Vec K)) k) else M r k) (d + 1 - (c + 1) - 1) d 1) j)) _ _ _ (by
          intro j _ hj J
          have hj' : j < E.length := by omega
          have r := rd_put (cap := cap) (put s.1 p (E0.map Prod.fst)) (p + E0.length) (E.map Prod.fst) (j := j)
            (by rw [List.length_map]; omega) (by omega)
          beta_reduce
          rw [u32_of_lt (by omega), ← Nat.add_assoc, r, Option.bind_some, List.getElem_map, List.getElem?_eq_getElem hj',
            Option.map_some, Option.getD_some])]
        rw [lu]
        simp only [Option.bind_some]
        rw [p1, p2, List.map_append, List.map_append, List.map_map, List.map_map]
        have e : ((E.map Prod.snd).mapIdx fun j (M : Mat K) => setM (fun r k => if r = d + 1 - (c + 1) - 1 ∧ k < d
            then -(((E[j]?.map Prod.fst).getD (0 : Vec K)) k) else M r k) (d + 1 - (c + 1) - 1) d 1) =
            E.map (Prod.snd ∘ fun q => (q.1, setM (fun i j => if i = d + 1 - (c + 1) - 1 ∧ j < d then -(q.1 j) else q.2 i j)
              (d + 1 - (c + 1) - 1) d 1)) := by
          apply List.ext_getElem
          · simp
          · intro j h1 h2
            have hj : j < E.length := by simpa using h2
            rw [List.getElem_mapIdx, List.getElem_map, List.getElem_map, List.getElem?_eq_getElem hj, Option.map_some, Option.getD_some]
            rfl
        rw [e]
        rfl
      · simp only [if_neg hcd] at hp hlt ⊢
        rw [if_pos (show c + 1 = d + 1 by omega), if_pos (show c + 1 = d + 1 by omega), u32_of_lt (by omega)]
        rw [← hl0] at hp hlt ⊢
        simp only [put2]
        have w := wr_upd cap (put s.1 p (E0.map Prod.fst)) (p + E0.length) (fun _ => (0 : K)) (fun c => setV c d 1)
        have w1 := fun v => wr_put_end (cap := cap) s.1 p (E0.map Prod.fst) (by rw [List.length_map]; omega) v
        have w2 := fun v => wr_put_end (cap := cap) s.2 p (E0.map Prod.snd) (by rw [List.length_map]; omega) v
        simp only [List.length_map] at w1 w2
        rw [w1] at w
        rw [w1, w2]
        simp only [Option.bind_some] at w ⊢
        rw [w, w1]
        simp only [Option.bind_some, List.map_append]
        rfl

theorem normalsM_eq (cdim ocap cap : Nat) (origins : Mem (Vec K)) : ∀ d, 1 ≤ d → d ≤ 21 → ∀ id o p (mem : Mem (Vec K)) (L : List (Vec K)),
    size d id 1 ≤ L.length → (∀ j (h : j < L.length), rd ocap origins (o + j) = some L[j]) → p + size d id 1 ≤ cap →
    normalsM cdim ocap cap origins d id o p mem = some (size d id 1, put mem p (outerNormalsRec cdim d id L))
  | 0, h, _, _, _, _, _, _, _, _, _ => by omega
  | 1, _, _, id, o, p, mem, L, hL, hr, hp => by
    have e : size 1 id 1 = 2 := by rw [size_prism (Or.inl rfl)]; rfl
    rw [e] at hp ⊢
    have f := loop_fill (cap := cap) mem p 2 hp (fun i => setV (fun _ => (0 : K)) 0 (2 * (i : K) - 1))
    rw [normalsM]
    rw [loop_congr (body' := fun j m => wr cap m (p + j) (setV (fun _ => (0 : K)) 0 (2 * (j : K) - 1))) _ _ _
      fun j _ _ s => wr_upd _ _ _ _ _, f]
    simp only [Option.bind_eq_bind, Option.bind_some]
    congr 3
    rw [outerNormalsRec]
    simp [List.range_succ]
    norm_num
  | d + 2, _, hd, id, o, p, mem, L, hL, hr, hp => by
    have hlt := size_lt hd id 1 (by omega)
    have es : size (d + 1 + 1) id (0 + 1) = _ := size.eq_3 id (d + 1) 0
    simp only [implBase_eq, Nat.add_sub_cancel, show (0 + 1 < d + 1 + 1) = True by simp, if_true] at es
    have e0 : size (d + 1) (id % 2 ^ (d + 1)) 0 = 1 := rfl
    rw [e0, Nat.zero_add] at es
    have ih := normalsM_eq cdim ocap cap origins (d + 1) (by omega) (by omega) (id % 2 ^ (d + 1))
    simp only [normalsM, outerNormalsRec, implBase_eq, show d + 2 - 1 = d + 1 from rfl]
    by_cases hpr : implIsPrism id (d + 1 + 1) 0 = true
    · rw [if_pos hpr] at es
      rw [es] at hL hp hlt ⊢
      rw [if_pos hpr, if_pos hpr, ih o p mem L (by omega) hr (by omega)]
      simp only [Option.bind_eq_bind, Option.bind_some]
      have hl := length_normals cdim (d + 1) (id % 2 ^ (d + 1)) L (by omega) (by omega)
      have f := loop_fill (cap := cap) (put mem p (outerNormalsRec cdim (d + 1) (id % 2 ^ (d + 1)) L)) (p + size (d + 1) (id % 2 ^ (d + 1)) 1) 2
        (by omega) (fun i => setV (fun _ => (0 : K)) (d + 1) (2 * (i : K) - 1))
      rw [loop_congr (body' := fun j m => wr cap m (p + size (d + 1) (id % 2 ^ (d + 1)) 1 + j) (setV (fun _ => (0 : K)) (d + 1) (2 * (j : K) - 1))) _ _ _
        fun j _ hj s => by
          rw [u32_of_lt (by omega), ← Nat.add_assoc]
          exact wr_upd _ _ _ _ _, f]
      simp only [Option.bind_some]
      rw [u32_of_lt (by omega), ← hl, put_append]
      congr 4
      simp [List.range_succ]
      norm_num
    · rw [if_neg hpr] at es
      rw [es] at hL hp hlt ⊢
      have hl := length_normals cdim (d + 1) (id % 2 ^ (d + 1)) L.tail (by omega) (by rw [List.length_tail]; omega)
      have w := wr_upd cap mem p (fun _ => (0 : K)) (fun v => setV v (d + 1) (-1))
      rw [wr_one _ _ (by omega)] at w
      rw [if_neg hpr, if_neg hpr, wr_one _ _ (by omega)]
      simp only [Option.bind_eq_bind, Option.bind_some] at w ⊢
      rw [w, wr_one _ _ (by omega)]
      simp only [Option.bind_some]
      rw [ih (o + 1) (p + 1) _ L.tail (by rw [List.length_tail]; omega) (by
        intro j hj
        rw [List.length_tail] at hj
        rw [Nat.add_assoc, Nat.add_comm 1 j, hr (j + 1) (by omega), List.getElem_tail]) (by omega)]
      simp only [Option.bind_some]
      rw [u32_of_lt (by omega)]
      generalize outerNormalsRec cdim (d + 1) (id % 2 ^ (d + 1)) L.tail = N at hl ⊢
      have lu := loop_upd (cap := cap) (put mem p [setV (fun _ => 0) (d + 1) (-1)]) (p + 1) N (by omega)
        (fun j v => setV v (d + 1) (dot cdim v (L[j + 1]?.getD 0)))
      rw [← hl]
      rw [loop_congr (body' := fun j m => upd cap m (p + 1 + j) ((fun j v => setV v (d + 1) (dot cdim v (L[j + 1]?.getD 0))) j)) _ _ _ (by
        intro j _ hj s
        have hj' : j + 1 < L.length := by omega
        beta_reduce
        rw [hr (j + 1) hj', Option.bind_some, List.getElem?_eq_getElem hj', Option.getD_some, Nat.add_assoc p 1 j, Nat.add_comm 1 j])]
      rw [lu]
      simp only [Option.bind_some]
      have pa := put_append mem p [setV (fun _ => 0) (d + 1) (-1)] (N.mapIdx fun j v => setV v (d + 1) (dot cdim v (L[j + 1]?.getD 0)))
      rw [List.length_singleton] at pa
      rw [pa, Nat.add_comm 1]
      congr 3
      rw [List.singleton_append]
      congr 1
      apply List.ext_getElem
      · simp only [List.length_mapIdx, List.length_zipWith, List.length_tail]; omega
      · intro j h1 h2
        have h3 : j < N.length := by simpa using h1
        have h4 : j + 1 < L.length := by omega
        rw [List.getElem_mapIdx, List.getElem_zipWith, List.getElem?_eq_getElem h4, Option.getD_some, List.getElem_tail]

theorem outerNormalsM_eq (cdim cap d id p : Nat) (hd1 : 1 ≤ d) (hd : d ≤ 21) (mem : Mem (Vec K)) (hp : p + size d id 1 ≤ cap) :
    outerNormalsM cdim cap d id p mem = some (size d id 1, put mem p (referenceIntegrationOuterNormals cdim d id)) := by
  have hl := length_origins (K := K) d id 1 hd1
  rw [outerNormalsM, sizeM_eq d hd id 1 hd1, originsM_eq (size d id 1) d hd id 1 0 _ hd1 (by omega)]
  simp only [Option.bind_eq_bind, Option.bind_some]
  rw [normalsM_eq cdim _ cap _ d hd1 hd id 0 p mem (referenceOrigins d id 1) (by omega) (by
    intro j hj
    exact rd_put _ 0 _ hj (by omega)) hp]
  rfl

end Verif.Buffer
