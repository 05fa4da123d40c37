import Verif.Buffer.Lemmas

/-! `numberingM` writes exactly the list `subTopologyNumbering`. -/

namespace Verif.Buffer

open Verif.Typ Verif.RefTopo Verif.RefGeom

/-- number of entities of codimension `sc` of the entity `i` of codimension `c` -/
def nlen (d id c i sc : Nat) : Nat := size (d - c) (subTopologyId d id c i) sc

/-- what `subTopologyNumbering` writes into a buffer of the asserted length -/
def nums (d id c i sc : Nat) : List Nat := subTopologyNumbering d id c i sc (nlen d id c i sc)

theorem nums_facts {d id c i sc : Nat} (hid : id < 2 ^ d) (hc : c + sc ≤ d) (hi : i < size d id c) :
    (nums d id c i sc).length = nlen d id c i sc ∧ ∀ x ∈ nums d id c i sc, x < size d id (c + sc) := by
  have h := rep_topoOf d id
  obtain ⟨f, rfl, rfl⟩ := exists_face h (by omega) hi
  have hle := Face.codim_add_dim f
  rw [h.dim_eq] at hle
  have e : nlen d id f.codim f.idx sc = f.shape.sz sc := size_eq (rep_sub h hid f) sc (by omega)
  obtain ⟨h1, h2⟩ := numbering_eq h hid f sc _ hc e
  refine ⟨h1, fun x hx => ?_⟩
  obtain ⟨j, hj, hx⟩ := List.getElem_of_mem hx
  have hj' : j < f.shape.sz sc := by
    rw [← e]
    exact h1 ▸ hj
  obtain ⟨g, hg, rfl⟩ := Face.idx_surj f.shape sc j hj'
  have h3 := h2 g hg
  have h4 : x = (Face.comp f g).idx := by
    have := List.getElem?_eq_getElem hj
    rw [hx] at this
    exact Option.some.inj (this.symm.trans h3)
  have := face_lt h (Face.comp f g)
  rw [Face.codim_comp, hg] at this
  rw [h4]
  exact this

theorem size_cone {e id : Nat} (hid : id < 2 ^ e) (k : Nat) (hk : k ≤ e) :
    size (e + 1) id (k + 1) = size e id k + if k + 1 < e + 1 then size e id (k + 1) else 1 := by
  by_cases he : e = 0
  · subst he
    obtain rfl : k = 0 := by omega
    rw [size_prism (Or.inl rfl)]
    simp [size]
  · rw [size_pyr he (Nat.testBit_lt_two_pow hid), Nat.mod_eq_of_lt hid]

theorem size_cyl {e id : Nat} (hid : id < 2 ^ e) (k : Nat) :
    size (e + 1) (id ||| 1 <<< e) (k + 1) = (if k + 1 < e + 1 then size e id (k + 1) else 0) + 2 * size e id k := by
  rw [Nat.one_shiftLeft, size_prism (Or.inr (by rw [Nat.testBit_or, Nat.testBit_two_pow]; simp)), Nat.or_mod_two_pow, Nat.mod_self, Nat.or_zero,
    Nat.mod_eq_of_lt hid]

theorem iter_upd {α : Type} {cap : Nat} (m : Mem α) (p : Nat) (l : List α) (hp : p + l.length ≤ cap) (f : α → α) :
    iter p (p + l.length) (fun q m => upd cap m q f) (put m p l) = some (put m p (l.map f)) := by
  rw [iter, if_neg (by omega), Nat.add_sub_cancel_left]
  have := loop_upd m p l hp fun _ => f
  rw [this]
  congr 2
  apply List.ext_getElem <;> simp

theorem iter_range {cap : Nat} (m : Mem Nat) (p n : Nat) (hp : p + n ≤ cap) (hn : n < 2 ^ 32) :
    iter p (p + n) (fun q m => wr cap m q (u32 (q - p))) m = some (put m p (List.range n)) := by
  rw [iter, if_neg (by omega), Nat.add_sub_cancel_left]
  rw [loop_congr (body' := fun j m => wr cap m (p + j) j) _ _ _ fun j _ hj s => by
    rw [Nat.add_sub_cancel_left, u32_of_lt (by omega)]]
  rw [loop_fill m p n hp]
  simp

theorem map_u32 (l : List Nat) (k b : Nat) (hl : ∀ x ∈ l, x < b) (hb : b + k ≤ 2 ^ 32) :
    (l.map fun x => u32 (x + k)) = l.map (· + k) := by
  apply List.map_congr_left
  intro x hx
  have := hl x hx
  exact u32_of_lt (by omega)

theorem nlen_lt {d : Nat} (hd : d ≤ 21) (id c i sc : Nat) (hc : c + sc ≤ d) : nlen d id c i sc < 2 ^ 32 :=
  size_lt (by omega) _ _ (by omega)

theorem numberingM_eq (cap : Nat) : ∀ (d : Nat), d ≤ 21 → ∀ (id : Nat), id < 2 ^ d → ∀ c i sc b (mem : Mem Nat),
    c + sc ≤ d → i < size d id c → b + nlen d id c i sc ≤ cap →
    numberingM cap d id c i sc b (b + nlen d id c i sc) mem = some (put mem b (nums d id c i sc))
  | 0, hd, id, hid, c, i, sc, b, mem, hc, hi, hcap => by
    obtain rfl : c = 0 := by omega
    have := nlen_lt hd id 0 i sc hc
    rw [numberingM, if_pos rfl, iter_range _ _ _ hcap this, nums, subTopologyNumbering, if_pos rfl]
  | d + 1, hd, id, hid, c, i, sc, b, mem, hc, hi, hcap => by
    by_cases hc0 : c = 0
    · have := nlen_lt hd id c i sc hc
      rw [numberingM, if_pos hc0, iter_range _ _ _ hcap this, nums, subTopologyNumbering, if_pos hc0]
    by_cases hs0 : sc = 0
    · subst hs0
      have e : nlen (d + 1) id c i 0 = 1 := by rw [nlen]; cases d + 1 - c <;> rfl
      rw [e] at hcap ⊢
      rw [numberingM, if_neg hc0, if_pos rfl, nums, subTopologyNumbering, if_neg hc0, if_pos rfl, wr_one _ _ (by omega)]
    obtain ⟨c, rfl⟩ : ∃ k, c = k + 1 := ⟨c - 1, by omega⟩
    obtain ⟨s, rfl⟩ : ∃ k, sc = k + 1 := ⟨sc - 1, by omega⟩
    have ih := numberingM_eq cap d (by omega) (id % 2 ^ d) (Nat.mod_lt _ (Nat.two_pow_pos d))
    have hb : id % 2 ^ d < 2 ^ d := Nat.mod_lt _ (Nat.two_pow_pos d)
    have hd' : d ≤ 21 := by omega
    have htot := size_lt hd id (c + 1 + (s + 1)) hc
    have htotc := size_lt hd id (c + 1) (by omega)
    have hlenT := nlen_lt hd id (c + 1) i (s + 1) hc
    obtain ⟨hlen, hent⟩ := nums_facts hid hc hi
    have hsz : ∀ k, k ≤ d → sizeM d (id % 2 ^ d) k = size d (id % 2 ^ d) k := fun k hk => sizeM_eq d hd' _ k hk
    have hnb : (if c + 1 + (s + 1) < d + 1 then sizeM d (id % 2 ^ d) (c + 1 + (s + 1)) else 0) =
        if c + 1 + (s + 1) < d + 1 then size d (id % 2 ^ d) (c + 1 + (s + 1)) else 0 := by
      split
      · rw [hsz _ (by omega)]
      · rfl
    have es : size (d + 1) id (c + 1) = _ := size.eq_3 id d c
    have et : size (d + 1) id (c + 1 + s + 1) = _ := size.eq_3 id d (c + 1 + s)
    rw [show c + 1 + (s + 1) = c + 1 + s + 1 by omega] at *
    simp only [implBase_eq, Nat.add_sub_cancel] at es et
    rw [if_pos (show c + 1 < d + 1 by omega), if_pos (show c + 1 < d + 1 by omega)] at es
    have hid0 : subTopologyId (d + 1) id (c + 1) i = _ := subTopologyId.eq_3 id i d c
    simp only [implBase_eq, Nat.add_sub_cancel] at hid0
    rw [if_pos (show c + 1 < d + 1 by omega)] at hid0
    unfold nums numberingM subTopologyNumbering
    simp only [implBase_eq, Nat.add_sub_cancel, show c + 1 + (s + 1) = c + 1 + s + 1 by omega]
    rw [if_neg hc0, if_neg hs0, if_neg hc0, if_neg hs0, hsz c (by omega), hsz (c + 1) (by omega),
      hsz (c + 1 + s) (by omega), hnb]
    generalize hnbv : (if c + 1 + s + 1 < d + 1 then size d (id % 2 ^ d) (c + 1 + s + 1) else 0) = nb at et ⊢
    have hM := hsz c (by omega)
    have hfacts := fun (c' i' sc' : Nat) => nums_facts (c := c') (i := i') (sc := sc') hb
    by_cases hp : implIsPrism id (d + 1) 0 = true
    · rw [if_pos hp] at es et hid0
      rw [if_pos hp, if_pos hp]
      by_cases hin : i < size d (id % 2 ^ d) (c + 1)
      · rw [if_pos hin] at hid0
        rw [if_pos hin, if_pos hin, subTopologyIdM_eq d hd' _ _ _ (by omega) hin]
        have hsub := subTopologyId_lt d (id % 2 ^ d) (c + 1) i hb (by omega)
        have hlenE : nlen (d + 1) id (c + 1) i (s + 1) =
            (if c + 1 + s + 1 < d + 1 then nlen d (id % 2 ^ d) (c + 1) i (s + 1) else 0) + 2 * nlen d (id % 2 ^ d) (c + 1) i s := by
          rw [nlen, hid0, show d + 1 - (c + 1) = d - (c + 1) + 1 by omega, Nat.add_sub_cancel, size_cyl hsub]
          have e : (s + 1 < d - (c + 1) + 1) ↔ (c + 1 + s + 1 < d + 1) := by omega
          simp only [e]
          rfl
        rw [hlenE] at hcap
        rw [sizeM_eq (d - (c + 1)) (by omega) _ s (by omega)]
        obtain ⟨l2, e2⟩ := hfacts (c + 1) i s (by omega) hin
        have tail : ∀ (b' : Nat) (mem : Mem Nat), b' + 2 * nlen d (id % 2 ^ d) (c + 1) i s ≤ cap → (do
            let mem ← numberingM cap d (id % 2 ^ d) (c + 1) i s b' (b' + nlen d (id % 2 ^ d) (c + 1) i s) mem
            loop (fun j mem => do
              let mem ← upd cap mem (b' + j) fun x => u32 (x + nb)
              let x ← rd cap mem (b' + j)
              wr cap mem (b' + j + nlen d (id % 2 ^ d) (c + 1) i s) (u32 (x + size d (id % 2 ^ d) (c + 1 + s))))
                0 (nlen d (id % 2 ^ d) (c + 1) i s) mem) =
            some (put mem b' ((nums d (id % 2 ^ d) (c + 1) i s).map (· + nb) ++
              (nums d (id % 2 ^ d) (c + 1) i s).map (· + nb + size d (id % 2 ^ d) (c + 1 + s)))) := by
          intro b' mem hb'
          rw [ih (c + 1) i s b' mem (by omega) hin (by omega)]
          simp only [Option.bind_eq_bind, Option.bind_some]
          rw [← l2]
          refine (loop_two mem b' (nums d (id % 2 ^ d) (c + 1) i s) (by omega) (fun x => u32 (x + nb))
            (fun x => u32 (x + size d (id % 2 ^ d) (c + 1 + s)))).trans ?_
          rw [map_u32 _ nb _ e2 (by omega)]
          congr 3
          apply List.map_congr_left
          intro x hx
          have := e2 x hx
          rw [u32_of_lt (x := x + nb) (by omega), u32_of_lt (by omega)]
        by_cases hcd : c + 1 + s + 1 < d + 1
        · simp only [if_pos hcd] at hcap ⊢
          rw [sizeM_eq (d - (c + 1)) (by omega) _ (s + 1) (by omega)]
          obtain ⟨l1, e1⟩ := hfacts (c + 1) i (s + 1) (by omega) hin
          have := ih (c + 1) i (s + 1) b mem (by omega) hin (by omega)
          rw [nlen] at this
          rw [this]
          simp only [Option.bind_eq_bind, Option.bind_some]
          refine (tail (b + nlen d (id % 2 ^ d) (c + 1) i (s + 1)) _ (by omega)).trans ?_
          rw [← l1, put_append, ← List.append_assoc]
          rfl
        · simp only [if_neg hcd, Option.bind_eq_bind, Option.bind_some] at hcap ⊢
          refine (tail b _ (by omega)).trans ?_
          rfl
      · rw [if_neg hin] at hid0
        rw [if_neg hin, if_neg hin]
        have hin' : i < size d (id % 2 ^ d) (c + 1) + 2 * size d (id % 2 ^ d) c := by omega
        rw [u32_of_lt (x := size d (id % 2 ^ d) (c + 1) + size d (id % 2 ^ d) c) (by omega)]
        -- the same for both copies of the base
        have main : ∀ (k i' : Nat), k ≤ 1 → i' = i - (size d (id % 2 ^ d) (c + 1) + k * size d (id % 2 ^ d) c) →
            i' < size d (id % 2 ^ d) c → size d (id % 2 ^ d) (c + 1) + k * size d (id % 2 ^ d) c ≤ i →
            subTopologyId (d + 1) id (c + 1) i = subTopologyId d (id % 2 ^ d) c i' →
            (do
              let mem ← numberingM cap d (id % 2 ^ d) c
                (usub i (u32 (size d (id % 2 ^ d) (c + 1) + u32 (k * size d (id % 2 ^ d) c)))) (s + 1) b
                (b + nlen (d + 1) id (c + 1) i (s + 1)) mem
              iter b (b + nlen (d + 1) id (c + 1) i (s + 1))
                (fun p mem => upd cap mem p fun x => u32 (x + u32 (nb + u32 (k * size d (id % 2 ^ d) (c + 1 + s))))) mem) =
            some (put mem b ((subTopologyNumbering d (id % 2 ^ d) c
              (i - (size d (id % 2 ^ d) (c + 1) + k * size d (id % 2 ^ d) c)) (s + 1)
              (nlen (d + 1) id (c + 1) i (s + 1))).map (· + (nb + k * size d (id % 2 ^ d) (c + 1 + s))))) := by
          intro k i' hk hi' hlt hle hsub
          have hkm : k * size d (id % 2 ^ d) c ≤ size d (id % 2 ^ d) c := by
            calc _ ≤ 1 * size d (id % 2 ^ d) c := Nat.mul_le_mul_right _ hk
              _ = _ := one_mul _
          have hkmb : k * size d (id % 2 ^ d) (c + 1 + s) ≤ size d (id % 2 ^ d) (c + 1 + s) := by
            calc _ ≤ 1 * size d (id % 2 ^ d) (c + 1 + s) := Nat.mul_le_mul_right _ hk
              _ = _ := one_mul _
          generalize k * size d (id % 2 ^ d) c = km at *
          generalize k * size d (id % 2 ^ d) (c + 1 + s) = kmb at *
          have hn : nlen (d + 1) id (c + 1) i (s + 1) = nlen d (id % 2 ^ d) c i' (s + 1) := by
            rw [nlen, nlen, hsub, Nat.add_sub_add_right]
          obtain ⟨l1, e1⟩ := hfacts c i' (s + 1) (by omega) hlt
          rw [show c + (s + 1) = c + 1 + s by omega] at e1
          rw [hn] at hcap ⊢
          rw [u32_of_lt (x := km) (by omega), u32_of_lt (x := _ + km) (by omega), usub_of_le (by omega) (by omega), ← hi',
            u32_of_lt (x := kmb) (by omega), u32_of_lt (x := nb + kmb) (by omega),
            ih c i' (s + 1) b mem (by omega) hlt hcap]
          simp only [Option.bind_eq_bind, Option.bind_some]
          rw [← l1]
          refine (iter_upd mem b _ (by omega) (fun x => u32 (x + (nb + kmb)))).trans ?_
          rw [map_u32 _ _ _ e1 (by omega), l1]
          rfl
        by_cases hit : i < size d (id % 2 ^ d) (c + 1) + size d (id % 2 ^ d) c
        · rw [if_pos hit] at hid0
          simp only [if_pos hit]
          exact main 0 _ (by omega) rfl (by omega) (by omega) (by rw [hid0]; congr 1; omega)
        · rw [if_neg hit] at hid0
          simp only [if_neg hit]
          exact main 1 _ (by omega) rfl (by omega) (by omega) (by rw [hid0]; congr 1; omega)
    · rw [if_neg hp] at es et hid0
      rw [if_neg hp, if_neg hp]
      by_cases him : i < size d (id % 2 ^ d) c
      · rw [if_pos him] at hid0
        rw [if_pos him, if_pos him]
        have hn : nlen (d + 1) id (c + 1) i (s + 1) = nlen d (id % 2 ^ d) c i (s + 1) := by
          rw [nlen, nlen, hid0, Nat.add_sub_add_right]
        rw [hn] at hcap ⊢
        exact ih c i (s + 1) b mem (by omega) him hcap
      · rw [if_neg him, if_pos (show c + 1 < d + 1 by omega), Nat.zero_shiftLeft, Nat.or_zero] at hid0
        rw [if_neg him, if_neg him]
        have hj : i - size d (id % 2 ^ d) c < size d (id % 2 ^ d) (c + 1) := by omega
        rw [usub_of_le (by omega) (by omega), subTopologyIdM_eq d hd' _ _ _ (by omega) hj]
        generalize i - size d (id % 2 ^ d) c = j at hj hid0 ⊢
        have hsub := subTopologyId_lt d (id % 2 ^ d) (c + 1) j hb (by omega)
        have hlenE : nlen (d + 1) id (c + 1) i (s + 1) = nlen d (id % 2 ^ d) (c + 1) j s +
            (if c + 1 + s + 1 < d + 1 then nlen d (id % 2 ^ d) (c + 1) j (s + 1) else 1) := by
          rw [nlen, hid0, show d + 1 - (c + 1) = d - (c + 1) + 1 by omega, size_cone hsub _ (by omega)]
          have e : (s + 1 < d - (c + 1) + 1) ↔ (c + 1 + s + 1 < d + 1) := by omega
          simp only [e]
          rfl
        rw [hlenE] at hcap ⊢
        rw [sizeM_eq (d - (c + 1)) (by omega) _ s (by omega)]
        obtain ⟨l2, e2⟩ := hfacts (c + 1) j s (by omega) hj
        have i1 := ih (c + 1) j s b mem (by omega) hj (by omega)
        rw [show size (d - (c + 1)) (subTopologyId d (id % 2 ^ d) (c + 1) j) s = nlen d (id % 2 ^ d) (c + 1) j s from rfl, i1]
        simp only [Option.bind_eq_bind, Option.bind_some]
        by_cases hcd : c + 1 + s + 1 < d + 1
        · simp only [if_pos hcd] at hcap ⊢
          rw [if_pos hcd] at hnbv
          obtain ⟨l1, e1⟩ := hfacts (c + 1) j (s + 1) (by omega) hj
          rw [show c + 1 + (s + 1) = c + 1 + s + 1 by omega] at e1
          have i2 := ih (c + 1) j (s + 1) (b + nlen d (id % 2 ^ d) (c + 1) j s) (put mem b (nums d (id % 2 ^ d) (c + 1) j s))
            (by omega) hj (by omega)
          rw [← Nat.add_assoc, i2]
          simp only [Option.bind_some]
          rw [← l1, ← l2]
          refine (iter_upd _ _ _ (by omega) (fun x => u32 (x + size d (id % 2 ^ d) (c + 1 + s)))).trans ?_
          rw [map_u32 _ _ _ e1 (by rw [if_pos hcd] at et; omega), put_append, l1, l2, Nat.add_sub_cancel_left]
          rfl
        · simp only [if_neg hcd] at hcap ⊢
          rw [← l2, wr_put_end _ _ _ (by omega)]
          rw [l2]
          rfl

end Verif.Buffer
