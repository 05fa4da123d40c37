import Verif.Float.EmbedModel
import Verif.Float.InsideProps
import Verif.Float.NewtonSolve
import Verif.Float.VolumeProps
import Verif.RefGeom.StrataProps

/-! Origins, embeddings and normals in floating-point arithmetic: values, and the shape of the Jacobians. -/

namespace Verif.FloatEmbed

open Verif.Typ Verif.RefTopo Verif.RefGeom Verif.Float Verif.FloatVol Verif.FloatNewton Finset

variable {φ : Format}

/-- values of a vector -/
def vals (v : Nat → Fl φ) : Nat → ℝ := fun j => (v j).val

theorem vals_setV (v : Nat → Fl φ) (k : Nat) (a : Fl φ) : vals (setV v k a) = RefGeom.setV (vals v) k a.val := by
  funext j
  simp only [vals, setV, RefGeom.setV]
  split <;> rfl

theorem valM_setM (M : Mat (Fl φ)) (r c : Nat) (a : Fl φ) : valM (setM M r c a) = setM (valM M) r c a.val := by
  funext i j
  simp only [valM, setM]
  split <;> rfl

theorem vals_zero : vals (fun _ => (0 : Fl φ)) = fun _ => 0 := rfl

theorem valM_zero : valM (fun _ _ => (0 : Fl φ)) = fun _ _ => 0 := rfl

/-- values of an embedding -/
def valE (e : (Nat → Fl φ) × Mat (Fl φ)) : Vec ℝ × Mat ℝ := (vals e.1, valM e.2)

theorem origins_val (d id c : Nat) : (referenceOrigins (K := Fl φ) d id c).map vals = RefGeom.referenceOrigins (K := ℝ) d id c := by
  induction d generalizing id c with
  | zero => cases c <;> rfl
  | succ d ih =>
    cases c with
    | zero => rfl
    | succ c =>
      simp only [referenceOrigins, RefGeom.referenceOrigins, ← ih]
      by_cases h : implIsPrism id (d + 1) 0 = true
      · rw [if_pos h, if_pos h, List.map_append, List.map_append, List.map_map, List.map_map]
        congr 1
        · congr 1
          split
          · rfl
          · rfl
        · refine List.map_congr_left fun o _ => ?_
          exact vals_setV o d 1
      · rw [if_neg h, if_neg h]
        by_cases hc : c + 1 = d + 1
        · rw [if_pos hc, if_pos hc, List.map_append, List.map_cons, List.map_nil, vals_setV]; rfl
        · rw [if_neg hc, if_neg hc, List.map_append]

theorem embeddings_val (d id c : Nat) : (referenceEmbeddings (K := Fl φ) d id c).map valE = RefGeom.referenceEmbeddings (K := ℝ) d id c := by
  have hone : ∀ d : Nat, valE (φ := φ) (fun _ => 0, fun r c => if r = c ∧ r < d then 1 else 0) =
      (fun _ => 0, fun r c => if r = c ∧ r < d then 1 else 0) := fun d => by
    refine Prod.ext rfl ?_
    funext r c
    simp only [valE, valM]
    split <;> rfl
  induction d generalizing id c with
  | zero =>
    cases c with
    | zero =>
      rw [referenceEmbeddings, RefGeom.referenceEmbeddings, List.map_cons, List.map_nil, hone]
    | succ c => rfl
  | succ d ih =>
    cases c with
    | zero =>
      rw [referenceEmbeddings, RefGeom.referenceEmbeddings, List.map_cons, List.map_nil, hone]
    | succ c =>
      simp only [referenceEmbeddings, RefGeom.referenceEmbeddings, ← ih]
      by_cases h : implIsPrism id (d + 1) 0 = true
      · rw [if_pos h, if_pos h, List.map_append, List.map_append, List.map_map, List.map_map, List.map_map]
        congr 1
        · congr 1
          have e : (if c + 1 < d + 1 then (referenceEmbeddings (K := Fl φ) d (implBaseTopologyId id (d + 1) 1) (c + 1)).map valE else []) =
              (if c + 1 < d + 1 then referenceEmbeddings (K := Fl φ) d (implBaseTopologyId id (d + 1) 1) (c + 1) else []).map valE := by
            split <;> rfl
          rw [e, List.map_map]
          refine List.map_congr_left fun o _ => ?_
          simp only [Function.comp, valE, valM_setM]; rfl
        · refine List.map_congr_left fun o _ => ?_
          simp only [Function.comp, valE, vals_setV]; rfl
      · rw [if_neg h, if_neg h]
        by_cases hc : c + 1 = d + 1
        · rw [if_pos hc, if_pos hc, List.map_append, List.map_cons, List.map_nil]
          simp only [valE, vals_setV]; rfl
        · rw [if_neg hc, if_neg hc, List.map_append, List.map_map, List.map_map]
          congr 1
          refine List.map_congr_left fun o _ => ?_
          simp only [Function.comp, valE, valM_setM]
          refine Prod.ext rfl ?_
          simp only
          congr 1
          funext i j
          simp only [valM, vals]
          split <;> rfl

/-! ### Shape of the Jacobians -/

/-- the column of a Jacobian in which row `r` has its `1` and no other row has an entry -/
def piv : {t : Topo} → Face t → ℕ → ℕ
  | _, .pt => fun _ => 0
  | .prism t, .edge f => fun r => if r = f.shape.dim then t.dim else piv f r
  | _, .bot f => piv f
  | _, .top f => piv f
  | _, .base f => piv f
  | .pyr t, .cone f => fun r => if r = f.shape.dim then t.dim else piv f r
  | _, .apex => fun _ => 0

theorem piv_spec : ∀ {t : Topo} (f : Face t) (r : ℕ), r < f.shape.dim →
    piv f r < t.dim ∧ orig (K := ℝ) f (piv f r) = 0 ∧ ∀ r', jac (K := ℝ) f r' (piv f r) = if r' = r then 1 else 0
  | _, .pt, r, h => absurd h (Nat.not_lt_zero r)
  | .prism t, .edge f, r, h => by
    have hfd := Face.codim_add_dim f
    simp only [Face.shape, Topo.dim] at h ⊢
    by_cases hr : r = f.shape.dim
    · have hp : piv (Face.edge f) r = t.dim := if_pos hr
      rw [hp]
      simp only [orig, jac, setM]
      refine ⟨by omega, orig_zero f _ (le_refl _), fun r' => ?_⟩
      by_cases h' : r' = r
      · rw [if_pos ⟨h'.trans hr, trivial⟩, if_pos h']
      · rw [if_neg (fun h => h' (h.1.trans hr.symm)), if_neg h']
        exact jac_zero f _ _ (Or.inr (le_refl _))
    · have hp : piv (Face.edge f) r = piv f r := if_neg hr
      rw [hp]
      simp only [orig, jac, setM]
      obtain ⟨h1, h2, h3⟩ := piv_spec f r (by omega)
      refine ⟨by omega, h2, fun r' => ?_⟩
      rw [if_neg (by omega), h3]
  | _, .bot f, r, h => by
    obtain ⟨h1, h2, h3⟩ := piv_spec f r h
    exact ⟨by simp only [piv, Topo.dim]; omega, h2, h3⟩
  | .prism t, .top f, r, h => by
    obtain ⟨h1, h2, h3⟩ := piv_spec f r h
    refine ⟨by simp only [piv, Topo.dim]; omega, ?_, h3⟩
    simp only [piv, orig]
    rw [setV_ne _ (by omega)]
    exact h2
  | _, .base f, r, h => by
    obtain ⟨h1, h2, h3⟩ := piv_spec f r h
    exact ⟨by simp only [piv, Topo.dim]; omega, h2, h3⟩
  | .pyr t, .cone f, r, h => by
    have hfd := Face.codim_add_dim f
    simp only [Face.shape, Topo.dim] at h ⊢
    by_cases hr : r = f.shape.dim
    · have hp : piv (Face.cone f) r = t.dim := if_pos hr
      rw [hp]
      simp only [orig, jac, setM]
      refine ⟨by omega, orig_zero f _ (le_refl _), fun r' => ?_⟩
      by_cases h' : r' = r
      · rw [if_pos ⟨h'.trans hr, trivial⟩, if_pos h']
      · rw [if_neg (fun h => h' (h.1.trans hr.symm)), if_neg h', if_neg (by omega)]
        exact jac_zero f _ _ (Or.inr (le_refl _))
    · have hp : piv (Face.cone f) r = piv f r := if_neg hr
      rw [hp]
      simp only [orig, jac, setM]
      obtain ⟨h1, h2, h3⟩ := piv_spec f r (by omega)
      refine ⟨by omega, h2, fun r' => ?_⟩
      rw [if_neg (by omega)]
      by_cases h' : r' = f.shape.dim
      · rw [if_pos ⟨h', h1⟩, h2, if_neg (by omega), neg_zero]
      · rw [if_neg (fun h => h' h.1), h3]
  | _, .apex, r, h => absurd h (Nat.not_lt_zero r)

theorem piv_inj {t : Topo} (f : Face t) {r s : ℕ} (hr : r < f.shape.dim) (hs : s < f.shape.dim) (h : piv f r = piv f s) : r = s := by
  have h1 := (piv_spec f r hr).2.2 r
  rw [h, (piv_spec f s hs).2.2 r, if_pos rfl] at h1
  by_contra hne
  rw [if_neg hne] at h1
  exact absurd h1 (by norm_num)

/-- the entries are `0`, `1` and `-1` -/
theorem jac_entries : ∀ {t : Topo} (f : Face t) (r k : ℕ), jac (K := ℝ) f r k = 0 ∨ jac (K := ℝ) f r k = 1 ∨ jac (K := ℝ) f r k = -1
  | _, .pt, _, _ => Or.inl rfl
  | .prism t, .edge f, r, k => by
    simp only [jac, setM]
    split
    · exact Or.inr (Or.inl rfl)
    · exact jac_entries f r k
  | _, .bot f, r, k => jac_entries f r k
  | _, .top f, r, k => jac_entries f r k
  | _, .base f, r, k => jac_entries f r k
  | .pyr t, .cone f, r, k => by
    simp only [jac, setM]
    split
    · exact Or.inr (Or.inl rfl)
    · split
      · rcases orig_zero_one (K := ℝ) f k with h | h
        · left; rw [h, neg_zero]
        · right; right; rw [h]
      · exact jac_entries f r k
  | _, .apex, _, _ => Or.inl rfl

/-- the rows of the Jacobian are independent with singular values at least 1 -/
theorem jac_independent {t : Topo} (f : Face t) : IndependentBy f.shape.dim t.dim (jac (K := ℝ) f) 1 := by
  intro w
  rw [one_mul]
  have hinj : Function.Injective (fun k : Fin f.shape.dim => (⟨piv f k, (piv_spec f k k.2).1⟩ : Fin t.dim)) := by
    intro a b h
    exact Fin.ext (piv_inj f a.2 b.2 (Fin.mk.inj_iff.1 h))
  calc ∑ k, w k ^ 2 = ∑ k : Fin f.shape.dim, (∑ l : Fin f.shape.dim, w l * jac (K := ℝ) f l (piv f k)) ^ 2 := by
        refine sum_congr rfl fun k _ => ?_
        congr 1
        rw [sum_eq_single k]
        · rw [(piv_spec f k k.2).2.2, if_pos rfl, mul_one]
        · intro l _ hl
          rw [(piv_spec f k k.2).2.2, if_neg (fun h => hl (Fin.ext h)), mul_zero]
        · intro h; exact absurd (mem_univ _) h
    _ = ∑ c ∈ univ.map ⟨_, hinj⟩, (∑ l : Fin f.shape.dim, w l * jac (K := ℝ) f l c) ^ 2 := by
        rw [sum_map]; rfl
    _ ≤ _ := sum_le_sum_of_subset_of_nonneg (subset_univ _) fun _ _ _ => sq_nonneg _

theorem jac_rows {t : Topo} (f : Face t) : RowsWithin f.shape.dim t.dim (jac (K := ℝ) f) t.dim := by
  intro k
  calc _ ≤ ∑ c : Fin t.dim, (1:ℝ) := sum_le_sum fun c _ => by
        rcases jac_entries f k c with h | h | h <;> rw [h] <;> norm_num
    _ = _ := by simp

/-! ### Normals -/

/-- entries of the normals, and their products with the origins -/
theorem nrm_entries : ∀ {t : Topo} (f : Face t), f.codim = 1 →
    (∀ k, nrm (K := ℝ) f k = 0 ∨ nrm (K := ℝ) f k = 1 ∨ nrm (K := ℝ) f k = -1) ∧
    (RefGeom.dot t.dim (nrm (K := ℝ) f) (orig f) = 0 ∨ RefGeom.dot t.dim (nrm (K := ℝ) f) (orig f) = 1)
  | _, .pt, h => by cases h
  | .prism t, .edge f, h => by
    obtain ⟨h1, h2⟩ := nrm_entries f h
    refine ⟨h1, ?_⟩
    simp only [nrm, orig, Topo.dim]
    rw [RefGeom.dot_congr (Nat.le_succ t.dim) _ _ fun k hk => by rw [nrm_zero f k hk, zero_mul]]
    exact h2
  | .prism t, .bot f, _ => by
    refine ⟨fun k => ?_, Or.inl ?_⟩
    · simp only [nrm, RefGeom.setV]; split <;> simp
    · simp only [nrm, orig, Topo.dim, RefGeom.dot, RefGeom.setV]
      refine sum_eq_zero fun k _ => ?_
      split
      · rename_i h; rw [h, orig_zero f _ (le_refl _), mul_zero]
      · rw [zero_mul]
  | .prism t, .top f, _ => by
    refine ⟨fun k => ?_, Or.inr ?_⟩
    · simp only [nrm, RefGeom.setV]; split <;> simp
    · simp only [nrm, orig, Topo.dim, RefGeom.dot, RefGeom.setV]
      rw [sum_eq_single t.dim] <;> simp +contextual
  | .pyr t, .base f, _ => by
    refine ⟨fun k => ?_, Or.inl ?_⟩
    · simp only [nrm, RefGeom.setV]; split <;> simp
    · simp only [nrm, orig, Topo.dim, RefGeom.dot, RefGeom.setV]
      refine sum_eq_zero fun k _ => ?_
      split
      · rename_i h; rw [h, orig_zero f _ (le_refl _), mul_zero]
      · rw [zero_mul]
  | .pyr t, .cone f, h => by
    obtain ⟨h1, h2⟩ := nrm_entries f h
    refine ⟨fun k => ?_, ?_⟩
    · simp only [nrm, RefGeom.setV]
      split
      · rcases h2 with h2 | h2
        · exact Or.inl h2
        · exact Or.inr (Or.inl h2)
      · exact h1 k
    · have e : RefGeom.dot (t.dim + 1) (nrm (K := ℝ) (Face.cone f)) (orig (Face.cone f)) = RefGeom.dot t.dim (nrm (K := ℝ) f) (orig f) := by
        simp only [nrm, orig, RefGeom.dot, RefGeom.setV]
        rw [sum_range_succ, orig_zero f _ (le_refl _), mul_zero, add_zero]
        refine sum_congr rfl fun k hk => ?_
        rw [if_neg (by rw [mem_range] at hk; omega)]
      rw [show (Topo.pyr t).dim = t.dim + 1 from rfl, e]
      exact h2
  | .pyr t, .apex, h => by
    refine ⟨fun k => ?_, Or.inr ?_⟩
    · simp only [nrm, RefGeom.setV]; split <;> simp
    · simp only [nrm, orig, Topo.dim, RefGeom.dot, RefGeom.setV]
      rw [sum_eq_single t.dim] <;> simp +contextual

/-- integers are exact up to a bound -/
theorem int_rep {N : ℕ} (hN : ∀ k : ℕ, k ≤ N → φ.rd k = k) (z : ℤ) (hz : |z| ≤ N) : φ.rd z = z := by
  rcases Int.eq_nat_or_neg z with ⟨n, rfl | rfl⟩
  · have := hN n (by simpa using hz)
    exact_mod_cast this
  · have := hN n (by simpa using hz)
    rw [Int.cast_neg, Int.cast_natCast]
    exact φ.rd_neg _ this

/-- sums of products which are `0`, `1`, `-1` are exact -/
theorem fold_exact {N : ℕ} (hN : ∀ k : ℕ, k ≤ N → φ.rd k = k) (f g : ℕ → Fl φ) (h : ∀ k, ∃ z : ℤ, |z| ≤ 1 ∧ (f k).val * (g k).val = z) :
    ∀ (l : List ℕ) (a : Fl φ) (z : ℤ), a.val = z → |z| + l.length ≤ N →
      (l.foldl (fun s k => s + f k * g k) a).val = l.foldl (fun s k => s + (f k).val * (g k).val) a.val
  | [], _, _, _, _ => rfl
  | k :: l, a, z, ha, hl => by
    rw [List.length_cons] at hl
    push_cast at hl
    obtain ⟨w, hw, hfg⟩ := h k
    have e1 : (f k * g k).val = (f k).val * (g k).val := by
      rw [Fl.mul_val, hfg, int_rep hN w (by have := abs_nonneg z; omega)]
    have hzw : |z + w| ≤ |z| + 1 := (abs_add_le _ _).trans (by linarith)
    have e2 : (a + f k * g k).val = a.val + (f k).val * (g k).val := by
      rw [Fl.add_val, e1, ha, hfg, ← Int.cast_add, int_rep hN _ (by omega)]
    rw [List.foldl_cons, List.foldl_cons, ← e2]
    exact fold_exact hN f g h l _ (z + w) (by rw [e2, ha, hfg, ← Int.cast_add]) (by omega)

theorem dot_val {N n : ℕ} (hN : ∀ k : ℕ, k ≤ N → φ.rd k = k) (hn : n ≤ N) (v w : Nat → Fl φ)
    (hv : ∀ k, (v k).val = 0 ∨ (v k).val = 1 ∨ (v k).val = -1) (hw : ∀ k, (w k).val = 0 ∨ (w k).val = 1) :
    (dot n v w).val = RefGeom.dot n (vals v) (vals w) := by
  rw [← dot_eq]
  refine (fold_exact hN v w (fun k => ?_) _ 0 0 (by simp [Fl.zero_val]) (by simpa using hn)).trans rfl
  rcases hv k with h | h | h <;> rcases hw k with h' | h' <;> rw [h, h']
  · exact ⟨0, by norm_num, by norm_num⟩
  · exact ⟨0, by norm_num, by norm_num⟩
  · exact ⟨0, by norm_num, by norm_num⟩
  · exact ⟨1, by norm_num, by norm_num⟩
  · exact ⟨0, by norm_num, by norm_num⟩
  · exact ⟨-1, by norm_num, by norm_num⟩

/-- two lists with equal values -/
theorem zipWith_val (F : (Nat → Fl φ) → (Nat → Fl φ) → Nat → Fl φ) (G : Vec ℝ → Vec ℝ → Vec ℝ) :
    ∀ (a b : List (Nat → Fl φ)), (∀ x ∈ a.zip b, vals (F x.1 x.2) = G (vals x.1) (vals x.2)) →
      (List.zipWith F a b).map vals = List.zipWith G (a.map vals) (b.map vals)
  | [], b, _ => by simp
  | a :: l, [], _ => by simp
  | a :: l, b :: m, h => by
    simp only [List.zipWith_cons_cons, List.map_cons]
    rw [h (a, b) (by simp), zipWith_val F G l m fun x hx => h x (by rw [List.zip_cons_cons]; exact List.mem_cons_of_mem _ hx)]

theorem one_val' : (1 : Fl φ).val = 1 := rfl

theorem normalsRec_val {N cdim : ℕ} (hN : ∀ k : ℕ, k ≤ N → φ.rd k = k) (hc : cdim ≤ N) {d id : ℕ} {t : Topo} (h : Rep d id t)
    (hcd : d ≤ cdim) : ∀ (o : List (Nat → Fl φ)) (rest : List (Vec ℝ)), o.map vals = (faces t 1).map orig ++ rest →
      (∀ v ∈ o, ∀ k, (v k).val = 0 ∨ (v k).val = 1) →
      (outerNormalsRec cdim d id o).map vals = RefGeom.outerNormalsRec cdim d id (o.map vals) := by
  have hm : vals (setV (fun _ => (0 : Fl φ)) 0 (-1)) = RefGeom.setV (fun _ => 0) 0 (-1) := by rw [vals_setV]; rfl
  induction h with
  | pt id => intro o _ _ _; rfl
  | @prism d id t hb hr ih =>
    intro o rest ho h01
    cases d with
    | zero => simp only [outerNormalsRec, RefGeom.outerNormalsRec, List.map_cons, List.map_nil, vals_setV]; rfl
    | succ d =>
      simp only [outerNormalsRec, RefGeom.outerNormalsRec, implBase_eq, isPrism_of_rep hb, if_true, Nat.add_sub_cancel, List.map_append,
        List.map_cons, List.map_nil, vals_setV]
      have hw : faces t 0 = [Face.whole t] := by cases t <;> rfl
      have e : (faces (.prism t) 1).map (orig (K := ℝ)) ++ rest =
          (faces t 1).map orig ++ ([orig (Face.bot (Face.whole t)), orig (Face.top (Face.whole t))] ++ rest) := by
        simp only [faces, hw, List.map_append, List.map_map, List.map_cons, List.map_nil, List.append_assoc]
        rfl
      rw [show d + 2 - 1 = d + 1 from rfl, ih (by omega) o _ (ho.trans e) h01]
      rfl
  | @pyr d id t hb hr ih =>
    intro o rest ho h01
    cases d with
    | zero => simp only [outerNormalsRec, RefGeom.outerNormalsRec, List.map_cons, List.map_nil, vals_setV]; rfl
    | succ d =>
      simp only [outerNormalsRec, RefGeom.outerNormalsRec, implBase_eq, isPrism_of_rep_pyr (Nat.succ_ne_zero d) hb, Bool.false_eq_true,
        if_false, Nat.add_sub_cancel, List.map_cons, vals_setV]
      have hw : faces t 0 = [Face.whole t] := by cases t <;> rfl
      have e : ((faces (.pyr t) 1).map (orig (K := ℝ)) ++ rest).tail = (faces t 1).map orig ++ rest := by
        simp only [faces, hw, List.map_append, List.map_map, List.map_cons, List.map_nil, hr.dim_eq]
        rw [if_neg (by omega)]
        simp only [List.map_nil, List.append_nil, List.singleton_append, List.cons_append, List.tail_cons]
        congr 1
      have ho' : o.tail.map vals = (faces t 1).map orig ++ rest := by rw [← e, ← ho, List.map_tail]
      have h01' : ∀ v ∈ o.tail, ∀ k, (v k).val = 0 ∨ (v k).val = 1 := fun v hv => h01 v (List.mem_of_mem_tail hv)
      have hrec := ih (by omega) o.tail rest ho' h01'
      rw [show d + 2 - 1 = d + 1 from rfl, List.map_tail.symm]
      refine congrArg₂ _ rfl ?_
      rw [zipWith_val _ (fun n o => RefGeom.setV n (d + 1) (RefGeom.dot cdim n o)), hrec]
      intro x hx
      rw [vals_setV, dot_val hN hc x.1 x.2 ?_ (h01' _ (List.of_mem_zip hx).2)]
      intro k
      have hx1 : vals x.1 ∈ (outerNormalsRec cdim (d + 1) (id % 2 ^ (d + 1)) o.tail).map vals := List.mem_map_of_mem (List.of_mem_zip hx).1
      rw [hrec, ho', RefGeom.normals_eq hr cdim (by omega) (by omega), List.mem_map] at hx1
      obtain ⟨f, hf, hfe⟩ := hx1
      have := (nrm_entries f ((mem_faces f 1).1 hf)).1 k
      rw [hfe] at this
      exact this

end Verif.FloatEmbed
