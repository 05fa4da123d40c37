import Verif.Float.EmbedExact

/-! `global` of the geometries of sub-entities in floating-point arithmetic -/

namespace Verif.FloatEmbed

open Verif.Typ Verif.RefTopo Verif.RefGeom Verif.Float Verif.FloatVol Verif.FloatNewton Finset

variable {φ : Format}

theorem dom_mono : ∀ (t : Topo) {f g : ℝ} {x : Vec ℝ}, f ≤ g → Dom t f x → Dom t g x
  | .pt, _, _, _, _, _ => trivial
  | .prism t, _, _, _, h, hd => ⟨hd.1, hd.2.1.trans h, dom_mono t h hd.2.2⟩
  | .pyr t, _, _, _, h, hd => ⟨hd.1, hd.2.1.trans h, dom_mono t (by linarith) hd.2.2⟩

/-- the first coordinates of a point of the domain, the others replaced by zero -/
theorem dom_trunc (k : ℕ) : ∀ (t : Topo) (f : ℝ) (x : Vec ℝ), Dom t f x → Dom t f (fun j => if j < k then x j else 0)
  | .pt, _, _, _ => trivial
  | .prism t, f, x, h => by
    refine ⟨?_, ?_, dom_trunc k t f x h.2.2⟩
    · beta_reduce; split
      · exact h.1
      · exact le_refl _
    · beta_reduce; split
      · exact h.2.1
      · exact h.1.trans h.2.1
  | .pyr t, f, x, h => by
    refine ⟨?_, ?_, ?_⟩
    · beta_reduce; split
      · exact h.1
      · exact le_refl _
    · beta_reduce; split
      · exact h.2.1
      · exact h.1.trans h.2.1
    · have h3 := dom_trunc k t _ x h.2.2
      beta_reduce; split
      · exact h3
      · exact dom_mono t (by linarith [h.1]) h3

theorem dom_coord : ∀ (t : Topo) (f : ℝ) (x : Vec ℝ), f ≤ 1 → Dom t f x → ∀ k < t.dim, 0 ≤ x k ∧ x k ≤ 1
  | .pt, _, _, _, _, k, hk => absurd hk (Nat.not_lt_zero k)
  | .prism t, f, x, hf, h, k, hk => by
    by_cases e : k = t.dim
    · subst e; exact ⟨h.1, h.2.1.trans hf⟩
    · exact dom_coord t f x hf h.2.2 k (by simp only [Topo.dim] at hk; omega)
  | .pyr t, f, x, hf, h, k, hk => by
    by_cases e : k = t.dim
    · subst e; exact ⟨h.1, h.2.1.trans hf⟩
    · exact dom_coord t _ x (by linarith [h.1]) h.2.2 k (by simp only [Topo.dim] at hk; omega)

/-- partial sums of the embedding stay between `0` and `1` -/
theorem partial_bound {t : Topo} (f : Face t) (x : Vec ℝ) (hx : Dom f.shape 1 x) (k : ℕ) (hk : k ≤ f.shape.dim) (j : ℕ) (hj : j < t.dim) :
    0 ≤ orig f j + ∑ r ∈ range k, jac f r j * x r ∧ orig f j + ∑ r ∈ range k, jac f r j * x r ≤ 1 := by
  have h := dom_emb f 1 _ zero_le_one (dom_trunc k _ 1 x hx)
  have e : emb f (fun j => if j < k then x j else 0) j = orig f j + ∑ r ∈ range k, jac f r j * x r := by
    rw [emb, embed]
    congr 1
    rw [← sum_subset (range_subset_range.2 hk)]
    · refine sum_congr rfl fun r hr => ?_
      rw [if_pos (mem_range.1 hr)]
    · intro r _ hr
      rw [if_neg (fun h => hr (mem_range.2 h)), mul_zero]
  have := dom_coord t 1 _ (le_refl _) h j hj
  simp only [sub_self, zero_mul, sub_zero] at this
  rwa [e] at this

/-- one pass of the loop of `global` -/
theorem step_err (y a b : Fl φ) {P Q e : ℝ} (ha : a.val = 0 ∨ a.val = 1 ∨ a.val = -1) (hP : |y.val - P| ≤ e) (hQ : Q = P + a.val * b.val)
    (hQ0 : 0 ≤ Q) (hQ1 : Q ≤ 1) : |(y + a * b).val - Q| ≤ (1 + φ.u) * e + φ.u := by
  have hu := φ.u_nonneg
  have hab : (a * b).val = a.val * b.val := by
    rw [Fl.mul_val]
    rcases ha with h | h | h <;> rw [h]
    · rw [zero_mul, φ.rd_zero]
    · rw [one_mul, b.rep]
    · rw [neg_one_mul]; exact φ.rd_neg _ b.rep
  have h1 := Fl.add_err y (a * b)
  rw [hab] at h1
  have h2 : |y.val + a.val * b.val - Q| ≤ e := by rw [hQ]; rwa [add_sub_add_right_eq_sub]
  have h3 : |y.val + a.val * b.val| ≤ 1 + e := by
    have := abs_add_le (y.val + a.val * b.val - Q) Q
    rw [sub_add_cancel, abs_of_nonneg hQ0] at this
    linarith
  have h4 := mul_le_mul_of_nonneg_left h3 hu
  calc |(y + a * b).val - Q| ≤ |(y + a * b).val - (y.val + a.val * b.val)| + |y.val + a.val * b.val - Q| := abs_sub_le _ _ _
    _ ≤ φ.u * (1 + e) + e := by linarith
    _ = _ := by ring

theorem global_err {t : Topo} (f : Face t) (o x : Nat → Fl φ) (J : Mat (Fl φ)) (ho : vals o = orig f) (hJ : valM J = jac f) (hx : Dom f.shape 1 (vals x))
    (j : ℕ) (hj : j < t.dim) : |(affineGlobal f.shape.dim o J x j).val - emb f (vals x) j| ≤ (1 + φ.u) ^ f.shape.dim - 1 := by
  have key : ∀ k ≤ f.shape.dim, |((List.range k).foldl (fun y i => y + J i j * x i) (o j)).val - (orig f j + ∑ r ∈ range k, jac f r j * vals x r)| ≤
      (1 + φ.u) ^ k - 1 := by
    intro k
    induction k with
    | zero =>
      intro _
      have : (o j).val = orig f j := congrFun ho j
      simp [this]
    | succ k ih =>
      intro hk
      have hJk : (J k j).val = jac f k j := congrFun (congrFun hJ k) j
      rw [List.range_succ, List.foldl_append, List.foldl_cons, List.foldl_nil]
      obtain ⟨hb1, hb2⟩ := partial_bound f (vals x) hx (k + 1) hk j hj
      refine (step_err _ (J k j) (x k) ?_ (ih (by omega)) ?_ hb1 hb2).trans (le_of_eq ?_)
      · rw [hJk]; exact jac_entries f k j
      · rw [sum_range_succ, hJk]; simp only [vals]; ring
      · ring
  have h := key _ (le_refl _)
  rw [List.range_eq_range'] at h
  exact h

/-- integer points are mapped without rounding errors -/
theorem global_int {N : ℕ} (hN : ∀ k : ℕ, k ≤ N → φ.rd k = k) {t : Topo} (f : Face t) (hf : f.shape.dim + 1 ≤ N) (o x : Nat → Fl φ) (J : Mat (Fl φ))
    (ho : vals o = orig f) (hJ : valM J = jac f) (hx : ∀ k, (x k).val = 0 ∨ (x k).val = 1) (j : ℕ) :
    (affineGlobal f.shape.dim o J x j).val = emb f (vals x) j := by
  have h1 := fold_exact hN (fun k => J k j) x (fun k => by
    have hJk : (J k j).val = jac f k j := congrFun (congrFun hJ k) j
    rw [hJk]
    rcases jac_entries f k j with h | h | h <;> rcases hx k with h' | h' <;> rw [h, h']
    · exact ⟨0, by norm_num, by norm_num⟩
    · exact ⟨0, by norm_num, by norm_num⟩
    · exact ⟨0, by norm_num, by norm_num⟩
    · exact ⟨1, by norm_num, by norm_num⟩
    · exact ⟨0, by norm_num, by norm_num⟩
    · exact ⟨-1, by norm_num, by norm_num⟩) (List.range f.shape.dim)
  have h2 : ∀ (k : ℕ) (a : ℝ), (List.range k).foldl (fun s i => s + (J i j).val * (x i).val) a = a + ∑ r ∈ range k, jac f r j * vals x r := by
    intro k a
    induction k with
    | zero => simp
    | succ k ih =>
      rw [List.range_succ, List.foldl_append, List.foldl_cons, List.foldl_nil, ih, sum_range_succ,
        show (J k j).val = jac f k j from congrFun (congrFun hJ k) j, add_assoc]; rfl
  have hoj : (o j).val = orig f j := congrFun ho j
  rw [affineGlobal, Nat.sub_zero, ← List.range_eq_range']
  rcases orig_zero_one (K := ℝ) f j with h | h
  · rw [h1 (o j) 0 (by rw [hoj, h, Int.cast_zero]) (by simp; omega), h2, hoj]; rfl
  · rw [h1 (o j) 1 (by rw [hoj, h, Int.cast_one]) (by simp; omega), h2, hoj]; rfl

theorem unit_edge {t : Topo} (f : Face t) (ih : ∀ r c, r < f.shape.dim → jac (K := ℝ) f r c = if c = piv f r then 1 else 0) (r c : ℕ)
    (h : r < (Face.edge f).shape.dim) : jac (K := ℝ) (Face.edge f) r c = if c = piv (Face.edge f) r then 1 else 0 := by
  simp only [Face.shape, Topo.dim] at h
  simp only [jac, setM]
  by_cases hr : r = f.shape.dim
  · have hp : piv (Face.edge f) r = t.dim := if_pos hr
    rw [hp]
    by_cases hc : c = t.dim
    · rw [if_pos ⟨hr, hc⟩, if_pos hc]
    · rw [if_neg (fun h => hc h.2), if_neg hc]
      exact jac_zero f _ _ (Or.inl (by omega))
  · have hp : piv (Face.edge f) r = piv f r := if_neg hr
    rw [hp, if_neg (fun h => hr h.1), ih r c (by omega)]

/-- the Jacobian of a face has unit rows if no cone is involved -/
theorem unit_cube : ∀ (d : ℕ) (f : Face (Topo.cube d)) (r c : ℕ), r < f.shape.dim → jac (K := ℝ) f r c = if c = piv f r then 1 else 0
  | 0, .pt, r, _, h => absurd h (Nat.not_lt_zero r)
  | d + 1, .edge f, r, c, h => unit_edge f (unit_cube d f) r c h
  | d + 1, .bot f, r, c, h => unit_cube d f r c h
  | d + 1, .top f, r, c, h => unit_cube d f r c h

theorem piv_whole : ∀ (t : Topo) (r : ℕ), r < t.dim → piv (Face.whole t) r = r
  | .pt, r, h => absurd h (Nat.not_lt_zero r)
  | .prism t, r, h => by
    have hs := Face.shape_of_codim_zero _ (Face.codim_whole t)
    simp only [Face.whole, piv, hs]
    split
    · rename_i h'; exact h'.symm
    · exact piv_whole t r (by simp only [Topo.dim] at h; omega)
  | .pyr t, r, h => by
    have hs := Face.shape_of_codim_zero _ (Face.codim_whole t)
    simp only [Face.whole, piv, hs]
    split
    · rename_i h'; exact h'.symm
    · exact piv_whole t r (by simp only [Topo.dim] at h; omega)

theorem unit_whole (t : Topo) (r c : ℕ) (hr : r < t.dim) : jac (K := ℝ) (Face.whole t) r c = if c = piv (Face.whole t) r then 1 else 0 := by
  rw [jac_whole, piv_whole t r hr]
  beta_reduce
  by_cases h : c = r
  · rw [if_pos ⟨h.symm, hr⟩, if_pos h]
  · rw [if_neg (fun h' => h h'.1.symm), if_neg h]

theorem unitRows_of {t : Topo} (f : Face t) (J : Mat (Fl φ)) (hJ : valM J = jac f)
    (h : ∀ r c, r < f.shape.dim → jac (K := ℝ) f r c = if c = piv f r then 1 else 0) : UnitRows f.shape.dim t.dim J (piv f) where
  lt r hr := (piv_spec f r hr).1
  inj r hr s hs := piv_inj f hr hs
  entry r hr c _ := by
    refine Fl.ext ?_
    rw [show (J r c).val = jac f r c from congrFun (congrFun hJ r) c, h r c hr]
    split <;> rfl

end Verif.FloatEmbed
