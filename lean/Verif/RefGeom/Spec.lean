import Verif.RefGeom.Model
import Verif.RefTopo.Counts
import Mathlib.Tactic.FieldSimp
import Mathlib.Tactic.Abel

/-! Geometric data of the faces of a reference topology, and agreement of the model with it. -/

namespace Verif.RefTopo

/-- the faces of codimension `c` in the order of their numbers -/
def faces : (t : Topo) → Nat → List (Face t)
  | t, 0 => [Face.whole t]
  | .pt, _ + 1 => []
  | .prism t, c + 1 => (faces t (c + 1)).map .edge ++ (faces t c).map .bot ++ (faces t c).map .top
  | .pyr t, c + 1 =>
    (faces t c).map .base ++ ((faces t (c + 1)).map .cone ++ if c = t.dim then [.apex] else [])

theorem length_faces : ∀ (t : Topo) (c : Nat), (faces t c).length = t.sz c
  | t, 0 => by cases t <;> simp [faces]
  | .pt, c + 1 => by simp [faces, Topo.sz]
  | .prism t, c + 1 => by simp [faces, Topo.sz, length_faces t]; omega
  | .pyr t, c + 1 => by
    simp only [faces, Topo.sz, List.length_append, List.length_map, length_faces t]
    split <;> rfl

theorem mem_faces : ∀ {t : Topo} (f : Face t) (c : Nat), f ∈ faces t c ↔ f.codim = c
  | t, f, 0 => by
    have : faces t 0 = [Face.whole t] := by cases t <;> rfl
    rw [this, List.mem_singleton]
    exact ⟨fun h => by rw [h, Face.codim_whole], Face.eq_whole f⟩
  | .pt, f, c + 1 => by cases f; simp [faces, Face.codim]
  | .prism t, f, c + 1 => by
    cases f with
    | edge f => simp [faces, Face.codim, mem_faces f]
    | bot f => simp [faces, Face.codim, mem_faces f]
    | top f => simp [faces, Face.codim, mem_faces f]
  | .pyr t, f, c + 1 => by
    simp only [faces]
    cases f with
    | base f =>
      simp only [List.mem_append, List.mem_map, Face.base.injEq, exists_eq_right, mem_faces f, Face.codim,
        Nat.add_right_cancel_iff]
      constructor
      · rintro (h | ⟨g, _, hg⟩ | h)
        · exact h
        · cases hg
        · split at h <;> simp at h
      · exact Or.inl
    | cone f =>
      simp only [List.mem_append, List.mem_map, Face.cone.injEq, exists_eq_right, mem_faces f, Face.codim]
      constructor
      · rintro (⟨g, _, hg⟩ | h | h)
        · cases hg
        · exact h
        · split at h <;> simp at h
      · exact fun h => Or.inr (Or.inl h)
    | apex =>
      simp only [List.mem_append, List.mem_map, Face.codim]
      constructor
      · rintro (⟨g, _, hg⟩ | ⟨g, _, hg⟩ | h)
        · cases hg
        · cases hg
        · split at h
          · omega
          · simp at h
      · intro h; right; right; rw [if_pos (by omega)]; simp

theorem faces_nil (t : Topo) (c : Nat) (h : t.dim < c) : faces t c = [] := by
  rw [← List.length_eq_zero_iff, length_faces, Topo.sz_eq_zero t c h]

/-- face number `i` stands at position `i` -/
theorem faces_getElem : ∀ {t : Topo} (f : Face t) (c : Nat), f.codim = c → (faces t c)[f.idx]? = some f
  | t, f, 0, hc => by
    have : faces t 0 = [Face.whole t] := by cases t <;> rfl
    rw [this, Face.idx_of_codim_zero f hc, Face.eq_whole f hc]; rfl
  | .pt, f, c + 1, hc => by cases f; simp [Face.codim] at hc
  | .prism t, f, c + 1, hc => by
    simp only [faces]
    cases f with
    | edge f =>
      have hc' : f.codim = c + 1 := hc
      have hi := Face.idx_lt f
      rw [hc'] at hi
      simp only [Face.idx]
      rw [List.append_assoc, List.getElem?_append_left (by rw [List.length_map, length_faces]; exact hi),
        List.getElem?_map, faces_getElem f (c + 1) hc']; rfl
    | bot f =>
      have hc' : f.codim = c := by simpa [Face.codim] using hc
      have hi := Face.idx_lt f
      rw [hc'] at hi
      simp only [Face.idx, hc']
      rw [List.append_assoc, List.getElem?_append_right (by rw [List.length_map, length_faces]; omega),
        List.length_map, length_faces, Nat.add_sub_cancel_left,
        List.getElem?_append_left (by rw [List.length_map, length_faces]; exact hi),
        List.getElem?_map, faces_getElem f c hc']; rfl
    | top f =>
      have hc' : f.codim = c := by simpa [Face.codim] using hc
      simp only [Face.idx, hc']
      rw [List.getElem?_append_right (by simp [length_faces]),
        List.length_append, List.length_map, List.length_map, length_faces, length_faces,
        Nat.add_sub_cancel_left, List.getElem?_map, faces_getElem f c hc']; rfl
  | .pyr t, f, c + 1, hc => by
    simp only [faces]
    cases f with
    | base f =>
      have hc' : f.codim = c := by simpa [Face.codim] using hc
      have hi := Face.idx_lt f
      rw [hc'] at hi
      simp only [Face.idx]
      rw [List.getElem?_append_left (by rw [List.length_map, length_faces]; exact hi),
        List.getElem?_map, faces_getElem f c hc']; rfl
    | cone f =>
      have hc' : f.codim = c + 1 := hc
      have hi := Face.idx_lt f
      rw [hc'] at hi
      simp only [Face.idx, hc']
      rw [List.getElem?_append_right (by rw [List.length_map, length_faces]; omega),
        List.length_map, length_faces, Nat.add_sub_cancel_left,
        List.getElem?_append_left (by rw [List.length_map, length_faces]; exact hi),
        List.getElem?_map, faces_getElem f (c + 1) hc']; rfl
    | apex =>
      have hc' : c = t.dim := by simp only [Face.codim] at hc; omega
      subst hc'
      simp only [Face.idx]
      rw [List.getElem?_append_right (by rw [List.length_map, length_faces]),
        List.length_map, length_faces, Nat.sub_self, faces_nil t (t.dim + 1) (by omega)]; simp

theorem faces_nodup (t : Topo) (c : Nat) : (faces t c).Nodup := by
  rw [List.nodup_iff_injective_get]
  intro a b hab
  have key : ∀ a : Fin (faces t c).length, ((faces t c).get a).idx = a.1 := by
    intro a
    have hm : (faces t c).get a ∈ faces t c := List.get_mem _ _
    have hcd := (mem_faces _ _).1 hm
    obtain ⟨f, hf, hfi⟩ := Face.idx_surj t c a.1 (by rw [← length_faces]; exact a.2)
    have h1 := faces_getElem f c hf
    rw [hfi] at h1
    have h2 : (faces t c)[a.1]? = some ((faces t c).get a) := by simp
    rw [h1, Option.some.injEq] at h2
    rw [← h2, hfi]
  apply Fin.ext
  rw [← key a, ← key b, hab]

end Verif.RefTopo

namespace Verif.RefGeom

open Verif.Typ Verif.RefTopo Finset

set_option linter.unusedSectionVars false

variable {K : Type} [Field K]

/-- origin of the embedding of a face -/
def orig : {t : Topo} → Face t → Vec K
  | _, .pt => fun _ => 0
  | _, .edge f => orig f
  | _, .bot f => orig f
  | .prism t, .top f => setV (orig f) t.dim 1
  | _, .base f => orig f
  | _, .cone f => orig f
  | .pyr t, .apex => setV (fun _ => 0) t.dim 1

/-- transposed Jacobian of the embedding of a face -/
def jac : {t : Topo} → Face t → Mat K
  | _, .pt => fun _ _ => 0
  | .prism t, .edge f => setM (jac f) f.shape.dim t.dim 1
  | _, .bot f => jac f
  | _, .top f => jac f
  | _, .base f => jac f
  | .pyr t, .cone f =>
    setM (fun i j => if i = f.shape.dim ∧ j < t.dim then -(orig f j) else jac f i j) f.shape.dim t.dim 1
  | _, .apex => fun _ _ => 0

/-- integration outer normal of a facet -/
def nrm : {t : Topo} → Face t → Vec K
  | _, .pt => fun _ => 0
  | _, .edge f => nrm f
  | .prism t, .bot _ => setV (fun _ => 0) t.dim (-1)
  | .prism t, .top _ => setV (fun _ => 0) t.dim 1
  | .pyr t, .base _ => setV (fun _ => 0) t.dim (-1)
  | .pyr t, .cone f => setV (nrm f) t.dim (dot t.dim (nrm f) (orig f))
  | .pyr t, .apex => setV (fun _ => 0) t.dim 1

theorem setV_same (v : Vec K) (k : Nat) (a : K) : setV v k a k = a := by simp [setV]
theorem setV_ne (v : Vec K) {k j : Nat} (h : j ≠ k) (a : K) : setV v k a j = v j := by simp [setV, h]
theorem setM_same (M : Mat K) (r c : Nat) (a : K) : setM M r c a r c = a := by simp [setM]

theorem orig_zero : ∀ {t : Topo} (f : Face t) (k : Nat), t.dim ≤ k → orig (K := K) f k = 0
  | _, .pt, _, _ => rfl
  | _, .edge f, k, h => orig_zero f k (by simp only [Topo.dim] at h; omega)
  | _, .bot f, k, h => orig_zero f k (by simp only [Topo.dim] at h; omega)
  | .prism t, .top f, k, h => by
    simp only [Topo.dim] at h
    rw [orig, setV_ne _ (by omega)]; exact orig_zero f k (by omega)
  | _, .base f, k, h => orig_zero f k (by simp only [Topo.dim] at h; omega)
  | _, .cone f, k, h => orig_zero f k (by simp only [Topo.dim] at h; omega)
  | .pyr t, .apex, k, h => by
    simp only [Topo.dim] at h
    rw [orig, setV_ne _ (by omega)]

theorem jac_zero : ∀ {t : Topo} (f : Face t) (r k : Nat), f.shape.dim ≤ r ∨ t.dim ≤ k → jac (K := K) f r k = 0
  | _, .pt, _, _, _ => rfl
  | .prism t, .edge f, r, k, h => by
    simp only [Topo.dim, Face.shape] at h
    have := Face.codim_add_dim f
    simp only [jac, setM]
    rw [if_neg (by omega)]
    exact jac_zero f r k (by omega)
  | _, .bot f, r, k, h => jac_zero f r k (by simp only [Topo.dim, Face.shape] at h; omega)
  | _, .top f, r, k, h => jac_zero f r k (by simp only [Topo.dim, Face.shape] at h; omega)
  | _, .base f, r, k, h => jac_zero f r k (by simp only [Topo.dim, Face.shape] at h; omega)
  | .pyr t, .cone f, r, k, h => by
    simp only [Topo.dim, Face.shape] at h
    have := Face.codim_add_dim f
    simp only [jac, setM]
    rw [if_neg (by omega), if_neg (by omega)]
    exact jac_zero f r k (by omega)
  | _, .apex, _, _, _ => rfl

theorem nrm_zero : ∀ {t : Topo} (f : Face t) (k : Nat), t.dim ≤ k → nrm (K := K) f k = 0
  | _, .pt, _, _ => rfl
  | _, .edge f, k, h => nrm_zero f k (by simp only [Topo.dim] at h; omega)
  | .prism t, .bot f, k, h => by simp only [Topo.dim] at h; rw [nrm, setV_ne _ (by omega)]
  | .prism t, .top f, k, h => by simp only [Topo.dim] at h; rw [nrm, setV_ne _ (by omega)]
  | .pyr t, .base f, k, h => by simp only [Topo.dim] at h; rw [nrm, setV_ne _ (by omega)]
  | .pyr t, .cone f, k, h => by
    simp only [Topo.dim] at h
    rw [nrm, setV_ne _ (by omega)]; exact nrm_zero f k (by omega)
  | .pyr t, .apex, k, h => by simp only [Topo.dim] at h; rw [nrm, setV_ne _ (by omega)]

theorem orig_whole : ∀ t : Topo, orig (K := K) (Face.whole t) = fun _ => 0
  | .pt => rfl
  | .prism t => orig_whole t
  | .pyr t => orig_whole t

theorem jac_whole : ∀ t : Topo, jac (K := K) (Face.whole t) = fun r c => if r = c ∧ r < t.dim then 1 else 0
  | .pt => by funext r c; simp [Face.whole, jac, Topo.dim]
  | .prism t => by
    funext r c
    have hs := Face.shape_of_codim_zero _ (Face.codim_whole t)
    have hdim : (Topo.prism t).dim = t.dim + 1 := rfl
    simp only [Face.whole, jac, setM, jac_whole t, hs]
    by_cases h : r = t.dim ∧ c = t.dim
    · rw [if_pos h, if_pos (by omega)]
    · rw [if_neg h]
      by_cases h2 : r = c ∧ r < t.dim
      · rw [if_pos h2, if_pos (by omega)]
      · rw [if_neg h2, if_neg (by omega)]
  | .pyr t => by
    funext r c
    have hs := Face.shape_of_codim_zero _ (Face.codim_whole t)
    have hdim : (Topo.pyr t).dim = t.dim + 1 := rfl
    simp only [Face.whole, jac, setM, jac_whole t, hs, orig_whole, neg_zero]
    by_cases h : r = t.dim ∧ c = t.dim
    · rw [if_pos h, if_pos (by omega)]
    · rw [if_neg h]
      by_cases h2 : r = c ∧ r < t.dim
      · rw [if_pos h2, if_neg (by omega), if_pos (by omega)]
      · rw [if_neg h2, if_neg (by omega : ¬ (r = c ∧ r < (Topo.pyr t).dim))]; simp

section agreement

variable {d id : Nat} {t : Topo}

theorem isPrism_of_rep {d id : Nat} (hb : d = 0 ∨ id.testBit d = true) : implIsPrism id (d + 1) 0 = true := by
  rw [implIsPrism_eq]; rcases hb with h | h <;> simp [h]

theorem isPrism_of_rep_pyr {d id : Nat} (hd : d ≠ 0) (hb : d = 0 ∨ id.testBit d = false) :
    implIsPrism id (d + 1) 0 = false := by
  rw [implIsPrism_eq]; simp_all

theorem rep_zero {id : Nat} {t : Topo} (h : Rep 0 id t) : t = .pt := by cases h; rfl

theorem origins_eq (h : Rep d id t) : ∀ c, c ≤ d → referenceOrigins (K := K) d id c = (faces t c).map orig := by
  induction h with
  | pt id => intro c hc; obtain rfl : c = 0 := by omega
             simp [referenceOrigins, faces, Face.whole, orig]
  | @prism d id t hb hr ih =>
    intro c hc
    cases c with
    | zero => simp only [referenceOrigins, faces, List.map_cons, List.map_nil, orig_whole]
    | succ c =>
      simp only [referenceOrigins, implBase_eq, isPrism_of_rep hb, if_true, Nat.add_sub_cancel, faces,
        List.map_append, List.map_map]
      have e1 : (if c + 1 < d + 1 then referenceOrigins (K := K) d (id % 2 ^ d) (c + 1) else []) =
          (faces t (c + 1)).map orig := by
        split
        · exact ih (c + 1) (by omega)
        · rw [faces_nil t (c + 1) (by rw [hr.dim_eq]; omega)]; rfl
      rw [e1, ih c (by omega), List.map_map]
      congr 1
      apply List.map_congr_left
      intro f _
      simp only [Function.comp, orig, hr.dim_eq]
  | @pyr d id t hb hr ih =>
    intro c hc
    cases c with
    | zero => simp only [referenceOrigins, faces, List.map_cons, List.map_nil, orig_whole]
    | succ c =>
      by_cases hd : d = 0
      · subst hd
        obtain rfl : c = 0 := by omega
        obtain rfl := rep_zero hr
        simp [referenceOrigins, implBase_eq, isPrism_of_rep (Or.inl rfl), faces, Topo.dim, Face.whole, orig]
      · simp only [referenceOrigins, implBase_eq, isPrism_of_rep_pyr hd hb, Bool.false_eq_true, if_false,
          Nat.add_sub_cancel, faces, List.map_append, List.map_map, hr.dim_eq]
        rw [ih c (by omega)]
        by_cases hcd : c = d
        · subst hcd
          rw [if_pos rfl, if_pos rfl, faces_nil t (c + 1) (by rw [hr.dim_eq]; omega)]
          simp only [List.map_nil, List.nil_append, List.map_cons, orig, hr.dim_eq]
          rfl
        · rw [if_neg (by omega), if_neg hcd, ih (c + 1) (by omega)]
          simp only [List.map_nil, List.append_nil]
          rfl

theorem corners_eq (h : Rep d id t) : referenceCorners (K := K) d id = (faces t d).map orig := by
  induction h with
  | pt id => simp [referenceCorners, faces, Face.whole, orig]
  | @prism d id t hb hr ih =>
    simp only [referenceCorners, implBase_eq, isPrism_of_rep hb, if_true, Nat.add_sub_cancel, faces,
      List.map_append, List.map_map]
    rw [ih, faces_nil t (d + 1) (by rw [hr.dim_eq]; omega), List.map_nil, List.nil_append, List.map_map]
    congr 1
    apply List.map_congr_left
    intro f _
    simp only [Function.comp, orig, hr.dim_eq]
  | @pyr d id t hb hr ih =>
    by_cases hd : d = 0
    · subst hd
      obtain rfl := rep_zero hr
      simp [referenceCorners, isPrism_of_rep (Or.inl rfl), faces, Topo.dim, Face.whole, orig]
    · simp only [referenceCorners, implBase_eq, isPrism_of_rep_pyr hd hb, Bool.false_eq_true, if_false,
        Nat.add_sub_cancel, faces, List.map_append, List.map_map, hr.dim_eq]
      rw [ih, faces_nil t (d + 1) (by rw [hr.dim_eq]; omega)]
      simp only [if_true, List.map_nil, List.nil_append, List.map_cons, orig, hr.dim_eq]
      rfl

theorem embeddings_eq (h : Rep d id t) :
    ∀ c, c ≤ d → referenceEmbeddings (K := K) d id c = (faces t c).map (fun f => (orig f, jac f)) := by
  induction h with
  | pt id => intro c hc; obtain rfl : c = 0 := by omega
             simp [referenceEmbeddings, faces, Face.whole, orig, jac]
  | @prism d id t hb hr ih =>
    intro c hc
    cases c with
    | zero =>
      simp only [referenceEmbeddings, faces, List.map_cons, List.map_nil, orig_whole, jac_whole, Topo.dim,
        hr.dim_eq]
    | succ c =>
      simp only [referenceEmbeddings, implBase_eq, isPrism_of_rep hb, if_true, Nat.add_sub_cancel, faces,
        List.map_append, List.map_map]
      have e1 : (if c + 1 < d + 1 then referenceEmbeddings (K := K) d (id % 2 ^ d) (c + 1) else []) =
          (faces t (c + 1)).map (fun f => (orig f, jac f)) := by
        split
        · exact ih (c + 1) (by omega)
        · rw [faces_nil t (c + 1) (by rw [hr.dim_eq]; omega)]; rfl
      rw [e1, ih c (by omega), List.map_map, List.map_map]
      congr 1
      · congr 1
        apply List.map_congr_left
        intro f hf
        have hcd := (mem_faces f _).1 hf
        have hfd := Face.codim_add_dim f
        simp only [Function.comp, orig, jac, hr.dim_eq] at *
        rw [show d + 1 - (c + 1) - 1 = f.shape.dim by omega]
      · apply List.map_congr_left
        intro f _
        simp only [Function.comp, orig, jac, hr.dim_eq]
  | @pyr d id t hb hr ih =>
    intro c hc
    cases c with
    | zero =>
      simp only [referenceEmbeddings, faces, List.map_cons, List.map_nil, orig_whole, jac_whole, Topo.dim,
        hr.dim_eq]
    | succ c =>
      by_cases hd : d = 0
      · subst hd
        obtain rfl : c = 0 := by omega
        obtain rfl := rep_zero hr
        simp [referenceEmbeddings, implBase_eq, isPrism_of_rep (Or.inl rfl), faces, Topo.dim, Face.whole, orig, jac]
      · simp only [referenceEmbeddings, implBase_eq, isPrism_of_rep_pyr hd hb, Bool.false_eq_true, if_false,
          Nat.add_sub_cancel, faces, List.map_append, List.map_map, hr.dim_eq]
        rw [ih c (by omega)]
        by_cases hcd : c = d
        · subst hcd
          rw [if_pos rfl, if_pos rfl, faces_nil t (c + 1) (by rw [hr.dim_eq]; omega)]
          simp only [List.map_nil, List.nil_append, List.map_cons, orig, jac, hr.dim_eq]
          rfl
        · rw [if_neg (by omega), if_neg hcd, ih (c + 1) (by omega)]
          simp only [List.map_nil, List.append_nil, List.map_map]
          congr 1
          apply List.map_congr_left
          intro f hf
          have hcf := (mem_faces f _).1 hf
          have hfd := Face.codim_add_dim f
          simp only [Function.comp, orig, jac, hr.dim_eq] at *
          rw [show d + 1 - (c + 1) - 1 = f.shape.dim by omega]

theorem dot_congr {n m : Nat} (h : n ≤ m) (v w : Vec K) (hz : ∀ k, n ≤ k → v k * w k = 0) :
    dot m v w = dot n v w := by
  simp only [dot]
  rw [← Finset.sum_subset (Finset.range_subset_range.2 h)]
  intro k _ hk
  rw [mem_range, not_lt] at hk
  exact hz k hk

theorem zipWith_map_append {α : Type} (f g : α → Vec K) (F : Vec K → Vec K → Vec K) (rest : List (Vec K)) :
    ∀ l : List α, List.zipWith F (l.map f) (l.map g ++ rest) = l.map fun a => F (f a) (g a)
  | [] => by simp
  | a :: l => by simp [zipWith_map_append f g F rest l]

theorem normals_eq (h : Rep d id t) (cdim : Nat) (hcd : d ≤ cdim) (hd : 0 < d) : ∀ rest : List (Vec K),
    outerNormalsRec (K := K) cdim d id ((faces t 1).map orig ++ rest) = (faces t 1).map nrm := by
  have hone : ∀ {id : Nat} {t : Topo}, Rep 1 id t →
      (faces t 1).map (nrm (K := K)) = [setV (fun _ => 0) 0 (-1), setV (fun _ => 0) 0 1] := by
    intro id t h
    cases h with
    | prism hb hr => obtain rfl := rep_zero hr; simp [faces, Topo.dim, Face.whole, nrm]
    | pyr hb hr => obtain rfl := rep_zero hr; simp [faces, Topo.dim, Face.whole, nrm]
  induction h with
  | pt id => omega
  | @prism d id t hb hr ih =>
    intro rest
    cases d with
    | zero => rw [hone (.prism hb hr)]; rfl
    | succ d =>
      simp only [outerNormalsRec, implBase_eq, isPrism_of_rep hb, if_true, Nat.add_sub_cancel]
      have hw : faces t 0 = [Face.whole t] := by cases t <;> rfl
      have e : (faces (.prism t) 1).map (orig (K := K)) ++ rest =
          (faces t 1).map orig ++ ([orig (Face.bot (Face.whole t)), orig (Face.top (Face.whole t))] ++ rest) := by
        simp only [faces, hw, List.map_append, List.map_map, List.map_cons, List.map_nil, List.append_assoc]
        rfl
      rw [e, show d + 2 - 1 = d + 1 from rfl, ih (by omega) (by omega)]
      simp only [faces, hw, List.map_append, List.map_map, List.map_cons, List.map_nil, List.append_assoc,
        nrm, hr.dim_eq]
      rfl
  | @pyr d id t hb hr ih =>
    intro rest
    cases d with
    | zero => rw [hone (.pyr hb hr)]; rfl
    | succ d =>
      simp only [outerNormalsRec, implBase_eq, isPrism_of_rep_pyr (Nat.succ_ne_zero d) hb, Bool.false_eq_true,
        if_false, Nat.add_sub_cancel]
      have hw : faces t 0 = [Face.whole t] := by cases t <;> rfl
      have e : ((faces (.pyr t) 1).map (orig (K := K)) ++ rest).tail = (faces t 1).map orig ++ rest := by
        simp only [faces, hw, List.map_append, List.map_map, List.map_cons, List.map_nil, hr.dim_eq]
        rw [if_neg (by omega)]
        simp only [List.map_nil, List.append_nil, List.singleton_append, List.cons_append, List.tail_cons]
        rfl
      rw [e, show d + 2 - 1 = d + 1 from rfl, ih (by omega) (by omega), zipWith_map_append]
      simp only [faces, hw, List.map_append, List.map_map, List.map_cons, List.map_nil, hr.dim_eq, nrm]
      rw [if_neg (by omega)]
      simp only [List.map_nil, List.append_nil, List.singleton_append]
      congr 1
      apply List.map_congr_left
      intro f _
      simp only [Function.comp, nrm, hr.dim_eq]
      rw [dot_congr (by omega : d + 1 ≤ cdim) _ _ (fun k hk => by
        rw [orig_zero f k (by rw [hr.dim_eq]; exact hk), mul_zero])]

end agreement

end Verif.RefGeom
