import Verif.RefGeom.Props

/-! The numbers of faces of faces ascend; lists of the vertices of a face; the faces of simplices and cubes in closed form. -/

namespace Verif.Numbering

open Verif.RefTopo Verif.RefGeom Verif.Typ

/-! ### numbers of faces of faces -/

theorem edge_lt_bot {t : Topo} (a b : Face t) (h : a.codim = b.codim + 1) : (Face.edge a).idx < (Face.bot b).idx := by
  have := Face.idx_lt a
  rw [h] at this
  simp only [Face.idx]
  omega

theorem edge_lt_top {t : Topo} (a b : Face t) (h : a.codim = b.codim + 1) : (Face.edge a).idx < (Face.top b).idx := by
  have := Face.idx_lt a
  rw [h] at this
  simp only [Face.idx]
  omega

theorem bot_lt_top {t : Topo} (a b : Face t) (h : a.codim = b.codim) : (Face.bot a).idx < (Face.top b).idx := by
  have := Face.idx_lt a
  rw [h] at this
  simp only [Face.idx, h]
  omega

theorem base_lt_cone {t : Topo} (a b : Face t) (h : b.codim = a.codim + 1) : (Face.base a).idx < (Face.cone b).idx := by
  have := Face.idx_lt a
  simp only [Face.idx, h]
  omega

theorem base_lt_apex {t : Topo} (a : Face t) (h : a.codim = t.dim) : (Face.base a).idx < (Face.apex : Face (.pyr t)).idx := by
  have := Face.idx_lt a
  rw [h] at this
  simpa only [Face.idx] using this

theorem comp_lt {t : Topo} (f : Face t) : ∀ g g' : Face f.shape, g.codim = g'.codim → g.idx < g'.idx →
    (Face.comp f g).idx < (Face.comp f g').idx := by
  induction f with
  | pt =>
    intro g g' _ h
    change Face .pt at g g'
    cases g; cases g'
    exact absurd h (lt_irrefl _)
  | @edge t f ih =>
    intro g g' hc h
    change Face (.prism f.shape) at g g'
    cases g with
    | edge g =>
      cases g' with
      | edge g' => exact ih g g' hc h
      | bot g' => exact edge_lt_bot _ _ (by rw [Face.codim_comp, Face.codim_comp]; simp only [Face.codim] at hc; omega)
      | top g' => exact edge_lt_top _ _ (by rw [Face.codim_comp, Face.codim_comp]; simp only [Face.codim] at hc; omega)
    | bot g =>
      simp only [Face.codim] at hc
      cases g' with
      | edge g' => exact absurd h (not_lt.2 (le_of_lt (edge_lt_bot g' g hc.symm)))
      | bot g' =>
        simp only [Face.codim] at hc
        have hc : g.codim = g'.codim := by omega
        simp only [Face.idx, hc] at h
        have := ih g g' hc (by omega)
        change (Face.bot _).idx < (Face.bot _).idx
        simp only [Face.idx, Face.codim_comp, hc]
        omega
      | top g' => exact bot_lt_top _ _ (by rw [Face.codim_comp, Face.codim_comp]; simp only [Face.codim] at hc; omega)
    | top g =>
      simp only [Face.codim] at hc
      cases g' with
      | edge g' => exact absurd h (not_lt.2 (le_of_lt (edge_lt_top g' g hc.symm)))
      | bot g' => exact absurd h (not_lt.2 (le_of_lt (bot_lt_top g' g (by simp only [Face.codim] at hc; omega))))
      | top g' =>
        simp only [Face.codim] at hc
        have hc : g.codim = g'.codim := by omega
        simp only [Face.idx, hc] at h
        have := ih g g' hc (by omega)
        change (Face.top _).idx < (Face.top _).idx
        simp only [Face.idx, Face.codim_comp, hc]
        omega
  | bot f ih =>
    intro g g' hc h
    change Face f.shape at g g'
    replace hc : g.codim = g'.codim := hc
    have := ih g g' hc h
    change (Face.bot _).idx < (Face.bot _).idx
    simp only [Face.idx, Face.codim_comp, hc]
    omega
  | top f ih =>
    intro g g' hc h
    change Face f.shape at g g'
    replace hc : g.codim = g'.codim := hc
    have := ih g g' hc h
    change (Face.top _).idx < (Face.top _).idx
    simp only [Face.idx, Face.codim_comp, hc]
    omega
  | base f ih => exact fun g g' hc h => ih g g' hc h
  | @cone t f ih =>
    intro g g' hc h
    change Face (.pyr f.shape) at g g'
    have hfd := Face.codim_add_dim f
    cases g with
    | base g =>
      cases g' with
      | base g' => exact ih g g' (by simp only [Face.codim] at hc; omega) h
      | cone g' => exact base_lt_cone _ _ (by rw [Face.codim_comp, Face.codim_comp]; simp only [Face.codim] at hc; omega)
      | apex => exact base_lt_apex _ (by rw [Face.codim_comp]; simp only [Face.codim] at hc; omega)
    | cone g =>
      simp only [Face.codim] at hc
      cases g' with
      | base g' => exact absurd h (not_lt.2 (le_of_lt (base_lt_cone g' g hc)))
      | cone g' =>
        simp only [Face.codim] at hc
        simp only [Face.idx, hc] at h
        have := ih g g' hc (by omega)
        change (Face.cone _).idx < (Face.cone _).idx
        simp only [Face.idx, Face.codim_comp, hc]
        omega
      | apex =>
        have := Face.codim_le g
        simp only [Face.codim] at hc
        omega
    | apex =>
      simp only [Face.codim] at hc
      cases g' with
      | base g' => exact absurd h (not_lt.2 (le_of_lt (base_lt_apex g' (by simp only [Face.codim] at hc; omega))))
      | cone g' =>
        have := Face.codim_le g'
        simp only [Face.codim] at hc
        omega
      | apex => exact absurd h (lt_irrefl _)
  | apex =>
    intro g g' _ h
    change Face .pt at g g'
    cases g; cases g'
    exact absurd h (lt_irrefl _)

/-! ### lists of vertices -/

/-- the numbers of the vertices of a face -/
def vlist {t : Topo} (f : Face t) : List Nat := (faces f.shape f.shape.dim).map fun w => (Face.comp f w).idx

theorem subEntities_vlist {d id : Nat} {t : Topo} (h : Rep d id t) (hid : id < 2 ^ d) (f : Face t) :
    subEntities d id f.idx f.codim d = vlist f := by
  have hfd := Face.codim_add_dim f
  rw [h.dim_eq] at hfd
  have hle := Face.codim_le f
  rw [h.dim_eq] at hle
  have hl : (subEntities d id f.idx f.codim d).length = f.shape.sz f.shape.dim := by
    rw [(C15_range d id f.idx f.codim d hid hle (le_refl _) (face_lt h f)).1, (numbers_eq h hid f hle (le_refl _)).2.1]
    congr 1
    omega
  apply List.ext_getElem?
  intro k
  by_cases hk : k < f.shape.sz f.shape.dim
  · obtain ⟨w, hw, rfl⟩ := Face.idx_surj f.shape f.shape.dim k hk
    have := subEntities_getElem h hid f w
    rw [show f.codim + w.codim = d by omega] at this
    rw [this, vlist, List.getElem?_map, faces_getElem w _ hw]
    rfl
  · rw [List.getElem?_eq_none (by omega), List.getElem?_eq_none]
    rw [vlist, List.length_map, length_faces]
    omega

theorem codim_vertex {t : Topo} (f : Face t) {w : Face f.shape} (hw : w ∈ faces f.shape f.shape.dim) :
    (Face.comp f w).codim = t.dim := by
  rw [Face.codim_comp, (mem_faces _ _).1 hw, Face.codim_add_dim]

theorem bot_idx {t : Topo} (g : Face t) (h : g.codim = t.dim) : (Face.bot g).idx = g.idx := by
  rw [Face.idx, h, Topo.sz_eq_zero t (t.dim + 1) (by omega), zero_add]

theorem top_idx {t : Topo} (g : Face t) (h : g.codim = t.dim) : (Face.top g).idx = t.sz t.dim + g.idx := by
  rw [Face.idx, h, Topo.sz_eq_zero t (t.dim + 1) (by omega), zero_add]

theorem vlist_pt : vlist Face.pt = [0] := rfl

theorem faces_prism (s : Topo) :
    faces (.prism s) (s.dim + 1) = (faces s s.dim).map Face.bot ++ (faces s s.dim).map Face.top := by
  simp only [faces]
  rw [faces_nil s _ (by omega)]
  rfl

theorem faces_pyr (s : Topo) : faces (.pyr s) (s.dim + 1) = (faces s s.dim).map Face.base ++ [Face.apex] := by
  simp only [faces, if_true]
  rw [faces_nil s (s.dim + 1) (by omega), List.map_nil, List.nil_append]

theorem map_faces_prism (s : Topo) (F : Face (.prism s) → Nat) :
    (faces (.prism s) (s.dim + 1)).map F =
      ((faces s s.dim).map fun w => F (.bot w)) ++ (faces s s.dim).map fun w => F (.top w) := by
  rw [faces_prism, List.map_append, List.map_map, List.map_map]
  rfl

theorem map_faces_pyr (s : Topo) (F : Face (.pyr s) → Nat) :
    (faces (.pyr s) (s.dim + 1)).map F = ((faces s s.dim).map fun w => F (.base w)) ++ [F .apex] := by
  rw [faces_pyr, List.map_append, List.map_map]
  rfl

theorem vlist_edge {t : Topo} (f : Face t) :
    vlist (Face.edge f) = vlist f ++ (vlist f).map (t.sz t.dim + ·) := by
  refine (map_faces_prism f.shape fun w => (Face.comp (Face.edge f) w).idx).trans ?_
  congr 1
  · exact List.map_congr_left fun w hw => bot_idx _ (codim_vertex f hw)
  · rw [vlist, List.map_map]
    exact List.map_congr_left fun w hw => top_idx _ (codim_vertex f hw)

theorem vlist_bot {t : Topo} (f : Face t) : vlist (Face.bot f) = vlist f :=
  List.map_congr_left fun _ hw => bot_idx _ (codim_vertex f hw)

theorem vlist_top {t : Topo} (f : Face t) : vlist (Face.top f) = (vlist f).map (t.sz t.dim + ·) := by
  rw [vlist, vlist, List.map_map]
  exact List.map_congr_left fun _ hw => top_idx _ (codim_vertex f hw)

theorem vlist_base {t : Topo} (f : Face t) : vlist (Face.base f) = vlist f := rfl

theorem vlist_cone {t : Topo} (f : Face t) : vlist (Face.cone f) = vlist f ++ [t.sz t.dim] :=
  map_faces_pyr f.shape fun w => (Face.comp (Face.cone f) w).idx

theorem vlist_apex {t : Topo} : vlist (Face.apex : Face (.pyr t)) = [t.sz t.dim] := rfl

end Verif.Numbering
