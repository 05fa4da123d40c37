import Verif.Refine.MeshLemmas

/-!
C111: a mesh written by looping over a virtual refinement.

Specification: points and elements of a mesh of the reference element, with convex combinations of the listed corners.
-/

namespace Verif.Refine.Mesh

open Verif.Typ Verif.RefTopo Verif.RefGeom Verif.Quad Verif.Neighbour Verif.Refine.Virtual Verif.Refine.Glue
open Finset hiding ext

/-! ### specification -/

/-- the point with number `v` -/
noncomputable def Mesh.at (M : Mesh) (v : Nat) : Vec ℝ := (M.points.getD v (0, fun _ => 0)).2

/-- `x` is the combination with weights `w` of the corners listed in `idx` -/
def Combination (d : Nat) (M : Mesh) (idx : List Nat) (w : Nat → ℝ) (x : Vec ℝ) : Prop :=
  ∑ j ∈ range idx.length, w j = 1 ∧ ∀ i, i < d → x i = ∑ j ∈ range idx.length, w j * M.at (idx.getD j 0) i

/-- `x` is in the convex hull of the listed corners -/
def InElement (d : Nat) (M : Mesh) (idx : List Nat) (x : Vec ℝ) : Prop :=
  ∃ w : Nat → ℝ, (∀ j, j < idx.length → 0 ≤ w j) ∧ Combination d M idx w x

/-- `x` is a combination in which every corner has a positive weight -/
def InInterior (d : Nat) (M : Mesh) (idx : List Nat) (x : Vec ℝ) : Prop :=
  ∃ w : Nat → ℝ, (∀ j, j < idx.length → 0 < w j) ∧ Combination d M idx w x

/-- a mesh of the reference element `(d,id)`, with `n` intervals per edge, whose elements have as many corners as `(d,cid)` -/
structure Valid (d id cid n : Nat) (M : Mesh) : Prop where
  /-- `index()` counts the vertices and the elements in the order of the loop -/
  point_index : ∀ (k : Nat) (p : Nat × Vec ℝ), M.points[k]? = some p → p.1 = k
  element_index : ∀ (k : Nat) (e : Nat × List Nat), M.elements[k]? = some e → e.1 = k
  /-- every backend has been deleted -/
  no_leak : M.leaked = 0
  /-- the vertices are the lattice points -/
  point_lattice : ∀ p ∈ M.points, LatticePoint d id n fun i => if i < d then p.2 i else 0
  lattice_point : ∀ x, LatticePoint d id n x → ∃ p ∈ M.points, ∀ i, i < d → p.2 i = x i
  /-- the corners of an element are vertices of the mesh -/
  corners : ∀ e ∈ M.elements, e.2.length = refSize d cid d ∧ ∀ v ∈ e.2, v < M.points.length
  /-- the elements tile the reference element -/
  inside : ∀ e ∈ M.elements, ∀ x : Vec ℝ, (∀ k, d ≤ k → x k = 0) → InElement d M e.2 x → x ∈ domain ℝ d id
  cover : ∀ x ∈ domain ℝ d id, ∃ e ∈ M.elements, InElement d M e.2 x
  disjoint : ∀ e ∈ M.elements, ∀ e' ∈ M.elements, ∀ x, InInterior d M e.2 x → InElement d M e'.2 x → e = e'

/-! ### helper lemmas -/

/-- the mesh with vertices `V` and corners `I` -/
noncomputable def mk (N E m : Nat) (V : Nat → Vec ℝ) (I : Nat → Nat → Nat) : Mesh :=
  ⟨(List.range N).map fun k => (k, V k), (List.range E).map fun k => (k, (List.range m).map (I k)), 0⟩

theorem mk_at {N E m : Nat} (V : Nat → Vec ℝ) (I : Nat → Nat → Nat) {v : Nat} (hv : v < N) : (mk N E m V I).at v = V v := by
  rw [Mesh.at, mk]
  simp [hv]

theorem mk_element {N E m : Nat} {V : Nat → Vec ℝ} {I : Nat → Nat → Nat} {e : Nat × List Nat} :
    e ∈ (mk N E m V I).elements ↔ ∃ k, k < E ∧ (k, (List.range m).map (I k)) = e := by
  simp [mk]

theorem combination_iff {d N E m : Nat} {V : Nat → Vec ℝ} {I : Nat → Nat → Nat} {k : Nat} (hI : ∀ r, r < m → I k r < N) (w : Nat → ℝ)
    (x : Vec ℝ) : Combination d (mk N E m V I) ((List.range m).map (I k)) w x ↔
      ∑ j ∈ range m, w j = 1 ∧ ∀ i, i < d → x i = ∑ j ∈ range m, w j * V (I k j) i := by
  rw [Combination, List.length_map, List.length_range]
  refine and_congr_right fun _ => forall₂_congr fun i _ => ?_
  have : ∀ j ∈ range m, w j * (mk N E m V I).at (((List.range m).map (I k)).getD j 0) i = w j * V (I k j) i := fun j hj => by
    have hj' := mem_range.1 hj
    have : ((List.range m).map (I k)).getD j 0 = I k j := by simp [hj']
    rw [this, mk_at _ _ (hI j hj')]
  rw [sum_congr rfl this]

theorem valid_of {d id cid n N E m : Nat} {V : Nat → Vec ℝ} {I : Nat → Nat → Nat} (hm : m = refSize d cid d)
    (hV : ∀ x : Vec ℝ, (∀ k, d ≤ k → x k = 0) → ((∃ k, k < N ∧ ∀ i, i < d → V k i = x i) ↔ LatticePoint d id n x))
    (hI : ∀ k, k < E → ∀ r, r < m → I k r < N)
    (P Q : Nat → Vec ℝ → Prop)
    (hP : ∀ k, k < E → ∀ x, InElement d (mk N E m V I) ((List.range m).map (I k)) x ↔ P k x)
    (hQ : ∀ k, k < E → ∀ x, InInterior d (mk N E m V I) ((List.range m).map (I k)) x → Q k x)
    (hin : ∀ k, k < E → ∀ x : Vec ℝ, (∀ k, d ≤ k → x k = 0) → P k x → x ∈ domain ℝ d id)
    (hco : ∀ x ∈ domain ℝ d id, ∃ k, k < E ∧ P k x)
    (hdi : ∀ k k', k < E → k' < E → ∀ x, Q k x → P k' x → k = k') : Valid d id cid n (mk N E m V I) := by
  refine ⟨fun k p h => ?_, fun k e h => ?_, rfl, fun p hp => ?_, fun x hx => ?_, fun e he => ?_, fun e he x hx hx' => ?_, fun x hx => ?_,
    fun e he e' he' x hx hx' => ?_⟩
  · simp only [mk, List.getElem?_map, Option.map_eq_some_iff] at h
    obtain ⟨a, h1, rfl⟩ := h
    obtain ⟨h1, h2⟩ := List.getElem?_eq_some_iff.1 h1
    simpa using h2.symm
  · simp only [mk, List.getElem?_map, Option.map_eq_some_iff] at h
    obtain ⟨a, h1, rfl⟩ := h
    obtain ⟨h1, h2⟩ := List.getElem?_eq_some_iff.1 h1
    simpa using h2.symm
  · simp only [mk, List.mem_map, List.mem_range] at hp
    obtain ⟨k, hk, rfl⟩ := hp
    exact (hV _ fun k hk => if_neg (by omega)).1 ⟨k, hk, fun i hi => by simp only [if_pos hi]⟩
  · obtain ⟨k, hk, h⟩ := (hV x (domain_zero hx.1)).2 hx
    exact ⟨(k, V k), by simp [mk, hk], h⟩
  · obtain ⟨k, hk, rfl⟩ := mk_element.1 he
    refine ⟨by simp [hm], fun v hv => ?_⟩
    simp only [List.mem_map, List.mem_range] at hv
    obtain ⟨r, hr, rfl⟩ := hv
    simpa [mk] using hI k hk r hr
  · obtain ⟨k, hk, rfl⟩ := mk_element.1 he
    exact hin k hk x hx ((hP k hk x).1 hx')
  · obtain ⟨k, hk, h⟩ := hco x hx
    exact ⟨_, mk_element.2 ⟨k, hk, rfl⟩, (hP k hk x).2 h⟩
  · obtain ⟨k, hk, rfl⟩ := mk_element.1 he
    obtain ⟨k', hk', rfl⟩ := mk_element.1 he'
    obtain rfl := hdi k k' hk hk' x (hQ k hk x hx) ((hP k' hk' x).1 hx')
    rfl

/-- a point of the simplex with corners `c` -/
def SimplexPoint (d : Nat) (c : Nat → Nat → ℝ) (x : Vec ℝ) : Prop := ∃ z, InSimplex d z ∧ ∀ i, i < d → x i = interp d c z i

def SimplexInner (d : Nat) (c : Nat → Nat → ℝ) (x : Vec ℝ) : Prop := ∃ z, InnerSimplex d z ∧ ∀ i, i < d → x i = interp d c z i

section
variable {d N E : Nat} {V : Nat → Vec ℝ} {I : Nat → Nat → Nat} {k : Nat} {c : Nat → Nat → ℝ} {f : Fin (d + 1) → Fin (d + 1)}

theorem combo_simplex (hf : Function.Bijective f)
    (hI : ∀ r : Fin (d + 1), I k r < N ∧ ∀ i, i < d → V (I k r) i = c (f r) i) {w : Nat → ℝ} {x : Vec ℝ}
    (h : Combination d (mk N E (d + 1) V I) ((List.range (d + 1)).map (I k)) w x) :
    ∃ u : Nat → ℝ, (∀ r : Fin (d + 1), u (f r) = w r) ∧ ∑ l ∈ range (d + 1), u l = 1 ∧
      ∀ i, i < d → x i = interp d c (fun l => u (l + 1)) i := by
  rw [combination_iff (fun r hr => (hI ⟨r, hr⟩).1)] at h
  obtain ⟨h1, h2⟩ := h
  let e := Equiv.ofBijective f hf
  obtain ⟨u, hu⟩ : ∃ u : Nat → ℝ, ∀ r : Fin (d + 1), u (f r) = w r :=
    ⟨fun l => if hl : l < d + 1 then w (e.symm ⟨l, hl⟩) else 0, fun r => by
      have : e.symm (f r) = r := e.symm_apply_apply r
      change (if hl : (f r : Nat) < d + 1 then w (e.symm ⟨f r, hl⟩) else 0) = w r
      rw [dif_pos (f r).2]
      exact congrArg (fun q : Fin (d + 1) => w q) this⟩
  have hs : ∑ l ∈ range (d + 1), u l = 1 := by
    rw [← h1, ← sum_bij f hf u, ← Fin.sum_univ_eq_sum_range w]
    exact sum_congr rfl fun r _ => hu r
  refine ⟨u, hu, hs, fun i hi => ?_⟩
  rw [h2 i hi, interp_combo d c u hs, ← sum_bij f hf fun l => u l * c l i, ← Fin.sum_univ_eq_sum_range fun l => w l * V (I k l) i]
  exact sum_congr rfl fun r _ => by rw [hu r, (hI r).2 i hi]

theorem in_simplex (hf : Function.Bijective f)
    (hI : ∀ r : Fin (d + 1), I k r < N ∧ ∀ i, i < d → V (I k r) i = c (f r) i) (x : Vec ℝ) :
    InElement d (mk N E (d + 1) V I) ((List.range (d + 1)).map (I k)) x ↔ SimplexPoint d c x := by
  constructor
  · rintro ⟨w, hw, h⟩
    rw [List.length_map, List.length_range] at hw
    obtain ⟨u, h1, h2, h3⟩ := combo_simplex hf hI h
    have hu : ∀ l, l < d + 1 → 0 ≤ u l := fun l hl => by
      obtain ⟨r, hr⟩ := hf.2 ⟨l, hl⟩
      have := h1 r
      rw [hr] at this
      rw [this]
      exact hw r r.2
    rw [sum_range_succ'] at h2
    have := hu 0 (by omega)
    exact ⟨_, ⟨fun i hi => hu _ (by omega), by linarith⟩, h3⟩
  · rintro ⟨z, ⟨z1, z2⟩, h⟩
    let u : Nat → ℝ := fun l => if l = 0 then 1 - ∑ i ∈ range d, z i else z (l - 1)
    have hu : ∑ l ∈ range (d + 1), u l = 1 := by
      rw [sum_range_succ']
      simp [u]
    have hz : (fun l => u (l + 1)) = z := funext fun l => by simp [u]
    refine ⟨fun r => if hr : r < d + 1 then u (f ⟨r, hr⟩) else 0, fun r hr => ?_, (combination_iff (fun r hr => (hI ⟨r, hr⟩).1) _ x).2 ⟨?_, fun i hi => ?_⟩⟩
    · rw [List.length_map, List.length_range] at hr
      simp only [dif_pos hr]
      have hl := (f ⟨r, hr⟩).2
      by_cases h0 : (f ⟨r, hr⟩ : Nat) = 0
      · simp only [u, if_pos h0]; linarith
      · simp only [u, if_neg h0]; exact z1 _ (by omega)
    · rw [← hu, ← sum_bij f hf u, ← Fin.sum_univ_eq_sum_range fun r => if hr : r < d + 1 then u (f ⟨r, hr⟩) else 0]
      exact sum_congr rfl fun r _ => dif_pos r.2
    · rw [h i hi, ← hz, interp_combo d c u hu, ← sum_bij f hf fun l => u l * c l i,
        ← Fin.sum_univ_eq_sum_range fun r => (if hr : r < d + 1 then u (f ⟨r, hr⟩) else 0) * V (I k r) i]
      exact sum_congr rfl fun r _ => by rw [dif_pos r.2, (hI r).2 i hi]

theorem inner_simplex (hf : Function.Bijective f)
    (hI : ∀ r : Fin (d + 1), I k r < N ∧ ∀ i, i < d → V (I k r) i = c (f r) i) (x : Vec ℝ)
    (h : InInterior d (mk N E (d + 1) V I) ((List.range (d + 1)).map (I k)) x) : SimplexInner d c x := by
  obtain ⟨w, hw, h⟩ := h
  rw [List.length_map, List.length_range] at hw
  obtain ⟨u, h1, h2, h3⟩ := combo_simplex hf hI h
  have hu : ∀ l, l < d + 1 → 0 < u l := fun l hl => by
    obtain ⟨r, hr⟩ := hf.2 ⟨l, hl⟩
    have := h1 r
    rw [hr] at this
    rw [this]
    exact hw r r.2
  rw [sum_range_succ'] at h2
  have := hu 0 (by omega)
  exact ⟨_, ⟨fun i hi => hu _ (by omega), by linarith⟩, h3⟩
end

theorem inSimplex_congr {d : Nat} {x y : Nat → ℝ} (h : ∀ i, i < d → x i = y i) (hx : InSimplex d x) : InSimplex d y :=
  ⟨fun i hi => by rw [← h i hi]; exact hx.1 i hi, by
    rw [← sum_congr rfl fun i hi => h i (mem_range.1 hi)]
    exact hx.2⟩

/-! #### simplices -/

section
variable (d n : Nat)

noncomputable def sV (k : Nat) : Vec ℝ := ((Refine.vAt d n k).bind (VertexIterator.coords d)).getD fun _ => 0
def sI (k : Nat) : Nat → Nat := ((Refine.eAt d n k).bind (ElementIterator.vertexIndices d)).getD fun _ => 0
noncomputable def sC (k : Nat) : Nat → Nat → ℝ := fun i => (((Refine.eAt d n k).bind (ElementIterator.geometry d)).getD []).getD i fun _ => 0

variable {d n}

theorem simplex_traverse (hd : 0 < d) (fuel : Nat) (h1 : Refine.nVertices d n < fuel) (h2 : Refine.nElements d n < fuel) :
    meshOf d n fuel .simplex = some (mk (Refine.nVertices d n) (Refine.nElements d n) (d + 1) (sV d n) (sI d n)) := by
  obtain ⟨_, A⟩ : ∃ A, Steps (simplexV d n) (Refine.nVertices d n) A fun k => (k, sV d n k) := by
    refine steps_of (Refine.vAt d n) rfl (fun k _ => rfl) _ fun k hk => ?_
    obtain ⟨it, e1, e2⟩ := C40_index d n hd k hk
    refine ⟨it, e1, C40_end d n hd k hk it e1, fun hlt => ?_⟩
    obtain ⟨it', x, q, f1, f2, -⟩ := C40_inside (K := ℝ) d n hd k hlt
    obtain rfl := Option.some.inj (e1.symm.trans f1)
    change (it.coords d).map _ = _
    rw [f2, Option.map_some, e2, sV, f1, Option.bind_some, f2, Option.getD_some]
  obtain ⟨_, B⟩ : ∃ B, Steps (simplexE d n) (Refine.nElements d n) B fun k => (k, (List.range (d + 1)).map (sI d n k)) := by
    refine steps_of (Refine.eAt d n) rfl (fun k _ => rfl) _ fun k hk => ?_
    obtain ⟨it, e1, e2, -⟩ := C41_index d n hd k hk
    refine ⟨it, e1, C41_end d n hd k hk it e1, fun hlt => ?_⟩
    obtain ⟨it', idx, cs, f1, f2, -⟩ := C42_set_partial (K := ℝ) d n k hd hlt
    obtain rfl := Option.some.inj (e1.symm.trans f1)
    change (it.vertexIndices d).map _ = _
    rw [f2, Option.map_some, e2, sI, f1, Option.bind_some, f2, Option.getD_some, pushAll_eq]
  obtain ⟨s, e1, l1⟩ := traverse_eq A fuel h1
  obtain ⟨s', e2, l2⟩ := traverse_eq B fuel h2
  rw [meshOf, e1, e2]
  simp only [Option.bind_eq_bind, Option.bind_some, l1, l2]
  rfl

theorem sC_eq {k : Nat} {it : ElementIterator} {cs : List (Nat → ℝ)} (h1 : Refine.eAt d n k = some it) (h2 : it.geometry d = some cs) {i : Nat}
    {c : Nat → ℝ} (h3 : cs[i]? = some c) : sC d n k i = c := by
  rw [sC, h1, Option.bind_some, h2, Option.getD_some, List.getD_eq_getElem?_getD, h3, Option.getD_some]

theorem simplex_global {k : Nat} (hd : 0 < d) (hk : k < Refine.nElements d n) (z : Nat → ℝ) : ∃ it y, Refine.eAt d n k = some it ∧
    it.global d z = some y ∧ ∀ i, i < d → y i = interp d (sC d n k) z i := by
  obtain ⟨it, cs, c, e1, e2, e3, e4, e5⟩ := global_interp (K := ℝ) d n k hd hk
  obtain ⟨y, e6, e7⟩ := e5 z
  refine ⟨it, y, e1, e6, fun i hi => ?_⟩
  rw [e7 i hi]
  exact interp_congr (fun l hl => by rw [sC_eq e1 e2 (e4 l hl)]) z

theorem simplex_valid (hd : 0 < d) (hn : 0 < n) {id cid : Nat} (hs : IsSimplexId d id) (hm : d + 1 = refSize d cid d) :
    Valid d id cid n (mk (Refine.nVertices d n) (Refine.nElements d n) (d + 1) (sV d n) (sI d n)) := by
  have hI : ∀ k, k < Refine.nElements d n → ∃ f : Fin (d + 1) → Fin (d + 1), Function.Bijective f ∧ ∀ r : Fin (d + 1),
      sI d n k r < Refine.nVertices d n ∧ ∀ i, i < d → sV d n (sI d n k r) i = sC d n k (f r) i := by
    intro k hk
    obtain ⟨it, idx, cs, e1, e2, e3, e4, f, hf, e5⟩ := C42_set_partial (K := ℝ) d n k hd hk
    refine ⟨f, hf, fun r => ?_⟩
    obtain ⟨e6, v, x, c, e7, e8, e9, e10⟩ := e5 r
    have hi : sI d n k = idx := by rw [sI, e1, Option.bind_some, e2, Option.getD_some]
    refine ⟨by rw [hi]; exact e6, fun i hi' => ?_⟩
    rw [hi, sC_eq e1 e3 e9, ← e10 i hi', sV, e7, Option.bind_some, e8, Option.getD_some]
  refine valid_of hm (fun x hx => ?_) (fun k hk r hr => ?_) (fun k => SimplexPoint d (sC d n k)) (fun k => SimplexInner d (sC d n k))
    (fun k hk x => ?_) (fun k hk x => ?_) (fun k hk x hx h => ?_) (fun x hx => ?_) (fun k k' hk hk' x h h' => ?_)
  · rw [lattice_iff hx, domain_simplex hs hx, ← simplex_vertices d n hd hn x]
    refine exists_congr fun k => and_congr_right fun hk => ?_
    obtain ⟨it, y, q, f1, f2, -⟩ := C40_inside (K := ℝ) d n hd k hk
    have : sV d n k = y := by rw [sV, f1, Option.bind_some, f2, Option.getD_some]
    rw [this]
    exact ⟨fun h => ⟨it, y, f1, f2, h⟩, fun ⟨it', y', g1, g2, h⟩ => by
      obtain rfl := Option.some.inj (f1.symm.trans g1)
      obtain rfl := Option.some.inj (f2.symm.trans g2)
      exact h⟩
  · obtain ⟨f, -, h⟩ := hI k hk
    exact (h ⟨r, hr⟩).1
  · obtain ⟨f, hf, h⟩ := hI k hk
    exact in_simplex hf h x
  · obtain ⟨f, hf, h⟩ := hI k hk
    exact inner_simplex hf h x
  · obtain ⟨z, hz, h⟩ := h
    obtain ⟨it, y, e1, e2, e3⟩ := C60_inside d n k hd hk z hz
    obtain ⟨it', y', f1, f2, f3⟩ := simplex_global hd hk z
    obtain rfl := Option.some.inj (e1.symm.trans f1)
    obtain rfl := Option.some.inj (e2.symm.trans f2)
    exact (domain_simplex hs hx).2 (inSimplex_congr (fun i hi => by rw [h i hi, f3 i hi]) e3)
  · have hx' := (domain_simplex hs (domain_zero hx)).1 hx
    obtain ⟨k, it, z, y, hk, e1, hz, e2, e3⟩ := C60_cover d n hd hn x hx'
    obtain ⟨it', y', f1, f2, f3⟩ := simplex_global hd hk z
    obtain rfl := Option.some.inj (e1.symm.trans f1)
    obtain rfl := Option.some.inj (e2.symm.trans f2)
    exact ⟨k, hk, z, hz, fun i hi => by rw [← e3 i hi, f3 i hi]⟩
  · obtain ⟨z, hz, h⟩ := h
    obtain ⟨z', hz', h'⟩ := h'
    obtain ⟨it, y, e1, e2, e3⟩ := simplex_global hd hk z
    obtain ⟨it', y', f1, f2, f3⟩ := simplex_global hd hk' z'
    exact C60_disjoint d n k k' hd hk hk' z z' hz hz' it it' e1 f1 y y' e2 f2 fun i hi => by rw [e3 i hi, f3 i hi, ← h i hi, ← h' i hi]
end

/-! #### triangulations -/

section
variable (s : Triang.Scheme ℝ) (n : Nat)

noncomputable def tV (k : Nat) : Vec ℝ := ((Triang.vAt s n k).bind (Triang.VIterator.coords s)).getD fun _ => 0
def tI (k : Nat) : Nat → Nat := ((Triang.eAt s n k).bind (Triang.EIterator.vertexIndices s)).getD fun _ => 0
noncomputable def tC (k : Nat) : Nat → Nat → ℝ := fun i => (((Triang.eAt s n k).bind (Triang.EIterator.geometry s)).getD []).getD i fun _ => 0

variable {s n} {dom : (Nat → ℝ) → Prop}

theorem tC_eq {k : Nat} {it : Triang.EIterator} {cs : List (Nat → ℝ)} (h1 : Triang.eAt s n k = some it) (h2 : it.geometry s = some cs) {i : Nat}
    {c : Nat → ℝ} (h3 : cs[i]? = some c) : tC s n k i = c := by
  rw [tC, h1, Option.bind_some, h2, Option.getD_some, List.getD_eq_getElem?_getD, h3, Option.getD_some]

theorem triang_points (h : Triang.Fits s dom) (hn : 0 < n) (fuel : Nat) (h1 : Triang.nVertices s n < fuel) :
    ∃ st, traverse (triangV s n) fuel = some ((List.range (Triang.nVertices s n)).map fun k => (k, tV s n k), st) ∧ live st = 0 := by
  obtain ⟨_, A⟩ : ∃ A, Steps (triangV s n) (Triang.nVertices s n) A fun k => (k, tV s n k) := by
    refine steps_of (Triang.vAt s n) rfl (fun k _ => rfl) _ fun k hk => ?_
    obtain ⟨it, e1, e2⟩ := Triang.C44_vertex_index s h.pos n k
    refine ⟨it, e1, Triang.C44_vertex_end s h.pos n k it e1, fun hlt => ?_⟩
    obtain ⟨it', x, f1, f2, -⟩ := Triang.C44_inside h n k hn hlt
    obtain rfl := Option.some.inj (e1.symm.trans f1)
    change (it.coords s).map _ = _
    rw [f2, Option.map_some, e2, tV, f1, Option.bind_some, f2, Option.getD_some]
  exact traverse_eq A fuel h1

theorem triang_elements (h : Triang.Fits s dom) (hn : 0 < n) (fuel : Nat) (h1 : Triang.nElements s n < fuel) :
    ∃ st, traverse (triangE s n) fuel =
      some ((List.range (Triang.nElements s n)).map fun k => (k, (List.range (s.dimension + 1)).map (tI s n k)), st) ∧ live st = 0 := by
  obtain ⟨_, A⟩ : ∃ A, Steps (triangE s n) (Triang.nElements s n) A fun k => (k, (List.range (s.dimension + 1)).map (tI s n k)) := by
    refine steps_of (Triang.eAt s n) rfl (fun k _ => rfl) _ fun k hk => ?_
    obtain ⟨it, e1, e2⟩ := Triang.C44_element_index s h.pos n hn k
    refine ⟨it, e1, Triang.C44_element_end_partial s h.pos n hn k it e1, fun hlt => ?_⟩
    obtain ⟨it', idx, cs, f1, f2, -⟩ := Triang.C44_vertexIndices h n k hlt
    obtain rfl := Option.some.inj (e1.symm.trans f1)
    change (it.vertexIndices s).map _ = _
    rw [f2, Option.map_some, e2, tI, f1, Option.bind_some, f2, Option.getD_some, pushAll_eq]
  exact traverse_eq A fuel h1

theorem triang_valid (h : Triang.Fits s dom) (hn : 0 < n) {d id cid : Nat} (hd : s.dimension = d)
    (hdom : ∀ x : Vec ℝ, (∀ k, d ≤ k → x k = 0) → (x ∈ domain ℝ d id ↔ dom x))
    (hcon : ∀ x y : Nat → ℝ, (∀ i, i < s.dimension → x i = y i) → dom x → dom y)
    (hgr : ∀ x : Vec ℝ, (∃ k, k < Triang.nVertices s n ∧ ∃ it x', Triang.vAt s n k = some it ∧ it.coords s = some x' ∧
      ∀ i, i < s.dimension → x' i = x i) ↔ dom x ∧ ∀ i, i < s.dimension → Gr n (x i)) (hm : d + 1 = refSize d cid d) :
    Valid d id cid n (mk (Triang.nVertices s n) (Triang.nElements s n) (d + 1) (tV s n) (tI s n)) := by
  subst hd
  have hI : ∀ k, k < Triang.nElements s n → ∃ f : Fin (s.dimension + 1) → Fin (s.dimension + 1), Function.Bijective f ∧
      ∀ r : Fin (s.dimension + 1), tI s n k r < Triang.nVertices s n ∧ ∀ i, i < s.dimension → tV s n (tI s n k r) i = tC s n k (f r) i := by
    intro k hk
    obtain ⟨it, idx, cs, e1, e2, e3, e4, f, hf, e5⟩ := Triang.C44_vertexIndices h n k hk
    refine ⟨f, hf, fun r => ?_⟩
    obtain ⟨e6, v, x, c, e7, e8, e9, e10⟩ := e5 r
    have hi : tI s n k = idx := by rw [tI, e1, Option.bind_some, e2, Option.getD_some]
    refine ⟨by rw [hi]; exact e6, fun i hi' => ?_⟩
    rw [hi, tC_eq e1 e3 e9, ← e10 i hi', tV, e7, Option.bind_some, e8, Option.getD_some]
  refine valid_of hm (fun x hx => ?_) (fun k hk r hr => ?_) (fun k => SimplexPoint s.dimension (tC s n k))
    (fun k => SimplexInner s.dimension (tC s n k))
    (fun k hk x => ?_) (fun k hk x => ?_) (fun k hk x hx h' => ?_) (fun x hx => ?_) (fun k k' hk hk' x h1 h1' => ?_)
  · rw [lattice_iff hx, hdom x hx, ← hgr x]
    refine exists_congr fun k => and_congr_right fun hk => ?_
    obtain ⟨it, y, f1, f2, -⟩ := Triang.C44_inside h n k hn hk
    have : tV s n k = y := by rw [tV, f1, Option.bind_some, f2, Option.getD_some]
    rw [this]
    exact ⟨fun h => ⟨it, y, f1, f2, h⟩, fun ⟨it', y', g1, g2, h⟩ => by
      obtain rfl := Option.some.inj (f1.symm.trans g1)
      obtain rfl := Option.some.inj (f2.symm.trans g2)
      exact h⟩
  · obtain ⟨f, -, h⟩ := hI k hk
    exact (h ⟨r, hr⟩).1
  · obtain ⟨f, hf, h⟩ := hI k hk
    exact in_simplex hf h x
  · obtain ⟨f, hf, h⟩ := hI k hk
    exact inner_simplex hf h x
  · obtain ⟨z, hz, hx'⟩ := h'
    obtain ⟨it, cs, c, e1, e2, e3, e4, e5⟩ := Triang.C60_triang_inside h hcon n k hk z hz
    refine (hdom x hx).2 (hcon _ _ (fun i hi => ?_) e5)
    rw [hx' i hi]
    exact interp_congr (fun l hl => by rw [tC_eq e1 e2 (e4 l hl)]) z
  · obtain ⟨k, it, cs, c, z, hk, e1, e2, e3, hz, e4⟩ := Triang.C60_triang_cover h n hn x ((hdom x (domain_zero hx)).1 hx)
    refine ⟨k, hk, z, hz, fun i hi => ?_⟩
    rw [← e4 i hi]
    exact interp_congr (fun l hl => by rw [tC_eq e1 e2 (e3 l hl)]) z
  · obtain ⟨z, hz, e1⟩ := h1
    obtain ⟨z', hz', e1'⟩ := h1'
    obtain ⟨it, cs, c, q, b, f1, f2, f3, f4, -⟩ := Triang.elemT h n k hk
    obtain ⟨it', cs', c', q', b', g1, g2, g3, g4, -⟩ := Triang.elemT h n k' hk'
    refine Triang.C60_triang_disjoint h n k k' hk hk' it it' f1 g1 cs cs' f2 g2 c c' f4 g4 z z' hz hz' fun i hi => ?_
    rw [interp_congr (c' := tC s n k) (fun l hl => by rw [tC_eq f1 f2 (f4 l hl)]) z,
      interp_congr (c' := tC s n k') (fun l hl => by rw [tC_eq g1 g2 (g4 l hl)]) z', ← e1 i hi, ← e1' i hi]
end

/-! #### cubes -/

section
variable (d n : Nat)

noncomputable def hV (k : Nat) : Vec ℝ := ((HCube.at' (HCube.vBegin n) k).vCoords d).getD fun _ => 0
def hI (k : Nat) : Nat → Nat := fun i => (((HCube.at' (HCube.eBegin n) k).vertexIndices d).getD []).getD i 0

variable {d n}

theorem hcube_traverse (hn : 0 < n) (fuel : Nat) (h1 : HCube.nVertices d n < fuel) (h2 : HCube.nElements d n < fuel) :
    meshOf d n fuel .hcube = some (mk (HCube.nVertices d n) (HCube.nElements d n) (2 ^ d) (hV d n) (hI d n)) := by
  obtain ⟨_, A⟩ : ∃ A, Steps (hcubeV d n) (HCube.nVertices d n) A fun k => (k, hV d n k) := by
    refine steps_of (fun k => some (HCube.at' (HCube.vBegin n) k)) rfl (fun k _ => ?_) _ fun k hk => ?_
    · change some (HCube.at' (HCube.vBegin n) (k + 1)) = some _
      rw [HCube.at', Function.iterate_succ_apply']
      rfl
    · obtain ⟨e1, -, e2, -⟩ := HCube.C43_index d n k
      refine ⟨_, rfl, e2, fun hlt => ?_⟩
      obtain ⟨c, f1, -⟩ := HCube.idx2coord_eq d k (n + 1) (by omega)
      obtain ⟨x, hx⟩ : ∃ x, (HCube.at' (HCube.vBegin n) k).vCoords d = some x := by
        rw [HCube.at_eq, HCube.Iterator.vCoords, HCube.Iterator.vertexCoord]
        simp only [HCube.vBegin, Nat.zero_add, f1, Option.map_some]
        exact ⟨_, rfl⟩
      change ((HCube.at' (HCube.vBegin n) k).vCoords d).map _ = _
      rw [hx, Option.map_some, e1, hV, hx, Option.getD_some]
  obtain ⟨_, B⟩ : ∃ B, Steps (hcubeE d n) (HCube.nElements d n) B fun k => (k, (List.range (2 ^ d)).map (hI d n k)) := by
    refine steps_of (fun k => some (HCube.at' (HCube.eBegin n) k)) rfl (fun k _ => ?_) _ fun k hk => ?_
    · change some (HCube.at' (HCube.eBegin n) (k + 1)) = some _
      rw [HCube.at', Function.iterate_succ_apply']
      rfl
    · obtain ⟨-, e1, -, e2⟩ := HCube.C43_index d n k
      refine ⟨_, rfl, e2, fun hlt => ?_⟩
      obtain ⟨g, idx, -, f2, -⟩ := HCube.C43_vertexIndices d n k hn hlt
      change ((HCube.at' (HCube.eBegin n) k).vertexIndices d).map _ = _
      rw [f2, Option.map_some, e1, pushAll_eq, Nat.one_shiftLeft]
      have : hI d n k = fun i => idx.getD i 0 := funext fun i => by rw [hI, f2, Option.getD_some]
      rw [this]
  obtain ⟨s, e1, l1⟩ := traverse_eq A fuel h1
  obtain ⟨s', e2, l2⟩ := traverse_eq B fuel h2
  rw [meshOf, e1, e2]
  simp only [Option.bind_eq_bind, Option.bind_some, l1, l2]
  rfl

theorem ofCorners_corner (d : Nat) (lo up : Vec ℝ) (a i : Nat) (hi : i < d) :
    (Cube.ofCorners d lo up).corner a i = lo i + if a.testBit i then up i - lo i else 0 := by
  rw [Cube.corner_spec (Cube.valid_ofCorners d lo up) a i hi]
  have hcount : Cube.count (Cube.ofCorners d lo up).axes i = i := by
    change Cube.count (fun i => decide (i < d)) i = i
    have : ∀ k, k ≤ d → Cube.count (fun i => decide (i < d)) k = k := by
      intro k
      induction k with
      | zero => intro _; rfl
      | succ k ih => intro hk; rw [Cube.count_succ, ih (by omega)]; simp; omega
    exact this i hi.le
  have hax : (Cube.ofCorners d lo up).axes i = true := decide_eq_true hi
  rw [hcount, if_pos hax]
  rfl

/-- the corners of the cell `k` -/
theorem hcube_cell (hn : 0 < n) {k : Nat} (hk : k < HCube.nElements d n) : ∃ g, (HCube.at' (HCube.eBegin n) k).eGeometry d = some g ∧
    (∀ i, i < d → g.upper i = g.lower i + 1 / n) ∧ ∀ a, a < 2 ^ d → hI d n k a < HCube.nVertices d n ∧
      ∀ i, i < d → hV d n (hI d n k a) i = g.lower i + (if a.testBit i then 1 else 0) / n := by
  obtain ⟨g, idx, e1, e2, e3, e4⟩ := HCube.C43_vertexIndices d n k hn hk
  obtain ⟨v, h1, h2⟩ := HCube.idx2coord_eq d k n hn
  have e1' := e1
  rw [HCube.at_eq, HCube.Iterator.eGeometry] at e1'
  simp only [HCube.eBegin, Nat.zero_add, h1, Option.map_some, Option.some.injEq] at e1'
  subst e1'
  refine ⟨_, e1, fun i hi => ?_, fun a ha => ?_⟩
  · simp only [Cube.ofCorners, Nat.cast_add, Nat.cast_one, add_div]
  obtain ⟨m, x, g1, g2, g3, g4⟩ := e4 a (by rw [Cube.AxisAlignedCubeGeometry.corners, Nat.one_shiftLeft]; exact ha)
  have hi : hI d n k a = m := by rw [hI, e2, Option.getD_some, List.getD_eq_getElem?_getD, g1, Option.getD_some]
  refine ⟨by rw [hi]; exact g2, fun i hi' => ?_⟩
  rw [hi, hV, g3, Option.getD_some, g4 i hi', ofCorners_corner d _ _ a i hi']
  simp only [Cube.ofCorners, Nat.cast_add, Nat.cast_one, add_div, add_sub_cancel_left]
  split
  · rfl
  · simp

theorem cube_sum {N E : Nat} {V : Nat → Vec ℝ} {I : Nat → Nat → Nat} {k : Nat} {lo : Vec ℝ}
    (h : ∀ a, a < 2 ^ d → I k a < N ∧ ∀ i, i < d → V (I k a) i = lo i + (if a.testBit i then 1 else 0) / n) (w : Nat → ℝ) (x : Vec ℝ) :
    Combination d (mk N E (2 ^ d) V I) ((List.range (2 ^ d)).map (I k)) w x ↔ ∑ a ∈ range (2 ^ d), w a = 1 ∧
      ∀ i, i < d → x i = lo i + (∑ a ∈ range (2 ^ d), w a * (if a.testBit i then 1 else 0)) / n := by
  rw [combination_iff fun a ha => (h a ha).1]
  refine and_congr_right fun hw => forall₂_congr fun i hi => ?_
  have : ∑ a ∈ range (2 ^ d), w a * V (I k a) i = lo i + (∑ a ∈ range (2 ^ d), w a * (if a.testBit i then 1 else 0)) / n := by
    have e : ∀ a ∈ range (2 ^ d), w a * V (I k a) i = w a * lo i + w a * (if a.testBit i then 1 else 0) / n := fun a ha => by
      rw [(h a (mem_range.1 ha)).2 i hi, mul_add, mul_div_assoc]
    rw [sum_congr rfl e, sum_add_distrib, ← sum_mul, hw, one_mul, sum_div]
  rw [this]

theorem hcube_valid (hn : 0 < n) {id cid : Nat} (hs : IsCubeId d id) (hm : 2 ^ d = refSize d cid d) :
    Valid d id cid n (mk (HCube.nVertices d n) (HCube.nElements d n) (2 ^ d) (hV d n) (hI d n)) := by
  have hn' : (0 : ℝ) < n := Nat.cast_pos.2 hn
  refine valid_of hm (fun x hx => ?_) (fun k hk r hr => ?_)
    (fun k x => ∃ g, (HCube.at' (HCube.eBegin n) k).eGeometry d = some g ∧ ∀ i, i < d → g.lower i ≤ x i ∧ x i ≤ g.upper i)
    (fun k x => ∃ g, (HCube.at' (HCube.eBegin n) k).eGeometry d = some g ∧ ∀ i, i < d → g.lower i < x i ∧ x i < g.upper i)
    (fun k hk x => ?_) (fun k hk x h => ?_) (fun k hk x hx h => ?_) (fun x hx => ?_) (fun k k' hk hk' x h h' => ?_)
  · rw [lattice_iff hx, domain_cube hs hx, ← cube_vertices d n hn x]
    refine exists_congr fun k => and_congr_right fun hk => ?_
    obtain ⟨c, f1, -⟩ := HCube.idx2coord_eq d k (n + 1) (by omega)
    obtain ⟨y, hy⟩ : ∃ x, (HCube.at' (HCube.vBegin n) k).vCoords d = some x := by
      rw [HCube.at_eq, HCube.Iterator.vCoords, HCube.Iterator.vertexCoord]
      simp only [HCube.vBegin, Nat.zero_add, f1, Option.map_some]
      exact ⟨_, rfl⟩
    have : hV d n k = y := by rw [hV, hy, Option.getD_some]
    rw [this]
    exact ⟨fun h => ⟨y, hy, h⟩, fun ⟨y', g2, h⟩ => by
      obtain rfl := Option.some.inj (hy.symm.trans g2)
      exact h⟩
  · obtain ⟨g, -, -, h⟩ := hcube_cell hn hk
    exact (h r hr).1
  · obtain ⟨g, e1, e2, e3⟩ := hcube_cell hn hk
    constructor
    · rintro ⟨w, h1, h2⟩
      rw [List.length_map, List.length_range] at h1
      rw [cube_sum e3] at h2
      refine ⟨g, e1, fun i hi => ?_⟩
      obtain ⟨b1, b2⟩ := cube_outer d w h1 h2.1 i
      rw [e2 i hi, h2.2 i hi]
      exact ⟨by linarith [div_nonneg b1 hn'.le], by linarith [div_le_div_of_nonneg_right b2 hn'.le]⟩
    · rintro ⟨g', e1', h⟩
      obtain rfl := Option.some.inj (e1.symm.trans e1')
      obtain ⟨w, w1, w2, w3⟩ := cube_weights d (fun i => (x i - g.lower i) * n) fun i hi => by
        have := h i hi
        rw [e2 i hi] at this
        have t : x i - g.lower i ≤ 1 / n := by linarith
        exact ⟨mul_nonneg (by linarith) hn'.le, by rwa [le_div_iff₀ hn'] at t⟩
      refine ⟨w, fun a _ => w1 a, (cube_sum e3 w x).2 ⟨w2, fun i hi => ?_⟩⟩
      rw [w3 i hi, mul_div_assoc, div_self hn'.ne', mul_one]
      ring
  · obtain ⟨g, e1, e2, e3⟩ := hcube_cell hn hk
    obtain ⟨w, h1, h2⟩ := h
    rw [List.length_map, List.length_range] at h1
    rw [cube_sum e3] at h2
    refine ⟨g, e1, fun i hi => ?_⟩
    obtain ⟨b1, b2⟩ := cube_inner d w h1 h2.1 i hi
    rw [e2 i hi, h2.2 i hi]
    exact ⟨by linarith [div_pos b1 hn'], by linarith [div_lt_div_of_pos_right b2 hn']⟩
  · obtain ⟨g, e1, h⟩ := h
    obtain ⟨g', c, f1, f2, f3, f4, f5, f6⟩ := HCube.C43_cell d n k hn
    obtain rfl := Option.some.inj (e1.symm.trans f1)
    refine (domain_cube hs hx).2 fun i hi => ?_
    have h1 := h i hi
    have hc : ((c i : ℝ) + 1) ≤ n := by exact_mod_cast f2 i hi
    rw [(f6 i hi).1, (f6 i hi).2] at h1
    exact ⟨le_trans (by positivity) h1.1, h1.2.trans ((div_le_one hn').2 hc)⟩
  · obtain ⟨k, g, hk, e1, e2⟩ := HCube.C60_cube_cover d n hn x ((domain_cube hs (domain_zero hx)).1 hx)
    exact ⟨k, hk, g, e1, e2⟩
  · obtain ⟨g, e1, e2⟩ := h
    obtain ⟨g', e1', e2'⟩ := h'
    exact HCube.C60_cube_disjoint d n k k' hn hk hk' g g' e1 e1' x e2 e2'

end

/-! ### C111 -/

theorem triang_traverse {s : Triang.Scheme ℝ} {dom : (Nat → ℝ) → Prop} (h : Triang.Fits s dom) {n : Nat} (hn : 0 < n) {d : Nat}
    (hd : s.dimension = d) (fuel : Nat) (h1 : Triang.nVertices s n < fuel) (h2 : Triang.nElements s n < fuel) :
    (do let p ← traverse (triangV s n) fuel
        let e ← traverse (triangE s n) fuel
        return (⟨p.1, e.1, live p.2 + live e.2⟩ : Mesh)) =
      some (mk (Triang.nVertices s n) (Triang.nElements s n) (d + 1) (tV s n) (tI s n)) := by
  subst hd
  obtain ⟨_, e1, l1⟩ := triang_points h hn fuel h1
  obtain ⟨_, e2, l2⟩ := triang_elements h hn fuel h2
  rw [e1, e2]
  simp only [Option.bind_eq_bind, Option.bind_some, l1, l2]
  rfl

theorem mesh_of {g c : GeometryType} {imp : Imp} (hs : Supported g c imp) (hd : 1 ≤ g.dim) (hcd : c.dim = g.dim) {n : Nat} (hn : 0 < n) :
    ∃ m V I, (∀ fuel, nVertices g.dim n imp < fuel → nElements g.dim n imp < fuel →
      meshOf g.dim n fuel imp = some (mk (nVertices g.dim n imp) (nElements g.dim n imp) m V I)) ∧
      Valid g.dim g.id c.id n (mk (nVertices g.dim n imp) (nElements g.dim n imp) m V I) := by
  have hS : SimplexShape c → g.dim + 1 = refSize g.dim c.id g.dim := fun h => (simplex_size fun k h1 _ => h k h1).symm
  cases imp with
  | simplex =>
    exact ⟨_, _, _, fun fuel h1 h2 => simplex_traverse hd fuel h1 h2, simplex_valid hd hn (fun k h1 _ => hs.1 k h1) (hS hs.2)⟩
  | hcube =>
    exact ⟨_, _, _, fun fuel h1 h2 => hcube_traverse hn fuel h1 h2,
      hcube_valid hn (fun k h1 h2 => hs.2.1 k h1 h2) (cube_size _ _ fun k h1 h2 => hs.2.2 k h1 (by rw [hcd]; exact h2)).symm⟩
  | hcubeTriangulation =>
    have hf := Triang.C44_cube_scheme (K := ℝ) g.dim hd
    have hcon : ∀ x y : Nat → ℝ, (∀ i, i < g.dim → x i = y i) → Triang.InCube g.dim x → Triang.InCube g.dim y :=
      fun x y h hx i hi => by rw [← h i hi]; exact hx i hi
    exact ⟨_, _, _, fun fuel h1 h2 => triang_traverse hf hn rfl fuel h1 h2,
      triang_valid hf hn rfl (fun x hx => domain_cube (fun k h1 h2 => hs.2.1 k h1 h2) hx) hcon
        (triang_vertices hf n hn (fun y => Iff.rfl) hcon) (hS hs.2.2)⟩
  | prismTriangulation =>
    obtain ⟨h3, b1, b2⟩ := hs.1
    rw [h3] at hS ⊢
    exact ⟨_, _, _, fun fuel h1 h2 => triang_traverse Triang.C44_prism_scheme hn rfl fuel h1 h2,
      triang_valid Triang.C44_prism_scheme hn rfl (fun x hx => domain_prism b1 b2 hx) Triang.prism_congr
        (triang_vertices Triang.C44_prism_scheme n hn (gr_prism hn) Triang.prism_congr) (hS hs.2)⟩
  | pyramidTriangulation =>
    obtain ⟨h3, b1, b2⟩ := hs.1
    rw [h3] at hS ⊢
    exact ⟨_, _, _, fun fuel h1 h2 => triang_traverse Triang.C44_pyramid_scheme hn rfl fuel h1 h2,
      triang_valid Triang.C44_pyramid_scheme hn rfl (fun x hx => domain_pyramid b1 b2 hx) Triang.pyramid_congr
        (triang_vertices Triang.C44_pyramid_scheme n hn (gr_pyramid hn) Triang.pyramid_congr) (hS hs.2)⟩

theorem writeMesh_eq {g c : GeometryType} (hg : Regular g) (hc : Regular c) (hcd : c.dim = g.dim) (h1 : 1 ≤ g.dim) (h30 : g.dim ≤ 30)
    {imp : Imp} (hs : Supported g c imp) (n fuel : Nat) : writeMesh g c n fuel = meshOf g.dim n fuel imp := by
  obtain ⟨t, u, e1, e2⟩ := (C45_dispatch g.dim h1 h30 g c hg hc rfl hcd).1 imp hs
  simp only [writeMesh, e1, e2]

/-- C111: looping over the vertices and then over the elements of a virtual refinement ends, after `nVertices` and `nElements` passes,
leaves nothing allocated, and gives a mesh of the reference element: the vertices are the lattice points of the reference element,
the elements have the requested number of corners, cover the reference element and do not overlap. -/
theorem C111_mesh (g c : GeometryType) (hg : Regular g) (hc : Regular c) (hcd : c.dim = g.dim) (h1 : 1 ≤ g.dim) (h30 : g.dim ≤ 30)
    (imp : Imp) (hs : Supported g c imp) (n : Nat) (hn : 0 < n) :
    ∃ M, (∀ fuel, nVertices g.dim n imp < fuel → nElements g.dim n imp < fuel → writeMesh g c n fuel = some M) ∧
      M.points.length = nVertices g.dim n imp ∧ M.elements.length = nElements g.dim n imp ∧ Valid g.dim g.id c.id n M := by
  obtain ⟨m, V, I, h2, h3⟩ := mesh_of hs h1 hcd hn
  exact ⟨_, fun fuel a b => (writeMesh_eq hg hc hcd h1 h30 hs n fuel).trans (h2 fuel a b), by simp [mk], by simp [mk], h3⟩

/-- C111: without an implementation nothing is written. -/
theorem C111_unsupported (g c : GeometryType) (hg : Regular g) (hc : Regular c) (hcd : c.dim = g.dim) (h1 : 1 ≤ g.dim)
    (h30 : g.dim ≤ 30) (hs : ∀ imp, ¬ Supported g c imp) (n fuel : Nat) : writeMesh g c n fuel = none := by
  simp only [writeMesh, (C45_dispatch g.dim h1 h30 g c hg hc rfl hcd).2 hs]

/-- the square split into triangles -/
theorem square_supported : Supported ⟨2, false, 3⟩ ⟨2, false, 0⟩ .hcubeTriangulation := by
  refine ⟨le_rfl, fun k h1 h2 => ?_, fun k _ => Nat.zero_testBit k⟩
  obtain rfl : k = 1 := by change k < 2 at h2; omega
  rfl

/-- the square with two intervals: 8 triangles, 12 vertices for the 9 points -/
example : Regular ⟨2, false, 3⟩ ∧ Regular ⟨2, false, 0⟩ ∧ Supported ⟨2, false, 3⟩ ⟨2, false, 0⟩ .hcubeTriangulation ∧
    nVertices 2 2 .hcubeTriangulation = 12 ∧ nElements 2 2 .hcubeTriangulation = 8 :=
  ⟨by constructor <;> decide, by constructor <;> decide, square_supported, by decide, by decide⟩

/-- C111, second part: no point is written twice. -/
def C111_distinct_full : Prop := ∀ (g c : GeometryType), Regular g → Regular c → c.dim = g.dim → 1 ≤ g.dim → g.dim ≤ 30 →
  ∀ imp, Supported g c imp → ∀ n, 0 < n → ∀ fuel, nVertices g.dim n imp < fuel → nElements g.dim n imp < fuel →
    ∀ M, writeMesh g c n fuel = some M →
      ∀ p ∈ M.points, ∀ q ∈ M.points, (∀ i, i < g.dim → p.2 i = q.2 i) → p = q

/-- C111: when the elements have the shape of the refined element no point is written twice.  Missing are the triangulations of cubes,
prisms and pyramids, for which it is wrong. -/
theorem C111_distinct_partial (g c : GeometryType) (hg : Regular g) (hc : Regular c) (hcd : c.dim = g.dim) (h1 : 1 ≤ g.dim)
    (h30 : g.dim ≤ 30) (imp : Imp) (hs : Supported g c imp) (himp : imp = .simplex ∨ imp = .hcube) (n : Nat) (hn : 0 < n) (fuel : Nat)
    (hV : nVertices g.dim n imp < fuel) (hE : nElements g.dim n imp < fuel) (M : Mesh) (hM : writeMesh g c n fuel = some M)
    (p : Nat × Vec ℝ) (hp : p ∈ M.points) (q : Nat × Vec ℝ) (hq : q ∈ M.points) (hpq : ∀ i, i < g.dim → p.2 i = q.2 i) : p = q := by
  rw [writeMesh_eq hg hc hcd h1 h30 hs] at hM
  rcases himp with rfl | rfl
  · rw [simplex_traverse h1 fuel hV hE] at hM
    obtain rfl := Option.some.inj hM
    simp only [mk, List.mem_map, List.mem_range] at hp hq
    obtain ⟨k, hk, rfl⟩ := hp
    obtain ⟨k', hk', rfl⟩ := hq
    obtain ⟨w, y, q, c1, c2, c3, c4⟩ := C40_inside (K := ℝ) g.dim n h1 k hk
    obtain ⟨w', y', q', d1, d2, d3, d4⟩ := C40_inside (K := ℝ) g.dim n h1 k' hk'
    have e : sV g.dim n k = y := by rw [sV, c1, Option.bind_some, c2, Option.getD_some]
    have e' : sV g.dim n k' = y' := by rw [sV, d1, Option.bind_some, d2, Option.getD_some]
    simp only [e, e'] at hpq
    obtain rfl := (C40_lattice (K := ℝ) g.dim n h1 hn q c3).unique ⟨hk, w, y, c1, c2, c4⟩
      ⟨hk', w', y', d1, d2, fun i hi => by rw [← hpq i hi, c4 i hi]⟩
    rfl
  · rw [hcube_traverse hn fuel hV hE] at hM
    obtain rfl := Option.some.inj hM
    simp only [mk, List.mem_map, List.mem_range] at hp hq
    obtain ⟨k, hk, rfl⟩ := hp
    obtain ⟨k', hk', rfl⟩ := hq
    have key : ∀ k, ∃ x, (HCube.at' (HCube.vBegin n) k).vCoords g.dim = some x ∧ Mesh.hV g.dim n k = x ∧
        ∀ i, i < g.dim → x i = (k / (n + 1) ^ i % (n + 1) : ℕ) / (n : ℝ) := by
      intro k
      obtain ⟨v, a1, a2⟩ := HCube.idx2coord_eq g.dim k (n + 1) (by omega)
      have a3 : ∃ x, (HCube.at' (HCube.vBegin n) k).vCoords g.dim = some x ∧
          ∀ i, i < g.dim → x i = (k / (n + 1) ^ i % (n + 1) : ℕ) / (n : ℝ) := by
        rw [HCube.at_eq, HCube.Iterator.vCoords, HCube.Iterator.vertexCoord]
        simp only [HCube.vBegin, Nat.zero_add, a1, Option.map_some, Option.some.injEq, exists_eq_left']
        intro i hi
        rw [if_pos hi, a2 i hi, show (1.0 : ℝ) = 1 by norm_num, mul_one]
      obtain ⟨x, a4, a5⟩ := a3
      exact ⟨x, a4, by rw [Mesh.hV, a4, Option.getD_some], a5⟩
    obtain ⟨x, b1, b2, b3⟩ := key k
    obtain ⟨x', c1, c2, c3⟩ := key k'
    simp only [b2, c2] at hpq
    obtain rfl := (HCube.C43_vertices g.dim n hn (fun i => k / (n + 1) ^ i % (n + 1)) fun i _ => Nat.mod_lt _ (by omega)).unique
      ⟨hk, x, b1, b3⟩ ⟨hk', x', c1, fun i hi => by rw [← hpq i hi, b3 i hi]⟩
    rfl

/-- the hexahedron split into 27 hexahedra -/
example : Regular ⟨3, false, 7⟩ ∧ nVertices 3 3 .hcube = 64 ∧ nElements 3 3 .hcube = 27 ∧ CubeShape ⟨3, false, 7⟩ := by
  refine ⟨by constructor <;> decide, by decide, by decide, fun k h1 h2 => ?_⟩
  change k < 3 at h2
  interval_cases k <;> rfl

/-- C111: the square split into two triangles has six vertices for its four corners. -/
theorem C111_distinct_counterexample : ¬ C111_distinct_full := by
  intro h
  have hg : Regular ⟨2, false, 3⟩ := by constructor <;> decide
  have hc : Regular ⟨2, false, 0⟩ := by constructor <;> decide
  have hs := square_supported
  obtain ⟨M, h1, h2, h3, h4⟩ := C111_mesh _ _ hg hc rfl (by decide) (by decide) _ hs 1 one_pos
  have hw := h1 7 (by decide) (by decide)
  have key := h _ _ hg hc rfl (by decide) (by decide) _ hs 1 one_pos 7 (by decide) (by decide) M hw
  have hlen : M.points.length = 6 := h2.trans (by decide)
  have hcoord : ∀ k, k < 6 → ∀ i, i < 2 → M.at k i = 0 ∨ M.at k i = 1 := by
    intro k hk i hi
    have hk' : k < M.points.length := by omega
    have hm : M.points[k] ∈ M.points := List.getElem_mem hk'
    have hat : M.at k = (M.points[k]).2 := by rw [Mesh.at, List.getD_eq_getElem _ _ hk']
    obtain ⟨hdom, hl⟩ := h4.point_lattice _ hm
    have h01 := (domain_cube (d := 2) (id := 3) square_cube (x := fun i => if i < 2 then (M.points[k]).2 i else 0)
      fun k hk => if_neg (by omega)).1 hdom i hi
    obtain ⟨z, hz⟩ := hl i
    simp only [if_pos hi, ← hat] at h01
    simp only [if_pos (show i < (⟨2, false, 3⟩ : GeometryType).dim from hi), ← hat, Nat.cast_one, div_one] at hz
    rw [hz] at h01 ⊢
    have hz0 : 0 ≤ z := by exact_mod_cast h01.1
    have hz1 : z ≤ 1 := by exact_mod_cast h01.2
    rcases (show z = 0 ∨ z = 1 by omega) with rfl | rfl <;> simp
  classical
  obtain ⟨a, ha, b, hb, hab, hf⟩ := exists_ne_map_eq_of_card_lt_of_maps_to (s := range 6) (t := (univ : Finset (Bool × Bool)))
    (f := fun k => (decide (M.at k 0 = 1), decide (M.at k 1 = 1))) (by decide) (fun _ _ => mem_univ _)
  rw [mem_range] at ha hb
  simp only [Prod.mk.injEq, decide_eq_decide] at hf
  have heq : ∀ i, i < 2 → M.at a i = M.at b i := by
    intro i hi
    have hi' : M.at a i = 1 ↔ M.at b i = 1 := by
      rcases (show i = 0 ∨ i = 1 by omega) with rfl | rfl
      · exact hf.1
      · exact hf.2
    rcases hcoord a ha i hi with e | e
    · rcases hcoord b hb i hi with e' | e'
      · rw [e, e']
      · rw [hi'.2 e', e']
    · rw [e, hi'.1 e]
  have ha' : a < M.points.length := by omega
  have hb' : b < M.points.length := by omega
  have := key _ (List.getElem_mem ha') _ (List.getElem_mem hb') fun i hi => by
    have := heq i hi
    rwa [Mesh.at, Mesh.at, List.getD_eq_getElem _ _ ha', List.getD_eq_getElem _ _ hb'] at this
  have i1 := h4.point_index a _ (List.getElem?_eq_getElem ha')
  have i2 := h4.point_index b _ (List.getElem?_eq_getElem hb')
  rw [this, i2] at i1
  exact hab i1.symm

end Verif.Refine.Mesh
