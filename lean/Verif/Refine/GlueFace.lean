import Verif.Refine.GlueLemmas

/-! Lemmas for `GlueProps.lean`: symmetries of reference elements and restriction to faces at lattice points. -/

namespace Verif.Refine.Glue

open Verif.Typ Verif.RefTopo Verif.RefGeom Verif.Neighbour Verif.MultiLinear Verif.MatHelp Verif.Quad
open Matrix hiding vec
open Finset hiding ext

/-! ### Symmetries -/

theorem cornersOf_unit : ∀ (t : Topo) (r : Nat), r < t.dim → setV (fun _ => (0:ℝ)) r 1 ∈ cornersOf (K := ℝ) t
  | .pt, r, hr => by simp [Topo.dim] at hr
  | .prism t, r, hr => by
    rw [cornersOf_prism, List.mem_append]
    by_cases he : r = t.dim
    · right
      subst he
      exact List.mem_map.2 ⟨_, List.mem_of_getElem? (cornersOf_head t), rfl⟩
    · exact Or.inl (cornersOf_unit t r (by simp only [Topo.dim] at hr; omega))
  | .pyr t, r, hr => by
    rw [cornersOf_pyr, List.mem_append]
    by_cases he : r = t.dim
    · right
      subst he
      exact List.mem_singleton.2 rfl
    · exact Or.inl (cornersOf_unit t r (by simp only [Topo.dim] at hr; omega))

theorem corner_mem {d id k : Nat} (hk : k < refSize d id d) : corner (K := ℝ) d id k ∈ cornersOf (K := ℝ) (topoOf d id) :=
  List.mem_of_getElem? (corner_get d id k hk)

theorem gr_corner {d id k n : Nat} (hn : 0 < n) (hk : k < refSize d id d) (j : Nat) : Gr n (corner (K := ℝ) d id k j) := by
  have := corner_mem hk
  rw [cornersOf, List.mem_map] at this
  obtain ⟨v, -, hv⟩ := this
  rw [← hv]
  exact Gr.orig hn v j

theorem corner_zero_one {d id k : Nat} (hk : k < refSize d id d) (j : Nat) :
    corner (K := ℝ) d id k j = 0 ∨ corner (K := ℝ) d id k j = 1 := by
  have := corner_mem hk
  rw [cornersOf, List.mem_map] at this
  obtain ⟨v, -, hv⟩ := this
  rw [← hv]
  exact orig_zero_one v j

theorem size_pos (d id : Nat) : 0 < refSize d id d := get_lt (cornersOf_head (topoOf d id))

theorem corner_origin (d id : Nat) : corner (K := ℝ) d id 0 = fun _ => 0 := by
  have h := corner_get d id 0 (size_pos d id)
  rw [cornersOf_head] at h
  exact (Option.some.inj h).symm

/-- the coefficients of a symmetry are integers -/
theorem symmetry_int {d id : Nat} {σ : Nat → Nat} {a : Vec ℝ} {M : Mat ℝ} (h : Symmetry d id σ a M) {i : Nat} (hi : i < d) :
    (∃ q : ℤ, a i = q) ∧ ∀ r, r < d → ∃ q : ℤ, M i r = q := by
  have int : ∀ k, k < refSize d id d → ∃ q : ℤ, corner (K := ℝ) d id k i = q := fun k hk => by
    rcases corner_zero_one hk i with h | h
    · exact ⟨0, by rw [h]; simp⟩
    · exact ⟨1, by rw [h]; simp⟩
  have h0 := h.corner 0 (size_pos d id) i hi
  have ha : corner (K := ℝ) d id (σ 0) i = a i := by
    rw [h0, corner_origin, affMap]
    simp
  obtain ⟨q0, e0⟩ := int _ (h.lt 0 (size_pos d id))
  refine ⟨⟨q0, ha.symm.trans e0⟩, fun r hr => ?_⟩
  obtain ⟨k, hk⟩ := List.mem_iff_getElem?.1 (cornersOf_unit (topoOf d id) r (by rw [(rep_topoOf d id).dim_eq]; exact hr))
  have hkl := get_lt hk
  rw [corner_get d id k hkl] at hk
  have hck := Option.some.inj hk
  have h1 := h.corner k hkl i hi
  have hM : affMap d a M (corner d id k) i = a i + M i r := by
    rw [hck, affMap, sum_eq_single_of_mem r (mem_range.2 hr) fun b _ hb => by rw [setV_ne _ hb, mul_zero], setV_same, mul_one]
  obtain ⟨q1, e1⟩ := int _ (h.lt k hkl)
  refine ⟨q1 - q0, ?_⟩
  have : M i r = corner (K := ℝ) d id (σ k) i - a i := by rw [h1, hM]; ring
  rw [this, e1, ← ha, e0]
  push_cast
  ring

theorem Gr.int_mul {n : Nat} {v : ℝ} (h : Gr n v) (q : ℤ) : Gr n (q * v) := by
  obtain ⟨p, rfl⟩ := h
  exact ⟨q * p, by push_cast; ring⟩

theorem Gr.int {n : Nat} (hn : 0 < n) (q : ℤ) : Gr n (q:ℝ) := by
  have := (Gr.one hn).int_mul q
  rwa [mul_one] at this

theorem gr_affMap {n : Nat} (hn : 0 < n) {d id : Nat} {σ : Nat → Nat} {a : Vec ℝ} {M : Mat ℝ} (h : Symmetry d id σ a M) {x : Vec ℝ}
    (hx : ∀ r, r < d → Gr n (x r)) {i : Nat} (hi : i < d) : Gr n (affMap d a M x i) := by
  obtain ⟨⟨q, hq⟩, hM⟩ := symmetry_int h hi
  rw [affMap, hq]
  refine (Gr.int hn q).add (Gr.sum _ _ fun r hr => ?_)
  obtain ⟨p, hp⟩ := hM r (mem_range.1 hr)
  rw [hp]
  exact (hx r (mem_range.1 hr)).int_mul p

/-- the inverse of a symmetry is one -/
theorem symmetry_inverse {d id : Nat} {σ : Nat → Nat} {a : Vec ℝ} {M : Mat ℝ} (h : Symmetry d id σ a M) :
    ∃ τ b N, Symmetry d id τ b N ∧ (∀ x i, i < d → affMap d a M (affMap d b N x) i = x i) ∧
      ∀ k, k < refSize d id d → τ k < refSize d id d ∧ σ (τ k) = k := by
  have hdet : IsUnit (mat d d M).det := by
    rw [isUnit_iff_ne_zero]
    intro h0
    have := symmetry_det h
    rw [h0, abs_zero] at this
    exact one_ne_zero this.symm
  let P := (mat d d M)⁻¹
  let N : Mat ℝ := fun i r => if hh : i < d ∧ r < d then P ⟨i, hh.1⟩ ⟨r, hh.2⟩ else 0
  let b : Vec ℝ := fun i => - ∑ r ∈ range d, N i r * a r
  have hN : mat d d N = P := by
    ext i j
    change (if hh : i.1 < d ∧ j.1 < d then P ⟨i, hh.1⟩ ⟨j, hh.2⟩ else 0) = _
    rw [dif_pos ⟨i.2, j.2⟩]
  have aff : ∀ (a : Vec ℝ) (M : Mat ℝ) (x : Vec ℝ), vec d (affMap d a M x) = vec d a + mat d d M *ᵥ vec d x := by
    intro a M x
    funext i
    change affMap d a M x i = a i + ∑ r : Fin d, M i r * x r
    rw [affMap, Finset.sum_range]
  have hb : vec d b = - (P *ᵥ vec d a) := by
    funext i
    change - ∑ r ∈ range d, N i r * a r = - ∑ r : Fin d, P i r * a r
    rw [Finset.sum_range, ← hN]
    rfl
  have e1 : ∀ x i, i < d → affMap d a M (affMap d b N x) i = x i := by
    intro x i hi
    have : vec d (affMap d a M (affMap d b N x)) = vec d x := by
      rw [aff, aff, hb, hN, mulVec_add, mulVec_neg, mulVec_mulVec, mulVec_mulVec, mul_nonsing_inv _ hdet, one_mulVec, one_mulVec]
      abel
    exact congrFun this ⟨i, hi⟩
  have e2 : ∀ x i, i < d → affMap d b N (affMap d a M x) i = x i := by
    intro x i hi
    have : vec d (affMap d b N (affMap d a M x)) = vec d x := by
      rw [aff, aff, hb, hN, mulVec_add, mulVec_mulVec, nonsing_inv_mul _ hdet, one_mulVec]
      abel
    exact congrFun this ⟨i, hi⟩
  let f : Fin (refSize d id d) → Fin (refSize d id d) := fun k => ⟨σ k, h.lt k k.2⟩
  have hf : Function.Injective f := fun x y hxy => Fin.ext (h.inj x y x.2 y.2 (Fin.mk.inj_iff.1 hxy))
  have hs := Finite.surjective_of_injective hf
  choose τ' hτ' using hs
  let τ : Nat → Nat := fun k => if hk : k < refSize d id d then τ' ⟨k, hk⟩ else 0
  have hτ : ∀ k, k < refSize d id d → τ k < refSize d id d ∧ σ (τ k) = k := by
    intro k hk
    have e : τ k = τ' ⟨k, hk⟩ := dif_pos hk
    rw [e]
    exact ⟨(τ' ⟨k, hk⟩).2, congrArg Fin.val (hτ' ⟨k, hk⟩)⟩
  refine ⟨τ, b, N, ⟨fun k hk => (hτ k hk).1, fun k k' hk hk' he => ?_, fun k hk i hi => ?_⟩, e1, hτ⟩
  · rw [← (hτ k hk).2, ← (hτ k' hk').2, he]
  · have h3 : ∀ r, r < d → corner (K := ℝ) d id k r = affMap d a M (corner d id (τ k)) r := fun r hr => by
      rw [← h.corner _ (hτ k hk).1 r hr, (hτ k hk).2]
    rw [affMap_congr h3, e2 _ i hi]

/-! ### The multilinear map under a symmetry -/

theorem respects_tidy {tol : ℝ} (h0 : 0 ≤ tol) (h1 : tol < 1) {d id : Nat} (hc : IsSimplexId d id ∨ IsCubeId d id) {σ : Nat → Nat}
    {a : Vec ℝ} {M : Mat ℝ} (h : Symmetry d id σ a M) (c : Nat → ℝ) (z : Vec ℝ) (hz : Tidy tol (topoOf d id) z)
    (hz' : Tidy tol (topoOf d id) (affMap d a M z)) :
    ML tol (topoOf d id) (fun k => c (σ k)) z = ML tol (topoOf d id) c (affMap d a M z) := by
  have hd := (rep_topoOf d id).dim_eq
  rcases hc with hs | hc
  · have hex := exact_of_imageOf (imageOf_simplex ⟨d, 1, id, fun k _ => c k, tol⟩ hs) 0 one_pos
    set α := (c 0 : ℝ)
    set N := fun r : Nat => c (r + 1) - c 0
    change Exact (topoOf d id) c α N at hex
    rw [ML_affine_tidy h0 _ c α N _ hex hz']
    rw [ML_affine_tidy h0 _ (fun k => c (σ k)) (α + ∑ r ∈ range d, N r * a r) (fun s => ∑ r ∈ range d, N r * M r s) z ?_ hz]
    · rw [hd]
      simp only [affMap, mul_add, mul_sum, sum_mul, sum_add_distrib]
      rw [sum_comm, add_assoc]
      congr 2
      exact sum_congr rfl fun _ _ => sum_congr rfl fun _ _ => by ring
    · intro k p hp
      have hk := get_lt hp
      have hpk : p = corner d id k := by
        rw [corner_get d id k hk] at hp
        exact (Option.some.inj hp).symm
      have hex' := hex (σ k) _ (corner_get d id _ (h.lt k hk))
      rw [hex', hd, hpk]
      have e : ∀ r ∈ range d, N r * corner (K := ℝ) d id (σ k) r = N r * affMap d a M (corner d id k) r := by
        intro r hr
        rw [h.corner k hk r (mem_range.1 hr)]
      rw [sum_congr rfl e]
      simp only [affMap, mul_add, mul_sum, sum_mul, sum_add_distrib]
      rw [sum_comm, add_assoc]
      congr 2
      exact sum_congr rfl fun _ _ => sum_congr rfl fun _ _ => by ring
  · have ht := topoOf_cube d id hc
    have := respects_cube h0 h1 hc h c z (by rw [ht]; exact away_cube _ _) (by rw [ht]; exact away_cube _ _)
    rw [hd] at this
    exact this

/-! ### Types that differ in the lowest bit only -/

theorem rep_id {d id id' : Nat} {t : Topo} (hb : ∀ k, 1 ≤ k → k < d → id.testBit k = id'.testBit k) (h : Rep d id t) : Rep d id' t := by
  induction h generalizing id' with
  | pt => exact Rep.pt id'
  | @prism d id t hp hr ih =>
    refine Rep.prism ?_ (ih fun k h1 h2 => ?_)
    · rcases Nat.eq_zero_or_pos d with h | h
      · exact Or.inl h
      · rw [← hb d h (by omega)]; exact hp
    · rw [Nat.testBit_mod_two_pow, Nat.testBit_mod_two_pow, hb k h1 (by omega)]
  | @pyr d id t hp hr ih =>
    refine Rep.pyr ?_ (ih fun k h1 h2 => ?_)
    · rcases Nat.eq_zero_or_pos d with h | h
      · exact Or.inl h
      · rw [← hb d h (by omega)]; exact hp
    · rw [Nat.testBit_mod_two_pow, Nat.testBit_mod_two_pow, hb k h1 (by omega)]

/-! ### Lattice points and faces -/

theorem tidy_point {tol : ℝ} {n : Nat} (hn : 0 < n) (hnt : n * tol < 1) {d id : Nat} {t : Topo} (hr : Rep d id t) {x : Vec ℝ}
    (hx : x ∈ domain ℝ d id) (hg : ∀ i, i < d → Gr n (x i)) : Tidy tol t x := by
  have hD := (mem_domain hr x (domain_zero hx)).1 hx
  have := tidy_lattice hn hnt t 1 x one_pos le_rfl (Gr.one hn) hD fun r hr' => hg r (by rw [hr.dim_eq] at hr'; exact hr')
  exact tidy_congr t (fun r _ => div_one _) this

/-- restriction to a face at a lattice point, with the type of the face up to its lowest bit -/
theorem face_global (g : MultiLinearGeometry) (hg : Legal g) (hd : g.mydim ≤ 31) {i c : Nat} (hc : c ≤ g.mydim)
    (hi : i < refSize g.mydim g.id c) {e : Vec ℝ × Mat ℝ}
    (he : (referenceEmbeddings (K := ℝ) g.mydim g.id c)[i]? = some e) {m id : Nat} (hm : g.mydim - c = m)
    (hid : ∀ k, 1 ≤ k → k < m → (refType g.mydim g.id i c).id.testBit k = id.testBit k) {n : Nat} (hn : 0 < n)
    (hnt : n * g.tol < 1) {y : Vec ℝ} (hy : y ∈ domain ℝ m id) (hyg : ∀ r, r < m → Gr n (y r)) (j : Nat) :
    g.global (embed m e y) j =
      ML g.tol (topoOf m id) (fun v => g.corners_ ((subEntity g.mydim g.id i c v g.mydim).getD 0) j) y := by
  subst hm
  have hr := rep_topoOf g.mydim g.id
  obtain ⟨f, rfl, rfl⟩ := exists_face hr hc hi
  have hfd := Face.codim_add_dim f
  rw [hr.dim_eq] at hfd
  rw [embedding_face hr f] at he
  obtain rfl := Option.some.inj he
  have hrs := rep_sub hr hg.id_lt f
  have hT := refType_eq g.mydim g.id f.idx f.codim hd hg.id_lt hc
  rw [hT] at hid
  have hrs' : Rep (g.mydim - f.codim) id f.shape := rep_id hid hrs
  have hrt := rep_topoOf (g.mydim - f.codim) id
  rw [MultiLinear.global_eq g hg.id_lt, ← (ML_rep_tidy hg.tol_pos.le hrs' hrt (tidy_point hn hnt hrs' hy hyg) (tidy_point hn hnt hrt hy hyg)).2]
  have hdc : g.mydim - f.codim = f.shape.dim := by omega
  rw [hdc]
  refine ML_face hg.tol_pos.le hg.tol_lt f _ _ y fun w hw => ?_
  have hsub := subEntity_eq hr hg.id_lt f w
  rw [show f.codim + w.codim = g.mydim by omega] at hsub
  rw [hsub]
  rfl

theorem domain_id {d id id' : Nat} (hb : ∀ k, 1 ≤ k → k < d → id.testBit k = id'.testBit k) : domain ℝ d id = domain ℝ d id' := by
  have h := rep_topoOf d id
  rw [domain, domain, cornersOf_eq h, cornersOf_eq (rep_id hb h)]

theorem size_id {d id id' : Nat} (hb : ∀ k, 1 ≤ k → k < d → id.testBit k = id'.testBit k) (c : Nat) (hc : c ≤ d) :
    refSize d id c = refSize d id' c := by
  have h := rep_topoOf d id
  rw [refSize, refSize, size_eq h c hc, size_eq (rep_id hb h) c hc]

end Verif.Refine.Glue
