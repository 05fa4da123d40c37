import Verif.Float.EmbedGlobal
import Verif.Float.NewtonCycle
import Verif.Float.RefineProps

/-! C93: the geometric data of reference elements in floating-point arithmetic -/

namespace Verif.FloatEmbed

open Verif.Typ Verif.RefTopo Verif.RefGeom Verif.Float Verif.FloatVol Verif.FloatNewton Finset

/-- C93: origins and embeddings have the exact values, in every format and every dimension. -/
theorem C93_embeddings (φ : Format) (d id c : ℕ) :
    (referenceOrigins (K := Fl φ) d id c).map (fun o j => (o j).val) = RefGeom.referenceOrigins (K := ℝ) d id c ∧
    (referenceEmbeddings (K := Fl φ) d id c).map (fun e => ((fun j => (e.1 j).val), fun r j => (e.2 r j).val)) =
      RefGeom.referenceEmbeddings (K := ℝ) d id c :=
  ⟨origins_val d id c, embeddings_val d id c⟩

/-- C93: so have the integration outer normals, if the format has the integers up to `d`. -/
theorem C93_normals (φ : Format) (d id : ℕ) (hd : 0 < d) (hex : ∀ k : ℕ, k ≤ d → φ.rd k = k) :
    (referenceIntegrationOuterNormals (K := Fl φ) d d id).map (fun n j => (n j).val) = RefGeom.referenceIntegrationOuterNormals (K := ℝ) d d id := by
  have hr := rep_topoOf d id
  have ho := origins_val (φ := φ) d id 1
  have ho' := ho
  rw [RefGeom.origins_eq hr 1 hd] at ho'
  have h := normalsRec_val hex (le_refl d) hr (le_refl d) (referenceOrigins (K := Fl φ) d id 1) [] (by rw [List.append_nil, ho']) (fun v hv k => by
    have : vals v ∈ (faces (topoOf d id) 1).map (orig (K := ℝ)) := ho' ▸ List.mem_map_of_mem hv
    obtain ⟨f, -, hf⟩ := List.mem_map.1 this
    have := orig_zero_one (K := ℝ) f k
    rw [hf] at this
    exact this)
  rw [ho] at h
  exact h

/-- the tetrahedron in `double`: the normal of the slanted facet -/
example : ∃ n, (referenceIntegrationOuterNormals (K := Fl double) 3 3 0)[3]? = some n ∧ (n 0).val = 1 ∧ (n 1).val = 1 ∧ (n 2).val = 1 := by
  have h := C93_normals double 3 0 (by norm_num) fun k hk => FloatRefine.double_nat k (le_trans hk (by norm_num))
  have h' := congrArg (fun l => l[3]?) h
  simp only [List.getElem?_map, Option.map_eq_some_iff] at h'
  have e : (RefGeom.referenceIntegrationOuterNormals (K := ℝ) 3 3 0)[3]? = some (RefGeom.setV (RefGeom.setV (RefGeom.setV (fun _ => 0) 0 1) 1
      (RefGeom.dot 3 (RefGeom.setV (fun _ => 0) 0 1) (RefGeom.setV (fun _ => 0) 0 1))) 2
      (RefGeom.dot 3 (RefGeom.setV (RefGeom.setV (fun _ => 0) 0 1) 1 (RefGeom.dot 3 (RefGeom.setV (fun _ => 0) 0 1) (RefGeom.setV (fun _ => 0) 0 1)))
        (RefGeom.setV (fun _ => 0) 0 1))) := rfl
  rw [e, Option.map_eq_some_iff] at h'
  obtain ⟨n, hn, hv⟩ := h'
  refine ⟨n, hn, (congrFun hv 0).trans ?_, (congrFun hv 1).trans ?_, (congrFun hv 2).trans ?_⟩ <;> simp [RefGeom.setV, RefGeom.dot, sum_range_succ]

/-- the embedding of a face in floating-point numbers -/
theorem embedding_fl {φ : Format} {d id : ℕ} (f : Face (topoOf d id)) :
    ∃ e, (referenceEmbeddings (K := Fl φ) d id f.codim)[f.idx]? = some e ∧ vals e.1 = orig f ∧ valM e.2 = jac f := by
  have h := embedding_face (K := ℝ) (rep_topoOf d id) f
  rw [← embeddings_val (φ := φ), List.getElem?_map, Option.map_eq_some_iff] at h
  obtain ⟨e, he, hv⟩ := h
  exact ⟨e, he, congrArg Prod.fst hv, congrArg Prod.snd hv⟩

theorem geometry_some {φ : Format} {d id : ℕ} (f : Face (topoOf d id)) {ret ret' : Mat (Fl φ)} {g : Geometry (Fl φ)}
    (hg : geometry d id f.codim f.idx ret ret' = some g) : g.mydim = f.shape.dim ∧ g.cdim = d ∧ g.id = (refType d id f.idx f.codim).id ∧
      vals g.origin = orig f ∧ valM g.jt = jac f ∧ rightInvA f.shape.dim d g.jt ret ret' = some (g.integrationElement, g.jit) := by
  obtain ⟨e, he, h1, h2⟩ := embedding_fl (φ := φ) f
  have hfd := Face.codim_add_dim f
  rw [(rep_topoOf d id).dim_eq] at hfd
  rw [geometry, he] at hg
  simp only [Geometry.ofJacobian] at hg
  rw [Option.map_eq_some_iff] at hg
  obtain ⟨s, hs, rfl⟩ := hg
  have e1 : d - f.codim = f.shape.dim := by omega
  rw [e1] at hs
  exact ⟨e1, rfl, rfl, h1, h2, hs⟩

/-- C93: corner `j` of the geometry of sub-entity `(i,c)` is, bit for bit, the corner of the element with the number
`subEntity(i,c,j,dim)`. -/
theorem C93_corner (φ : Format) (d id i c j : ℕ) (hd : d ≤ 31) (hid : id < 2 ^ d) (hc : c ≤ d) (hi : i < refSize d id c) (hj : j < refSize3 d id i c d)
    (hex : ∀ k : ℕ, k ≤ d + 1 → φ.rd k = k) (ret ret' : Mat (Fl φ)) (g : Geometry (Fl φ)) (hg : geometry d id c i ret ret' = some g) :
    ∃ k, subEntity d id i c j d = some k ∧ k < refSize d id d ∧ g.corner j = Float.position d id k d ∧ (g.corner j).isSome := by
  have hr := rep_topoOf d id
  obtain ⟨f, rfl, rfl⟩ := exists_face hr hc hi
  obtain ⟨h1, h2, h3, h4, h5, -⟩ := geometry_some f hg
  have hfd := Face.codim_add_dim f
  rw [hr.dim_eq] at hfd
  obtain ⟨e, k, x, y, he, hk, hx, hy, hxy⟩ := C20_corners (K := ℝ) d id f.idx f.codim j hd hid hc hi hj
  have hT := refType_eq d id f.idx f.codim hd hid hc
  rw [hT] at hx h3
  dsimp only at hx h3
  rw [embedding_face hr f, Option.some.injEq] at he
  subst he
  rw [← corners_val (φ := φ), List.getElem?_map, Option.map_eq_some_iff] at hx hy
  obtain ⟨xf, hxf, rfl⟩ := hx
  obtain ⟨yf, hyf, rfl⟩ := hy
  have hd1 : g.mydim = d - f.codim := by omega
  have hcor : g.corner j = some (g.global xf) := by
    rw [Geometry.corner, Float.position, if_pos rfl, hd1, h3, hxf]; rfl
  refine ⟨k, hk, ?_, ?_, by rw [hcor]; rfl⟩
  · have := (List.getElem?_eq_some_iff.1 hyf).1
    have h6 := congrArg List.length (corners_val (φ := φ) d id)
    rw [List.length_map] at h6
    rw [h6, RefGeom.corners_eq hr, List.length_map, length_faces] at this
    rw [refSize, size_eq hr d (le_refl _)]
    exact this
  · rw [hcor, Float.position, if_pos rfl, hyf, Option.some.injEq]
    funext l
    refine Fl.ext ?_
    have hx01 : ∀ r, (xf r).val = 0 ∨ (xf r).val = 1 := fun r => by
      have : (RefGeom.referenceCorners (K := ℝ) (d - f.codim) (subTopologyId d id f.codim f.idx))[j]? = some fun r => (xf r).val := by
        rw [← corners_val (φ := φ), List.getElem?_map, hxf]; rfl
      exact (C17_coordinates _ _ _ (List.mem_of_getElem? this) r).1
    rw [Geometry.global, h1, global_int hex f (by omega) _ _ _ h4 h5 hx01]
    have := congrFun hxy l
    rw [← this, emb, show f.shape.dim = d - f.codim by omega]
    rfl

/-- the corners of the four facets of the tetrahedron in `float` -/
example : (∀ k : ℕ, k ≤ 3 + 1 → single.rd k = k) ∧ 3 < refSize 3 0 1 ∧ 2 < refSize3 3 0 3 1 3 ∧ subEntity 3 0 3 1 2 3 = some 3 :=
  ⟨fun k hk => ieee_nat 24 (-149) (by norm_num) (by norm_num) k (hk.trans (by norm_num)), by decide, by decide, by decide⟩

/-- the point of the element that a point of the reference element of `(i,c)` is embedded to -/
noncomputable def exactGlobal (d id i c : ℕ) (x : Vec ℝ) : Vec ℝ :=
  match (RefGeom.referenceEmbeddings (K := ℝ) d id c)[i]? with
  | some e => embed (d - c) e x
  | none => fun _ => 0

/-- C93: `global` of a point of the reference element of the sub-entity has an error of at most `(1 + u)^(d - c) - 1`, that is
about one unit roundoff for each coordinate. -/
theorem C93_global (φ : Format) (d id i c : ℕ) (hd : d ≤ 31) (hid : id < 2 ^ d) (hc : c ≤ d) (hi : i < refSize d id c) (ret ret' : Mat (Fl φ))
    (g : Geometry (Fl φ)) (hg : geometry d id c i ret ret' = some g) (x : Nat → Fl φ) (hx : (fun k => (x k).val) ∈ domain ℝ (d - c) (refType d id i c).id) :
    exactGlobal d id i c (fun k => (x k).val) ∈ domain ℝ d id ∧
    ∀ j < d, |(g.global x j).val - exactGlobal d id i c (fun k => (x k).val) j| ≤ (1 + φ.u) ^ (d - c) - 1 := by
  have hr := rep_topoOf d id
  obtain ⟨f, rfl, rfl⟩ := exists_face hr hc hi
  obtain ⟨h1, h2, h3, h4, h5, -⟩ := geometry_some f hg
  have hfd := Face.codim_add_dim f
  rw [hr.dim_eq] at hfd
  have hT := refType_eq d id f.idx f.codim hd hid hc
  rw [hT] at hx
  have hdom := (mem_domain (rep_sub hr hid f) _ (domain_zero hx)).1 hx
  have e : exactGlobal d id f.idx f.codim (fun k => (x k).val) = emb f (vals x) := by
    rw [exactGlobal, embedding_face hr f, emb, show f.shape.dim = d - f.codim by omega]; rfl
  rw [e]
  refine ⟨?_, fun j hj => ?_⟩
  · rw [mem_domain hr _ fun k hk => emb_zero f _ k (by rw [hr.dim_eq]; exact hk)]
    have := dom_emb f 1 (vals x) zero_le_one hdom
    simpa using this
  · rw [Geometry.global, h1, show d - f.codim = f.shape.dim by omega]
    exact global_err f _ _ _ h4 h5 hdom j (by rw [hr.dim_eq]; exact hj)

theorem inside_budget {u : ℝ} (hu : 0 < u) (hu' : u ≤ 1 / 2 ^ 24) (d m : ℕ) (hd : d ≤ 10) (hm : m ≤ d) :
    (1 + u) ^ d * (1 + d * ((1 + u) ^ m - 1)) - 1 < 128 * u := by
  have h10 : ∀ k : ℕ, k ≤ 10 → (1 + u) ^ k ≤ 1 + 10 * u + 100 * u ^ 2 := fun k hk => by
    refine (pow_le_pow_right₀ (by linarith) hk).trans ?_
    have : (1 + u) ^ 10 = 1 + 10 * u + 45 * u ^ 2 + u ^ 2 * (120 * u + 210 * u ^ 2 + 252 * u ^ 3 + 210 * u ^ 4 + 120 * u ^ 5 + 45 * u ^ 6 + 10 * u ^ 7 + u ^ 8) := by ring
    rw [this]
    have hu1 : u ≤ 1 / 1000 := hu'.trans (by norm_num)
    have : 120 * u + 210 * u ^ 2 + 252 * u ^ 3 + 210 * u ^ 4 + 120 * u ^ 5 + 45 * u ^ 6 + 10 * u ^ 7 + u ^ 8 ≤ 55 := by
      have hp : ∀ k : ℕ, u ^ (k + 1) ≤ 1 / 1000 := fun k => by
        rw [pow_succ]
        have := pow_le_one₀ hu.le (show u ≤ 1 by linarith) (n := k)
        nlinarith [pow_nonneg hu.le k]
      linarith [hp 1, hp 2, hp 3, hp 4, hp 5, hp 6, hp 7]
    nlinarith [sq_nonneg u]
  have hd' : (d:ℝ) ≤ 10 := by exact_mod_cast hd
  have h1 := h10 d hd
  have h2 := h10 m (hm.trans hd)
  have h3 : 0 ≤ (1 + u) ^ m - 1 := by linarith [one_le_pow₀ (show (1:ℝ) ≤ 1 + u by linarith) (n := m)]
  have h4 : d * ((1 + u) ^ m - 1) ≤ 10 * (10 * u + 100 * u ^ 2) := mul_le_mul hd' (by linarith) h3 (by norm_num)
  have h5 : (1 + u) ^ d * (1 + d * ((1 + u) ^ m - 1)) ≤ (1 + 10 * u + 100 * u ^ 2) * (1 + 10 * (10 * u + 100 * u ^ 2)) :=
    mul_le_mul h1 (by linarith) (by positivity) (by positivity)
  have hu1 : u ≤ 1 / 10000 := hu'.trans (by norm_num)
  have h6 : u ^ 2 ≤ u / 10000 := by nlinarith
  have h7 : u ^ 3 ≤ u / 10000 := by nlinarith [sq_nonneg u]
  have h8 : u ^ 4 ≤ u / 10000 := by nlinarith [sq_nonneg u, pow_nonneg hu.le 3]
  nlinarith

section ieee
variable (p : ℕ) (emin : ℤ) (hp : 24 ≤ p) (he : emin ≤ -(2 * p + 32 : ℤ))

/-- C93: points embedded from a sub-entity pass the check of the element. -/
theorem C93_inside (d id i c : ℕ) (hd : d ≤ 10) (hid : id < 2 ^ d) (hc : c ≤ d) (hi : i < refSize d id c) (ret ret' : Mat (Fl (ieee p emin hp he)))
    (g : Geometry (Fl (ieee p emin hp he))) (hg : geometry d id c i ret ret' = some g) (x : Nat → Fl (ieee p emin hp he))
    (hx : (fun k => (x k).val) ∈ domain ℝ (d - c) (refType d id i c).id) : refCheckInside d id (g.global x) (epsilon p emin hp he) = true := by
  obtain ⟨h1, h2⟩ := C93_global _ d id i c (by omega) hid hc hi ret ret' g hg x hx
  have hu := ieee_u_pos p emin hp he
  refine C77_accept _ d id _ _ _ h1 _ ?_ h2 ?_
  · linarith [one_le_pow₀ (show (1:ℝ) ≤ 1 + (ieee p emin hp he).u by linarith) (n := d - c)]
  · rw [tolerance_val]
    exact inside_budget hu (ieee_u_le p emin hp he) d _ hd (Nat.sub_le _ _)

end ieee

/-- the barycentre, rounded, or any other point of the reference triangle can be embedded into the slanted facet of the tetrahedron -/
example : refType 3 0 3 1 = ⟨2, false, 0⟩ ∧ (fun k => if k = 0 then 1 / 4 else if k = 1 then 1 / 2 else 0 : Vec ℝ) ∈ domain ℝ 2 0 := by
  refine ⟨by decide, ?_⟩
  rw [mem_domain (rep_topoOf 2 0) _ fun k hk => by rw [if_neg (by omega), if_neg (by omega)]]
  have e : topoOf 2 0 = .pyr (.prism .pt) := rfl
  rw [e]
  refine ⟨?_, ?_, ?_, ?_, trivial⟩ <;> norm_num [Topo.dim]

/-- cubes, and all elements as their own sub-entity, and vertices -/
def Straight (d id c : ℕ) : Prop := IsCubeId d id ∨ c = 0 ∨ c = d

theorem topoOf_cube : ∀ (d id : ℕ), IsCubeId d id → topoOf d id = Topo.cube d
  | 0, _, _ => rfl
  | d + 1, id, h => by
    have hb : d = 0 ∨ id.testBit d = true := by
      rcases Nat.eq_zero_or_pos d with h0 | h0
      · exact Or.inl h0
      · exact Or.inr (h d h0 (by omega))
    rw [topoOf, if_pos hb, topoOf_cube d _ fun k hk hkd => ?_]
    · rfl
    · rw [Nat.testBit_mod_two_pow, h k hk (by omega)]
      simp [hkd]

theorem unitRows_straight {φ : Format} {d id : ℕ} (hid : id < 2 ^ d) (f : Face (topoOf d id)) (hs : Straight d id f.codim) (J : Mat (Fl φ))
    (hJ : valM J = jac f) : UnitRows f.shape.dim d J (piv f) := by
  have hr := rep_topoOf d id
  have h : ∀ r c, r < f.shape.dim → jac (K := ℝ) f r c = if c = piv f r then 1 else 0 := by
    rcases hs with h | h | h
    · have e := topoOf_cube d id h
      clear hJ
      revert f
      rw [e]
      exact fun f => unit_cube d f
    · have hw := Face.eq_whole f h
      rw [hw, Face.shape_of_codim_zero _ (Face.codim_whole _)]
      exact unit_whole _
    · intro r c hrl
      have := Face.codim_add_dim f
      rw [hr.dim_eq] at this
      omega
  have := unitRows_of f J hJ h
  rwa [hr.dim_eq] at this

/-- C93: the geometries of the sub-entities of cubes, of an element itself and of vertices are free of rounding errors: they are
constructed, the integration element is `1`, and `local` is the inverse of `global` for all numbers of the format, also outside
of the element. -/
theorem C93_straight (φ : Format) (d id i c : ℕ) (hid : id < 2 ^ d) (hc : c ≤ d) (hi : i < refSize d id c) (hs : Straight d id c) (ret ret' : Mat (Fl φ)) :
    ∃ g, geometry d id c i ret ret' = some g ∧ g.integrationElement = 1 ∧ (∀ x : Nat → Fl φ, ∀ j < d - c, g.local_ (g.global x) j = x j) ∧
      (c = 0 → ∀ y : Nat → Fl φ, ∀ j < d, g.global (g.local_ y) j = y j) := by
  have hr := rep_topoOf d id
  obtain ⟨f, rfl, rfl⟩ := exists_face hr hc hi
  have hfd := Face.codim_add_dim f
  rw [hr.dim_eq] at hfd
  obtain ⟨e, hge, h1, h2⟩ := embedding_fl (φ := φ) f
  have hU := unitRows_straight hid f hs e.2 h2
  obtain ⟨inv, hinv, hinv'⟩ := rightInv_unit hU ret ret'
  have e1 : d - f.codim = f.shape.dim := by omega
  have ho : ∀ r < f.shape.dim, e.1 (piv f r) = 0 := fun r hr => Fl.ext (by
    have := congrFun h1 (piv f r)
    exact this.trans (piv_spec f r hr).2.1)
  rw [e1]
  refine ⟨⟨f.shape.dim, d, (refType d id f.idx f.codim).id, e.1, e.2, inv, 1⟩, ?_, rfl, fun x j hj => ?_, fun hc0 y j hj => ?_⟩
  · rw [geometry, hge]
    simp only [Geometry.ofJacobian]
    rw [e1, hinv]
    rfl
  · refine (unit_local hU hinv' e.1 _ ho j hj).trans ?_
    exact (unit_global hU e.1 x (piv f j) (hU.lt j hj)).1 j hj rfl (ho j hj)
  · have hw := Face.eq_whole f hc0
    have hpj : piv f j = j := by rw [hw]; exact piv_whole _ j (by rw [hr.dim_eq]; exact hj)
    have hj' : j < f.shape.dim := by omega
    refine ((unit_global hU e.1 _ j hj).1 j hj' hpj.symm (by have := ho j hj'; rwa [hpj] at this)).trans ?_
    have := unit_local hU hinv' e.1 y ho j hj'
    rw [hpj] at this
    exact this

/-- the integration element of the embedding of `(i,c)` -/
noncomputable def exactElement (d id i c : ℕ) : ℝ :=
  match (RefGeom.referenceEmbeddings (K := ℝ) d id c)[i]? with
  | some e => Real.sqrt (Matrix.det (Matrix.of fun r s : Fin (d - c) => ∑ k : Fin d, e.2 r k * e.2 s k))
  | none => 0

theorem geometry_ok {φ : Format} (hu : 0 < φ.u) (hu' : φ.u ≤ 1 / 2 ^ 24) (hηu : φ.η ≤ φ.u ^ 2) (d id i c : ℕ) (hd : d ≤ 29) (hid : id < 2 ^ d) (hc : c ≤ d) (hi : i < refSize d id c) (ret ret' : Mat (Fl φ)) :
    ∃ g, geometry d id c i ret ret' = some g ∧ g.mydim = d - c ∧ g.cdim = d ∧ g.id = (refType d id i c).id ∧
      |g.integrationElement.val - exactElement d id i c| ≤
        ((1 + φ.u) ^ (d - c) * (1 + 17 * (d - c : ℕ) * d ^ 2 * φ.u) ^ (d - c) - 1) * exactElement d id i c +
          (1 + φ.u) ^ (d - c) * ((d - c : ℕ) * φ.η * (1 + d) ^ (d - c)) := by
  have hr := rep_topoOf d id
  obtain ⟨f, rfl, rfl⟩ := exists_face hr hc hi
  have hfd := Face.codim_add_dim f
  rw [hr.dim_eq] at hfd
  have e1 : d - f.codim = f.shape.dim := by omega
  have hX : exactElement d id f.idx f.codim = Real.sqrt (gram (d - f.codim) d (jac f)).det := by
    rw [exactElement, embedding_face hr f]; rfl
  rw [hX]
  have hη0 := φ.η_nonneg
  by_cases hspec : d - f.codim = 0 ∨ (d = 2 ∧ d - f.codim = 2)
  · have hone : (gram (d - f.codim) d (jac (K := ℝ) f)).det = 1 := by
      rcases hspec with h | ⟨h, h'⟩
      · rw [h]; exact Matrix.det_fin_zero
      · have hw := Face.eq_whole f (by omega)
        rw [hw, jac_whole, Face.codim_whole, hr.dim_eq]
        subst h
        rw [Nat.sub_zero, Matrix.det_fin_two]
        simp [gram, Fin.sum_univ_two]
    obtain ⟨g, hg, hg1, -⟩ := C93_straight φ d id f.idx f.codim hid hc hi (by unfold Straight; omega) ret ret'
    obtain ⟨h1, h2, h3, -⟩ := geometry_some f hg
    refine ⟨g, hg, h1.trans e1.symm, h2, h3, ?_⟩
    rw [hg1, hone, Real.sqrt_one, Fl.one_val, sub_self, abs_zero, mul_one]
    have a1 := Near.one_le_pow φ (d - f.codim)
    have a2 : 1 ≤ (1 + 17 * (d - f.codim : ℕ) * d ^ 2 * φ.u) ^ (d - f.codim) := one_le_pow₀ (by
      have : 0 ≤ 17 * ((d - f.codim : ℕ) : ℝ) * d ^ 2 * φ.u := by positivity
      linarith)
    have a3 : 0 ≤ (1 + φ.u) ^ (d - f.codim) * ((d - f.codim : ℕ) * φ.η * (1 + d) ^ (d - f.codim)) := by positivity
    nlinarith
  · obtain ⟨e, hge, h1, h2⟩ := embedding_fl (φ := φ) f
    have hd0 : 1 ≤ d := by omega
    have hd1 : (1:ℝ) ≤ d := by exact_mod_cast hd0
    have hd29 : (d:ℝ) ≤ 29 := by exact_mod_cast hd
    have hm29 : ((d - f.codim : ℕ) : ℝ) ≤ 29 := by exact_mod_cast (Nat.sub_le _ _).trans hd
    have hind : IndependentBy (d - f.codim) d (jac (K := ℝ) f) 1 := by
      have := jac_independent f
      rw [hr.dim_eq, ← e1] at this
      exact this
    have hrow : RowsWithin (d - f.codim) d (jac (K := ℝ) f) d := by
      have := jac_rows f
      rw [hr.dim_eq, ← e1] at this
      exact this
    have hcond : 50 * (d - f.codim : ℕ) * (d:ℝ) * φ.u * d ≤ 1 := by
      have h3 : 50 * ((d - f.codim : ℕ) : ℝ) * d ≤ 50 * 29 * 29 := by
        have := mul_le_mul hm29 hd29 (by linarith) (by norm_num)
        linarith
      have h4 : φ.u * d ≤ 1 / 2 ^ 24 * 29 := mul_le_mul hu' hd29 (by linarith) (by norm_num)
      have h5 := mul_le_mul h3 h4 (by positivity) (by norm_num)
      norm_num at h5 ⊢
      linarith
    have hhigh : 8 * φ.η ^ 2 * (d:ℝ) ≤ φ.u ^ 2 := by
      have h3 : φ.η ^ 2 ≤ φ.u ^ 2 * φ.η := by rw [sq]; exact mul_le_mul_of_nonneg_right hηu hη0
      have h4 : φ.η ≤ 1 / 2 ^ 24 := hηu.trans (by nlinarith)
      have h5 : 8 * φ.η * d ≤ 1 := by
        have := mul_le_mul h4 hd29 (by linarith) (by norm_num)
        norm_num at this ⊢
        linarith
      have h6 : 0 ≤ φ.u ^ 2 := sq_nonneg _
      nlinarith
    obtain ⟨det, inv, P, k1, -, k3, k4, k5, k6, -⟩ := right_inverse (φ := φ) (d - f.codim) d (by omega) (Nat.sub_le _ _) hd e.2 (jac f) ret ret' hu hu'
      (hηu.trans (by nlinarith)) (hηu.trans (by nlinarith [sq_nonneg φ.u])) hhigh
      (fun r j _ _ => by
        rw [show (e.2 r j).val = jac f r j from congrFun (congrFun h2 r) j, sub_self, abs_zero]
        positivity) hrow hind one_pos hcond
    refine ⟨⟨d - f.codim, d, (refType d id f.idx f.codim).id, e.1, e.2, inv, det⟩, ?_, rfl, rfl, rfl, ?_⟩
    · rw [geometry, hge]
      simp only [Geometry.ofJacobian]
      rw [rightInvA, if_neg (by omega), k1]
      rfl
    · have := integration_err (by omega) hu one_pos hcond hrow k3 k4 k5 k6
      rw [div_one, show 17 * ((d - f.codim : ℕ) : ℝ) * d * φ.u * d = 17 * (d - f.codim : ℕ) * d ^ 2 * φ.u by ring] at this
      exact this

/-- C93: the geometry of an element itself is the identity, so its center is `position(0,0)`, bit for bit. -/
theorem C93_center (φ : Format) (d id : ℕ) (hd : d ≤ 31) (hid : id < 2 ^ d) (ret ret' : Mat (Fl φ)) (x : Nat → Fl φ) (hx : Float.position d id 0 0 = some x) :
    ∃ g y, geometry d id 0 0 ret ret' = some g ∧ g.center = some y ∧ ∀ j < d, y j = x j := by
  have hr := rep_topoOf d id
  obtain ⟨f, hf0, hfi⟩ : ∃ f : Face (topoOf d id), f.codim = 0 ∧ f.idx = 0 := by
    have h := Face.idx_lt (Face.whole (topoOf d id))
    have h1 := Face.codim_whole (topoOf d id)
    refine ⟨_, h1, ?_⟩
    rw [h1, Topo.sz_zero] at h
    omega
  have hfd := Face.codim_add_dim f
  rw [hr.dim_eq] at hfd
  obtain ⟨e, hge, h1, h2⟩ := embedding_fl (φ := φ) f
  have hU := unitRows_straight hid f (Or.inr (Or.inl hf0)) e.2 h2
  obtain ⟨inv, hinv, -⟩ := rightInv_unit hU ret ret'
  have e1 : f.shape.dim = d := by omega
  rw [hf0, hfi] at hge
  have hid0 : (refType d id 0 0).id = id := by rw [refType_eq d id 0 0 hd hid (Nat.zero_le _), subTopologyId_zero]
  refine ⟨⟨d, d, (refType d id 0 0).id, e.1, e.2, inv, 1⟩, affineGlobal d e.1 e.2 x, ?_, ?_, fun j hj => ?_⟩
  · rw [geometry, hge]
    simp only [Geometry.ofJacobian, Nat.sub_zero]
    rw [e1] at hinv
    rw [hinv]
    rfl
  · rw [Geometry.center, hid0]
    simp only
    rw [hx]
    rfl
  · have hw := Face.eq_whole f hf0
    have hpj : piv f j = j := by rw [hw]; exact piv_whole _ j (by rw [hr.dim_eq]; exact hj)
    have ho : e.1 (piv f j) = 0 := Fl.ext (by
      have := congrFun h1 (piv f j)
      exact this.trans (piv_spec f j (by omega)).2.1)
    have := (unit_global hU e.1 x j hj).1 j (by omega) hpj.symm (by rwa [hpj] at ho)
    rwa [e1] at this

/-- C93: the volume of a geometry is its integration element times the volume of the reference element, with two rounding errors. -/
theorem C93_volume (φ : Format) (g : Geometry (Fl φ)) (hd : g.mydim ≤ 13) (hex : ∀ k : ℕ, k ≤ g.mydim.factorial → φ.rd k = k) :
    |g.volume.val - g.integrationElement.val * exactVolume ℝ g.mydim g.id| ≤
      φ.u * (2 + φ.u) * |g.integrationElement.val| * exactVolume ℝ g.mydim g.id + φ.η * ((1 + φ.u) * |g.integrationElement.val| + 1) := by
  have hr := rep_topoOf g.mydim g.id
  have hk := volumeInverse_eq hr hd
  set k := ivol (topoOf g.mydim g.id) with hkd
  have hle : k ≤ g.mydim.factorial := by
    have := ivol_le (topoOf g.mydim g.id)
    rwa [hr.dim_eq] at this
  have hV : exactVolume ℝ g.mydim g.id = 1 / k := by rw [exactVolume_eq hr, vol_eq]
  have hv : ((k : Fl φ)).val = k := hex k hle
  have hV0 : (0:ℝ) ≤ 1 / k := by positivity
  have h1 := Fl.div_err (1 : Fl φ) (k : Fl φ)
  rw [Fl.one_val, hv, abs_of_nonneg hV0] at h1
  have e : g.volume = g.integrationElement * (1 / (k : Fl φ)) := by rw [Geometry.volume, FloatVol.referenceVolume, hk]
  have h2 := Fl.mul_err g.integrationElement (1 / (k : Fl φ))
  rw [← e, abs_mul] at h2
  set I := g.integrationElement.val
  set V : ℝ := 1 / k
  set W := (1 / (k : Fl φ)).val
  have h3 : |W| ≤ V + (φ.u * V + φ.η) := by
    have := abs_add_le (W - V) V
    rw [sub_add_cancel, abs_of_nonneg hV0] at this
    linarith
  have h4 : |I * W - I * V| ≤ |I| * (φ.u * V + φ.η) := by
    rw [← mul_sub, abs_mul]; exact mul_le_mul_of_nonneg_left h1 (abs_nonneg _)
  have h5 : φ.u * (|I| * |W|) ≤ φ.u * (|I| * (V + (φ.u * V + φ.η))) :=
    mul_le_mul_of_nonneg_left (mul_le_mul_of_nonneg_left h3 (abs_nonneg _)) φ.u_nonneg
  rw [hV]
  have h6 := abs_add_le (g.volume.val - I * W) (I * W - I * V)
  rw [sub_add_sub_cancel] at h6
  nlinarith

example : ∃ x, Float.position (K := Fl double) 3 0 0 0 = some x := ⟨_, rfl⟩

example : ∀ k : ℕ, k ≤ Nat.factorial 3 → double.rd k = k := fun k hk => FloatRefine.double_nat k (le_trans hk (by norm_num [Nat.factorial]))

/-- edge 5 of the hexahedron, and the pyramid itself -/
example : Straight 3 7 2 ∧ 5 < refSize 3 7 2 ∧ Straight 3 3 0 ∧ ¬ Straight 3 3 1 := by
  refine ⟨Or.inl fun k h1 h2 => ?_, by decide, Or.inr (Or.inl rfl), ?_⟩
  · interval_cases k <;> decide
  · rintro (h | h | h)
    · exact absurd (h 2 (by norm_num) (by norm_num)) (by decide)
    · omega
    · omega

section ieee
variable (p : ℕ) (emin : ℤ) (hp : 24 ≤ p) (he : emin ≤ -(2 * p + 32 : ℤ))

/-- C93: the geometry of every sub-entity of every element is constructed, and its integration element is that of the embedding
up to rounding errors. -/
theorem C93_geometry (d id i c : ℕ) (hd : d ≤ 29) (hid : id < 2 ^ d) (hc : c ≤ d) (hi : i < refSize d id c) (ret ret' : Mat (Fl (ieee p emin hp he))) :
    ∃ g, geometry d id c i ret ret' = some g ∧ g.mydim = d - c ∧ g.cdim = d ∧ g.id = (refType d id i c).id ∧
      |g.integrationElement.val - exactElement d id i c| ≤
        ((1 + (ieee p emin hp he).u) ^ (d - c) * (1 + 17 * (d - c : ℕ) * d ^ 2 * (ieee p emin hp he).u) ^ (d - c) - 1) * exactElement d id i c +
          (1 + (ieee p emin hp he).u) ^ (d - c) * ((d - c : ℕ) * (ieee p emin hp he).η * (1 + d) ^ (d - c)) := by
  refine geometry_ok (ieee_u_pos p emin hp he) (ieee_u_le p emin hp he) ?_ d id i c hd hid hc hi ret ret'
  have := ieee_η_le p emin hp he
  linarith [(ieee p emin hp he).η_nonneg]

end ieee

/-- the exact integration element of the slanted facet of the tetrahedron -/
example : exactElement 3 0 3 1 = Real.sqrt 3 := by
  obtain ⟨o, J, e, h00, h01, h02, h10, h11, h12⟩ : ∃ (o : Vec ℝ) (J : Mat ℝ), (RefGeom.referenceEmbeddings (K := ℝ) 3 0 1)[3]? = some (o, J) ∧
      J 0 0 = -1 ∧ J 0 1 = 1 ∧ J 0 2 = 0 ∧ J 1 0 = -1 ∧ J 1 1 = -0 ∧ J 1 2 = 1 := ⟨_, _, rfl, rfl, rfl, rfl, rfl, rfl, rfl⟩
  rw [exactElement, e]
  simp only
  congr 1
  rw [Matrix.det_fin_two]
  simp [Fin.sum_univ_three, h00, h01, h02, h10, h11, h12]
  norm_num

/-! ### Corners of a slanted edge -/

/-- C93, the property: `local` gives the corners of the reference element of the sub-entity for the corners of its geometry. -/
def C93_local_full (φ : Format) : Prop :=
  ∀ (d id i c j : ℕ) (ret ret' : Mat (Fl φ)) (g : Geometry (Fl φ)) (x y : Nat → Fl φ), d ≤ 3 → id < 2 ^ d → c ≤ d → i < refSize d id c →
    geometry d id c i ret ret' = some g → (Float.referenceCorners (d - c) (refType d id i c).id)[j]? = some x → g.corner j = some y →
    ∀ k < d - c, g.local_ y k = x k

/-- `local` of the second corner of the slanted edge of a triangle -/
theorem slanted {φ : Format} (h2 : (0:ℝ) < ((1 : Fl φ) + 1).val) (ret ret' : Mat (Fl φ)) :
    ∃ g y, geometry 2 0 1 2 ret ret' = some g ∧ g.corner 1 = some y ∧
      g.local_ y 0 = (1 / HasSqrt.sqrt (1 + 1)) * (1 / HasSqrt.sqrt (1 + 1)) + (1 / HasSqrt.sqrt (1 + 1)) * (1 / HasSqrt.sqrt (1 + 1)) := by
  obtain ⟨o, J, he, o0, o1, J0, J1⟩ : ∃ (o : Nat → Fl φ) (J : Mat (Fl φ)), (referenceEmbeddings (K := Fl φ) 2 0 1)[2]? = some (o, J) ∧
      o 0 = 1 ∧ o 1 = 0 ∧ J 0 0 = -1 ∧ J 0 1 = 1 := ⟨_, _, rfl, rfl, rfl, rfl, rfl⟩
  set s := HasSqrt.sqrt ((1 : Fl φ) + 1) with hs
  have hmm : -(1 : Fl φ) * -1 = 1 := Fl.ext (by rw [Fl.mul_val, Fl.neg_val, Fl.one_val]; norm_num [φ.rd_one])
  have hn : ∀ a : Fl φ, -1 * a = -a := fun a => Fl.ext (by rw [Fl.mul_val, Fl.neg_val, Fl.one_val, neg_one_mul, Fl.neg_val, φ.rd_neg _ a.rep])
  have hA : AAT_L 2 J ret 0 0 = 1 + 1 := by
    rw [AAT_L, if_pos (le_refl _)]
    simp only [addLoop, List.range'_succ, List.range'_zero, List.foldl_cons, List.foldl_nil, J0, J1, hmm, Fl.mul_one]
  have hchol : cholesky_L 1 (AAT_L 2 J ret) ret' = some (setM ret' 0 0 s) := by
    have hx : subLoop (AAT_L 2 J ret 0 0) 0 0 (fun j => ret' 0 j * ret' 0 j) = 1 + 1 := by rw [hA]; rfl
    simp only [cholesky_L, choleskyFrom, hx, choleskyColumn]
    rw [if_neg (not_not.2 (by rw [gt_iff_lt, Fl.lt_iff, Fl.zero_val]; exact h2))]
    rfl
  have hr : ∃ D inv, rightInvA 1 2 J ret ret' = some (D, inv) ∧ inv 0 0 = -(1 / s * (1 / s)) ∧ inv 1 0 = 1 / s * (1 / s) := by
    refine ⟨(invL 1 (setM ret' 0 0 s)).1, ATBT 1 J (LTL 1 (invL 1 (setM ret' 0 0 s)).2), ?_, ?_, ?_⟩
    · rw [rightInvA, if_neg (by omega), spdInvA, hchol]; rfl
    all_goals
      have hL : LTL 1 (invL 1 (setM ret' 0 0 s)).2 0 0 = 1 / s * (1 / s) := by
        have : (invL 1 (setM ret' 0 0 s)).2 0 0 = 1 / s := rfl
        rw [LTL, if_neg (lt_irrefl _), if_neg (lt_irrefl _), addLoop_single _ _ _ 0 _ (le_refl _) one_pos (fun k h1 h2 h3 => by omega), this, Fl.zero_add]
      rw [ATBT, addLoop_single _ _ _ 0 _ (le_refl _) one_pos (fun k h1 h2 h3 => by omega), hL, Fl.zero_add]
    · rw [J0, hn]
    · rw [J1, Fl.one_mul]
  obtain ⟨D, inv, hinv, i0, i1⟩ := hr
  obtain ⟨x, hx, x0⟩ : ∃ x : Nat → Fl φ, Float.position 1 (refType 2 0 2 1).id 1 1 = some x ∧ x 0 = 1 := ⟨_, rfl, rfl⟩
  refine ⟨⟨1, 2, (refType 2 0 2 1).id, o, J, inv, D⟩, affineGlobal 1 o J x, ?_, ?_, ?_⟩
  · rw [geometry, he]
    simp only [Geometry.ofJacobian]
    rw [show 2 - 1 = 1 from rfl, hinv]
    rfl
  · rw [Geometry.corner]
    simp only
    rw [hx]
    rfl
  · have g0 : affineGlobal 1 o J x 0 = 1 + -1 := by
      show o 0 + J 0 0 * x 0 = _
      rw [o0, J0, x0, Fl.mul_one]
    have g1 : affineGlobal 1 o J x 1 = 1 := by
      show o 1 + J 0 1 * x 0 = _
      rw [o1, J1, x0, Fl.mul_one, Fl.zero_add]
    have z : (1 : Fl φ) + -1 - 1 = -1 := Fl.ext (by
      have : (1 + -1 : Fl φ).val = 0 := by rw [Fl.add_val, Fl.neg_val, Fl.one_val, add_neg_cancel, φ.rd_zero]
      rw [Fl.sub_val, this, Fl.one_val, zero_sub, Fl.neg_val, Fl.one_val, φ.rd_neg _ φ.rd_one])
    have hm : ∀ a : Fl φ, -a * -1 = a := fun a => Fl.ext (by rw [Fl.mul_val, Fl.neg_val, Fl.neg_val, Fl.one_val, neg_mul_neg, mul_one, a.rep])
    show 0 + inv 0 0 * (affineGlobal 1 o J x 0 - o 0) + inv 1 0 * (affineGlobal 1 o J x 1 - o 1) = _
    rw [g0, g1, o0, o1, z, i0, i1, hm, Fl.sub_zero, Fl.mul_one, Fl.zero_add]

/-- what `local` returns there, in units of the last place below one -/
theorem slanted_bin (f : BinFormat) (h2 : (0 : Bin f) < 1 + 1) (v : ℚ)
    (hv : ((1 / HasSqrt.sqrt (1 + 1)) * (1 / HasSqrt.sqrt (1 + 1)) + (1 / HasSqrt.sqrt (1 + 1)) * (1 / HasSqrt.sqrt (1 + 1)) : Bin f).val = v)
    (ret ret' : Mat (Fl f.toFormat)) :
    ∃ g y, geometry 2 0 1 2 ret ret' = some g ∧ g.corner 1 = some y ∧ (g.local_ y 0).val = v := by
  have h := Bin.hom f
  have h3 : (0:ℝ) < ((1 : Fl f.toFormat) + 1).val := by
    have := ((Bin.hom f).lt 0 (1 + 1)).1 h2
    rw [(Bin.hom f).zero, (Bin.hom f).add, (Bin.hom f).one, Fl.lt_iff, Fl.zero_val] at this
    exact this
  obtain ⟨g, y, h4, h5, h6⟩ := slanted h3 ret ret'
  refine ⟨g, y, h4, h5, ?_⟩
  rw [h6, ← hv]
  have e : (Bin.hom f).f ((1 / HasSqrt.sqrt (1 + 1)) * (1 / HasSqrt.sqrt (1 + 1)) + (1 / HasSqrt.sqrt (1 + 1)) * (1 / HasSqrt.sqrt (1 + 1))) =
      (1 / HasSqrt.sqrt (1 + 1)) * (1 / HasSqrt.sqrt (1 + 1)) + (1 / HasSqrt.sqrt (1 + 1)) * (1 / HasSqrt.sqrt (1 + 1)) := by
    simp only [(Bin.hom f).add, (Bin.hom f).mul, (Bin.hom f).div, (Bin.hom f).sqrt, (Bin.hom f).one]
  rw [← e]
  rfl

/-- C93: in `double` `local` maps the end of the slanted edge of a triangle to `1 - 2⁻⁵²`. -/
theorem C93_local_value (ret ret' : Mat (Fl double)) :
    ∃ g y, geometry 2 0 1 2 ret ret' = some g ∧ g.corner 1 = some y ∧ (g.local_ y 0).val = 1 - 1 / 2 ^ 52 := by
  obtain ⟨g, y, h1, h2, h3⟩ := slanted_bin binDouble (by decide +kernel) (1 - 1 / 2 ^ 52) (by decide +kernel) ret ret'
  exact ⟨g, y, h1, h2, h3.trans (by norm_num)⟩

/-- C93: the same in `float`, `1 - 2⁻²⁴`. -/
theorem C93_local_value_single (ret ret' : Mat (Fl single)) :
    ∃ g y, geometry 2 0 1 2 ret ret' = some g ∧ g.corner 1 = some y ∧ (g.local_ y 0).val = 1 - 1 / 2 ^ 24 := by
  obtain ⟨g, y, h1, h2, h3⟩ := slanted_bin binSingle (by decide +kernel) (1 - 1 / 2 ^ 24) (by decide +kernel) ret ret'
  exact ⟨g, y, h1, h2, h3.trans (by norm_num)⟩

/-- C93: so the property does not hold. -/
theorem C93_local_counterexample : ¬ C93_local_full double := by
  intro h
  obtain ⟨g, y, h1, h2, h3⟩ := C93_local_value (fun _ _ => 0) (fun _ _ => 0)
  obtain ⟨x, hx, x0⟩ : ∃ x : Nat → Fl double, (Float.referenceCorners (2 - 1) (refType 2 0 2 1).id)[1]? = some x ∧ x 0 = 1 := ⟨_, rfl, rfl⟩
  have := h 2 0 2 1 1 _ _ g x y (by norm_num) (by norm_num) (by norm_num) (by decide) h1 hx h2 0 (by norm_num)
  rw [this, x0, Fl.one_val] at h3
  norm_num at h3

end Verif.FloatEmbed
