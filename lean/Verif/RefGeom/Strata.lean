import Verif.RefGeom.Props

/-! The points of a reference element lie in the relative interior of exactly one sub-entity. -/

namespace Verif.RefGeom

open Verif.Typ Verif.RefTopo Finset

variable {K : Type} [Field K] [LinearOrder K] [IsStrictOrderedRing K]

theorem inside_congr {x y : Vec K} : ∀ (t : Topo) (f : K), (∀ k, k < t.dim → x k = y k) → Inside 0 t f x → Inside 0 t f y
  | .pt, _, _, _ => trivial
  | .prism t, f, h, ⟨h1, h2, h3⟩ => by
    have e := h t.dim (by simp [Topo.dim])
    refine ⟨by rw [← e]; exact h1, by rw [← e]; exact h2,
      inside_congr t _ (fun k hk => h k (by simp only [Topo.dim]; omega)) h3⟩
  | .pyr t, f, h, ⟨h1, h2, h3⟩ => by
    have e := h t.dim (by simp [Topo.dim])
    refine ⟨by rw [← e]; exact h1, by rw [← e]; exact h2, ?_⟩
    rw [← e]
    exact inside_congr t _ (fun k hk => h k (by simp only [Topo.dim]; omega)) h3

theorem inside_smul {a : K} (ha : 0 < a) : ∀ (t : Topo) (f : K) (x : Vec K), Inside 0 t f x →
    Inside 0 t (a * f) (fun k => a * x k)
  | .pt, _, _, _ => trivial
  | .prism t, f, x, h => by
    obtain ⟨h1, h2, h3⟩ := h
    rw [neg_zero] at h1 h2
    refine ⟨by rw [neg_zero]; exact mul_pos ha h1, by rw [neg_zero, ← mul_sub]; exact mul_pos ha h2, inside_smul ha t f x h3⟩
  | .pyr t, f, x, h => by
    obtain ⟨h1, h2, h3⟩ := h
    rw [neg_zero] at h1 h2
    refine ⟨by rw [neg_zero]; exact mul_pos ha h1, by rw [neg_zero, ← mul_sub]; exact mul_pos ha h2, ?_⟩
    have := inside_smul ha t _ x h3
    rwa [mul_sub] at this

theorem inside_dom : ∀ (t : Topo) (f : K) (x : Vec K), Inside 0 t f x → Dom t f x
  | .pt, _, _, _ => trivial
  | .prism t, f, x, ⟨h1, h2, h3⟩ => ⟨by linarith, by linarith, inside_dom t f x h3⟩
  | .pyr t, f, x, ⟨h1, h2, h3⟩ => ⟨by linarith, by linarith, inside_dom t _ x h3⟩

omit [LinearOrder K] [IsStrictOrderedRing K] in
theorem emb_scale {t : Topo} (f : Face t) (s : K) (y : Vec K) (j : Nat) :
    emb f (fun k => s * y k) j = (1 - s) * orig f j + s * emb f y j := by
  have := emb_sub f (fun _ => 0) y (-s) j
  rw [emb_at_zero] at this
  have e : (fun i => (0 : K) - -s * y i) = fun i => s * y i := by funext i; ring
  rw [e] at this
  rw [this]
  ring

/-- an embedding maps the reference domain into the element -/
theorem dom_emb : ∀ {t : Topo} (f : Face t) (φ : K) (y : Vec K), 0 ≤ φ → Dom f.shape φ y →
    Dom t φ (fun j => emb f y j - (1 - φ) * orig f j)
  | _, .pt, _, _, _, _ => trivial
  | .prism t, .edge f, φ, y, hφ, h => by
    obtain ⟨h1, h2, h3⟩ := h
    refine ⟨?_, ?_, ?_⟩
    · simp only [emb_edge, orig]; rw [orig_zero f _ (le_refl _)]; simpa using h1
    · simp only [emb_edge, orig]; rw [orig_zero f _ (le_refl _)]; simpa using h2
    · refine dom_congr t φ (fun k hk => ?_) (dom_emb f φ y hφ h3)
      simp only [emb_edge, orig]; rw [if_neg (by omega)]
  | .prism t, .bot f, φ, y, hφ, h => by
    have := dom_emb f φ y hφ h
    simp only [emb_bot, orig]
    refine ⟨?_, ?_, this⟩
    · dsimp only; rw [orig_zero f _ (le_refl _), emb_zero f _ _ (le_refl _)]; simp
    · dsimp only; rw [orig_zero f _ (le_refl _), emb_zero f _ _ (le_refl _)]; simpa using hφ
  | .prism t, .top f, φ, y, hφ, h => by
    have := dom_emb f φ y hφ h
    simp only [emb_top, orig]
    refine ⟨?_, ?_, dom_congr t φ (fun k hk => ?_) this⟩
    · dsimp only; rw [setV_same, setV_same]; linarith
    · dsimp only; rw [setV_same, setV_same]; linarith
    · rw [setV_ne _ (by omega), setV_ne _ (by omega)]
  | .pyr t, .base f, φ, y, hφ, h => by
    have := dom_emb f φ y hφ h
    simp only [emb_base, orig, Dom]
    rw [orig_zero f _ (le_refl _), emb_zero f _ _ (le_refl _)]
    refine ⟨by simp, by simpa using hφ, ?_⟩
    simpa using this
  | .pyr t, .cone f, φ, y, hφ, h => by
    obtain ⟨h1, h2, h3⟩ := h
    have := dom_emb f (φ - y f.shape.dim) y (by linarith) h3
    simp only [emb_cone, orig, Dom]
    rw [orig_zero f _ (le_refl _), if_pos trivial, mul_zero, sub_zero]
    refine ⟨h1, h2, dom_congr t _ (fun k hk => ?_) this⟩
    rw [if_neg (by omega)]
    ring
  | .pyr t, .apex, φ, y, hφ, h => by
    simp only [emb_apex, orig, Dom, setV_same]
    refine ⟨by linarith, by linarith, ?_⟩
    rw [show φ - (1 - (1 - φ) * 1) = 0 by ring]
    refine dom_congr t 0 (fun k hk => ?_) (dom_zero t 0 (le_refl _))
    rw [setV_ne _ (by omega)]
    ring

/-- existence -/
theorem strat_exists : ∀ (t : Topo) (x : Vec K), Dom t 1 x →
    ∃ (f : Face t) (y : Vec K), Inside 0 f.shape 1 y ∧ ∀ k, k < t.dim → emb f y k = x k
  | .pt, x, _ => ⟨.pt, x, trivial, fun k hk => absurd hk (Nat.not_lt_zero _)⟩
  | .prism t, x, ⟨h1, h2, h3⟩ => by
    obtain ⟨f, y, hy, he⟩ := strat_exists t x h3
    rcases h1.eq_or_lt with h0 | h0
    · refine ⟨.bot f, y, hy, fun k hk => ?_⟩
      simp only [Topo.dim] at hk
      rw [emb_bot]
      rcases Nat.lt_succ_iff_lt_or_eq.1 hk with hk | rfl
      · exact he k hk
      · rw [emb_zero f _ _ (le_refl _), h0]
    rcases h2.eq_or_lt with h0' | h0'
    · refine ⟨.top f, y, hy, fun k hk => ?_⟩
      simp only [Topo.dim] at hk
      rw [emb_top]
      rcases Nat.lt_succ_iff_lt_or_eq.1 hk with hk | rfl
      · rw [setV_ne _ (by omega), he k hk]
      · rw [setV_same, h0']
    · refine ⟨.edge f, setV y f.shape.dim (x t.dim), ⟨?_, ?_, inside_congr _ _ (fun k hk => ?_) hy⟩, fun k hk => ?_⟩
      · rw [setV_same, neg_zero]; exact h0
      · rw [setV_same, neg_zero]; linarith
      · rw [setV_ne _ (by omega)]
      · simp only [Topo.dim] at hk
        rw [emb_edge]
        rcases Nat.lt_succ_iff_lt_or_eq.1 hk with hk | rfl
        · dsimp only
          rw [if_neg (by omega), ← he k hk]
          exact congrFun (emb_congr f fun k hk => by rw [setV_ne _ (by omega)]) k
        · dsimp only
          rw [if_pos rfl, setV_same]
  | .pyr t, x, ⟨h1, h2, h3⟩ => by
    rcases h2.eq_or_lt with h0' | h0'
    · refine ⟨.apex, fun _ => 0, trivial, fun k hk => ?_⟩
      simp only [Topo.dim] at hk
      rw [emb_apex]
      rcases Nat.lt_succ_iff_lt_or_eq.1 hk with hk | rfl
      · rw [setV_ne _ (by omega)]
        rw [h0', sub_self] at h3
        have : ∀ (t : Topo) (x : Vec K), Dom t 0 x → ∀ k, k < t.dim → x k = 0 := by
          intro t
          induction t with
          | pt => intro x _ k hk; exact absurd hk (Nat.not_lt_zero _)
          | prism t ih =>
            intro x ⟨h1, h2, h3⟩ k hk
            simp only [Topo.dim] at hk
            rcases Nat.lt_succ_iff_lt_or_eq.1 hk with hk | rfl
            · exact ih x h3 k hk
            · exact le_antisymm h2 h1
          | pyr t ih =>
            intro x ⟨h1, h2, h3⟩ k hk
            have e := le_antisymm h2 h1
            simp only [Topo.dim] at hk
            rcases Nat.lt_succ_iff_lt_or_eq.1 hk with hk | rfl
            · exact ih x (by rwa [e, sub_zero] at h3) k hk
            · exact e
        exact (this t x h3 k hk).symm
      · rw [setV_same, h0']
    have hs : 0 < 1 - x t.dim := by linarith
    have hd := dom_smul (a := 1 / (1 - x t.dim)) (by positivity) t _ x h3
    rw [one_div_mul_cancel hs.ne'] at hd
    obtain ⟨f, y, hy, he⟩ := strat_exists t _ hd
    have he : ∀ k, k < t.dim → (1 - x t.dim) * emb f y k = x k := fun k hk => by
      rw [he k hk, ← mul_assoc, mul_one_div_cancel hs.ne', one_mul]
    rcases h1.eq_or_lt with h0 | h0
    · refine ⟨.base f, y, hy, fun k hk => ?_⟩
      simp only [Topo.dim] at hk
      rw [emb_base]
      rcases Nat.lt_succ_iff_lt_or_eq.1 hk with hk | rfl
      · have := he k hk
        rwa [← h0, sub_zero, one_mul] at this
      · rw [emb_zero f _ _ (le_refl _), h0]
    · refine ⟨.cone f, setV (fun k => (1 - x t.dim) * y k) f.shape.dim (x t.dim), ?_, fun k hk => ?_⟩
      · refine ⟨?_, ?_, ?_⟩
        · rw [setV_same, neg_zero]; exact h0
        · rw [setV_same, neg_zero]; exact hs
        · rw [setV_same]
          have := inside_smul hs _ _ _ hy
          rw [mul_one] at this
          exact inside_congr _ _ (fun k hk => by rw [setV_ne _ (by omega)]) this
      · simp only [Topo.dim] at hk
        rw [emb_cone]
        rcases Nat.lt_succ_iff_lt_or_eq.1 hk with hk | rfl
        · dsimp only
          rw [if_neg (by omega), setV_same]
          have e : emb f (setV (fun k => (1 - x t.dim) * y k) f.shape.dim (x t.dim)) = emb f (fun k => (1 - x t.dim) * y k) :=
            emb_congr f fun k hk => by rw [setV_ne _ (by omega)]
          rw [e, emb_scale, ← he k hk]
          ring
        · dsimp only
          rw [if_pos rfl, setV_same]

/-- uniqueness -/
theorem strat_unique : ∀ {t : Topo} (f g : Face t) (y z : Vec K), Inside 0 f.shape 1 y → Inside 0 g.shape 1 z →
    (∀ k, k < t.dim → emb f y k = emb g z k) → f = g
  | _, .pt, .pt, _, _, _, _, _ => rfl
  | .prism t, f, g, y, z, hy, hz, h => by
    have hlast := h t.dim (by simp [Topo.dim])
    have hlow : ∀ k, k < t.dim → emb f y k = emb g z k := fun k hk => h k (by simp only [Topo.dim]; omega)
    have lo : ∀ (f : Face t) (y : Vec K), emb (.bot f) y t.dim = 0 := fun f y => by rw [emb_bot, emb_zero f _ _ (le_refl _)]
    have hi : ∀ (f : Face t) (y : Vec K), emb (.top f) y t.dim = 1 := fun f y => by rw [emb_top, setV_same]
    have mid : ∀ (f : Face t) (y : Vec K), emb (.edge f) y t.dim = y f.shape.dim := fun f y => by rw [emb_edge]; simp
    have low : ∀ (f : Face t) (y : Vec K) (k : Nat), k < t.dim → emb (.bot f) y k = emb f y k ∧ emb (.top f) y k = emb f y k ∧
        emb (.edge f) y k = emb f y k := fun f y k hk =>
      ⟨rfl, by rw [emb_top, setV_ne _ (by omega)], by rw [emb_edge]; simp [show k ≠ t.dim by omega]⟩
    cases f with
    | edge f =>
      obtain ⟨y1, y2, y3⟩ := hy
      cases g with
      | edge g =>
        rw [strat_unique f g y z y3 hz.2.2 fun k hk => by
          have := hlow k hk
          rwa [(low f y k hk).2.2, (low g z k hk).2.2] at this]
      | bot g => rw [mid, lo] at hlast; linarith
      | top g => rw [mid, hi] at hlast; linarith
    | bot f =>
      cases g with
      | edge g => rw [mid, lo] at hlast; linarith [hz.1]
      | bot g => rw [strat_unique f g y z hy hz hlow]
      | top g => rw [lo, hi] at hlast; linarith
    | top f =>
      cases g with
      | edge g => rw [mid, hi] at hlast; linarith [hz.2.1]
      | bot g => rw [lo, hi] at hlast; linarith
      | top g =>
        rw [strat_unique f g y z hy hz fun k hk => by
          have := hlow k hk
          rwa [(low f y k hk).2.1, (low g z k hk).2.1] at this]
  | .pyr t, f, g, y, z, hy, hz, h => by
    have hlast := h t.dim (by simp [Topo.dim])
    have hlow : ∀ k, k < t.dim → emb f y k = emb g z k := fun k hk => h k (by simp only [Topo.dim]; omega)
    have lo : ∀ (f : Face t) (y : Vec K), emb (.base f) y t.dim = 0 := fun f y => by rw [emb_base, emb_zero f _ _ (le_refl _)]
    have hi : ∀ (y : Vec K), emb (.apex : Face (.pyr t)) y t.dim = 1 := fun y => by rw [emb_apex, setV_same]
    have mid : ∀ (f : Face t) (y : Vec K), emb (.cone f) y t.dim = y f.shape.dim := fun f y => by rw [emb_cone]; simp
    cases f with
    | cone f =>
      obtain ⟨y1, y2, y3⟩ := hy
      cases g with
      | cone g =>
        obtain ⟨z1, z2, z3⟩ := hz
        rw [mid, mid] at hlast
        rw [← hlast] at z3
        rw [neg_zero] at y2
        set s := 1 - y f.shape.dim with hs
        have key : ∀ (f : Face t) (y' : Vec K) (k : Nat), k < t.dim → y' f.shape.dim = 1 - s →
            emb f (fun i => 1 / s * y' i) k = 1 / s * emb (.cone f) y' k := by
          intro f y' k hk e
          rw [emb_scale, emb_cone]
          dsimp only
          rw [if_neg (by omega), e]
          field_simp
          ring
        have i1 := inside_smul (a := 1 / s) (by positivity) _ _ _ y3
        have i2 := inside_smul (a := 1 / s) (by positivity) _ _ _ z3
        rw [one_div_mul_cancel y2.ne'] at i1 i2
        rw [strat_unique f g _ _ i1 i2 fun k hk => by
          rw [key f y k hk (by rw [hs]; ring), key g z k hk (by rw [hs, hlast]; ring), hlow k hk]]
      | base g => rw [mid, lo] at hlast; linarith
      | apex => rw [mid, hi] at hlast; linarith
    | base f =>
      cases g with
      | cone g => rw [mid, lo] at hlast; linarith [hz.1]
      | base g => rw [strat_unique f g y z hy hz hlow]
      | apex => rw [lo, hi] at hlast; linarith
    | apex =>
      cases g with
      | cone g => rw [mid, hi] at hlast; linarith [hz.2.1]
      | base g => rw [lo, hi] at hlast; linarith
      | apex => rfl

/-- every proper face lies in a facet -/
theorem exists_facet_ge : ∀ {t : Topo} (f : Face t), 1 ≤ f.codim → ∃ g : Face t, g.codim = 1 ∧ Face.le f g = true
  | _, .pt, h => by simp [Face.codim] at h
  | _, .edge f, h => by
    obtain ⟨g, h1, h2⟩ := exists_facet_ge f h
    exact ⟨.edge g, h1, h2⟩
  | _, .bot f, _ => ⟨.bot (Face.whole _), by simp [Face.codim, Face.codim_whole], Face.le_whole f⟩
  | _, .top f, _ => ⟨.top (Face.whole _), by simp [Face.codim, Face.codim_whole], Face.le_whole f⟩
  | _, .base f, _ => ⟨.base (Face.whole _), by simp [Face.codim, Face.codim_whole], Face.le_whole f⟩
  | _, .cone f, h => by
    obtain ⟨g, h1, h2⟩ := exists_facet_ge f h
    exact ⟨.cone g, h1, h2⟩
  | .pyr t, .apex, _ => by
    by_cases hd : t.dim = 0
    · exact ⟨.apex, by simp [Face.codim, hd], rfl⟩
    · obtain ⟨g, hg, -⟩ := Face.idx_surj t 1 0 (Topo.sz_pos t 1 (by omega))
      exact ⟨.cone g, hg, rfl⟩

end Verif.RefGeom
