import Verif.Float.Model
import Verif.Float.Near
import Verif.Float.Position
import Verif.MultiLinear.Props

/-! The maps in floating-point arithmetic -/

namespace Verif.Float

open Verif.Typ Verif.RefTopo Verif.RefGeom
open Verif.MultiLinear (nv nv_prism nv_pyr sub_succ sub_dim ML)

variable {φ : Format}

theorem length_corners (t : Topo) : (cornersOf (K := ℝ) t).length = nv t := by
  rw [cornersOf, List.length_map, length_faces]

/-! ### Corners -/

/-- weight zero: nothing is added -/
theorem globalS_zero (g : MultiLinearGeometry (Fl φ)) (x : Nat → Fl φ) : ∀ (d : Nat) (_ : d ≤ g.mydim) (add : Bool) (cit : Nat)
    (df : Fl φ) (y : Nat → Fl φ), g.globalS add d cit df x 0 y =
      (cit + nv (MultiLinear.sub g.id d), fun i => if add then y i else 0)
  | 0, _, add, cit, df, y => by
    cases add <;> simp [MultiLinearGeometry.globalS, MultiLinear.sub, topoOf, nv, Topo.sz, Topo.dim, Fl.zero_mul, Fl.add_zero]
  | d + 1, hd, add, cit, df, y => by
    obtain ⟨hs1, hs2⟩ := sub_succ g.id d g.mydim hd
    have ih := globalS_zero g x d (by omega)
    rw [MultiLinearGeometry.globalS]
    simp only [Fl.zero_mul, ih, ite_self]
    cases hp : implIsPrism g.id g.mydim (g.mydim - (d + 1)) with
    | true =>
      rw [hs1 hp, nv_prism, if_pos rfl]
      simp [Nat.add_assoc]
    | false =>
      rw [hs2 hp, nv_pyr, if_neg (by simp)]
      simp [Nat.add_assoc, Fl.add_zero]

/-- at a corner of the reference element -/
theorem globalS_corner (g : MultiLinearGeometry (Fl φ)) (ht : 0 ≤ g.tol.val) (ht1 : g.tol.val < 1) (x : Nat → Fl φ) : ∀ (d : Nat) (_ : d ≤ g.mydim)
    (add : Bool) (cit : Nat) (y : Nat → Fl φ) (_ : add = true → ∀ i, y i = 0) (k : Nat) (p : Vec ℝ)
    (_ : (cornersOf (MultiLinear.sub g.id d))[k]? = some p) (_ : ∀ r, r < d → (x r).val = p r),
    g.globalS add d cit 1 x 1 y = (cit + nv (MultiLinear.sub g.id d), g.corners_ (cit + k))
  | 0, _, add, cit, y, hy, k, p, hp, _ => by
    have hk : k = 0 := by
      have := (List.getElem?_eq_some_iff.1 hp).1
      rw [length_corners] at this
      change k < 1 at this
      omega
    subst hk
    cases add with
    | false => simp [MultiLinearGeometry.globalS, MultiLinear.sub, topoOf, nv, Topo.sz, Topo.dim, Fl.one_mul]
    | true => simp [MultiLinearGeometry.globalS, MultiLinear.sub, topoOf, nv, Topo.sz, Topo.dim, Fl.one_mul, hy rfl, Fl.zero_add]
  | d + 1, hd, add, cit, y, hy, k, p, hpk, hx => by
    obtain ⟨hs1, hs2⟩ := sub_succ g.id d g.mydim hd
    have hdim := sub_dim g.id d
    have ih := globalS_corner g ht ht1 x d (by omega)
    have ih0 := globalS_zero g x d (by omega)
    have hlen := length_corners (MultiLinear.sub g.id d)
    have h10 : (1 : Fl φ) - 1 = 0 := Fl.sub_self 1
    have h11 : (1 : Fl φ) - 0 = 1 := Fl.sub_zero 1
    rw [MultiLinearGeometry.globalS]
    simp only [Fl.one_mul]
    cases hp : implIsPrism g.id g.mydim (g.mydim - (d + 1)) with
    | true =>
      rw [hs1 hp, nv_prism, if_pos rfl]
      rw [hs1 hp, cornersOf_prism] at hpk
      by_cases hk : k < nv (MultiLinear.sub g.id d)
      · rw [List.getElem?_append_left (by rw [hlen]; exact hk)] at hpk
        have hxd : x d = 0 := Fl.ext (by
          rw [hx d (by omega), cornersOf_zero (List.mem_of_getElem? hpk) (by rw [hdim]), Fl.zero_val])
        rw [hxd, h11, ih add cit y hy k p hpk fun r hr => hx r (by omega)]
        simp only [ih0]
        simp [Nat.add_assoc]
      · rw [List.getElem?_append_right (by rw [hlen]; omega), hlen, List.getElem?_map, Option.map_eq_some_iff] at hpk
        obtain ⟨q, hq, rfl⟩ := hpk
        have hxd : x d = 1 := Fl.ext (by rw [hx d (by omega), hdim, setV, if_pos rfl, Fl.one_val])
        rw [hxd, h10, ih0]
        rw [ih true _ _ ?_ (k - nv (MultiLinear.sub g.id d)) q hq fun r hr => by
          rw [hx r (by omega), hdim, setV_ne _ (by omega)]]
        · simp only [Prod.mk.injEq]
          exact ⟨by omega, by congr 1; omega⟩
        · intro _ i
          cases add with
          | false => rfl
          | true => exact hy rfl i
    | false =>
      rw [hs2 hp, nv_pyr, if_neg (by simp)]
      rw [hs2 hp, cornersOf_pyr] at hpk
      by_cases hk : k < nv (MultiLinear.sub g.id d)
      · rw [List.getElem?_append_left (by rw [hlen]; exact hk)] at hpk
        have hxd : x d = 0 := Fl.ext (by
          rw [hx d (by omega), cornersOf_zero (List.mem_of_getElem? hpk) (by rw [hdim]), Fl.zero_val])
        have hg : (1 : Fl φ) > g.tol ∨ (1 : Fl φ) < -g.tol := Or.inl (by rw [gt_iff_lt, Fl.lt_iff, Fl.one_val]; exact ht1)
        rw [hxd, h11, if_pos hg, Fl.div_one, ih add cit y hy k p hpk fun r hr => hx r (by omega)]
        simp [Nat.add_assoc, Fl.add_zero, Fl.zero_mul]
      · have hk' : k = nv (MultiLinear.sub g.id d) := by
          have := (List.getElem?_eq_some_iff.1 hpk).1
          rw [List.length_append, hlen] at this
          simp at this
          omega
        rw [List.getElem?_append_right (by rw [hlen]; omega), hlen, hk', Nat.sub_self] at hpk
        obtain rfl : setV (fun _ => 0) (MultiLinear.sub g.id d).dim 1 = p := Option.some.inj hpk
        have hxd : x d = 1 := Fl.ext (by rw [hx d (by omega), hdim, setV, if_pos rfl, Fl.one_val])
        have hg : ¬ ((0 : Fl φ) > g.tol ∨ (0 : Fl φ) < -g.tol) := by
          rw [gt_iff_lt, Fl.lt_iff, Fl.lt_iff, Fl.zero_val, Fl.neg_val]
          push Not
          exact ⟨ht, by linarith⟩
        rw [hxd, h10, if_neg hg, ih0]
        simp only [Prod.mk.injEq]
        refine ⟨by omega, ?_⟩
        funext i
        rw [hk', Fl.one_mul]
        cases add with
        | false => simp [Fl.zero_add]
        | true => simp [hy rfl, Fl.zero_add]

/-! ### Cubes -/

/-- all constructions are prisms -/
def AllPrism : Topo → Prop
  | .pt => True
  | .prism t => AllPrism t
  | .pyr _ => False

theorem ML_bounds (tol C : ℝ) {z : Vec ℝ} : ∀ (t : Topo) (_ : AllPrism t) (_ : ∀ r, r < t.dim → 0 ≤ z r ∧ z r ≤ 1)
    (c : Nat → ℝ) (_ : ∀ k, k < nv t → |c k| ≤ C), ML tol t (fun k => |c k|) z ≤ C ∧ |ML tol t c z| ≤ ML tol t (fun k => |c k|) z
  | .pt, _, _, c, hc => ⟨hc 0 (by simp [nv, Topo.sz, Topo.dim]), le_refl _⟩
  | .prism t, ht, hz, c, hc => by
    rw [nv_prism] at hc
    obtain ⟨h1, h2⟩ := ML_bounds tol C t ht (fun r hr => hz r (by simp only [Topo.dim]; omega)) c fun k hk => hc k (by omega)
    obtain ⟨h3, h4⟩ := ML_bounds tol C t ht (fun r hr => hz r (by simp only [Topo.dim]; omega)) (fun k => c (nv t + k))
      fun k hk => hc _ (by omega)
    obtain ⟨h5, h6⟩ := hz t.dim (by simp [Topo.dim])
    simp only [ML]
    constructor
    · nlinarith
    · refine (abs_add_le _ _).trans ?_
      rw [abs_mul, abs_mul, abs_of_nonneg h5, abs_of_nonneg (show 0 ≤ 1 - z t.dim by linarith)]
      have := mul_le_mul_of_nonneg_left h2 (show 0 ≤ 1 - z t.dim by linarith)
      have := mul_le_mul_of_nonneg_left h4 h5
      linarith

/-- error of the recursion on cubes -/
theorem globalS_near (g : MultiLinearGeometry (Fl φ)) (tol : ℝ) (x : Nat → Fl φ) (j : Nat) (C : ℝ) (hC : 0 ≤ C) : ∀ (d : Nat) (_ : d ≤ g.mydim)
    (_ : AllPrism (MultiLinear.sub g.id d)) (_ : ∀ r, r < d → 0 ≤ (x r).val ∧ (x r).val ≤ 1) (add : Bool) (cit : Nat)
    (_ : ∀ k, k < nv (MultiLinear.sub g.id d) → |(g.corners_ (cit + k) j).val| ≤ C)
    (rf : Fl φ) (k K : ℕ) (s S R Y M : ℝ) (_ : Near φ k s rf.val R R) (y : Nat → Fl φ) (_ : k + 2 * d + 1 ≤ K)
    (_ : 0 ≤ S) (_ : add = true → Near φ K S (y j).val Y M) (_ : add = false → Y = 0 ∧ M = 0),
    (g.globalS add d cit 1 x rf y).1 = cit + nv (MultiLinear.sub g.id d) ∧
    Near φ (K + 2 ^ d) (S + 2 ^ d * ((s + d * φ.η) * C + φ.η)) ((g.globalS add d cit 1 x rf y).2 j).val
      (Y + R * ML tol (MultiLinear.sub g.id d) (fun k => (g.corners_ (cit + k) j).val) (fun r => (x r).val))
      (M + R * ML tol (MultiLinear.sub g.id d) (fun k => |(g.corners_ (cit + k) j).val|) (fun r => (x r).val))
  | 0, _, _, _, add, cit, hc, rf, k, K, s, S, R, Y, M, hrf, y, hK, hS, hy1, hy0 => by
    refine ⟨rfl, ?_⟩
    have hη := φ.η_nonneg
    have hs := hrf.s_nonneg
    have hc0 := hc 0 (by simp [MultiLinear.sub, topoOf, nv, Topo.sz, Topo.dim])
    have h1 := hrf.mul (Near.exact (φ := φ) (g.corners_ cit j).val)
    have h2 : Near φ K (s * C + φ.η) (rf * g.corners_ cit j).val (R * (g.corners_ cit j).val) (R * |(g.corners_ cit j).val|) :=
      h1.mono (by omega) (by have := mul_le_mul_of_nonneg_left hc0 hs; rw [add_zero] at this; linarith)
    cases add with
    | true =>
      have := (hy1 rfl).add h2
      simpa [MultiLinearGeometry.globalS, MultiLinear.sub, topoOf, ML] using this
    | false =>
      obtain ⟨rfl, rfl⟩ := hy0 rfl
      have := h2.mono (l := K + 1) (t := S + (s * C + φ.η)) (by omega) (by linarith)
      simpa [MultiLinearGeometry.globalS, MultiLinear.sub, topoOf, ML] using this
  | d + 1, hd, hall, hx, add, cit, hc, rf, k, K, s, S, R, Y, M, hrf, y, hK, hS, hy1, hy0 => by
    obtain ⟨hs1, hs2⟩ := sub_succ g.id d g.mydim hd
    have hdim := sub_dim g.id d
    have hη := φ.η_nonneg
    have hs := hrf.s_nonneg
    cases hp : implIsPrism g.id g.mydim (g.mydim - (d + 1)) with
    | false => rw [hs2 hp] at hall; exact hall.elim
    | true =>
      rw [hs1 hp] at hall hc ⊢
      rw [nv_prism] at hc ⊢
      obtain ⟨hx0, hx1⟩ := hx d (by omega)
      have hR0 : 0 ≤ R := hrf.m_nonneg
      have hw1 : Near φ (k + 2) (s + φ.η) (rf * (1 - x d)).val (R * (1 - (x d).val)) (R * (1 - (x d).val)) := by
        have h1 := hrf.mul (Near.sub_exact (1 : Fl φ) (x d))
        rw [Fl.one_val, abs_of_nonneg (show 0 ≤ 1 - (x d).val by linarith)] at h1
        exact h1.mono (by omega) (by nlinarith)
      have hw2 : Near φ (k + 2) (s + φ.η) (rf * x d).val (R * (x d).val) (R * (x d).val) := by
        have h1 := hrf.mul (Near.exact (φ := φ) (x d).val)
        rw [abs_of_nonneg hx0] at h1
        exact h1.mono (by omega) (by nlinarith)
      have ih := globalS_near g tol x j C hC d (by omega) hall (fun r hr => hx r (by omega))
      obtain ⟨h1, h2⟩ := ih add cit (fun k hk => hc k (by omega)) _ (k + 2) K _ S _ Y M hw1 y (by omega) hS hy1 hy0
      obtain ⟨h3, h4⟩ := ih true (cit + nv (MultiLinear.sub g.id d)) (fun k hk => by rw [Nat.add_assoc]; exact hc _ (by omega)) _ (k + 2) (K + 2 ^ d) _ _ _
        _ _ hw2 _ (by have := Nat.zero_le (2 ^ d); linarith) h2.s_nonneg (fun _ => h2) (by simp)
      rw [MultiLinearGeometry.globalS]
      simp only [Fl.one_mul, hp, if_true]
      rw [h1]
      refine ⟨by rw [h3]; omega, ?_⟩
      have e : K + 2 ^ d + 2 ^ d = K + 2 ^ (d + 1) := by rw [pow_succ]; omega
      rw [e] at h4
      have e2 : S + 2 ^ d * ((s + φ.η + d * φ.η) * C + φ.η) + 2 ^ d * ((s + φ.η + d * φ.η) * C + φ.η) =
          S + 2 ^ (d + 1) * ((s + (d + 1 : ℕ) * φ.η) * C + φ.η) := by push_cast; rw [pow_succ]; ring
      rw [e2] at h4
      simp only [ML, hdim]
      simp only [Nat.add_assoc] at h4 ⊢
      convert h4 using 1 <;> ring

end Verif.Float
