import Verif.Quad.Check

/-! Sums over tensor and conical products, and the propagation of errors. -/

namespace Verif.Quad

open Verif.Typ Verif.RefTopo Verif.RefGeom
open Finset hiding ext

set_option linter.unusedSectionVars false

variable {K : Type} [Field K] [LinearOrder K] [IsStrictOrderedRing K]

theorem quadSum_nil (g : Vec K → K) : quadSum g [] = 0 := rfl

theorem quadSum_cons (g : Vec K → K) (q : QPoint K) (l : List (QPoint K)) :
    quadSum g (q :: l) = q.weight * g q.position + quadSum g l := by simp [quadSum]

theorem quadSum_append (g : Vec K → K) (l l' : List (QPoint K)) :
    quadSum g (l ++ l') = quadSum g l + quadSum g l' := by simp [quadSum]

theorem quadSum_add (g h : Vec K → K) (l : List (QPoint K)) :
    quadSum (fun x => g x + h x) l = quadSum g l + quadSum h l := by
  induction l with
  | nil => simp [quadSum]
  | cons q l ih => simp only [quadSum_cons, ih]; ring

theorem quadSum_sub (g h : Vec K → K) (l : List (QPoint K)) :
    quadSum (fun x => g x - h x) l = quadSum g l - quadSum h l := by
  induction l with
  | nil => simp [quadSum]
  | cons q l ih => simp only [quadSum_cons, ih]; ring

theorem quadSum_mul (c : K) (g : Vec K → K) (l : List (QPoint K)) :
    quadSum (fun x => c * g x) l = c * quadSum g l := by
  induction l with
  | nil => simp [quadSum]
  | cons q l ih => simp only [quadSum_cons, ih]; ring

theorem quadSum_congr {g h : Vec K → K} {l : List (QPoint K)} (e : ∀ q ∈ l, g q.position = h q.position) :
    quadSum g l = quadSum h l := by
  induction l with
  | nil => rfl
  | cons q l ih =>
    rw [quadSum_cons, quadSum_cons, ih fun r hr => e r (by simp [hr]), e q (by simp)]

theorem quadSum_scale (c : K) (g : Vec K → K) (l : List (QPoint K)) :
    quadSum g (scaleWeights c l) = c * quadSum g l := by
  induction l with
  | nil => simp [quadSum, scaleWeights]
  | cons q l ih =>
    simp only [scaleWeights, List.map_cons] at ih ⊢
    simp only [quadSum_cons, ih]; ring

theorem mulPow_eq (w s : K) : ∀ n, mulPow w s n = w * s ^ n
  | 0 => by simp [mulPow]
  | n + 1 => by rw [mulPow, mulPow_eq w s n, pow_succ]; ring

theorem mono_setV (d : Nat) (a : Nat → Nat) (v : Vec K) (z : K) :
    mono (d + 1) a (setV v d z) = mono d a v * z ^ a d := by
  rw [mono_succ]
  have e1 : mono d a (setV v d z) = mono d a v := mono_congr fun k hk => by
    simp only [setV]; rw [if_neg (by omega)]
  rw [e1]; simp [setV]

/-- the tensor product rule factorises on monomials -/
theorem quadSum_tensor (d : Nat) (a : Nat → Nat) (B O : List (QPoint K)) :
    quadSum (mono (d + 1) a) (tensorProduct (d + 1) B O) =
      quadSum (mono d a) B * quadSum (fun x => x 0 ^ a d) O := by
  induction B with
  | nil => simp [tensorProduct, quadSum]
  | cons b B ih =>
    have hs : tensorProduct (d + 1) (b :: B) O =
        (O.map fun o => ⟨setV (fun i => if i < d then b.position i else 0) d (o.position 0), b.weight * o.weight⟩) ++
          tensorProduct (d + 1) B O := by simp [tensorProduct]
    rw [hs, quadSum_append, ih, quadSum_cons, add_mul]
    congr 1
    clear ih hs
    induction O with
    | nil => simp [quadSum]
    | cons o O ih =>
      simp only [List.map_cons, quadSum_cons] at ih ⊢
      rw [ih, mono_setV]
      have : mono d a (fun i => if i < d then b.position i else 0) = mono d a b.position :=
        mono_congr fun k hk => by simp [hk]
      rw [this]; ring

/-- the conical product rule factorises on monomials -/
theorem quadSum_conical (d : Nat) (r : Bool) (a : Nat → Nat) (B O : List (QPoint K)) :
    quadSum (mono (d + 1) a) (conicalProduct (d + 1) r B O) =
      quadSum (mono d a) B *
        quadSum (fun x => x 0 ^ a d * (1 - x 0) ^ ((if r = true then 0 else d) + deg d a)) O := by
  induction B with
  | nil => simp [conicalProduct, quadSum]
  | cons b B ih =>
    have hs : conicalProduct (d + 1) r (b :: B) O =
        (O.map fun o => ⟨setV (fun i => if i < d then (1 - o.position 0) * b.position i else 0) d (o.position 0),
          if r then b.weight * o.weight else mulPow (b.weight * o.weight) (1 - o.position 0) d⟩) ++
          conicalProduct (d + 1) r B O := by simp [conicalProduct]
    rw [hs, quadSum_append, ih, quadSum_cons, add_mul]
    congr 1
    clear ih hs
    induction O with
    | nil => simp [quadSum]
    | cons o O ih =>
      simp only [List.map_cons, quadSum_cons] at ih ⊢
      rw [ih, mono_setV]
      have : mono d a (fun i => if i < d then (1 - o.position 0) * b.position i else 0) =
          (1 - o.position 0) ^ deg d a * mono d a b.position := by
        rw [← mono_smul]; exact mono_congr fun k hk => by simp [hk]
      rw [this]
      cases r with
      | true => simp only [if_true, zero_add]; ring
      | false => simp only [Bool.false_eq_true, if_false, mulPow_eq, pow_add]; ring

/-! ### Exact moments -/

theorem mom_pos : ∀ (t : Topo) (a : Nat → Nat), 0 < mom K t a
  | .pt, _ => by simp [mom]
  | .prism t, a => by
    have h := mom_pos t a
    have h2 : (0 : K) < (a t.dim : K) + 1 := by positivity
    simp only [mom]; positivity
  | .pyr t, a => by
    have h := mom_pos t a
    simp only [mom]
    exact mul_pos h (div_pos (mul_pos (by exact_mod_cast Nat.factorial_pos _) (by exact_mod_cast Nat.factorial_pos _))
      (by exact_mod_cast Nat.factorial_pos _))

/-- value of the integral of `z^k (1-z)^m` over the unit interval -/
def bet (K : Type) [Field K] (k m : Nat) : K := (k.factorial : K) * m.factorial / ((k + m + 1).factorial : K)

theorem bet_pos (k m : Nat) : (0 : K) < bet K k m :=
  div_pos (mul_pos (by exact_mod_cast Nat.factorial_pos _) (by exact_mod_cast Nat.factorial_pos _))
    (by exact_mod_cast Nat.factorial_pos _)

theorem bet_zero (k : Nat) : bet K k 0 = 1 / (k + 1) := by
  have : ((k.factorial : Nat) : K) ≠ 0 := by exact_mod_cast Nat.factorial_ne_zero _
  simp only [bet, Nat.factorial_zero, Nat.cast_one, mul_one, Nat.add_zero, Nat.factorial_succ]
  push_cast
  have h2 : ((k : K) + 1) ≠ 0 := by positivity
  field_simp

theorem bet_rec (k m : Nat) : bet K k (m + 1) = bet K k m - bet K (k + 1) m := by
  have h1 : ((k + m + 1).factorial : K) ≠ 0 := by exact_mod_cast Nat.factorial_ne_zero _
  simp only [bet]
  rw [show k + (m + 1) + 1 = (k + m + 1) + 1 by ring, show k + 1 + m + 1 = (k + m + 1) + 1 by ring,
    Nat.factorial_succ (k + m + 1), Nat.factorial_succ m, Nat.factorial_succ k]
  push_cast
  have h2 : ((k : K) + m + 1 + 1) ≠ 0 := by positivity
  field_simp
  ring

theorem bet_le_one (k m : Nat) : bet K k m ≤ 1 := by
  have h1 : (0 : K) < ((k + m + 1).factorial : K) := by exact_mod_cast Nat.factorial_pos _
  rw [bet, div_le_one h1]
  have : k.factorial * m.factorial ≤ (k + m + 1).factorial :=
    (Nat.le_of_dvd (Nat.factorial_pos _) (Nat.factorial_mul_factorial_dvd_factorial_add k m)).trans
      (Nat.factorial_le (by omega))
  exact_mod_cast this

theorem mom_prism (t : Topo) (a : Nat → Nat) : mom K (.prism t) a = mom K t a * bet K (a t.dim) 0 := by
  rw [mom, bet_zero]

theorem mom_pyr (t : Topo) (a : Nat → Nat) :
    mom K (.pyr t) a = mom K t a * bet K (a t.dim) (t.dim + deg t.dim a) := rfl

theorem mom_le_one : ∀ (t : Topo) (a : Nat → Nat), mom K t a ≤ 1
  | .pt, _ => by simp [mom]
  | .prism t, a => by
    rw [mom_prism]
    exact mul_le_one₀ (mom_le_one t a) (bet_pos _ _).le (bet_le_one _ _)
  | .pyr t, a => by
    rw [mom_pyr]
    exact mul_le_one₀ (mom_le_one t a) (bet_pos _ _).le (bet_le_one _ _)

/-! ### Approximate exactness -/

/-- every monomial of degree at most `p` is integrated with an error of at most `ε` -/
def Approx (t : Topo) (p : Nat) (ε : K) (l : List (QPoint K)) : Prop :=
  ∀ a : Nat → Nat, deg t.dim a ≤ p → |quadSum (mono t.dim a) l - mom K t a| ≤ ε

/-- the one dimensional rule integrates `z^k (1-z)^m`, `k + m ≤ p`, against `c (1-z)^α` with an error of at
most `ε` -/
def Approx1 (α p : Nat) (c ε : K) (l : List (QPoint K)) : Prop :=
  ∀ k m : Nat, k + m ≤ p → |quadSum (fun x => x 0 ^ k * (1 - x 0) ^ m) l - c * bet K k (m + α)| ≤ ε

theorem approx1_of_powers {α p : Nat} {c ε : K} {l : List (QPoint K)} (hε : 0 ≤ ε)
    (h : ∀ k, k ≤ p → |quadSum (fun x => x 0 ^ k) l - c * bet K k α| ≤ ε) :
    Approx1 α p c (2 ^ p * ε) l := by
  have key : ∀ m k, k + m ≤ p →
      |quadSum (fun x => x 0 ^ k * (1 - x 0) ^ m) l - c * bet K k (m + α)| ≤ 2 ^ m * ε := by
    intro m
    induction m with
    | zero => intro k hk; simpa using h k (by omega)
    | succ m ih =>
      intro k hk
      have h1 := ih k (by omega)
      have h2 := ih (k + 1) (by omega)
      have e : quadSum (fun x => x 0 ^ k * (1 - x 0) ^ (m + 1)) l =
          quadSum (fun x => x 0 ^ k * (1 - x 0) ^ m) l - quadSum (fun x => x 0 ^ (k + 1) * (1 - x 0) ^ m) l := by
        rw [← quadSum_sub]; congr 1; funext x; ring
      rw [e, show m + 1 + α = (m + α) + 1 by ring, bet_rec]
      have e2 : quadSum (fun x => x 0 ^ k * (1 - x 0) ^ m) l - quadSum (fun x => x 0 ^ (k + 1) * (1 - x 0) ^ m) l -
          c * (bet K k (m + α) - bet K (k + 1) (m + α)) =
          (quadSum (fun x => x 0 ^ k * (1 - x 0) ^ m) l - c * bet K k (m + α)) -
          (quadSum (fun x => x 0 ^ (k + 1) * (1 - x 0) ^ m) l - c * bet K (k + 1) (m + α)) := by ring
      rw [e2, pow_succ]
      calc _ ≤ _ := abs_sub _ _
        _ ≤ 2 ^ m * ε + 2 ^ m * ε := add_le_add h1 h2
        _ = _ := by ring
  intro k m hkm
  refine (key m k hkm).trans ?_
  exact mul_le_mul_of_nonneg_right (pow_le_pow_right₀ (by norm_num) (by omega)) hε

theorem abs_mul_sub_le {A B a b ε δ : K} (hA : |A - a| ≤ ε) (hB : |B - b| ≤ δ) (ha : |a| ≤ 1) (hb : |b| ≤ 1) :
    |A * B - a * b| ≤ ε * (1 + δ) + δ := by
  have hε : 0 ≤ ε := (abs_nonneg _).trans hA
  have hδ : 0 ≤ δ := (abs_nonneg _).trans hB
  have e : A * B - a * b = (A - a) * B + a * (B - b) := by ring
  have hB' : |B| ≤ 1 + δ := by
    have : B = b + (B - b) := by ring
    rw [this]
    exact (abs_add_le _ _).trans (add_le_add hb hB)
  rw [e]
  refine (abs_add_le _ _).trans ?_
  rw [abs_mul, abs_mul]
  have h1 : |A - a| * |B| ≤ ε * (1 + δ) := mul_le_mul hA hB' (abs_nonneg _) hε
  have h2 : |a| * |B - b| ≤ 1 * δ := mul_le_mul ha hB (abs_nonneg _) zero_le_one
  linarith

theorem approx_tensor {t : Topo} {p : Nat} {ε δ : K} {B O : List (QPoint K)} (hB : Approx t p ε B)
    (hO : Approx1 0 p 1 δ O) : Approx (.prism t) p (ε * (1 + δ) + δ) (tensorProduct (t.dim + 1) B O) := by
  intro a ha
  simp only [Topo.dim, deg_succ] at ha ⊢
  rw [quadSum_tensor, mom_prism]
  have h := hO (a t.dim) 0 (by omega)
  simp only [pow_zero, mul_one, one_mul, Nat.add_zero] at h
  exact abs_mul_sub_le (hB a (by omega)) h (by rw [abs_of_pos (mom_pos _ _)]; exact mom_le_one _ _)
    (by rw [abs_of_pos (bet_pos _ _)]; exact bet_le_one _ _)

theorem approx_conical {t : Topo} {p : Nat} {ε δ : K} {B O : List (QPoint K)} (hB : Approx t p ε B)
    (hO : Approx1 0 (p + t.dim) 1 δ O) :
    Approx (.pyr t) p (ε * (1 + δ) + δ) (conicalProduct (t.dim + 1) false B O) := by
  intro a ha
  simp only [Topo.dim, deg_succ] at ha ⊢
  rw [quadSum_conical, mom_pyr]
  have h := hO (a t.dim) (t.dim + deg t.dim a) (by omega)
  simp only [one_mul, Nat.add_zero] at h
  exact abs_mul_sub_le (hB a (by omega)) h (by rw [abs_of_pos (mom_pos _ _)]; exact mom_le_one _ _)
    (by rw [abs_of_pos (bet_pos _ _)]; exact bet_le_one _ _)

theorem approx_conical_weighted {t : Topo} {p : Nat} {ε δ : K} {B O : List (QPoint K)} (hB : Approx t p ε B)
    (hO : Approx1 t.dim p 1 δ O) :
    Approx (.pyr t) p (ε * (1 + δ) + δ) (conicalProduct (t.dim + 1) true B O) := by
  intro a ha
  simp only [Topo.dim, deg_succ] at ha ⊢
  rw [quadSum_conical, mom_pyr]
  have h := hO (a t.dim) (deg t.dim a) (by omega)
  rw [one_mul, Nat.add_comm (deg t.dim a)] at h
  simp only [if_true, zero_add]
  exact abs_mul_sub_le (hB a (by omega)) h (by rw [abs_of_pos (mom_pos _ _)]; exact mom_le_one _ _)
    (by rw [abs_of_pos (bet_pos _ _)]; exact bet_le_one _ _)

/-! ### Positions and weights -/

theorem dom_scale : ∀ (t : Topo) {c f : K} {x : Vec K}, 0 ≤ c → Dom t f x → Dom t (c * f) fun i => c * x i
  | .pt, _, _, _, _, _ => trivial
  | .prism t, c, f, x, hc, h =>
    ⟨mul_nonneg hc h.1, mul_le_mul_of_nonneg_left h.2.1 hc, dom_scale t hc h.2.2⟩
  | .pyr t, c, f, x, hc, h =>
    ⟨mul_nonneg hc h.1, mul_le_mul_of_nonneg_left h.2.1 hc, by
      have := dom_scale t hc h.2.2
      rwa [mul_sub] at this⟩

/-- all positions lie in the closed reference domain -/
def InDom (t : Topo) (l : List (QPoint K)) : Prop := ∀ q ∈ l, Dom t 1 q.position

/-- all weights are positive -/
def PosW (l : List (QPoint K)) : Prop := ∀ q ∈ l, 0 < q.weight

/-- all positions lie in the unit interval -/
def In01 (l : List (QPoint K)) : Prop := ∀ q ∈ l, 0 ≤ q.position 0 ∧ q.position 0 ≤ 1

theorem dom_congr' {t : Topo} {f : K} {x y : Vec K} (h : ∀ k, k < t.dim → x k = y k) (hx : Dom t f x) : Dom t f y :=
  dom_congr t f h hx

theorem inDom_tensor {t : Topo} {B O : List (QPoint K)} (hB : InDom t B) (hO : In01 O) :
    InDom (.prism t) (tensorProduct (t.dim + 1) B O) := by
  intro q hq
  simp only [tensorProduct, List.mem_flatMap, List.mem_map] at hq
  obtain ⟨b, hb, o, ho, rfl⟩ := hq
  have h := hO o ho
  refine ⟨by simpa [setV] using h.1, by simpa [setV] using h.2, ?_⟩
  refine dom_congr' (fun k hk => ?_) (hB b hb)
  simp only [setV, Nat.add_sub_cancel]
  rw [if_neg (by omega), if_pos hk]

theorem inDom_conical {t : Topo} {r : Bool} {B O : List (QPoint K)} (hB : InDom t B) (hO : In01 O) :
    InDom (.pyr t) (conicalProduct (t.dim + 1) r B O) := by
  intro q hq
  simp only [conicalProduct, List.mem_flatMap, List.mem_map] at hq
  obtain ⟨b, hb, o, ho, rfl⟩ := hq
  have h := hO o ho
  refine ⟨by simpa [setV] using h.1, by simpa [setV] using h.2, ?_⟩
  have h1 := dom_scale t (sub_nonneg.mpr h.2) (hB b hb)
  rw [mul_one] at h1
  have e : setV (fun i => if i < t.dim + 1 - 1 then (1 - o.position 0) * b.position i else 0) (t.dim + 1 - 1)
      (o.position 0) t.dim = o.position 0 := by simp [setV]
  change Dom t (1 - setV (fun i => if i < t.dim + 1 - 1 then (1 - o.position 0) * b.position i else 0)
      (t.dim + 1 - 1) (o.position 0) t.dim) _
  rw [e]
  refine dom_congr' (fun k hk => ?_) h1
  simp only [setV, Nat.add_sub_cancel]
  rw [if_neg (by omega), if_pos hk]

theorem posW_tensor {d : Nat} {B O : List (QPoint K)} (hB : PosW B) (hO : PosW O) : PosW (tensorProduct d B O) := by
  intro q hq
  simp only [tensorProduct, List.mem_flatMap, List.mem_map] at hq
  obtain ⟨b, hb, o, ho, rfl⟩ := hq
  exact mul_pos (hB b hb) (hO o ho)

theorem posW_conical {d : Nat} {r : Bool} {B O : List (QPoint K)} (hB : PosW B) (hO : PosW O)
    (h1 : r = false → ∀ q ∈ O, q.position 0 < 1) : PosW (conicalProduct d r B O) := by
  intro q hq
  simp only [conicalProduct, List.mem_flatMap, List.mem_map] at hq
  obtain ⟨b, hb, o, ho, rfl⟩ := hq
  have hw := mul_pos (hB b hb) (hO o ho)
  cases r with
  | true => exact hw
  | false =>
    simp only [Bool.false_eq_true, if_false, mulPow_eq]
    exact mul_pos hw (pow_pos (sub_pos.mpr (h1 rfl o ho)) _)

theorem nonnegW_conical {d : Nat} {r : Bool} {B O : List (QPoint K)} (hB : ∀ q ∈ B, 0 ≤ q.weight)
    (hO : ∀ q ∈ O, 0 ≤ q.weight) (h1 : In01 O) : ∀ q ∈ conicalProduct d r B O, 0 ≤ q.weight := by
  intro q hq
  simp only [conicalProduct, List.mem_flatMap, List.mem_map] at hq
  obtain ⟨b, hb, o, ho, rfl⟩ := hq
  have hw := mul_nonneg (hB b hb) (hO o ho)
  cases r with
  | true => exact hw
  | false =>
    simp only [Bool.false_eq_true, if_false, mulPow_eq]
    exact mul_nonneg hw (pow_nonneg (sub_nonneg.mpr (h1 o ho).2) _)

theorem length_flatMap_map {α β γ : Type} (f : α → β → γ) (B : List α) (O : List β) :
    (B.flatMap fun b => O.map (f b)).length = B.length * O.length := by
  induction B with
  | nil => simp
  | cons b B ih => simp only [List.flatMap_cons, List.length_append, ih, List.length_map, List.length_cons]; ring

theorem length_tensor (d : Nat) (B O : List (QPoint K)) : (tensorProduct d B O).length = B.length * O.length :=
  length_flatMap_map _ B O

theorem length_conical (d : Nat) (r : Bool) (B O : List (QPoint K)) :
    (conicalProduct d r B O).length = B.length * O.length :=
  length_flatMap_map _ B O

end Verif.Quad
