import Verif.Float.QuadConvert
import Verif.Quad.ErrorProps
import Verif.Quad.VolumeProps

/-!
C87: quadrature rules in floating-point arithmetic.

`Quad.rule env d ⟨d, false, id⟩ p qt` is what `QuadratureRules<ct,d>::rule` delivers in exact numbers (Quad/Model.lean),
`rule T jac d ⟨d, false, id⟩ p qt` what it delivers for the numbers `Fl φ` of a format: every product and every difference is
rounded, and `T` is the conversion of the tabulated decimals.  `jac` stands for the one dimensional Gauss-Jacobi rules with general
exponent, whose eigenvalue solver is not modelled; no theorem here depends on it.
-/

namespace Verif.FloatQuad

open Verif.Typ hiding Res
open Verif.RefTopo Verif.RefGeom Verif.Float MeasureTheory
open Verif.Quad (Res Rule QPoint QType Row Node Lit Env maxOrder IsPlain refSet quadOf coeffSum tabTol)

/-- Specification: the same outcome; if it is a rule, the same type, order and number of points, every coordinate within `δ`, and no
coordinates behind the dimension. -/
def Agrees {φ : Format} (d : Nat) (δ : ℝ) : Res (Rule ℝ) → Res (Rule (Fl φ)) → Prop
  | .ok r, .ok s => s.type = r.type ∧ s.order = r.order ∧ s.pts.length = r.pts.length ∧
      ∀ n (hr : n < r.pts.length) (hs : n < s.pts.length),
        (∀ i, |((s.pts[n]).position i).val - (r.pts[n]).position i| ≤ δ) ∧ ∀ i, d ≤ i → ((s.pts[n]).position i).val = 0
  | .throw, .throw => True
  | .ub, .ub => True
  | _, _ => False

/-- the largest error of a coordinate: about `(k + 2) d` roundings -/
noncomputable def posErr (φ : Format) (k d : ℕ) : ℝ := (1 + φ.u) ^ ((k + 2) * d) - 1 + (1 + φ.u) ^ ((k + 2) * d) * (d * φ.η)

variable {φ : Format}

theorem posRel_err {k : ℕ} {t : Topo} {L : List (QPoint ℝ × QPoint (Fl φ))} (h : PosRel φ k t L) {q : QPoint ℝ × QPoint (Fl φ)} (hq : q ∈ L)
    (i : Nat) : |(q.2.position i).val - q.1.position i| ≤ posErr φ k t.dim := by
  have := ((h q hq).1 i).bound
  rwa [mul_one] at this

/-- C87: for every request (every type, order and family, valid or not) the number type changes nothing but the last bits of the
numbers: the same rule, the same exception, the same undefined behaviour. -/
theorem C87_outcome (env : Env ℝ) {k : ℕ} {T : Tables (Fl φ)} (hT : Accurate k T) (jac : Int → Int → Res (Rule (Fl φ)))
    (d id : Nat) (hd : d ≤ 30) (hid : id < 2 ^ d) (p : Int) (qt : QType) (hq : qt ≠ .GaussJacobi_n_0) :
    Agrees d (posErr φ k d) (Quad.rule env d ⟨d, false, id⟩ p qt) (rule T jac d ⟨d, false, id⟩ p qt) := by
  have h := rule_posRel hT (Quad.jacobiN env) jac hq d id hd hid p
  rw [rule_exact] at h
  have hdim : (topoOf d id).dim = d := (rep_topoOf d id).dim_eq
  generalize Quad.rule env d ⟨d, false, id⟩ p qt = a at h ⊢
  generalize rule T jac d ⟨d, false, id⟩ p qt = b at h ⊢
  rcases a with r | _ | _ <;> rcases b with s | _ | _ <;> simp only [RelRes, Agrees] at h ⊢
  obtain ⟨h1, h2, L, e1, e2, hL⟩ := h
  refine ⟨h1.symm, h2.symm, by rw [← e1, ← e2, List.length_map, List.length_map], fun n hr hs => ?_⟩
  have hn : n < L.length := by rw [← e1, List.length_map] at hr; exact hr
  have g1 : r.pts[n] = (L[n]).1 := by simp [← e1]
  have g2 : s.pts[n] = (L[n]).2 := by simp [← e2]
  rw [g1, g2]
  have hm : L[n] ∈ L := List.getElem_mem hn
  refine ⟨fun i => ?_, fun i hi => ?_⟩
  · rw [← hdim]; exact posRel_err hL hm i
  · rw [((hL _ hm).2 i (by rw [hdim]; exact hi)).2, Fl.zero_val]

/-- the two rules together -/
theorem both (env : Env ℝ) {k : ℕ} {T : Tables (Fl φ)} (hT : Accurate k T) (jac : Int → Int → Res (Rule (Fl φ)))
    (d id p m : Nat) (hd : d ≤ 30) (hid : id < 2 ^ d) (qt : QType) (hq : IsPlain qt) (hm : maxOrder d ⟨d, false, id⟩ qt = .ok m)
    (hp : p ≤ m) : ∃ r s L M, Quad.rule env d ⟨d, false, id⟩ p qt = .ok r ∧ rule T jac d ⟨d, false, id⟩ p qt = .ok s ∧
      L.map Prod.fst = r.pts ∧ L.map Prod.snd = s.pts ∧ PosRel φ k (topoOf d id) L ∧
      List.Forall₂ (fun q m => Near φ ((k + 2) * d ^ 2) (d ^ 2 * φ.η) q.2.weight.val q.1.weight m) L M ∧ M.sum ≤ 11 / 10 ∧ 0 ≤ M.sum ∧
      Quad.PointsIn d id r.pts ∧ Quad.ExactUpTo d id p tabTol r.pts := by
  obtain ⟨r, h1, h2, h3, -⟩ := Quad.delivered env d id p m qt hd hid hq hm hp
  have hn : qt ≠ .GaussJacobi_n_0 := by rintro rfl; rcases hq with h | h | h | h <;> cases h
  have g1 := rule_posRel hT (Quad.jacobiN env) jac hn d id hd hid p
  have g2 := rule_wRel hT (Quad.jacobiN env) jac hq d id hd hid p
  rw [rule_exact, h1] at g1 g2
  have hdim : (topoOf d id).dim = d := (rep_topoOf d id).dim_eq
  generalize rule T jac d ⟨d, false, id⟩ p qt = b at g1 g2 ⊢
  rcases b with s | _ | _ <;> simp only [RelRes] at g1 g2
  obtain ⟨-, -, L, e1, e2, hL⟩ := g1
  obtain ⟨-, -, L', e1', e2', M, hM, hS⟩ := g2
  obtain rfl := pairs_unique (e1.trans e1'.symm) (e2.trans e2'.symm)
  unfold WNear at hM
  rw [hdim] at hM hS
  exact ⟨r, s, L, M, h1, rfl, e1, e2, hL, hM, hS.trans (sum_bound hd), forall₂_nonneg (fun q m h => h.m_nonneg) hM, h2, h3⟩

/-- C87: the errors of all weights together, for the families with constant weight function: about `(k + 2) d²` roundings. -/
theorem C87_weights (env : Env ℝ) {k : ℕ} {T : Tables (Fl φ)} (hT : Accurate k T) (jac : Int → Int → Res (Rule (Fl φ)))
    (d id p m : Nat) (hd : d ≤ 30) (hid : id < 2 ^ d) (qt : QType) (hq : IsPlain qt) (hm : maxOrder d ⟨d, false, id⟩ qt = .ok m)
    (hp : p ≤ m) : ∃ r s, Quad.rule env d ⟨d, false, id⟩ p qt = .ok r ∧ rule T jac d ⟨d, false, id⟩ p qt = .ok s ∧
      (List.zipWith (fun a b => |b.weight.val - a.weight|) r.pts s.pts).sum ≤
        ((1 + φ.u) ^ ((k + 2) * d ^ 2) - 1) * (11 / 10) + (1 + φ.u) ^ ((k + 2) * d ^ 2) * (s.pts.length * (d ^ 2 * φ.η)) := by
  obtain ⟨r, s, L, M, h1, h2, e1, e2, -, hM, hS, -⟩ := both env hT jac d id p m hd hid qt hq hm hp
  refine ⟨r, s, h1, h2, ?_⟩
  have h := weights_near L M hM
  have e : List.zipWith (fun a b => |b.weight.val - a.weight|) r.pts s.pts = L.map fun q => |q.2.weight.val - q.1.weight| := by
    rw [← e1, ← e2, List.zipWith_map]
    clear h e2 e1 hM
    induction L with
    | nil => rfl
    | cons q L ih => rw [List.zipWith_cons_cons, ih, List.map_cons]
  rw [e]
  have hl : s.pts.length = L.length := by rw [← e2, List.length_map]
  rw [hl]
  have h0 : 0 ≤ (1 + φ.u) ^ ((k + 2) * d ^ 2) - 1 := by linarith [Near.one_le_pow φ ((k + 2) * d ^ 2)]
  have := mul_le_mul_of_nonneg_left hS h0
  linarith

/-- rounding error of the quadrature loop with `n` points, for an integrand bounded by `F` and evaluated with an error of at most
`ε`: about `(k + 2) d² + n + 1` roundings of `1.1 F`, and `1.1 ε` -/
noncomputable def loopErr (φ : Format) (k d n : ℕ) (F ε : ℝ) : ℝ :=
  ((1 + φ.u) ^ ((k + 2) * d ^ 2 + 1 + n) - 1) * (11 / 10 * F) +
    (1 + φ.u) ^ ((k + 2) * d ^ 2 + 1 + n) * (n * (d ^ 2 * φ.η * (F + ε) + φ.η) + 11 / 10 * ε)

/-- C87: the quadrature loop of a user, with rounding at every step, approximates the integral.  `f` is bounded by `F` on the
reference element; `fh` is the code that evaluates it: at a point next to `x` the result is within `ε` of `f x`.  `P` is any
polynomial of the degree the rule is exact for. -/
theorem C87_integral (env : Env ℝ) {k : ℕ} {T : Tables (Fl φ)} (hT : Accurate k T) (jac : Int → Int → Res (Rule (Fl φ)))
    (d id p m : Nat) (hd : d ≤ 30) (hid : id < 2 ^ d) (qt : QType) (hq : IsPlain qt) (hm : maxOrder d ⟨d, false, id⟩ qt = .ok m)
    (hp : p ≤ m) : ∃ r s, Quad.rule env d ⟨d, false, id⟩ p qt = .ok r ∧ rule T jac d ⟨d, false, id⟩ p qt = .ok s ∧
      ∀ (f : (Fin d → ℝ) → ℝ) (fh : (Nat → Fl φ) → Fl φ) (F ε η : ℝ) (P : MvPolynomial (Fin d) ℝ),
        Continuous f → (∀ x ∈ refSet d id, |f x| ≤ F) →
        (∀ x ∈ refSet d id, ∀ xh : Nat → Fl φ, (∀ i : Fin d, |(xh i).val - x i| ≤ posErr φ k d) → |(fh xh).val - f x| ≤ ε) →
        P.totalDegree ≤ p → (∀ x ∈ refSet d id, |f x - P.eval x| ≤ η) →
        |(quadLoop fh s.pts).val - ∫ x in refSet d id, f x| ≤ loopErr φ k d s.pts.length F ε +
          (η * ((r.pts.map fun q => |q.weight|).sum + volume.real (refSet d id)) + tabTol * coeffSum P) := by
  obtain ⟨r, s, L, M, h1, h2, e1, e2, hL, hM, hS, hS0, hin, hex⟩ := both env hT jac d id p m hd hid qt hq hm hp
  refine ⟨r, s, h1, h2, fun f fh F ε η P hc hF hfh hP hη => ?_⟩
  have hdim : (topoOf d id).dim = d := (rep_topoOf d id).dim_eq
  have hF0 : 0 ≤ F := (abs_nonneg _).trans (hF 0 (Quad.zero_mem_refSet d id))
  have hpos : 0 ≤ posErr φ k d := by
    have := Near.one_le_pow φ ((k + 2) * d)
    have := φ.η_nonneg
    have : 0 ≤ (1 + φ.u) ^ ((k + 2) * d) * (d * φ.η) := by positivity
    unfold posErr
    linarith
  have hε0 : 0 ≤ ε := (abs_nonneg _).trans (hfh 0 (Quad.zero_mem_refSet d id) (fun _ => 0) fun i => by
    rw [Fl.zero_val]; simpa using hpos)
  have hu := φ.u_nonneg
  have hφ := φ.η_nonneg
  have hloop := loop_near hF0 hε0 fh (fun v => f fun i => v i) L M 0 0 0 0 0 hM (fun q hq => by
    have hm1 : (fun i : Fin d => q.1.position i) ∈ refSet d id := hin _ (by rw [← e1]; exact List.mem_map_of_mem hq)
    refine ⟨hF _ hm1, hfh _ hm1 _ fun i => ?_⟩
    have := posRel_err hL hq i
    rwa [hdim] at this) ⟨by simp, le_refl _, by simp [Fl.zero_val]⟩
  rw [e1, e2] at hloop
  have hb := hloop.bound
  have hlen : s.pts.length = L.length := by rw [← e2, List.length_map]
  have hq' : Quad.quadSum (fun v => f fun i => v i) r.pts = quadOf f r.pts := rfl
  rw [hq', zero_add, zero_add, zero_add, Nat.add_zero, ← hlen] at hb
  have hq2 := Quad.C85_best d id p tabTol r.pts hex hin f hc P hP η hη
  have h3 := abs_add_le ((quadLoop fh s.pts).val - quadOf f r.pts) (quadOf f r.pts - ∫ x in refSet d id, f x)
  rw [sub_add_sub_cancel] at h3
  refine h3.trans (add_le_add (le_trans hb ?_) hq2)
  unfold loopErr
  have hpw := Near.one_le_pow φ ((k + 2) * d ^ 2 + 1 + s.pts.length)
  refine add_le_add (mul_le_mul_of_nonneg_left (mul_le_mul_of_nonneg_right hS hF0) (by linarith))
    (mul_le_mul_of_nonneg_left ?_ (by linarith))
  have := mul_le_mul_of_nonneg_left hS hε0
  linarith

/-- C87, the sum of the weights (`checkWeights` of test-quadrature.cc:147-178 adds them like this): the volume of the reference
element up to rounding and the accuracy of the tables. -/
theorem C87_volume_partial (env : Env ℝ) {k : ℕ} {T : Tables (Fl φ)} (hT : Accurate k T) (jac : Int → Int → Res (Rule (Fl φ)))
    (d id p m : Nat) (hd : d ≤ 30) (hid : id < 2 ^ d) (qt : QType) (hq : IsPlain qt) (hm : maxOrder d ⟨d, false, id⟩ qt = .ok m)
    (hp : p ≤ m) : ∃ s, rule T jac d ⟨d, false, id⟩ p qt = .ok s ∧
      |(weightLoop s.pts).val - volume.real (refSet d id)| ≤ loopErr φ k d s.pts.length 1 0 + tabTol := by
  obtain ⟨r, s, -, h2, h3⟩ := C87_integral env hT jac d id p m hd hid qt hq hm hp
  refine ⟨s, h2, ?_⟩
  have h := h3 (fun _ => 1) (fun _ => 1) 1 0 0 1 continuous_const (fun _ _ => by rw [abs_one]) (fun _ _ _ _ => by simp [Fl.one_val])
    (by rw [MvPolynomial.totalDegree_one]; omega) (fun x _ => by simp)
  have e : quadLoop (fun _ => 1) s.pts = weightLoop s.pts := by
    unfold quadLoop weightLoop; simp only [Fl.mul_one]
  have e1 : coeffSum (1 : MvPolynomial (Fin d) ℝ) ≤ 1 := by
    have := Quad.coeffSum_monomial (d := d) 0 1
    rwa [abs_one] at this
  have e2 : ∫ _ in refSet d id, (1:ℝ) = volume.real (refSet d id) := by simp
  rw [e, e2, zero_mul, zero_add] at h
  have : tabTol * coeffSum (1 : MvPolynomial (Fin d) ℝ) ≤ tabTol * 1 := mul_le_mul_of_nonneg_left e1 (by unfold tabTol; positivity)
  linarith

/-! ### IEEE formats -/

section ieee

variable (p : ℕ) (emin : ℤ) (hp : 24 ≤ p) (he : emin ≤ -(2 * p + 32 : ℤ))

/-- C87: the tables of an IEEE format are accurate, up to 4 roundings for `float` and `double` (and as accurate as `double` for a
longer format), whether the decimals are converted from strings or by way of `double`. -/
theorem C87_tables (T : Tables (Fl (ieee p emin hp he))) (hT : Converted T) : Accurate (conversions p) T := converted_accurate p emin hp he hT

/-- C87: every point of every rule passes the public `checkInside` of the reference element, for formats up to 56 bits. -/
theorem C87_inside (hp' : p ≤ 56) (T : Tables (Fl (ieee p emin hp he))) (hT : Converted T)
    (jac : Int → Int → Res (Rule (Fl (ieee p emin hp he)))) (d id : Nat) (hd : d ≤ 30) (hid : id < 2 ^ d) (o : Int) (qt : QType)
    (hq : qt ≠ .GaussJacobi_n_0) (s : Rule (Fl (ieee p emin hp he))) (hs : rule T jac d ⟨d, false, id⟩ o qt = .ok s) :
    ∀ q ∈ s.pts, Float.refCheckInside d id q.position (epsilon p emin hp he) = true := by
  have hT' := C87_tables p emin hp he T hT
  have h := rule_inRel hT' (fun _ _ => .ub) jac hq d id hd hid o
  rw [hs] at h
  generalize rule (nodeTables T) (fun _ _ => .ub) d ⟨d, false, id⟩ o qt = a at h
  rcases a with r | _ | _ <;> simp only [RelRes] at h
  obtain ⟨-, -, L, -, e2, hL⟩ := h
  intro q hq
  rw [← e2] at hq
  obtain ⟨⟨b, q'⟩, hb, rfl⟩ := List.mem_map.1 hq
  obtain ⟨h1, h2⟩ := hL _ hb
  have hr := rep_topoOf d id
  have hdim : (topoOf d id).dim = d := hr.dim_eq
  have hk : conversions p ≤ 30 := by
    unfold conversions
    have : 2 ^ (p - 53) ≤ 2 ^ 3 := Nat.pow_le_pow_right (by norm_num) (by omega)
    omega
  have hu := ieee_u_pos p emin hp he
  have hη := (ieee p emin hp he).η_nonneg
  unfold Float.refCheckInside
  rw [Float.checkInside_iff hr]
  have hpw := Near.one_le_pow (ieee p emin hp he) (conversions p + 2 * d)
  refine accept_rel (r := (1 + (ieee p emin hp he).u) ^ (conversions p + 2 * d) - 1)
    (δ := (1 + (ieee p emin hp he).u) ^ (conversions p + 2 * d) * (d * (ieee p emin hp he).η)) (by linarith) (by positivity)
    _ 1 1 0 (le_refl _) zero_le_one (le_refl _) (by simp [Fl.one_val]) h1 (fun i _ => ?_) ?_
  · have := (h2 i).2.bound
    rwa [hdim] at this
  · rw [tolerance_val, hdim]
    exact budget_rule hu (ieee_u_le p emin hp he) hη (ieee_η_le p emin hp he) d _ hd hk

/-- the tables by way of `double`, every entry rounded once to `double` and once to the format -/
noncomputable def doubleTables (φ : Format) : Tables (Fl φ) :=
  ⟨fun l => Fl.round φ (double.rd l.val), fun r => r.pts.map fun n =>
    ⟨fun i => Fl.round φ (double.rd ((Node.point (K := ℝ) n).position i)), Fl.round φ (double.rd (Node.point (K := ℝ) n).weight)⟩⟩

theorem isDouble_rd {x : ℝ} (hx : x = 0 ∨ 1 / 2 ^ 50 ≤ |x|) : IsDouble (double.rd x) x := by
  refine ⟨double.rd_rd x, ?_⟩
  rcases hx with rfl | hx
  · rw [double.rd_zero]; simp
  · have h5 : |double.rd x - x| ≤ 2 ^ (-53 : ℤ) * |x| := by
      refine rdBinary_rel' (p := 53) (emin := -1074) (le_trans ?_ hx)
      rw [one_div, ← zpow_natCast, ← zpow_neg]
      exact zpow_le_zpow_right₀ (by norm_num) (by norm_num)
    refine h5.trans (mul_le_mul_of_nonneg_right ?_ (abs_nonneg _))
    norm_num

theorem converted_doubleTables (φ : Format) : Converted (doubleTables φ) := by
  refine ⟨Or.inl fun _ => rfl, fun row hrow => ?_⟩
  have hmem : ∀ n ∈ row.pts, (∀ l ∈ n.w :: n.x, (l.val : ℝ) = 0 ∨ 1 / 2 ^ 50 ≤ |(l.val : ℝ)|) := by
    intro n hn l hl
    have h1 := List.all_eq_true.mp (List.all_eq_true.mp rows23_notTiny row hrow) n hn
    exact lit_notTiny (List.all_eq_true.mp h1 l hl)
  unfold doubleTables
  dsimp only
  generalize row.pts = ns at hmem
  induction ns with
  | nil => exact .nil
  | cons n ns ih =>
    refine .cons ⟨fun i => ⟨_, isDouble_rd ?_, rfl⟩, ⟨_, isDouble_rd ?_, rfl⟩⟩ (ih fun n hn => hmem n (by simp [hn]))
    · simp only [Node.point]
      split
      · exact hmem n (by simp) _ (by simp)
      · exact Or.inl rfl
    · exact hmem n (by simp) _ (by simp [Node.point])

/-- the check of the library's own test, `checkWeights`, test-quadrature.cc:147-178: the weights add up to the volume of the
reference element up to `size * epsilon` (`eps<ct>` is `std::numeric_limits<ct>::epsilon()`) -/
def ChecksWeights (d id : Nat) (s : Rule (Fl (ieee p emin hp he))) : Prop :=
  |(weightLoop s.pts).val - volume.real (refSet d id)| ≤ s.pts.length * (epsilon p emin hp he).val

/-- C87, full statement for the sum of the weights: the accuracy of the number type, whatever the number type -/
def C87_volume_full : Prop := ∀ (p : ℕ) (emin : ℤ) (hp : 24 ≤ p) (he : emin ≤ -(2 * p + 32 : ℤ)) (T : Tables (Fl (ieee p emin hp he)))
  (_ : Converted T) (jac : Int → Int → Res (Rule (Fl (ieee p emin hp he)))) (d id : Nat) (_ : d ≤ 30) (_ : id < 2 ^ d) (o : Int)
  (s : Rule (Fl (ieee p emin hp he))), rule T jac d ⟨d, false, id⟩ o .GaussLegendre = .ok s → ChecksWeights p emin hp he d id s

end ieee

theorem roundEven_eq {x : ℝ} {n : ℤ} (h : |x - n| < 1 / 2) : roundEven x = n := by
  have h1 := abs_le.1 (roundEven_err x)
  have h2 := abs_lt.1 h
  have h3 : (roundEven x : ℝ) < n + 1 := by linarith
  have h4 : (n : ℝ) - 1 < roundEven x := by linarith
  have h3 : roundEven x < n + 1 := by exact_mod_cast h3
  have h4 : n - 1 < roundEven x := by exact_mod_cast h4
  omega

/-- `1.0/6.0` in `double` -/
theorem double_sixth : double.rd (1 / 6) = 6004799503160661 / 2 ^ 55 := by
  have hl : Int.log 2 |(1 / 6 : ℝ)| = -3 := by
    rw [abs_of_pos (by norm_num)]
    have h1 : -3 ≤ Int.log 2 (1 / 6 : ℝ) := (Int.zpow_le_iff_le_log (b := 2) (by norm_num) (by norm_num)).1 (by norm_num)
    have h2 : Int.log 2 (1 / 6 : ℝ) < -2 := (Int.lt_zpow_iff_log_lt (b := 2) (by norm_num) (by norm_num)).1 (by norm_num)
    omega
  have hb : lastBit 53 (-1074) (1 / 6) = -55 := by rw [lastBit, hl]; norm_num
  have : rdBinary 53 (-1074) (1 / 6) = 6004799503160661 / 2 ^ 55 := by
    rw [rdBinary, hb, roundEven_eq (n := 6004799503160661) (by norm_num [abs_lt])]
    norm_num
  exact this

/-- `long double` of the x87: 64 bits -/
noncomputable abbrev extended : Format := ieee 64 (-16445) (by norm_num) (by norm_num)

theorem extended_rd {x : ℝ} (m : ℤ) (hx : x = m * 2 ^ (-55 : ℤ)) (hm : |m| ≤ 2 ^ 64) : extended.rd x = x :=
  rdBinary_exact (p := 64) (emin := -16445) (by norm_num) hx hm (by norm_num)

/-- the rule of order two for the triangle -/
theorem triangle_rule (φ : Format) (jac : Int → Int → Res (Rule (Fl φ))) :
    ∃ s, rule (doubleTables φ) jac 2 ⟨2, false, 0⟩ 2 .GaussLegendre = .ok s ∧
      s.pts.map QPoint.weight = [Fl.round φ (double.rd (1 / 6)), Fl.round φ (double.rd (1 / 6)), Fl.round φ (double.rd (1 / 6))] := by
  refine ⟨⟨triangle, 2, (doubleTables φ).block Quad.Simplex2.block1⟩, rfl, ?_⟩
  norm_num [doubleTables, Quad.Simplex2.block1, Node.point, Lit.val]

/-- C87: with `long double` the weights of the triangle rule of order two add up to `1/2 - 2^-55`, which the check of the test
rejects: the arrays of the simplex rules are arrays of `double`, whatever the number type. -/
theorem C87_volume_counterexample : ¬ C87_volume_full := by
  intro h
  obtain ⟨s, h1, h2⟩ := triangle_rule extended (fun _ _ => .ub)
  have h3 := h 64 (-16445) (by norm_num) (by norm_num) _ (converted_doubleTables extended) _ 2 0 (by norm_num) (by norm_num) 2 s h1
  unfold ChecksWeights at h3
  have hlen : s.pts.length = 3 := by rw [← List.length_map (f := QPoint.weight), h2]; rfl
  have hV : volume.real (refSet 2 0) = 1 / 2 := by
    rw [Quad.real_volume_eq, Quad.refSet_volume 2 0 (by norm_num), C19_volume_partial 2 0 (by norm_num)]
    norm_num [exactVolume]
  have hw : (Fl.round extended (double.rd (1 / 6))).val = 6004799503160661 * 2 ^ (-55 : ℤ) := by
    rw [double_sixth]
    exact (extended_rd 6004799503160661 (by norm_num) (by norm_num)).trans (by norm_num)
  have hs : (weightLoop s.pts).val = 18014398509481983 * 2 ^ (-55 : ℤ) := by
    have e : weightLoop s.pts = (s.pts.map QPoint.weight).foldl (· + ·) 0 := by rw [weightLoop, List.foldl_map]
    rw [e, h2]
    simp only [List.foldl_cons, List.foldl_nil, Fl.zero_add, Fl.add_val, hw]
    rw [extended_rd (x := 6004799503160661 * 2 ^ (-55 : ℤ) + 6004799503160661 * 2 ^ (-55 : ℤ)) 12009599006321322 (by norm_num) (by norm_num),
      extended_rd 18014398509481983 (by norm_num) (by norm_num)]
    norm_num
  rw [hs, hV, hlen, epsilon_val, ieee_u] at h3
  norm_num [abs_le] at h3

/-! ### Examples -/

/-- the hypotheses of `C87_outcome`, `C87_weights`, `C87_integral`, `C87_volume_partial`: `double` and the pyramid -/
example (env : Env ℝ) : Accurate (φ := ieee 53 (-1074) (by norm_num) (by norm_num)) 4 (doubleTables _) ∧
    maxOrder 3 ⟨3, false, 3⟩ .GaussLegendre = .ok 59 ∧ IsPlain .GaussLegendre :=
  ⟨C87_tables 53 (-1074) (by norm_num) (by norm_num) _ (converted_doubleTables _), by decide +kernel, Or.inl rfl⟩

/-- `C87_inside` for `float` and the rule of order two for the triangle -/
example : ∃ s : Rule (Fl (ieee 24 (-149) (by norm_num) (by norm_num))), rule (doubleTables (ieee 24 (-149) (by norm_num) (by norm_num))) (fun _ _ => .ub) 2 ⟨2, false, 0⟩ 2 .GaussLegendre = .ok s ∧
    s.pts ≠ [] := by
  obtain ⟨s, h1, h2⟩ := triangle_rule (ieee 24 (-149) (by norm_num) (by norm_num)) fun _ _ => .ub
  refine ⟨s, h1, ?_⟩
  rintro e
  rw [e] at h2
  simp at h2

/-- a request outside of the library's range: order 200 for the line -/
example (T : Tables (Fl double)) : rule T (fun _ _ => .ub) 1 ⟨1, false, 0⟩ 200 .GaussLegendre = .ub := by rfl

/-- an integrand and its evaluation in `double` for `C87_integral`: the first coordinate, which is read without rounding -/
example (k d : ℕ) (id : Nat) (hd : 0 < d) : ∀ x ∈ refSet d id, ∀ xh : Nat → Fl double, (∀ i : Fin d, |(xh i).val - x i| ≤ posErr double k d) →
    |((fun y : Nat → Fl double => y 0) xh).val - (fun y : Fin d → ℝ => y ⟨0, hd⟩) x| ≤ posErr double k d :=
  fun _ _ _ h => h ⟨0, hd⟩

end Verif.FloatQuad
