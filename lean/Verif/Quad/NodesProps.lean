import Verif.Quad.Nodes
import Verif.Quad.Optimal
import Verif.Quad.Props
import Verif.Float.Format

/-! C83: the quadrature types keep the constraints on their points that quadraturerules.hh:131-195 documents, and need no more points than
necessary. -/

namespace Verif.Quad

open Verif.Typ Verif.RefTopo Verif.RefGeom

/-! ### Specification -/

/-- some point of the rule has the coordinates of `x` up to `δ` -/
def HasPoint (d : Nat) (δ : ℝ) (l : List (QPoint ℝ)) (x : Vec ℝ) : Prop := ∃ q ∈ l, ∀ k, k < d → |q.position k - x k| ≤ δ

/-- two points have different positions -/
def Different (d : Nat) (l : List (QPoint ℝ)) : Prop := l.Pairwise fun p q => ∃ k, k < d ∧ p.position k ≠ q.position k

/-- documented: the Gauss-Lobatto rules contain both end points of the interval, the Gauss-Radau rules one -/
def C83_ends_full : Prop := ∀ (env : Env ℝ) (p : Nat) (r : Rule ℝ),
  (rule env 1 line p .GaussLobatto = .ok r → HasPoint 1 0 r.pts (fun _ => 0) ∧ HasPoint 1 0 r.pts fun _ => 1) ∧
  (rule env 1 line p .GaussRadauLeft = .ok r → HasPoint 1 0 r.pts fun _ => 0) ∧
  (rule env 1 line p .GaussRadauRight = .ok r → HasPoint 1 0 r.pts fun _ => 1)

/-- Gauss-Legendre points never lie on the boundary of the reference element -/
def C83_interior_full : Prop := ∀ (env : Env ℝ) (d id p m : Nat), d ≤ 30 → id < 2 ^ d → maxOrder d ⟨d, false, id⟩ .GaussLegendre = .ok m →
  p ≤ m → ∃ r, rule env d ⟨d, false, id⟩ p .GaussLegendre = .ok r ∧ ∀ q ∈ r.pts, checkInside d id q.position 0 1 = true

/-- no point is delivered twice -/
def C83_different_full : Prop := ∀ (env : Env ℝ) (d id p m : Nat) (qt : QType), IsPlain qt → d ≤ 30 → id < 2 ^ d →
  maxOrder d ⟨d, false, id⟩ qt = .ok m → p ≤ m → ∃ r, rule env d ⟨d, false, id⟩ p qt = .ok r ∧ Different d r.pts

/-! ### End points and corners -/

theorem in01_tab {tab : List Row} {row : Row} (h : tab.all (Row.ok1 0) = true) (hr : row ∈ tab) :
    In01 (row.pts.map (Node.point (K := ℝ))) := by
  have := List.all_eq_true.mp h row hr
  simp only [Row.ok1, Bool.and_eq_true] at this
  exact in01_sound this.1.2

theorem any_near0 {E D : Nat} (hD : 0 < D) {row : Row} (h : row.pts.any (Node.near0 E D) = true) :
    ∃ o ∈ row.pts.map (Node.point (K := ℝ)), 0 ≤ o.position 0 ∧ o.position 0 ≤ E / D := by
  obtain ⟨n, hn, h⟩ := List.any_eq_true.mp h
  exact ⟨_, List.mem_map.mpr ⟨n, hn, rfl⟩, near0_sound hD h⟩

theorem any_near1 {E D : Nat} (hD : 0 < D) {row : Row} (h : row.pts.any (Node.near1 E D) = true) :
    ∃ o ∈ row.pts.map (Node.point (K := ℝ)), 1 - o.position 0 ≤ E / D := by
  obtain ⟨n, hn, h⟩ := List.any_eq_true.mp h
  exact ⟨_, List.mem_map.mpr ⟨n, hn, rfl⟩, (near1_sound hD h).2⟩

theorem nearCorners_pt (δ : ℝ) : NearCorners δ .pt [⟨fun _ => 0, 1⟩] :=
  ⟨fun _ _ k hk => absurd hk (Nat.not_lt_zero k), fun _ _ => ⟨_, List.mem_singleton.2 rfl, fun k hk => absurd hk (Nat.not_lt_zero k)⟩⟩

theorem tensor_one {O : List (QPoint ℝ)} (h0 : ∀ o ∈ O, ∀ k, 1 ≤ k → o.position k = 0) :
    tensorProduct 1 [⟨fun _ => 0, 1⟩] O = O := by
  simp only [tensorProduct, List.flatMap_cons, List.flatMap_nil, List.append_nil]
  conv_rhs => rw [← List.map_id O]
  refine List.map_congr_left fun o ho => ?_
  obtain ⟨x, w⟩ := o
  simp only [one_mul, id, QPoint.mk.injEq, and_true]
  funext k
  by_cases hk : k = 0
  · simp [hk, setV]
  · have := h0 _ ho k (by omega)
    simp only [] at this
    simp [setV, hk, this]

theorem zero_tab {tab : List Row} {row : Row} (h : tab.all (Row.ok1 0) = true) (hr : row ∈ tab) :
    ∀ o ∈ row.pts.map (Node.point (K := ℝ)), ∀ k, 1 ≤ k → o.position k = 0 := by
  have := List.all_eq_true.mp h row hr
  simp only [Row.ok1, Bool.and_eq_true] at this
  exact zero_sound this.1.2

/-- the one dimensional case of `rule_induct` from the product with a point -/
theorem one_of_tensor {tab : List Row} (h : tab.all (Row.ok1 0) = true) {P : Topo → List (QPoint ℝ) → Prop} {row : Row} (hr : row ∈ tab)
    (hP : P (.prism .pt) (tensorProduct (Topo.pt.dim + 1) [⟨fun _ => 0, 1⟩] (row.pts.map Node.point))) :
    P (.prism .pt) (row.pts.map Node.point) := by
  have hd : Topo.pt.dim + 1 = 1 := rfl
  rwa [hd, tensor_one (zero_tab h hr)] at hP

theorem lobatto_corners (env : Env ℝ) {d id p m : Nat} (hd : d ≤ 30) (hid : id < 2 ^ d)
    (hm : maxOrder d ⟨d, false, id⟩ .GaussLobatto = .ok m) (hp : p ≤ m) {E D : Nat} (hD : 0 < D)
    (hE : ∀ (p' : Nat) (row : Row), p ≤ p' → p' < p + d → p' ≤ 31 → initHelper Lobatto.table p' = .ok row → row ∈ Lobatto.table →
      row.pts.any (Node.near0 E D) = true ∧ row.pts.any (Node.near1 E D) = true) :
    ∃ r, rule env d ⟨d, false, id⟩ p .GaussLobatto = .ok r ∧
      ∀ c ∈ referenceCorners (K := ℝ) d id, HasPoint d ((E / D : ℝ) * d) r.pts c := by
  have hδ : (0:ℝ) ≤ E / D := by positivity
  have he : ∀ row ∈ Lobatto.table, row.pts.any (Node.near0 E D) = true ∧ row.pts.any (Node.near1 E D) = true →
      Ends (E / D : ℝ) (row.pts.map Node.point) := fun row hr h => by
    obtain ⟨o, ho, h1⟩ := any_near0 hD h.1
    exact ⟨in01_tab lobatto_ok hr, ⟨o, ho, h1.2⟩, any_near1 hD h.2⟩
  obtain ⟨r, h1, h2⟩ := rule_induct env (Or.inr (Or.inl rfl)) rfl p d
    (fun row => row.pts.any (Node.near0 E D) = true ∧ row.pts.any (Node.near1 E D) = true) hE (NearCorners (E / D : ℝ)) (nearCorners_pt _)
    (fun row hr h => one_of_tensor lobatto_ok hr (nearCorners_tensor hδ (nearCorners_pt _) (he row hr h)))
    (fun t B hB row hr h => nearCorners_tensor hδ hB (he row hr h)) (fun t B hB row hr h => nearCorners_conical hδ hB (he row hr h))
    (fun h => absurd h (by decide)) (fun h => absurd h (by decide)) (fun h => absurd h (by decide)) d id m hd (le_refl _) hid hm hp
  have hdim : (topoOf d id).dim = d := (rep_topoOf _ _).dim_eq
  refine ⟨r, h1, fun c hc => ?_⟩
  rw [cornersOf_eq (rep_topoOf d id)] at hc
  have := h2.2 c hc
  rwa [hdim] at this

/-- C83: the Gauss-Lobatto rule of every reference element and every order has a point at every corner, up to `d·10^-99` -/
theorem C83_lobatto_partial (env : Env ℝ) (d id p m : Nat) (hd : d ≤ 30) (hid : id < 2 ^ d)
    (hm : maxOrder d ⟨d, false, id⟩ .GaussLobatto = .ok m) (hp : p ≤ m) :
    ∃ r, rule env d ⟨d, false, id⟩ p .GaussLobatto = .ok r ∧ ∀ c ∈ referenceCorners (K := ℝ) d id, HasPoint d (1 / 10 ^ 99 * d) r.pts c := by
  have := lobatto_corners env hd hid hm hp (E := 1) (D := 10 ^ 99) (by positivity) fun p' row _ _ _ _ hr => by
    have := List.all_eq_true.mp lobatto_ends row hr
    simpa only [Bool.and_eq_true] using this
  simpa only [Nat.cast_one, Nat.cast_pow, Nat.cast_ofNat] using this

/-- C83: for small orders the corners are points of the Gauss-Lobatto rule exactly -/
theorem C83_lobatto_exact (env : Env ℝ) (d id p m : Nat) (hd : d ≤ 30) (hid : id < 2 ^ d)
    (hm : maxOrder d ⟨d, false, id⟩ .GaussLobatto = .ok m) (hp : p ≤ m) (hpd : p + d ≤ 10) :
    ∃ r, rule env d ⟨d, false, id⟩ p .GaussLobatto = .ok r ∧ ∀ c ∈ referenceCorners (K := ℝ) d id, HasPoint d 0 r.pts c := by
  have := lobatto_corners env hd hid hm hp (E := 0) (D := 1) (by norm_num) fun p' row _ h _ h' _ => by
    have := List.all_eq_true.mp lobatto_exact p' (List.mem_range.2 (by omega))
    rw [h'] at this
    simpa only [Bool.and_eq_true] using this
  simpa only [Nat.cast_zero, zero_div, zero_mul] using this

theorem first_corner (d id : Nat) : (referenceCorners (K := ℝ) d id)[0]? = some fun _ => 0 := by
  have hr := rep_topoOf d id
  rw [cornersOf_eq hr]
  generalize topoOf d id = t
  induction t with
  | pt =>
    have : faces .pt Topo.pt.dim = [Face.whole .pt] := by simp [faces, Topo.dim]
    simp only [cornersOf, this, List.map_cons, List.map_nil, List.getElem?_cons_zero, Option.some.injEq]
    rfl
  | prism t ih =>
    rw [cornersOf_prism, List.getElem?_append_left (List.length_pos_iff.2 (cornersOf_ne_nil t)), ih]
  | pyr t ih =>
    rw [cornersOf_pyr, List.getElem?_append_left (List.length_pos_iff.2 (cornersOf_ne_nil t)), ih]

theorem radauLeft_first (env : Env ℝ) {d id p m : Nat} (hd : d ≤ 30) (hid : id < 2 ^ d)
    (hm : maxOrder d ⟨d, false, id⟩ .GaussRadauLeft = .ok m) (hp : p ≤ m) {E D : Nat} (hD : 0 < D)
    (hE : ∀ (p' : Nat) (row : Row), p ≤ p' → p' < p + d → p' ≤ 30 → initHelper RadauLeft.table p' = .ok row → row ∈ RadauLeft.table →
      row.pts.any (Node.near0 E D) = true) :
    ∃ r, rule env d ⟨d, false, id⟩ p .GaussRadauLeft = .ok r ∧ HasPoint d (E / D) r.pts fun _ => 0 := by
  have h0 : NearFirst (E / D : ℝ) .pt [⟨fun _ => 0, 1⟩] := ⟨_, List.mem_singleton.2 rfl, fun k hk => absurd hk (Nat.not_lt_zero k)⟩
  obtain ⟨r, h1, q, hq, h2⟩ := rule_induct env (Or.inr (Or.inr (Or.inl rfl))) rfl p d
    (fun row => row.pts.any (Node.near0 E D) = true) hE (NearFirst (E / D : ℝ)) h0
    (fun row hr h => one_of_tensor radauLeft_ok hr (nearFirst_tensor h0 (any_near0 hD h)))
    (fun t B hB row hr h => nearFirst_tensor hB (any_near0 hD h))
    (fun t B hB row hr h => nearFirst_conical hB (any_near0 hD h) (in01_tab radauLeft_ok hr))
    (fun h => absurd h (by decide)) (fun h => absurd h (by decide)) (fun h => absurd h (by decide)) d id m hd (le_refl _) hid hm hp
  have hdim : (topoOf d id).dim = d := (rep_topoOf _ _).dim_eq
  rw [hdim] at h2
  exact ⟨r, h1, q, hq, fun k hk => by rw [sub_zero, abs_of_nonneg (h2 k hk).1]; exact (h2 k hk).2⟩

/-- C83: the left Gauss-Radau rule of every reference element and every order has a point at corner 0, the origin, up to `10^-99` -/
theorem C83_radauLeft_partial (env : Env ℝ) (d id p m : Nat) (hd : d ≤ 30) (hid : id < 2 ^ d)
    (hm : maxOrder d ⟨d, false, id⟩ .GaussRadauLeft = .ok m) (hp : p ≤ m) :
    ∃ r c, rule env d ⟨d, false, id⟩ p .GaussRadauLeft = .ok r ∧ (referenceCorners (K := ℝ) d id)[0]? = some c ∧
      HasPoint d (1 / 10 ^ 99) r.pts c := by
  obtain ⟨r, h1, h2⟩ := radauLeft_first env hd hid hm hp (E := 1) (D := 10 ^ 99) (by positivity) fun p' row _ _ _ _ hr =>
    List.all_eq_true.mp radauLeft_ends row hr
  exact ⟨r, _, h1, first_corner d id, by simpa only [Nat.cast_one, Nat.cast_pow, Nat.cast_ofNat] using h2⟩

/-- C83: exactly for small orders -/
theorem C83_radauLeft_exact (env : Env ℝ) (d id p m : Nat) (hd : d ≤ 30) (hid : id < 2 ^ d)
    (hm : maxOrder d ⟨d, false, id⟩ .GaussRadauLeft = .ok m) (hp : p ≤ m) (hpd : p + d ≤ 9) :
    ∃ r c, rule env d ⟨d, false, id⟩ p .GaussRadauLeft = .ok r ∧ (referenceCorners (K := ℝ) d id)[0]? = some c ∧
      HasPoint d 0 r.pts c := by
  obtain ⟨r, h1, h2⟩ := radauLeft_first env hd hid hm hp (E := 0) (D := 1) (by norm_num) fun p' row _ h _ h' _ => by
    have := List.all_eq_true.mp radauLeft_exact p' (List.mem_range.2 (by omega))
    rwa [h'] at this
  exact ⟨r, _, h1, first_corner d id, by simpa only [Nat.cast_zero, zero_div] using h2⟩

theorem nearLast_pt (δ : ℝ) : NearLast δ .pt [⟨fun _ => 0, 1⟩] :=
  ⟨fun _ _ k hk => absurd hk (Nat.not_lt_zero k), ⟨_, List.mem_singleton.2 rfl, fun k hk => absurd hk (Nat.not_lt_zero k)⟩⟩

theorem radauRight_last (env : Env ℝ) {d id p m : Nat} (hd : d ≤ 30) (hid : id < 2 ^ d)
    (hm : maxOrder d ⟨d, false, id⟩ .GaussRadauRight = .ok m) (hp : p ≤ m) {E D : Nat} (hD : 0 < D)
    (hE : ∀ (p' : Nat) (row : Row), p ≤ p' → p' < p + d → p' ≤ 30 → initHelper RadauRight.table p' = .ok row → row ∈ RadauRight.table →
      row.pts.any (Node.near1 E D) = true) :
    ∃ r c, rule env d ⟨d, false, id⟩ p .GaussRadauRight = .ok r ∧ (referenceCorners (K := ℝ) d id).getLast? = some c ∧
      HasPoint d (E / D) r.pts c := by
  obtain ⟨r, h1, -, q, hq, h2⟩ := rule_induct env (Or.inr (Or.inr (Or.inr rfl))) rfl p d
    (fun row => row.pts.any (Node.near1 E D) = true) hE (NearLast (E / D : ℝ)) (nearLast_pt _)
    (fun row hr h => one_of_tensor radauRight_ok hr (nearLast_tensor (nearLast_pt _) (in01_tab radauRight_ok hr) (any_near1 hD h)))
    (fun t B hB row hr h => nearLast_tensor hB (in01_tab radauRight_ok hr) (any_near1 hD h))
    (fun t B hB row hr h => nearLast_conical hB (in01_tab radauRight_ok hr) (any_near1 hD h))
    (fun h => absurd h (by decide)) (fun h => absurd h (by decide)) (fun h => absurd h (by decide)) d id m hd (le_refl _) hid hm hp
  have hdim : (topoOf d id).dim = d := (rep_topoOf _ _).dim_eq
  rw [hdim] at h2
  refine ⟨r, lastCorner (topoOf d id), h1, ?_, q, hq, h2⟩
  rw [cornersOf_eq (rep_topoOf d id), lastCorner, List.getLast?_eq_some_getLast]

/-- C83: the right Gauss-Radau rule of every reference element and every order has a point at the last corner, up to `10^-99` -/
theorem C83_radauRight_partial (env : Env ℝ) (d id p m : Nat) (hd : d ≤ 30) (hid : id < 2 ^ d)
    (hm : maxOrder d ⟨d, false, id⟩ .GaussRadauRight = .ok m) (hp : p ≤ m) :
    ∃ r c, rule env d ⟨d, false, id⟩ p .GaussRadauRight = .ok r ∧ (referenceCorners (K := ℝ) d id).getLast? = some c ∧
      HasPoint d (1 / 10 ^ 99) r.pts c := by
  have := radauRight_last env hd hid hm hp (E := 1) (D := 10 ^ 99) (by positivity) fun p' row _ _ _ _ hr =>
    List.all_eq_true.mp radauRight_ends row hr
  simpa only [Nat.cast_one, Nat.cast_pow, Nat.cast_ofNat] using this

/-- C83: exactly for small orders -/
theorem C83_radauRight_exact (env : Env ℝ) (d id p m : Nat) (hd : d ≤ 30) (hid : id < 2 ^ d)
    (hm : maxOrder d ⟨d, false, id⟩ .GaussRadauRight = .ok m) (hp : p ≤ m) (hpd : p + d ≤ 9) :
    ∃ r c, rule env d ⟨d, false, id⟩ p .GaussRadauRight = .ok r ∧ (referenceCorners (K := ℝ) d id).getLast? = some c ∧
      HasPoint d 0 r.pts c := by
  have := radauRight_last env hd hid hm hp (E := 0) (D := 1) (by norm_num) fun p' row _ h _ h' _ => by
    have := List.all_eq_true.mp radauRight_exact p' (List.mem_range.2 (by omega))
    rwa [h'] at this
  simpa only [Nat.cast_zero, zero_div] using this

/-- a hexahedron of order 7, a pyramid of order 5 -/
example : (∃ m, maxOrder 3 ⟨3, false, 7⟩ .GaussLobatto = .ok m ∧ 7 ≤ m) ∧ ∃ m, maxOrder 3 ⟨3, false, 3⟩ .GaussRadauLeft = .ok m ∧ 5 ≤ m := by
  constructor
  · exact ⟨31, by decide, by omega⟩
  · exact ⟨28, by decide, by omega⟩

/-! ### The end points are not tabulated exactly -/

theorem lobatto_rule (env : Env ℝ) {p : Nat} (hp : p ≤ 31) : rule env 1 line p .GaussLobatto = rule1D Lobatto.table p := by
  have hl : line = ⟨1, false, line.id⟩ := rfl
  have : rule env 1 line p .GaussLobatto = rule1 env line p .GaussLobatto := rfl
  rw [this, hl]
  exact rule1_eq env (by decide) rfl hp

/-- all positions at least `10^-200` -/
def Row.positive (r : Row) : Bool :=
  r.pts.all fun n => match n.x with
    | [l] => decide (0 < l.den) && decide ((l.den : Int) ≤ l.num * 10 ^ 200)
    | _ => false

theorem positive_sound {r : Row} (h : r.positive = true) : ∀ q ∈ r.pts.map (Node.point (K := ℝ)), 1 / 10 ^ 200 ≤ q.position 0 := by
  intro q hq
  obtain ⟨n, hn, rfl⟩ := List.mem_map.1 hq
  have h := List.all_eq_true.mp h n hn
  obtain ⟨xs, w⟩ := n
  match xs with
  | [] => simp at h
  | [l] =>
    simp only [Bool.and_eq_true, decide_eq_true_eq] at h
    have h1 : (0:ℝ) < l.den := by exact_mod_cast h.1
    have h2 : (l.den : ℝ) ≤ l.num * 10 ^ 200 := by exact_mod_cast h.2
    simp only [Node.point, List.length_cons, List.length_nil, List.getElem_cons_zero, Lit.val, Nat.zero_add, Nat.lt_one_iff, dite_true]
    rw [div_le_div_iff₀ (by positivity) h1]
    linarith
  | _ :: _ :: _ => simp at h

theorem lobatto10 : ∃ row, initHelper Lobatto.table 10 = .ok row ∧ row.positive = true := by
  refine ⟨_, rfl, ?_⟩
  decide +kernel

/-- the Gauss-Lobatto rule of order 10 has no point at the left end of the interval: the table contains `2.9e-121`
(gausslobattoquadrature.hh:147) -/
theorem C83_ends_counterexample : ¬ C83_ends_full := by
  intro h
  obtain ⟨row, h1, h2⟩ := lobatto10
  have hr : rule (K := ℝ) ⟨none⟩ 1 line (10 : Nat) .GaussLobatto = .ok ⟨line, row.order, row.pts.map Node.point⟩ := by
    rw [lobatto_rule _ (by omega), rule1D]
    have : ((10 : Nat) : Int) = 10 := rfl
    rw [this, h1]; rfl
  obtain ⟨⟨q, hq, h3⟩, -⟩ := (h ⟨none⟩ 10 _).1 hr
  have h4 := h3 0 (by omega)
  have h5 := positive_sound h2 q hq
  rw [sub_zero] at h4
  have : q.position 0 ≤ 0 := (le_abs_self _).trans h4
  have : (0:ℝ) < 1 / 10 ^ 200 := by positivity
  linarith

/-- rounding to `double` does not help: no point of the rule of order 10 is rounded to zero -/
theorem C83_ends_double_counterexample : ∃ r, rule (K := ℝ) ⟨none⟩ 1 line (10 : Nat) .GaussLobatto = .ok r ∧
    ∀ q ∈ r.pts, Float.double.rd (q.position 0) ≠ 0 := by
  obtain ⟨row, h1, h2⟩ := lobatto10
  refine ⟨⟨line, row.order, row.pts.map Node.point⟩, ?_, fun q hq h0 => ?_⟩
  · rw [lobatto_rule _ (by omega), rule1D]
    have : ((10 : Nat) : Int) = 10 := rfl
    rw [this, h1]; rfl
  · have h5 := positive_sound h2 q hq
    have hp : (0:ℝ) < q.position 0 := lt_of_lt_of_le (by positivity) h5
    have h6 := Float.double.err (q.position 0)
    rw [h0, zero_sub, abs_neg, abs_of_pos hp] at h6
    have hu : Float.double.u = 2 ^ (-(53:ℤ)) := rfl
    have hη : Float.double.η = 2 ^ (-1074:ℤ) / 2 := rfl
    have hu' : Float.double.u ≤ 1 / 2 := by rw [hu]; norm_num
    have hη' : Float.double.η < 1 / 4 * (1 / 10 ^ 200) := by
      have e : (2:ℝ) ^ (-1074:ℤ) = ((2:ℝ) ^ 1074)⁻¹ := by rw [zpow_neg]; norm_cast
      have h10 : (10:ℝ) ^ 200 ≤ 2 ^ 800 := by
        rw [show (200:ℕ) = 50 * 4 by norm_num, show (800:ℕ) = 200 * 4 by norm_num, pow_mul, pow_mul]
        exact pow_le_pow_left₀ (by positivity) (by norm_num) 4
      have h11 : (1:ℝ) / 2 ^ 800 ≤ 1 / 10 ^ 200 := one_div_le_one_div_of_le (by positivity) h10
      have h12 : ((2:ℝ) ^ 1074)⁻¹ = 1 / 2 ^ 800 * (1 / 2 ^ 274) := by
        rw [← one_div, show (1074:ℕ) = 800 + 274 by norm_num, pow_add, ← one_div_mul_one_div]
      have h13 : (1:ℝ) / 2 ^ 274 < 1 / 4 := one_div_lt_one_div_of_lt (by norm_num) (by
        calc (4:ℝ) < 2 ^ 3 := by norm_num
          _ ≤ 2 ^ 274 := pow_le_pow_right₀ (by norm_num) (by norm_num))
      have h14 : (0:ℝ) < 1 / 2 ^ 800 := by positivity
      rw [hη, e, h12]
      nlinarith
    nlinarith

/-- a number this close to 1 is rounded to 1 in `double` -/
theorem rd_near_one {x : ℝ} (h0 : 1 - x ≤ 1 / 10 ^ 99) (h1 : x ≤ 1) : Float.double.rd x = 1 := by
  rcases h1.eq_or_lt with rfl | h1
  · exact Float.double.rd_one
  have hs : (1:ℝ) / 10 ^ 99 ≤ 1 / 2 ^ 60 := by norm_num
  have hx : 1 / 2 ≤ x := by have : (1:ℝ) / 2 ^ 60 ≤ 1 / 2 := by norm_num
                            linarith
  have hlog : Int.log 2 |x| = -1 := by
    rw [abs_of_pos (by linarith)]
    apply le_antisymm
    · have := (Int.lt_zpow_iff_log_lt (b := 2) (by norm_num) (x := 0) (r := x) (by linarith)).1 (by simpa using h1)
      omega
    · exact (Int.zpow_le_iff_le_log (b := 2) (by norm_num) (x := -1) (r := x) (by linarith)).1 (by rw [zpow_neg_one]; norm_num; linarith)
  have hb : Float.lastBit 53 (-1074) x = -53 := by
    rw [Float.lastBit, hlog]; norm_num
  change Float.rdBinary 53 (-1074) x = 1
  have he := Float.roundEven_err (x / 2 ^ (-53:ℤ))
  have e53 : x / 2 ^ (-53:ℤ) = x * 2 ^ 53 := by rw [zpow_neg, div_inv_eq_mul]; norm_cast
  have hr : Float.roundEven (x / 2 ^ (-53:ℤ)) = 2 ^ 53 := by
    rw [e53] at he ⊢
    have hl : ((2 ^ 53 : ℤ) : ℝ) - 1 < (Float.roundEven (x * 2 ^ 53) : ℝ) := by
      have := (abs_le.1 he).1
      have h3 : (1 - x) * 2 ^ 53 ≤ 1 / 2 ^ 60 * 2 ^ 53 := by
        apply mul_le_mul_of_nonneg_right (h0.trans hs) (by positivity)
      norm_num at h3 this ⊢
      linarith
    have hu : (Float.roundEven (x * 2 ^ 53) : ℝ) < ((2 ^ 53 : ℤ) : ℝ) + 1 := by
      have := (abs_le.1 he).2
      norm_num at this ⊢
      linarith
    have hl' : (2 ^ 53 : ℤ) - 1 < Float.roundEven (x * 2 ^ 53) := by exact_mod_cast hl
    have hu' : Float.roundEven (x * 2 ^ 53) < (2 ^ 53 : ℤ) + 1 := by exact_mod_cast hu
    omega
  rw [Float.rdBinary, hb, hr]
  norm_num

/-- C83: in `double` the right end of the interval is a point of every Gauss-Lobatto and right Gauss-Radau rule -/
theorem C83_right_double (env : Env ℝ) (p : Nat) :
    (p ≤ 31 → ∃ r, rule env 1 line p .GaussLobatto = .ok r ∧ ∃ q ∈ r.pts, Float.double.rd (q.position 0) = 1) ∧
    (p ≤ 30 → ∃ r, rule env 1 line p .GaussRadauRight = .ok r ∧ ∃ q ∈ r.pts, Float.double.rd (q.position 0) = 1) := by
  have key : ∀ {row : Row}, In01 (row.pts.map (Node.point (K := ℝ))) → row.pts.any (Node.near1 1 (10 ^ 99)) = true →
      ∃ q ∈ row.pts.map (Node.point (K := ℝ)), Float.double.rd (q.position 0) = 1 := by
    intro row hi h
    obtain ⟨o, ho, h⟩ := any_near1 (by positivity) h
    simp only [Nat.cast_one, Nat.cast_pow, Nat.cast_ofNat] at h
    exact ⟨o, ho, rd_near_one h (hi o ho).2⟩
  constructor
  · intro hp
    obtain ⟨row, h1, h2, -⟩ := cover_row lobatto_cover hp
    rw [lobatto_rule env hp, rule1D, h1]
    have := List.all_eq_true.mp lobatto_ends row h2
    simp only [Bool.and_eq_true] at this
    exact ⟨_, rfl, key (in01_tab lobatto_ok h2) this.2⟩
  · intro hp
    obtain ⟨row, h1, h2, -⟩ := cover_row radauRight_cover hp
    have hr : rule env 1 line p .GaussRadauRight = rule1D RadauRight.table p := rule1_eq env (by decide : line.id < 2) rfl hp
    rw [hr, rule1D, h1]
    exact ⟨_, rfl, key (in01_tab radauRight_ok h2) (List.all_eq_true.mp radauRight_ends row h2)⟩

example : (31 : Nat) ≤ 31 ∧ (30 : Nat) ≤ 30 := by omega

/-! ### Interior -/

theorem simplex2_order : ((List.range 13).all fun p => p == 11 || match lastBlock Simplex2.blocks (simplex2Index p) with
    | some r => r.order != 11
    | none => false) = true := by decide +kernel

theorem simplex3_order : ((List.range 6).all fun p => p == 3 || match lastBlock Simplex3.blocks (simplex3Index p) with
    | some r => r.order != 3
    | none => false) = true := by decide +kernel

theorem inner_tab {row : Row} (hr : row ∈ Gauss.table) : Inner1 (row.pts.map (Node.point (K := ℝ))) :=
  fun q hq => C49_interval_points.2.2.2.1 row (by simp [hr]) q hq

/-- C83: all points of a Gauss-Legendre rule lie strictly inside the reference element, for all orders except 3 and 11 -/
theorem C83_interior_partial (env : Env ℝ) (d id p m : Nat) (hd : d ≤ 30) (hid : id < 2 ^ d)
    (hm : maxOrder d ⟨d, false, id⟩ .GaussLegendre = .ok m) (hp : p ≤ m) (h3 : p ≠ 3) (h11 : p ≠ 11) :
    ∃ r, rule env d ⟨d, false, id⟩ p .GaussLegendre = .ok r ∧ ∀ q ∈ r.pts, checkInside d id q.position 0 1 = true := by
  have h0 : Inner (K := ℝ) .pt [⟨fun _ => 0, 1⟩] := fun _ _ => trivial
  obtain ⟨r, h1, h2⟩ := rule_induct env (Or.inl rfl) rfl p d (fun _ => True) (fun _ _ _ _ _ _ _ => trivial) (Inner (K := ℝ)) h0
    (fun row hr _ => one_of_tensor gauss_ok hr (inner_tensor h0 (inner_tab hr)))
    (fun t B hB row hr _ => inner_tensor hB (inner_tab hr)) (fun t B hB row hr _ => inner_conical hB (inner_tab hr))
    (fun _ h => by
      have hs := List.all_eq_true.mp simplex2_order p (List.mem_range.2 (by simp only [simplex2Highest] at h; omega))
      unfold simplex2Rule blockRule
      rw [if_neg (by simp only [simplex2Highest] at h ⊢; omega)]
      revert hs
      cases e : lastBlock Simplex2.blocks (simplex2Index p) with
      | none => simp [h11]
      | some row =>
        intro hs
        refine ⟨_, rfl, fun q hq => ?_⟩
        obtain ⟨n, hn, rfl⟩ := List.mem_map.1 hq
        have h5 := List.all_eq_true.mp simplex_inner.1 row (lastBlock_mem e)
        simp only [Bool.or_eq_true, beq_iff_eq, h11, false_or, bne_iff_ne] at hs h5
        exact innerTri_sound (List.all_eq_true.mp (h5.resolve_left hs) n hn))
    (fun _ h => by
      have hs := List.all_eq_true.mp simplex3_order p (List.mem_range.2 (by simp only [simplex3Highest] at h; omega))
      unfold simplex3Rule blockRule
      rw [if_neg (by simp only [simplex3Highest] at h ⊢; omega)]
      revert hs
      cases e : lastBlock Simplex3.blocks (simplex3Index p) with
      | none => simp [h3]
      | some row =>
        intro hs
        refine ⟨_, rfl, fun q hq => ?_⟩
        obtain ⟨n, hn, rfl⟩ := List.mem_map.1 hq
        have h5 := List.all_eq_true.mp simplex_inner.2.1 row (lastBlock_mem e)
        simp only [Bool.or_eq_true, beq_iff_eq, h3, false_or, bne_iff_ne] at hs h5
        exact innerTet_sound (List.all_eq_true.mp (h5.resolve_left hs) n hn))
    (fun _ h => by
      unfold prism3Rule blockRule
      rw [prism3_sel.1]
      refine ⟨_, rfl, fun q hq => ?_⟩
      obtain ⟨n, hn, rfl⟩ := List.mem_map.1 hq
      exact innerPrism_sound (List.all_eq_true.mp simplex_inner.2.2 n hn))
    d id m hd (le_refl _) hid hm hp
  exact ⟨r, h1, fun q hq => (checkInside_iff (rep_topoOf d id) _ _ _).2 (h2 q hq)⟩

example : ∃ m, maxOrder 4 ⟨4, false, 0b0110⟩ .GaussLegendre = .ok m ∧ 40 ≤ m := ⟨58, by decide, by omega⟩

/-- the tetrahedron rule of order 3 contains midpoints of faces and corners, the triangle rule of order 11 has points on an edge -/
theorem C83_interior_counterexample : ¬ C83_interior_full := by
  intro h
  obtain ⟨m, hm, hs⟩ := maxOrder_tab (qt := .GaussLegendre) (h := 61) rfl (by omega) (by omega) 2 0 (by omega) (by omega)
  have hpm : 3 ≤ m := by
    rcases hs.2.2 with rfl | ⟨k, hk1, hk2, -, hk⟩ <;> omega
  obtain ⟨r, hr, hi⟩ := h ⟨none⟩ 3 0 3 m (by omega) (by omega) hm hpm
  have hr' : rule (K := ℝ) ⟨none⟩ 3 ⟨3, false, 0⟩ (3 : Nat) .GaussLegendre = simplex3Rule 3 := by
    rw [rule, ruleWith_ok (by omega) (by omega) (Or.inr ⟨m, hm, by omega, by omega⟩)]
    simp only [factory]
    rw [if_pos ⟨by decide, by simp, by simp [simplex3Highest]⟩]
    rfl
  obtain ⟨row, hrow, n, hn, hx⟩ : ∃ row : Row, simplex3Rule (K := ℝ) 3 = .ok ⟨tetrahedron, row.order, row.pts.map Node.point⟩ ∧
      ∃ n ∈ row.pts, ∃ l, n.x[2]? = some l ∧ l.num = 0 := by
    refine ⟨_, rfl, ?_⟩
    decide +kernel
  rw [hr', hrow] at hr
  cases hr
  have h2 := hi _ (List.mem_map.2 ⟨n, hn, rfl⟩)
  rw [checkInside_iff (rep_topoOf 3 0)] at h2
  have e : topoOf 3 0 = .pyr (.pyr (.prism .pt)) := by decide
  rw [e] at h2
  simp only [Inside, Topo.dim, neg_zero] at h2
  obtain ⟨l, hl, hz⟩ := hx
  obtain ⟨hlt, hl⟩ := List.getElem?_eq_some_iff.1 hl
  have h3 := h2.1
  simp only [Node.point, dif_pos hlt, hl, Lit.val, hz] at h3
  norm_num at h3

/-! ### Different points -/

theorem distinct_tab {row : Row} (hr : row ∈ Gauss.table ++ Jacobi1.table ++ Jacobi2.table ++ Lobatto.table ++ RadauLeft.table ++ RadauRight.table) :
    (row.pts.map (Node.point (K := ℝ))).Pairwise (Apart 1) := by
  have h := List.all_eq_true.mp tab_distinct row hr
  simp only [Bool.and_eq_true, List.all_eq_true, beq_iff_eq] at h
  exact distinct_sound h.2 h.1

theorem block_distinct {blocks : List Row} {d : Nat} (hb : (blocks.all fun r => distinct r.pts && r.pts.all fun n => n.x.length == d) = true)
    {row : Row} (hr : row ∈ blocks) : (row.pts.map (Node.point (K := ℝ))).Pairwise (Apart d) := by
  have h := List.all_eq_true.mp hb row hr
  simp only [Bool.and_eq_true, List.all_eq_true, beq_iff_eq] at h
  exact distinct_sound h.2 h.1

/-- C83: the points of the Gauss-Legendre rules and of the left Gauss-Radau rules have different positions, on every reference element -/
theorem C83_different_partial (env : Env ℝ) (d id p m : Nat) (qt : QType) (hq : qt = .GaussLegendre ∨ qt = .GaussRadauLeft) (hd : d ≤ 30)
    (hid : id < 2 ^ d) (hm : maxOrder d ⟨d, false, id⟩ qt = .ok m) (hp : p ≤ m) :
    ∃ r, rule env d ⟨d, false, id⟩ p qt = .ok r ∧ Different d r.pts := by
  have hdim : (topoOf d id).dim = d := (rep_topoOf _ _).dim_eq
  have h0 : ([⟨fun _ => 0, 1⟩] : List (QPoint ℝ)).Pairwise (Apart 0) := List.pairwise_singleton _ _
  let P : Topo → List (QPoint ℝ) → Prop := fun t l => l.Pairwise (Apart t.dim)
  rcases hq with rfl | rfl
  · obtain ⟨r, h1, h2⟩ := rule_induct env (Or.inl rfl) rfl p d (fun _ => True) (fun _ _ _ _ _ _ _ => trivial) P h0
      (fun row hr _ => distinct_tab (by simp [hr]))
      (fun t B hB row hr _ => distinct_tensor hB (distinct_tab (by simp [hr])))
      (fun t B hB row hr _ => distinct_conical hB (distinct_tab (by simp [hr])) fun o ho => (inner_tab hr o ho).2)
      (fun _ h => by
        have hs := List.all_eq_true.mp simplex2_sel p (List.mem_range.2 (by simp only [simplex2Highest] at h; omega))
        unfold simplex2Rule blockRule
        rw [if_neg (by simp only [simplex2Highest] at h ⊢; omega)]
        revert hs
        cases e : lastBlock Simplex2.blocks (simplex2Index p) with
        | none => simp
        | some row => exact fun _ => ⟨_, rfl, block_distinct simplex_distinct.1 (lastBlock_mem e)⟩)
      (fun _ h => by
        have hs := List.all_eq_true.mp simplex3_sel p (List.mem_range.2 (by simp only [simplex3Highest] at h; omega))
        unfold simplex3Rule blockRule
        rw [if_neg (by simp only [simplex3Highest] at h ⊢; omega)]
        revert hs
        cases e : lastBlock Simplex3.blocks (simplex3Index p) with
        | none => simp
        | some row => exact fun _ => ⟨_, rfl, block_distinct simplex_distinct.2.1 (lastBlock_mem e)⟩)
      (fun _ h => by
        unfold prism3Rule blockRule
        rw [prism3_sel.1]
        have := simplex_distinct.2.2
        exact ⟨_, rfl, block_distinct (blocks := [Prism3.block1]) (d := 3) (by simpa using this) (List.mem_singleton.2 rfl)⟩)
      d id m hd (le_refl _) hid hm hp
    simp only [P, hdim] at h2
    exact ⟨r, h1, h2⟩
  · have hb : ∀ row ∈ RadauLeft.table, ∀ q ∈ row.pts.map (Node.point (K := ℝ)), q.position 0 < 1 := fun row hr => by
      have h5 := List.all_eq_true.mp radauLeft_ok row hr
      simp only [Row.ok1, Bool.and_eq_true] at h5
      exact below1_sound (List.all_eq_true.mp radauLeft_below1 row hr) h5.1.2
    obtain ⟨r, h1, h2⟩ := rule_induct env (Or.inr (Or.inr (Or.inl rfl))) rfl p d (fun _ => True) (fun _ _ _ _ _ _ _ => trivial) P h0
      (fun row hr _ => distinct_tab (by simp [hr]))
      (fun t B hB row hr _ => distinct_tensor hB (distinct_tab (by simp [hr])))
      (fun t B hB row hr _ => distinct_conical hB (distinct_tab (by simp [hr])) (hb row hr))
      (fun h => absurd h (by decide)) (fun h => absurd h (by decide)) (fun h => absurd h (by decide)) d id m hd (le_refl _) hid hm hp
    simp only [P, hdim] at h2
    exact ⟨r, h1, h2⟩

/-- products of intervals -/
def IsBox : Topo → Prop
  | .pt => True
  | .prism t => IsBox t
  | .pyr _ => False

theorem isBox_topoOf : ∀ (d id : Nat), IsCubeId d id → IsBox (topoOf d id)
  | 0, _, _ => by simp [topoOf, IsBox]
  | d + 1, id, h => by
    rw [topoOf]
    have hb : d = 0 ∨ id.testBit d = true := by
      rcases Nat.eq_zero_or_pos d with h0 | h0
      · exact Or.inl h0
      · exact Or.inr (h d h0 (by omega))
    rw [if_pos hb]
    refine isBox_topoOf d _ fun k h1 h2 => ?_
    rw [Nat.testBit_mod_two_pow]
    simp [h2, h k h1 (by omega)]

/-- C83: on cubes the points of all four families have different positions -/
theorem C83_different_cube (env : Env ℝ) (d id p m : Nat) (qt : QType) (hq : IsPlain qt) (hd : d ≤ 30) (hid : id < 2 ^ d) (hc : IsCubeId d id)
    (hm : maxOrder d ⟨d, false, id⟩ qt = .ok m) (hp : p ≤ m) : ∃ r, rule env d ⟨d, false, id⟩ p qt = .ok r ∧ Different d r.pts := by
  by_cases hl : qt = .GaussLegendre
  · exact C83_different_partial env d id p m qt (Or.inl hl) hd hid hm hp
  have hdim : (topoOf d id).dim = d := (rep_topoOf _ _).dim_eq
  have h0 : ([⟨fun _ => 0, 1⟩] : List (QPoint ℝ)).Pairwise (Apart 0) := List.pairwise_singleton _ _
  let P : Topo → List (QPoint ℝ) → Prop := fun t l => IsBox t → l.Pairwise (Apart t.dim)
  obtain ⟨tab, h, ht⟩ : ∃ tab h, tableOf qt = some (tab, h) := by
    rcases hq with rfl | rfl | rfl | rfl <;> exact ⟨_, _, rfl⟩
  have htab : ∀ row ∈ tab, (row.pts.map (Node.point (K := ℝ))).Pairwise (Apart 1) := by
    intro row hr
    apply distinct_tab
    rcases hq with rfl | rfl | rfl | rfl <;> simp only [tableOf, Option.some.injEq, Prod.mk.injEq] at ht <;>
      obtain ⟨rfl, rfl⟩ := ht <;> simp [hr]
  obtain ⟨r, h1, h2⟩ := rule_induct env hq ht p d (fun _ => True) (fun _ _ _ _ _ _ _ => trivial) P (fun _ => h0)
    (fun row hr _ _ => htab row hr) (fun t B hB row hr _ hbox => distinct_tensor (hB hbox) (htab row hr))
    (fun t B hB row hr _ hbox => hbox.elim) (fun h => absurd h hl) (fun h => absurd h hl) (fun h => absurd h hl) d id m hd (le_refl _) hid hm hp
  have := h2 (isBox_topoOf d id hc)
  rw [hdim] at this
  exact ⟨r, h1, this⟩

example : IsCubeId 3 7 ∧ maxOrder 3 ⟨3, false, 7⟩ .GaussLobatto = .ok 31 := ⟨fun k _ hk => by interval_cases k <;> decide, by decide⟩

/-- the Gauss-Lobatto rule of order 1 on the triangle contains the apex twice -/
theorem C83_different_counterexample : ¬ C83_different_full := by
  intro h
  obtain ⟨m, hm, hs⟩ := maxOrder_tab (qt := .GaussLobatto) (h := 31) rfl (by omega) (by omega) 1 0 (by omega) (by omega)
  have hpm : 0 ≤ m := by omega
  obtain ⟨r, hr, hi⟩ := h ⟨none⟩ 2 0 0 m .GaussLobatto (Or.inr (Or.inl rfl)) (by omega) (by omega) hm hpm
  have hrow : initHelper Lobatto.table 0 = .ok Lobatto.row0 ∧ initHelper Lobatto.table 1 = .ok Lobatto.row0 := ⟨rfl, rfl⟩
  have hr' : ∃ r, rule (K := ℝ) ⟨none⟩ 2 ⟨2, false, 0⟩ (0 : Nat) .GaussLobatto = .ok r ∧
      r.pts = conicalProduct 2 false (Lobatto.row0.pts.map Node.point) (Lobatto.row0.pts.map Node.point) := by
    have b1 : rule (K := ℝ) ⟨none⟩ 1 ⟨1, false, 0⟩ (0 : Nat) .GaussLobatto = rule1D Lobatto.table 0 := rule1_eq ⟨none⟩ (by omega) rfl (by omega)
    have b2 : rule1 (K := ℝ) ⟨none⟩ ⟨1, false, 0⟩ (1 : Nat) .GaussLobatto = rule1D Lobatto.table 1 := rule1_eq ⟨none⟩ (by omega) rfl (by omega)
    rw [rule, ruleWith_ok (by omega) (by omega) (Or.inr ⟨m, hm, by omega, by omega⟩)]
    simp only
    rw [baseTypeOf_eq (by omega) (by omega)]
    have e0 : 0 % 2 ^ (0 + 1) = 0 := rfl
    rw [e0, b1, rule1D, hrow.1]
    simp only [factory]
    rw [if_neg (by simp)]
    unfold tensorRule
    have ep : ∀ x : Rule ℝ, (pure x : Res (Rule ℝ)) = .ok x := fun _ => rfl
    simp only [ok_bind, ep, show 2 - 1 = 1 from rfl]
    rw [if_neg (by simp), if_pos (by decide), line_eq]
    have e1 : ((0 : Nat) : Int) + ((1 : Nat) : Int) = ((1 : Nat) : Int) := rfl
    rw [e1, b2, rule1D, hrow.2]
    exact ⟨_, rfl, rfl⟩
  obtain ⟨r', h1, h2⟩ := hr'
  rw [hr] at h1
  cases h1
  rw [h2] at hi
  have hl : Lobatto.row0.pts.map (Node.point (K := ℝ)) = [Node.point (node1 0 1 5 1), Node.point (node1 10 1 5 1)] := rfl
  rw [hl] at hi
  simp only [Different, conicalProduct, List.flatMap_cons, List.flatMap_nil, List.map_cons, List.map_nil, List.append_nil, List.cons_append,
    List.nil_append, List.pairwise_cons] at hi
  obtain ⟨k, hk, h3⟩ := hi.2.1 _ (List.mem_cons_of_mem _ (List.mem_singleton.2 rfl))
  apply h3
  interval_cases k <;> simp [setV, Node.point, node1, Lit.val]

/-! ### Mirrored rules -/

/-- every point of `l` has a mirrored point in `l'`, up to `ε` -/
def Mirrors (ε : ℝ) (l l' : List (QPoint ℝ)) : Prop :=
  ∀ q ∈ l, ∃ q' ∈ l', |q.position 0 - (1 - q'.position 0)| ≤ ε ∧ |q.weight - q'.weight| ≤ ε

theorem initHelper_zip {p : Int} {a : Row} : ∀ {A B : List Row}, A.length = B.length → (∀ r ∈ A.zip B, r.1.cases = r.2.cases) →
    initHelper A p = .ok a → ∃ b, initHelper B p = .ok b ∧ (a, b) ∈ A.zip B := by
  intro A
  induction A with
  | nil => intro B _ _ h; simp [initHelper] at h
  | cons x A ih =>
    intro B hl hc h
    match B with
    | [] => simp at hl
    | y :: B =>
      have hxy : x.cases = y.cases := hc (x, y) (by simp)
      unfold initHelper at h ⊢
      rw [List.find?_cons] at h ⊢
      rw [← hxy]
      cases hx : x.cases.any fun c => (c : Int) == p with
      | true =>
        simp only [hx, Res.ok.injEq] at h
        exact ⟨y, rfl, by simp [h]⟩
      | false =>
        simp only [hx] at h
        obtain ⟨b, h1, h2⟩ := ih (by simpa using hl) (fun r hr => hc r (by simp [hr])) h
        exact ⟨b, h1, by simp [h2]⟩

theorem mirrors_of {D : Nat} (hD : 0 < D) {a b : Row} (h : a.mirrors D b = true) :
    a.pts.length = b.pts.length ∧ Mirrors (1 / D) (a.pts.map Node.point) (b.pts.map Node.point) ∧
      Mirrors (1 / D) (b.pts.map Node.point) (a.pts.map Node.point) := by
  simp only [Row.mirrors, Bool.and_eq_true, beq_iff_eq] at h
  obtain ⟨⟨⟨-, h1⟩, h2⟩, h3⟩ := h
  have key : ∀ {x y : Row}, (x.pts.all fun n => y.pts.any (n.mirrors D)) = true → Mirrors (1 / D) (x.pts.map Node.point) (y.pts.map Node.point) := by
    intro x y h q hq
    obtain ⟨n, hn, rfl⟩ := List.mem_map.1 hq
    obtain ⟨n', hn', h'⟩ := List.any_eq_true.1 (List.all_eq_true.1 h n hn)
    have := mirrors_sound (K := ℝ) hD h'
    refine ⟨_, List.mem_map.2 ⟨n', hn', rfl⟩, ?_, this.2⟩
    have e : ∀ x y : ℝ, x - (1 - y) = x + y - 1 := fun x y => by ring
    rw [e]; exact this.1
  exact ⟨h1, key h2, key h3⟩

/-- C83: "the right Gauss-Radau rules are just the mirrored left Gauss-Radau rules": same number of points, mirrored positions with the same
weights up to `10^-99` -/
theorem C83_radau_mirrored (env : Env ℝ) (p : Nat) (hp : p ≤ 30) : ∃ l r, rule env 1 line p .GaussRadauLeft = .ok l ∧
    rule env 1 line p .GaussRadauRight = .ok r ∧ l.pts.length = r.pts.length ∧
    Mirrors (1 / 10 ^ 99) l.pts r.pts ∧ Mirrors (1 / 10 ^ 99) r.pts l.pts := by
  have hl : rule env 1 line p .GaussRadauLeft = rule1D RadauLeft.table p := rule1_eq env (by decide : line.id < 2) rfl hp
  have hr : rule env 1 line p .GaussRadauRight = rule1D RadauRight.table p := rule1_eq env (by decide : line.id < 2) rfl hp
  obtain ⟨a, h1, -, -⟩ := cover_row radauLeft_cover hp
  have hm := radau_mirror
  simp only [Bool.and_eq_true, beq_iff_eq] at hm
  have hz : ∀ x ∈ RadauLeft.table.zip RadauRight.table, x.1.mirrors (10 ^ 99) x.2 = true := List.all_eq_true.1 hm.2
  obtain ⟨b, h2, h3⟩ := initHelper_zip hm.1 (fun x hx => by
    have := hz x hx
    simp only [Row.mirrors, Bool.and_eq_true, beq_iff_eq] at this
    exact this.1.1.1.2) h1
  rw [hl, hr, rule1D, rule1D, h1, h2]
  have := mirrors_of (by positivity) (hz _ h3)
  simp only [Nat.cast_pow, Nat.cast_ofNat] at this
  exact ⟨_, _, rfl, rfl, by simpa using this.1, this.2⟩

/-- C83: the Gauss-Legendre and the Gauss-Lobatto rules are symmetric -/
theorem C83_symmetric (env : Env ℝ) (p : Nat) :
    (p ≤ 61 → ∃ r, rule env 1 line p .GaussLegendre = .ok r ∧ Mirrors (1 / 10 ^ 81) r.pts r.pts) ∧
    (p ≤ 31 → ∃ r, rule env 1 line p .GaussLobatto = .ok r ∧ Mirrors (1 / 10 ^ 99) r.pts r.pts) := by
  constructor
  · intro hp
    have hl : rule env 1 line p .GaussLegendre = rule1D Gauss.table p := rule1_eq env (by decide : line.id < 2) rfl hp
    obtain ⟨a, h1, h2, -⟩ := cover_row gauss_cover hp
    have := (mirrors_of (by positivity) (List.all_eq_true.1 gauss_mirror a h2)).2.1
    simp only [Nat.cast_pow, Nat.cast_ofNat] at this
    rw [hl, rule1D, h1]
    exact ⟨_, rfl, this⟩
  · intro hp
    obtain ⟨a, h1, h2, -⟩ := cover_row lobatto_cover hp
    have := (mirrors_of (by positivity) (List.all_eq_true.1 lobatto_mirror a h2)).2.1
    simp only [Nat.cast_pow, Nat.cast_ofNat] at this
    rw [lobatto_rule env hp, rule1D, h1]
    exact ⟨_, rfl, this⟩

example : (10 : Nat) ≤ 30 ∧ (61 : Nat) ≤ 61 := by omega

/-! ### Optimality -/

/-- C83: no rule with fewer points than the Gauss-Legendre rule integrates all polynomials of the requested degree -/
theorem C83_optimal_legendre (env : Env ℝ) (p : Nat) (hp : p ≤ 61) : ∃ r, rule env 1 line p .GaussLegendre = .ok r ∧
    ∀ l, Exact1 0 p l → r.pts.length ≤ l.length := by
  have hl : rule env 1 line p .GaussLegendre = rule1D Gauss.table p := rule1_eq env (by decide : line.id < 2) rfl hp
  have ht := tab_lengths
  simp only [Bool.and_eq_true] at ht
  have h := List.all_eq_true.1 ht.1.1 p (List.mem_range.2 (by omega))
  revert h
  rw [hl, rule1D]
  cases h1 : initHelper Gauss.table p <;> cases h2 : initHelper Jacobi1.table p <;> cases h3 : initHelper Jacobi2.table p <;>
    simp only [Bool.and_eq_true, decide_eq_true_eq, Bool.false_eq_true, false_implies]
  intro h
  refine ⟨_, rfl, fun l hl => ?_⟩
  have := lower_free hl
  simp only [List.length_map, h.1.1]
  omega

/-- C83: the same for the Gauss-Jacobi rules and the weight functions `1 - x` and `(1 - x)²` -/
theorem C83_optimal_jacobi (env : Env ℝ) (p : Nat) (hp : p ≤ 61) :
    (∃ r, rule env 1 line p .GaussJacobi_1_0 = .ok r ∧ ∀ l, Exact1 1 p l → r.pts.length ≤ l.length) ∧
    ∃ r, rule env 1 line p .GaussJacobi_2_0 = .ok r ∧ ∀ l, Exact1 2 p l → r.pts.length ≤ l.length := by
  have hl1 : rule env 1 line p .GaussJacobi_1_0 = rule1D Jacobi1.table p := rule1_eq env (by decide : line.id < 2) rfl hp
  have hl2 : rule env 1 line p .GaussJacobi_2_0 = rule1D Jacobi2.table p := rule1_eq env (by decide : line.id < 2) rfl hp
  have ht := tab_lengths
  simp only [Bool.and_eq_true] at ht
  have h := List.all_eq_true.1 ht.1.1 p (List.mem_range.2 (by omega))
  revert h
  rw [hl1, hl2, rule1D, rule1D]
  cases h1 : initHelper Gauss.table p <;> cases h2 : initHelper Jacobi1.table p <;> cases h3 : initHelper Jacobi2.table p <;>
    simp only [Bool.and_eq_true, decide_eq_true_eq, Bool.false_eq_true, false_implies]
  intro h
  constructor
  · refine ⟨_, rfl, fun l hl => ?_⟩
    have := lower_free hl
    simp only [List.length_map, h.1.2]
    omega
  · refine ⟨_, rfl, fun l hl => ?_⟩
    have := lower_free hl
    simp only [List.length_map, h.2]
    omega

/-- C83: the Gauss-Lobatto rules are "optimal rules under the constraint that both interval endpoints are quadrature points" -/
theorem C83_optimal_lobatto (env : Env ℝ) (p : Nat) (hp : p ≤ 31) : ∃ r, rule env 1 line p .GaussLobatto = .ok r ∧
    ∀ l, Exact1 0 p l → (∃ q ∈ l, q.position 0 = 0) → (∃ q ∈ l, q.position 0 = 1) → r.pts.length ≤ l.length := by
  have ht := tab_lengths
  simp only [Bool.and_eq_true] at ht
  have h := List.all_eq_true.1 ht.1.2 p (List.mem_range.2 (by omega))
  revert h
  rw [lobatto_rule env hp, rule1D]
  cases h1 : initHelper Lobatto.table p <;> simp only [decide_eq_true_eq, Bool.false_eq_true, false_implies]
  intro h
  refine ⟨_, rfl, ?_⟩
  rintro l hl ⟨q, hq, h0⟩ ⟨q', hq', h1⟩
  have := lower_both hl hq h0 hq' h1
  simp only [List.length_map, h]
  omega

/-- C83: the Gauss-Radau rules are optimal under the constraint that the left (right) endpoint is a quadrature point -/
theorem C83_optimal_radau (env : Env ℝ) (p : Nat) (hp : p ≤ 30) :
    (∃ r, rule env 1 line p .GaussRadauLeft = .ok r ∧ ∀ l, Exact1 0 p l → (∃ q ∈ l, q.position 0 = 0) → r.pts.length ≤ l.length) ∧
    ∃ r, rule env 1 line p .GaussRadauRight = .ok r ∧ ∀ l, Exact1 0 p l → (∃ q ∈ l, q.position 0 = 1) → r.pts.length ≤ l.length := by
  have hl1 : rule env 1 line p .GaussRadauLeft = rule1D RadauLeft.table p := rule1_eq env (by decide : line.id < 2) rfl hp
  have hl2 : rule env 1 line p .GaussRadauRight = rule1D RadauRight.table p := rule1_eq env (by decide : line.id < 2) rfl hp
  have ht := tab_lengths
  simp only [Bool.and_eq_true] at ht
  have h := List.all_eq_true.1 ht.2 p (List.mem_range.2 (by omega))
  revert h
  rw [hl1, hl2, rule1D, rule1D]
  cases h1 : initHelper RadauLeft.table p <;> cases h2 : initHelper RadauRight.table p <;>
    simp only [Bool.and_eq_true, decide_eq_true_eq, Bool.false_eq_true, false_implies]
  intro h
  constructor
  · refine ⟨_, rfl, ?_⟩
    rintro l hl ⟨q, hq, h0⟩
    have := lower_left hl hq h0
    simp only [List.length_map, h.1]
    omega
  · refine ⟨_, rfl, ?_⟩
    rintro l hl ⟨q, hq, h0⟩
    have := lower_right hl hq h0
    simp only [List.length_map, h.2]
    omega

/-- the trapezoidal rule is exact of order 1 and has both end points; the midpoint rule is exact of order 1 -/
example : Exact1 0 1 [⟨fun _ => 1 / 2, 1⟩] := midpoint_exact

example : Exact1 0 1 [⟨fun _ => 0, 1 / 2⟩, ⟨fun _ => 1, 1 / 2⟩] := by
  intro P hP
  obtain ⟨a, b, rfl⟩ := Polynomial.exists_eq_X_add_C_of_natDegree_le_one hP
  simp only [List.map_cons, List.map_nil, List.sum_cons, List.sum_nil, Polynomial.eval_add, Polynomial.eval_mul, Polynomial.eval_C,
    Polynomial.eval_X, pow_zero, mul_one]
  rw [intervalIntegral.integral_add (Continuous.intervalIntegrable (by fun_prop) _ _) (by simp), intervalIntegral.integral_const_mul, integral_id, intervalIntegral.integral_const]
  simp only [smul_eq_mul]
  ring

end Verif.Quad
