import Verif.Quad.Model
import Verif.Quad.Integral
import Mathlib.Algebra.Order.Field.Basic
import Mathlib.Tactic.FieldSimp
import Mathlib.Tactic.Ring
import Mathlib.Tactic.Positivity
import Mathlib.Tactic.Linarith

/-! A decision procedure for the moments of a tabulated rule, in integer arithmetic, and its correctness. -/

namespace Verif.Quad

open Verif.Typ Verif.RefGeom
open Finset hiding ext

set_option linter.unusedSectionVars false

/-- all multi-indices of `d` entries with sum at most `p` -/
def multis : Nat → Nat → List (List Nat)
  | 0, _ => [[]]
  | d + 1, p => (List.range (p + 1)).flatMap fun k => (multis d (p - k)).map (k :: ·)

theorem mem_multis : ∀ (a : List Nat) (p : Nat), a.sum ≤ p → a ∈ multis a.length p
  | [], _, _ => by simp [multis]
  | k :: a, p, h => by
    simp only [List.sum_cons] at h
    simp only [List.length_cons, multis, List.mem_flatMap, List.mem_range, List.mem_map]
    exact ⟨k, by omega, a, mem_multis a _ (by omega), rfl⟩

/-- `S` times the value of a literal -/
def Lit.sc (S : Nat) (l : Lit) : Int := l.num * (S / l.den : Nat)

/-- the literal is a multiple of `1/S` -/
def Lit.fits (S : Nat) (l : Lit) : Bool := l.den != 0 && S % l.den == 0

/-- `S^|a|` times a monomial at a point with non-negative coordinates -/
def monoI (S : Nat) : List Lit → List Nat → Nat
  | x :: xs, a :: as => (x.sc S).toNat ^ a * monoI S xs as
  | _, _ => 1

/-- `S^(|a|+1)` times a moment -/
def momentI (S : Nat) (a : List Nat) : List Node → Int
  | [] => 0
  | n :: l => n.w.sc S * (monoI S n.x a : Nat) + momentI S a l

/-- all literals of the point are multiples of `1/S`, the coordinates are not negative -/
def Node.fits (d S : Nat) (n : Node) : Bool :=
  n.x.length == d && (n.x.all fun l => l.fits S && decide (0 ≤ l.num)) && n.w.fits S

/-- the moment `a` of the points is within `1/T` of `num/den` -/
def momentOK (S T : Nat) (pts : List Node) (a : List Nat) (r : Nat × Nat) : Bool :=
  decide (r.2 ≠ 0) &&
  decide ((momentI S a pts * r.2 - (S ^ (a.sum + 1) * r.1 : Nat)).natAbs * T ≤ S ^ (a.sum + 1) * r.2)

/-- all moments of degree at most the order of the row are within `1/T` of the exact value -/
def Row.momentsOK (d S T : Nat) (exact : List Nat → Nat × Nat) (r : Row) : Bool :=
  decide (S ≠ 0) && decide (T ≠ 0) && r.pts.all (Node.fits d S) &&
  (multis d r.order).all fun a => momentOK S T r.pts a (exact a)

variable {K : Type} [Field K] [LinearOrder K] [IsStrictOrderedRing K]

/-- a monomial at a tabulated point -/
def monoV (K : Type) [Field K] : List Lit → List Nat → K
  | x :: xs, a :: as => x.val ^ a * monoV K xs as
  | _, _ => 1

/-- the moment of a list of tabulated points -/
def momentV (K : Type) [Field K] (a : List Nat) : List Node → K
  | [] => 0
  | n :: l => n.w.val * monoV K n.x a + momentV K a l

theorem sc_val {S : Nat} {l : Lit} (h : l.fits S = true) : ((l.sc S : Int) : K) = S * l.val := by
  simp only [Lit.fits, Bool.and_eq_true, bne_iff_ne, ne_eq, beq_iff_eq] at h
  obtain ⟨h0, h1⟩ := h
  have hd : (l.den : K) ≠ 0 := by exact_mod_cast h0
  have e : (S : K) = ((S / l.den : Nat) : K) * l.den := by
    rw [← Nat.cast_mul, Nat.div_mul_cancel (Nat.dvd_of_mod_eq_zero h1)]
  simp only [Lit.sc, Lit.val]
  rw [Int.cast_mul, Int.cast_natCast, e]
  field_simp

theorem monoI_val {S : Nat} : ∀ (xs : List Lit) (a : List Nat), xs.length = a.length →
    (xs.all fun l => l.fits S && decide (0 ≤ l.num)) = true →
    ((monoI S xs a : Nat) : K) = (S : K) ^ a.sum * monoV K xs a
  | [], [], _, _ => by simp [monoI, monoV]
  | x :: xs, k :: a, hl, h => by
    simp only [List.length_cons, Nat.add_right_cancel_iff] at hl
    simp only [List.all_cons, Bool.and_eq_true, decide_eq_true_eq] at h
    obtain ⟨⟨h1, h0⟩, h2⟩ := h
    have hn : 0 ≤ x.sc S := mul_nonneg h0 (Int.natCast_nonneg _)
    have e : (((x.sc S).toNat : Nat) : K) = S * x.val := by
      rw [← sc_val h1, ← Int.cast_natCast, Int.toNat_of_nonneg hn]
    simp only [monoI, monoV, List.sum_cons]
    push_cast
    rw [e, monoI_val xs a hl h2, mul_pow, pow_add]
    ring
  | [], _ :: _, h, _ => by simp at h
  | _ :: _, [], h, _ => by simp at h

theorem momentI_val {S : Nat} (a : List Nat) : ∀ (pts : List Node), pts.all (Node.fits a.length S) = true →
    ((momentI S a pts : Int) : K) = (S : K) ^ (a.sum + 1) * momentV K a pts
  | [], _ => by simp [momentI, momentV]
  | n :: l, h => by
    simp only [List.all_cons, Bool.and_eq_true, Node.fits, beq_iff_eq] at h
    obtain ⟨⟨⟨h1, h2⟩, h3⟩, h4⟩ := h
    simp only [momentI, momentV]
    push_cast
    have ih := momentI_val a l (by simpa only [Node.fits, Bool.and_eq_true, beq_iff_eq] using h4)
    rw [ih, sc_val h3, monoI_val (K := K) n.x a h1 (by simpa only [Bool.and_eq_true] using h2), pow_succ]
    ring

theorem momentOK_sound {S T : Nat} {pts : List Node} {a : List Nat} {r : Nat × Nat} (hS : S ≠ 0) (hT : T ≠ 0)
    (hf : pts.all (Node.fits a.length S) = true) (h : momentOK S T pts a r = true) :
    |momentV K a pts - (r.1 : K) / (r.2 : K)| ≤ 1 / (T : K) := by
  simp only [momentOK, Bool.and_eq_true, decide_eq_true_eq] at h
  obtain ⟨h0, h1⟩ := h
  have hs : (0 : K) < (S : K) ^ (a.sum + 1) := by
    have : (0 : K) < S := by exact_mod_cast Nat.pos_of_ne_zero hS
    positivity
  have hr : (0 : K) < r.2 := by exact_mod_cast Nat.pos_of_ne_zero h0
  have ht : (0 : K) < T := by exact_mod_cast Nat.pos_of_ne_zero hT
  have h2 : (((momentI S a pts * r.2 - (S ^ (a.sum + 1) * r.1 : Nat)).natAbs * T : Nat) : K) ≤
      ((S ^ (a.sum + 1) * r.2 : Nat) : K) := by exact_mod_cast h1
  rw [Nat.cast_mul, Nat.cast_natAbs, Int.cast_abs] at h2
  push_cast at h2
  rw [momentI_val (K := K) a pts hf] at h2
  have e : (S : K) ^ (a.sum + 1) * momentV K a pts * r.2 - (S : K) ^ (a.sum + 1) * r.1 =
      (S : K) ^ (a.sum + 1) * r.2 * (momentV K a pts - r.1 / r.2) := by
    field_simp
  rw [e, abs_mul, abs_of_pos (mul_pos hs hr)] at h2
  rw [le_div_iff₀ ht]
  have := le_of_mul_le_mul_left (a := (S : K) ^ (a.sum + 1) * r.2) (b := |momentV K a pts - r.1 / r.2| * T) (c := 1)
    (by linarith) (mul_pos hs hr)
  exact this

theorem momentsOK_sound {d S T : Nat} {exact : List Nat → Nat × Nat} {r : Row}
    (h : r.momentsOK d S T exact = true) (a : List Nat) (hd : a.length = d) (ha : a.sum ≤ r.order) :
    |momentV K a r.pts - ((exact a).1 : K) / ((exact a).2 : K)| ≤ 1 / (T : K) := by
  simp only [Row.momentsOK, Bool.and_eq_true, decide_eq_true_eq] at h
  obtain ⟨⟨⟨hS, hT⟩, hf⟩, hm⟩ := h
  subst hd
  exact momentOK_sound hS hT hf (List.all_eq_true.mp hm a (mem_multis a _ ha))

/-! ### From tabulated points to quadrature points -/

/-- the quadrature sum -/
def quadSum (g : Vec K → K) (l : List (QPoint K)) : K := (l.map fun q => q.weight * g q.position).sum

theorem monoV_eq : ∀ (xs : List Lit) (a : Nat → Nat),
    monoV K xs ((List.range xs.length).map a) =
      ∏ i ∈ range xs.length, (if h : i < xs.length then (xs[i].val : K) else 0) ^ a i
  | [], a => by simp [monoV]
  | x :: xs, a => by
    change monoV K (x :: xs) ((List.range (xs.length + 1)).map a) = ∏ i ∈ range (xs.length + 1), _
    rw [List.range_succ_eq_map, List.map_cons, List.map_map, prod_range_succ', mul_comm]
    simp only [monoV]
    congr 1
    · rw [show (List.range xs.length).map (a ∘ Nat.succ) = (List.range xs.length).map (fun i => a (i + 1)) from rfl,
        monoV_eq xs (fun i => a (i + 1))]
      apply prod_congr rfl
      intro i hi
      have hi' : i < xs.length := by simpa using hi
      rw [dif_pos hi', dif_pos (by simpa using hi')]
      rfl

theorem mono_point (n : Node) (d : Nat) (hd : n.x.length = d) (a : Nat → Nat) :
    mono d a (n.point (K := K)).position = monoV K n.x ((List.range d).map a) := by
  subst hd
  rw [monoV_eq]; rfl

theorem quadSum_points (d : Nat) (a : Nat → Nat) : ∀ (pts : List Node), (∀ n ∈ pts, n.x.length = d) →
    quadSum (mono d a) (pts.map (Node.point (K := K))) = momentV K ((List.range d).map a) pts
  | [], _ => by simp [quadSum, momentV]
  | n :: l, h => by
    have ih := quadSum_points d a l fun m hm => h m (by simp [hm])
    simp only [quadSum, List.map_cons, List.sum_cons, momentV, List.map_map] at ih ⊢
    rw [← ih, mono_point n d (h n (by simp)) a]
    rfl

theorem sum_map_range (d : Nat) (a : Nat → Nat) : ((List.range d).map a).sum = deg d a := by
  induction d with
  | zero => simp [deg]
  | succ d ih => rw [List.range_succ, List.map_append, List.sum_append, ih, deg_succ]; simp

/-- a checked row integrates every monomial of degree at most its order up to `1/T` -/
theorem row_moment {d S T : Nat} {exact : List Nat → Nat × Nat} {r : Row}
    (h : r.momentsOK d S T exact = true) (a : Nat → Nat) (ha : deg d a ≤ r.order) :
    |quadSum (mono d a) (r.pts.map (Node.point (K := K))) -
      ((exact ((List.range d).map a)).1 : K) / ((exact ((List.range d).map a)).2 : K)| ≤ 1 / (T : K) := by
  have hl : ∀ n ∈ r.pts, n.x.length = d := by
    simp only [Row.momentsOK, Bool.and_eq_true, decide_eq_true_eq] at h
    intro n hn
    have := List.all_eq_true.mp h.1.2 n hn
    simp only [Node.fits, Bool.and_eq_true, beq_iff_eq] at this
    exact this.1.1
  rw [quadSum_points d a _ hl]
  exact momentsOK_sound h _ (by simp) (by rw [sum_map_range]; exact ha)

end Verif.Quad
