import Verif.Type.Model
import Mathlib.Data.Nat.Bitwise
import Mathlib.Tactic.Ring
import Mathlib.Tactic.Linarith
import Mathlib.Tactic.NormNum

/-! Helper lemmas about the bit operations of `Verif.Type.Model`. -/

namespace Verif.Typ

theorem or_one_eq (n : Nat) : n ||| 1 = 2 * (n / 2) + 1 := by
  apply Nat.eq_of_testBit_eq
  intro i
  cases i with
  | zero => simp [Nat.testBit_zero]
  | succ i =>
    rw [Nat.testBit_or, Nat.testBit_succ, Nat.testBit_succ, Nat.testBit_succ]
    have : (2 * (n / 2) + 1) / 2 = n / 2 := by omega
    simp [this]

theorem shr_one (n : Nat) : n >>> 1 = n / 2 := by simp [Nat.shiftRight_eq_div_pow]

theorem clearBit0_eq (n : Nat) : clearBit0 n = 2 * (n / 2) := by
  simp [clearBit0, Nat.shiftLeft_eq, shr_one, Nat.mul_comm]

theorem testBit_clearBit0 (n k : Nat) : (clearBit0 n).testBit k = (decide (0 < k) && n.testBit k) := by
  cases k with
  | zero => simp [clearBit0_eq, Nat.testBit_zero]
  | succ k =>
    rw [Nat.testBit_succ, Nat.testBit_succ, clearBit0_eq]
    simp

theorem testBit_or_one (n k : Nat) : (n ||| 1).testBit k = (decide (k = 0) || n.testBit k) := by
  cases k with
  | zero => simp
  | succ k => rw [Nat.testBit_or]; simp [Nat.testBit_succ]

theorem and_two_pow_eq_zero (n k : Nat) : ((n &&& 2 ^ k) == 0) = !(n.testBit k) := by
  rw [Nat.and_two_pow]
  cases n.testBit k <;> simp

theorem and_two_pow_ne_zero (n k : Nat) : ((n &&& 2 ^ k) != 0) = n.testBit k := by
  rw [Nat.and_two_pow]
  cases n.testBit k <;> simp

theorem implIsPrism_eq (id d : Nat) :
    implIsPrism id (d + 1) 0 = (decide (d = 0) || id.testBit d) := by
  simp only [implIsPrism, Nat.sub_zero, Nat.add_sub_cancel, Nat.one_shiftLeft]
  rw [and_two_pow_ne_zero, testBit_or_one]

theorem implIsPyramid_eq (id d : Nat) :
    implIsPyramid id (d + 1) 0 = (decide (d = 0) || !id.testBit d) := by
  simp only [implIsPyramid, Nat.sub_zero, Nat.add_sub_cancel, Nat.one_shiftLeft]
  rw [and_two_pow_eq_zero, testBit_clearBit0]
  cases d <;> simp

theorem implBase_eq (id d c : Nat) : implBaseTopologyId id d c = id % 2 ^ (d - c) := by
  simp only [implBaseTopologyId, Nat.one_shiftLeft, Nat.and_two_pow_sub_one_eq_mod]

theorem half_eq_iff (a b : Nat) : a / 2 = b / 2 ↔ ∀ k, 0 < k → a.testBit k = b.testBit k := by
  constructor
  · intro h k hk
    obtain ⟨k, rfl⟩ : ∃ j, k = j + 1 := ⟨k - 1, by omega⟩
    rw [Nat.testBit_succ, Nat.testBit_succ, h]
  · intro h
    apply Nat.eq_of_testBit_eq
    intro i
    have := h (i + 1) (by omega)
    rwa [Nat.testBit_succ, Nat.testBit_succ] at this

theorem toU32_ofNat {n : Nat} (h : n < 2 ^ 32) : toU32 (n : Int) = n := by
  unfold toU32; omega

theorem toU64_ofNat {n : Nat} (h : n < 2 ^ 64) : toU64 (n : Int) = n := by
  unfold toU64; omega

theorem shl1_lt {d : Nat} (h : d ≤ 30) : shl1 d = some ((2 ^ d : Nat) : Int) := by
  have : d < 31 := by omega
  simp [shl1, this]

theorem pow_le_30 {d : Nat} (h : d ≤ 30) : 2 ^ d ≤ 2 ^ 30 := Nat.pow_le_pow_right (by omega) h

theorem intOk_pow_sub_one {d : Nat} (h : d ≤ 30) :
    intOk (((2 ^ d : Nat) : Int) - 1) = some ((2 ^ d - 1 : Nat) : Int) := by
  have h1 := pow_le_30 h
  have h2 : 0 < 2 ^ d := Nat.two_pow_pos d
  unfold intOk
  rw [if_pos (by omega)]
  congr 1
  omega

theorem regularSize_eq {d : Nat} (h : d ≤ 30) : regularSize d = some (2 ^ d - 2 ^ d / 2) := by
  have h1 := pow_le_30 h
  have h2 : 0 < 2 ^ d := Nat.two_pow_pos d
  have h4 : (((2 ^ d : Nat) : Int) - ((2 ^ d : Nat) : Int) / 2) = ((2 ^ d - 2 ^ d / 2 : Nat) : Int) := by
    omega
  have h3 : intOk (((2 ^ d : Nat) : Int) - ((2 ^ d : Nat) : Int) / 2)
      = some ((2 ^ d - 2 ^ d / 2 : Nat) : Int) := by
    unfold intOk
    rw [if_pos (by omega), h4]
  unfold regularSize
  rw [shl1_lt h]
  simp only [Option.bind_eq_bind, Option.bind_some, h3, Option.pure_def]
  rw [toU64_ofNat (by omega)]

theorem regularOffset_eq {d : Nat} (h : d ≤ 30) : regularOffset d = some (2 ^ d / 2) := by
  have h1 := pow_le_30 h
  have h4 : (((2 ^ d : Nat) : Int) / 2) = ((2 ^ d / 2 : Nat) : Int) := by omega
  unfold regularOffset
  rw [shl1_lt h]
  simp only [Option.bind_eq_bind, Option.bind_some, Option.pure_def, h4]
  rw [toU64_ofNat (by omega)]

theorem cube_eq {d : Nat} (h : d ≤ 30) (h1 : 1 < d) : cube d = some (mk3 (2 ^ d - 1) d false) := by
  have h3 := pow_le_30 h
  unfold cube
  rw [if_pos h1, shl1_lt h]
  simp only [Option.bind_eq_bind, Option.bind_some, intOk_pow_sub_one h, Option.pure_def]
  rw [toU32_ofNat (by omega)]

theorem isCube_eq {g : GeometryType} (hn : g.isNone = false) (h : g.dim ≤ 30) :
    isCube g = some ((g.id ^^^ (2 ^ g.dim - 1)) >>> 1 == 0) := by
  have h3 := pow_le_30 h
  unfold isCube
  rw [hn, shl1_lt h]
  simp only [Bool.false_eq_true, if_false, Option.bind_eq_bind, Option.bind_some,
    intOk_pow_sub_one h, Option.pure_def]
  rw [toU32_ofNat (by omega)]

theorem shl1u_pred {d : Nat} (h0 : 0 < d) (h : d ≤ 32) : shl1u ((d : Int) - 1) = some (2 ^ (d - 1)) := by
  unfold shl1u
  rw [if_pos (by omega)]
  congr 2
  omega

theorem isConical_eq {g : GeometryType} (hn : g.isNone = false) (h0 : 0 < g.dim) (h : g.dim ≤ 32) :
    isConical g = some (decide (g.dim = 1) || !g.id.testBit (g.dim - 1)) := by
  unfold isConical
  rw [hn, shl1u_pred h0 h]
  simp only [Bool.false_eq_true, if_false, Option.bind_eq_bind, Option.bind_some, Option.pure_def]
  rw [and_two_pow_eq_zero, testBit_clearBit0]
  congr 1
  have : decide (0 < g.dim - 1) = !decide (g.dim = 1) := by
    by_cases h1 : g.dim = 1 <;> simp [h1]; omega
  rw [this]
  cases decide (g.dim = 1) <;> simp

theorem isPrismatic_eq {g : GeometryType} (hn : g.isNone = false) (h0 : 0 < g.dim) (h : g.dim ≤ 32) :
    isPrismatic g = some (decide (g.dim = 1) || g.id.testBit (g.dim - 1)) := by
  unfold isPrismatic
  rw [hn, shl1u_pred h0 h]
  simp only [Bool.false_eq_true, if_false, Option.bind_eq_bind, Option.bind_some, Option.pure_def]
  rw [and_two_pow_ne_zero, testBit_or_one]
  congr 2
  have : (g.dim - 1 = 0) ↔ g.dim = 1 := by omega
  simp [this]

theorem prismaticExtension_eq {g : GeometryType} (h : g.dim ≤ 30) :
    prismaticExtension g = some (mk3 (g.id ||| 2 ^ g.dim) (g.dim + 1) g.isNone) := by
  have h3 := pow_le_30 h
  unfold prismaticExtension
  rw [shl1_lt h]
  simp only [Option.bind_eq_bind, Option.bind_some, Option.pure_def]
  rw [toU32_ofNat (by omega)]

theorem getBase_eq {g : GeometryType} (h0 : 0 < g.dim) (h : g.dim ≤ 31) :
    getBase g = some (mk3 (g.id % 2 ^ (g.dim - 1)) (g.dim - 1) g.isNone) := by
  have h3 := pow_le_30 (d := g.dim - 1) (by omega)
  have h4 : g.dim - 1 ≤ 30 := by omega
  unfold getBase
  rw [if_neg (by omega), shl1_lt h4]
  simp only [Option.bind_eq_bind, Option.bind_some, intOk_pow_sub_one h4, Option.pure_def]
  rw [toU32_ofNat (by omega), Nat.and_two_pow_sub_one_eq_mod]

theorem toId_layout {g : GeometryType} (h : g.InRange) :
    toId g = g.dim + 2 ^ 8 * (cond g.isNone 1 0) + 2 ^ 32 * g.id := by
  obtain ⟨h1, h2⟩ := h
  unfold toId
  have e1 : g.dim ||| (cond g.isNone 1 0) <<< 8 = (cond g.isNone 1 0) <<< 8 + g.dim := by
    rw [Nat.or_comm, Nat.shiftLeft_add_eq_or_of_lt h1]
  have h3 : (cond g.isNone 1 0) <<< 8 + g.dim < 2 ^ 32 := by
    rw [Nat.shiftLeft_eq]; cases g.isNone <;> simp <;> omega
  rw [e1, Nat.or_comm, ← Nat.shiftLeft_add_eq_or_of_lt h3, Nat.shiftLeft_eq, Nat.shiftLeft_eq]
  ring

theorem and_256 (n : Nat) : decide (n &&& 0x100 ≠ 0) = n.testBit 8 := by
  have : (0x100 : Nat) = 2 ^ 8 := by norm_num
  rw [this, Nat.and_two_pow]
  cases n.testBit 8 <;> simp

theorem ofId_toId {g : GeometryType} (h : g.InRange) : ofId (toId g) = g := by
  have hl := toId_layout h
  obtain ⟨h1, h2⟩ := h
  obtain ⟨d, n, i⟩ := g
  simp only at hl h1 h2
  unfold ofId
  rw [and_256, hl]
  have e : (0xFF : Nat) = 2 ^ 8 - 1 := by norm_num
  have a1 : ((d + 2 ^ 8 * (cond n 1 0) + 2 ^ 32 * i) &&& 0xFF) % 2 ^ 8 = d := by
    rw [e, Nat.and_two_pow_sub_one_eq_mod]; omega
  have a3 : ((d + 2 ^ 8 * (cond n 1 0) + 2 ^ 32 * i) >>> 32) % 2 ^ 32 = i := by
    rw [Nat.shiftRight_eq_div_pow]; cases n <;> simp <;> omega
  have a2 : (d + 2 ^ 8 * (cond n 1 0) + 2 ^ 32 * i).testBit 8 = n := by
    rw [Nat.testBit_eq_decide_div_mod_eq]
    cases n <;> simp <;> omega
  rw [a1, a2, a3]

theorem mk3_eq {i d : Nat} {b : Bool} (hi : i < 2 ^ 32) (hd : d < 2 ^ 8) : mk3 i d b = ⟨d, b, i⟩ := by
  simp only [mk3, Nat.mod_eq_of_lt hi, Nat.mod_eq_of_lt hd]

theorem eq_iff (a b : GeometryType) :
    eq a b = true ↔ a.isNone = b.isNone ∧ (a.isNone = true ∨ (a.dim = b.dim ∧ a.id / 2 = b.id / 2)) := by
  simp [eq, shr_one]

theorem lt_iff (a b : GeometryType) :
    lt a b = true ↔ (a.isNone = false ∧ b.isNone = true) ∨
      (a.isNone = b.isNone ∧ (a.dim < b.dim ∨ (b.dim = a.dim ∧ a.id / 2 < b.id / 2))) := by
  simp only [lt, boolLt, shr_one]
  cases a.isNone <;> cases b.isNone <;> simp

theorem half_lt_pow {i d : Nat} (h : i < 2 ^ d) : i / 2 < 2 ^ d - 2 ^ d / 2 := by
  cases d with
  | zero => simp at h; subst h; simp
  | succ d => rw [pow_succ] at *; omega

end Verif.Typ
