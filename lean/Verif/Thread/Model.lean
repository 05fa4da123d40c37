import Mathlib.Logic.Function.Basic

/-!
Threads that share an object, for the `mutable` members of the geometries: multilineargeometry.hh:722-728 and
localfiniteelementgeometry.hh:432.

The object consists of memory locations in the sense of the C++ standard, [intro.memory]; a sequence of adjacent bit-fields is
one location.  A function is a program of reads and writes of locations.  A write may depend on the old content (assignment
to a bit-field).  The threads neither use locks nor atomics, so no action of one thread happens before an action of another,
[intro.races]; they are created after the object is constructed, and joined before it is destroyed.  So two actions of
different threads on one location, one of them a write, are a data race, which is undefined behaviour.

Simplification: actions of different threads take effect in some order (sequential consistency).  For executions without a
data race the standard guarantees that; executions with a data race have no meaning anyway.
-/

namespace Verif.Thread

/-- a function as sequence of accesses -/
inductive Prog (C : Type) (V : C → Type) (α : Type) where
  | ret (a : α)
  | read (c : C) (k : V c → Prog C V α)
  | write (c : C) (f : V c → V c) (p : Prog C V α)

/-- content of the locations -/
abbrev Mem (C : Type) (V : C → Type) := (c : C) → V c

variable {C : Type} {V : C → Type} {α β ι : Type}

namespace Prog

/-- one function after another -/
def bind : Prog C V α → (α → Prog C V β) → Prog C V β
  | .ret a, f => f a
  | .read c k, f => .read c fun v => (k v).bind f
  | .write c g p, f => .write c g (p.bind f)

/-- change of the result -/
def map (f : α → β) (p : Prog C V α) : Prog C V β := p.bind fun a => .ret (f a)

/-- a list of calls, the results in a list -/
def seq : List (Prog C V α) → Prog C V (List α)
  | [] => .ret []
  | p :: ps => p.bind fun a => (seq ps).map fun as => a :: as

/-- execution without other threads -/
def solo [DecidableEq C] : Prog C V α → Mem C V → Mem C V × α
  | .ret a, m => (m, a)
  | .read c k, m => (k (m c)).solo m
  | .write c f p, m => p.solo (Function.update m c (f (m c)))

end Prog

/-- an access -/
structure Event (C ι : Type) where
  thread : ι
  cell : C
  isWrite : Bool

/-- memory and what the threads have still to do -/
structure Config (C : Type) (V : C → Type) (α ι : Type) where
  mem : Mem C V
  threads : ι → Prog C V α

/-- the next access of thread `t`, nothing if it has finished -/
def step [DecidableEq C] [DecidableEq ι] (t : ι) (s : Config C V α ι) : Config C V α ι × List (Event C ι) :=
  match s.threads t with
  | .ret _ => (s, [])
  | .read c k => (⟨s.mem, Function.update s.threads t (k (s.mem c))⟩, [⟨t, c, false⟩])
  | .write c f p => (⟨Function.update s.mem c (f (s.mem c)), Function.update s.threads t p⟩, [⟨t, c, true⟩])

/-- the threads make steps in the given order -/
def run [DecidableEq C] [DecidableEq ι] : List ι → Config C V α ι → Config C V α ι × List (Event C ι)
  | [], s => (s, [])
  | t :: ts, s => ((run ts (step t s).1).1, (step t s).2 ++ (run ts (step t s).1).2)

/-- data race -/
def Race (tr : List (Event C ι)) : Prop :=
  ∃ e ∈ tr, ∃ e' ∈ tr, e.thread ≠ e'.thread ∧ e.cell = e'.cell ∧ (e.isWrite = true ∨ e'.isWrite = true)

end Verif.Thread
