import Verif.Quad.Cache

/-
Model of concurrent calls of `QuadratureRules::rule`, quadraturerules.hh:275-329.

`Verif/Quad/Cache.lean` runs a request to its end before the next one starts.  Here the same functions are programs whose
calls of `std::call_once` are separate steps, and the steps of any number of threads interleave in any order.

`std::call_once(flag, f)` (C++ standard, [thread.once.callonce]): if no execution is active and none has returned, the calling
thread starts to execute `f`; if an execution is active in another thread, the calling thread waits until it is over; if `f`
throws, the flag is as before, the exception propagates, and one of the waiting threads starts its own function; once an
execution has returned, all calls return without doing anything, and see what it has written.  A call on a flag whose function
is active in the same thread waits for ever, like a call on a flag that is active elsewhere.  The construction of the static
vector `quadratureCache` is thread safe by the language.

The guarded content is written by the function that the flag guards (lines 287, 294, 302) and read after `call_once` has
returned.  In the model it is written by the step that ends the function and read from the finished flag.
-/

namespace Verif.Quad

open Verif.Typ

variable {K : Type} [Field K]

/-- the flags of the three families of `Store` -/
inductive FlagId where
  | types (d : Nat) (qt : QType)
  | orders (d : Nat) (qt : QType) (i : Nat)
  | rules (d : Nat) (qt : QType) (i k : Nat)
  deriving DecidableEq

/-- what a flag guards -/
abbrev FlagId.Val (K : Type) : FlagId → Type
  | .types _ _ => Nat
  | .orders _ _ _ => Nat
  | .rules _ _ _ _ => Rule K

/-- read access -/
def Store.get (s : Store K) : (f : FlagId) → Flag (f.Val K)
  | .types d qt => s.types d qt
  | .orders d qt i => s.orders d qt i
  | .rules d qt i k => s.rules d qt i k

/-- write access -/
def Store.put (s : Store K) : (f : FlagId) → Flag (f.Val K) → Store K
  | .types d qt, x => s.setTypes d qt x
  | .orders d qt i, x => s.setOrders d qt i x
  | .rules d qt i k, x => s.setRules d qt i k x

/-- a program: the end, or `call_once` followed by a read of the guarded value -/
inductive Prog (K : Type) : Type → Type 1
  | ret {α : Type} (r : Res α) : Prog K α
  | once {α : Type} (f : FlagId) (init : Prog K (f.Val K)) (k : f.Val K → Prog K α) : Prog K α

/-- sequencing -/
def Prog.bind {α β : Type} : Prog K α → (α → Prog K β) → Prog K β
  | .ret (.ok a), g => g a
  | .ret .throw, _ => .ret .throw
  | .ret .ub, _ => .ret .ub
  | .once f init k, g => .once f init fun v => (k v).bind g

instance : Monad (Prog K) where
  pure a := .ret (.ok a)
  bind := Prog.bind

/-- execution by one thread without interruption, in terms of the sequential model -/
def Prog.exec {α : Type} : Prog K α → CM K α
  | .ret r => CM.lift r
  | .once f init k => CM.bind (callOnce (fun s => s.get f) (fun x s => s.put f x) init.exec) fun v => (k v).exec

/-! ### The programs, as in `Verif/Quad/Cache.lean` -/

/-- quadraturerules.hh:275-305 `_rule` -/
def progRuleWith (dim : Nat) (t : GeometryType) (p : Int) (qt : QType) (maxOrder : Res Nat)
    (factory : Prog K (Rule K)) : Prog K (Rule K) :=
  if t.dim ≠ dim then .ret .ub else
  .once (.types dim qt) (.ret (.ofOption (localSize dim))) fun (size : Nat) =>
  (Prog.ret (.ofOption (localIndex t))).bind fun index =>
  if size ≤ index then .ret .ub else
  .once (.orders dim qt index) 
    (.ret (if dim = 0 then .ok 1 else maxOrder.bind fun m => .ok (m + 1) : Res Nat)) fun (numRules : Nat) =>
  let k : Int := if dim = 0 then 0 else p
  if k < 0 ∨ (numRules : Int) ≤ k then .ret .ub else
  .once (.rules dim qt index k.toNat) factory fun R => .ret (.ok R)

/-- `QuadratureRules<ctype,1>::rule` for the tabulated types -/
def progRule1Tab (t : GeometryType) (p : Int) (qt : QType) : Prog K (Rule K) :=
  progRuleWith 1 t p qt (maxOrder1 t qt) (.ret (factory1Tab t p qt))

/-- jacobiNquadrature.hh:98-123 `decideRuleExponent` -/
def progDecideRuleExponent (env : Env K) (degree alpha : Int) : Prog K (List (QPoint K)) :=
  if alpha = 0 then (progRule1Tab line degree .GaussLegendre).bind fun R => .ret (.ok R.pts)
  else if alpha = 1 then (progRule1Tab line degree .GaussJacobi_1_0).bind fun R => .ret (.ok (scaleWeights (1 / 2) R.pts))
  else if alpha = 2 then (progRule1Tab line degree .GaussJacobi_2_0).bind fun R => .ret (.ok (scaleWeights (1 / 4) R.pts))
  else .ret (useLapackOrError env degree alpha)

/-- jacobiNquadrature.hh:69-76 `decideRule` -/
def progDecideRule (env : Env K) (degree alpha : Int) : Prog K (List (QPoint K)) :=
  if toU32 degree < 61 then progDecideRuleExponent env degree alpha
  else .ret (useLapackOrError env degree alpha)

/-- jacobiNquadrature.hh:52-62 -/
def progJacobiN (env : Env K) (order alpha : Int) : Prog K (Rule K) :=
  if toU32 order > jacobiNMaxOrder then .ret .throw else
  (progDecideRule env order alpha).bind fun rule => .ret (.ok ⟨line, 2 * rule.length - 1, rule⟩)

/-- quadraturerules.hh:436-460 -/
def progFactory1 (env : Env K) (t : GeometryType) (p : Int) (qt : QType) : Prog K (Rule K) :=
  if isLine t then
    match tableOf qt with
    | some (table, _) => .ret (rule1D table p)
    | none => progJacobiN env p 0
  else .ret .throw

/-- `QuadratureRules<ctype,1>::rule` -/
def progRule1 (env : Env K) (t : GeometryType) (p : Int) (qt : QType) : Prog K (Rule K) :=
  progRuleWith 1 t p qt (maxOrder1 t qt) (progFactory1 env t p qt)

/-- tensorproductquadrature.hh:39-52 -/
def progTensorRule (env : Env K) (dim topologyId : Nat) (order : Int) (qt : QType) (base : Prog K (Rule K)) :
    Prog K (Rule K) :=
  base.bind fun baseQuad =>
  if topologyId.testBit (dim - 1) then
    (progRule1 env line order qt).bind fun onedQuad =>
    .ret (.ok ⟨mk2 topologyId dim, order, tensorProduct dim baseQuad.pts onedQuad.pts⟩)
  else if qt ≠ .GaussJacobi_n_0 then
    (progRule1 env line (order + (dim - 1 : Nat)) qt).bind fun onedQuad =>
    .ret (.ok ⟨mk2 topologyId dim, order, conicalProduct dim false baseQuad.pts onedQuad.pts⟩)
  else
    (progJacobiN env order (dim - 1 : Nat)).bind fun onedQuad =>
    .ret (.ok ⟨mk2 topologyId dim, order, conicalProduct dim true baseQuad.pts onedQuad.pts⟩)

/-- quadraturerules.hh:377-380, 396-403, 477-486, 506-522 -/
def progFactory (env : Env K) (dim : Nat) (t : GeometryType) (p : Int) (qt : QType)
    (base : Prog K (Rule K)) : Prog K (Rule K) :=
  match dim with
  | 0 => if isVertex t then .ret (.ok pointRule) else .ret .throw
  | 1 => progFactory1 env t p qt
  | 2 =>
    if isSimplex t ∧ (qt = .GaussLegendre ∨ qt = .GaussJacobi_n_0) ∧ p ≤ simplex2Highest then .ret (simplex2Rule p)
    else progTensorRule env 2 t.id p qt base
  | 3 =>
    if isSimplex t ∧ (qt = .GaussLegendre ∨ qt = .GaussJacobi_n_0) ∧ p ≤ simplex3Highest then .ret (simplex3Rule p)
    else if isPrism t ∧ qt = .GaussLegendre ∧ p ≤ prism3Highest then .ret (prism3Rule p)
    else progTensorRule env 3 t.id p qt base
  | d => progTensorRule env d t.id p qt base

/-- quadraturerules.hh:326-329 `QuadratureRules<ctype,dim>::rule(t, p, qt)` -/
def progRule (env : Env K) : (dim : Nat) → GeometryType → Int → QType → Prog K (Rule K)
  | 0, t, p, qt => progRuleWith 0 t p qt (maxOrder 0 t qt) (progFactory env 0 t p qt (.ret .ub))
  | d + 1, t, p, qt =>
    progRuleWith (d + 1) t p qt (maxOrder (d + 1) t qt)
      (progFactory env (d + 1) t p qt (progRule env d (baseTypeOf (d + 1) t.id) p qt))

/-! ### Threads -/

/-- where a thread is: before the rest of a program, or inside of the function guarded by a flag, with the rest of the
caller -/
inductive Thread (K : Type) : Type → Type 1
  | run {α : Type} (p : Prog K α) : Thread K α
  | inside {α : Type} (f : FlagId) (t : Thread K (f.Val K)) (k : f.Val K → Prog K α) : Thread K α

/-- one step of a thread; `none`: it has finished, or it waits -/
def Thread.step {α : Type} : Thread K α → Store K → Option (Thread K α × Store K)
  | .run (.ret _), _ => none
  | .run (.once f init k), s =>
    match s.get f with
    | .done v => some (.run (k v), s)
    | .running => none
    | .idle => some (.inside f (.run init) k, s.put f .running)
  | .inside f (.run (.ret (.ok v))) k, s => some (.run (k v), s.put f (.done v))
  | .inside f (.run (.ret .throw)) _, s => some (.run (.ret .throw), s.put f .idle)
  | .inside _ (.run (.ret .ub)) _, s => some (.run (.ret .ub), s)
  | .inside f (.run (.once f' init k')) k, s =>
    ((Thread.run (.once f' init k')).step s).map fun x => (.inside f x.1 k, x.2)
  | .inside f (.inside f' t k') k, s =>
    ((Thread.inside f' t k').step s).map fun x => (.inside f x.1 k, x.2)

/-- a thread of the user's program: the answers so far, the call in progress, the calls to come -/
structure Worker (K : Type) where
  answers : List (Res (Rule K))
  current : Option (Thread K (Rule K))
  todo : List Request

/-- one step of a thread of the user's program: start a call, make a step of a call, or take its answer -/
def Worker.step (env : Env K) (w : Worker K) (s : Store K) : Option (Worker K × Store K) :=
  match w.current, w.todo with
  | none, [] => none
  | none, q :: l => some (⟨w.answers, some (.run (progRule env q.dim q.type q.order q.qt)), l⟩, s)
  | some (.run (.ret r)), l => some (⟨w.answers ++ [r], none, l⟩, s)
  | some t, l => (t.step s).map fun x => (⟨w.answers, some x.1, l⟩, x.2)

/-- all threads and the caches -/
structure System (K : Type) (n : Nat) where
  workers : Fin n → Worker K
  store : Store K

/-- the beginning: empty caches, and every thread has a list of calls to make -/
def System.start {n : Nat} (calls : Fin n → List Request) : System K n := ⟨fun i => ⟨[], none, calls i⟩, Store.empty⟩

/-- one step of the system: thread `i` makes a step -/
inductive System.Step (env : Env K) {n : Nat} : System K n → System K n → Prop
  | step (S : System K n) (i : Fin n) (w : Worker K) (s : Store K) (h : (S.workers i).step env S.store = some (w, s)) :
    System.Step env S ⟨Function.update S.workers i w, s⟩

end Verif.Quad
