import Verif.Quad.Model

/-
Model of the caches of `QuadratureRules::_rule`, quadraturerules.hh:275-305.

Every instantiation `QuadratureRules<ctype,dim>` owns one static cache, so the store is indexed by the
dimension.  The nested vectors of pairs (once flag, content) become three families of flags:
* `types dim qt`: the flag of `quadratureCache[qt]` and the size of `geometryTypes`,
* `orders dim qt i`: the flag of `geometryTypes[i]` and the size of `quadratureOrders`,
* `rules dim qt i k`: the flag of `quadratureOrders[k]` and the rule.
A reference to a rule is its place `(dim, qt, i, k)`; the vectors are never resized after their flag is set.

Simplification: one thread.  `std::call_once` (the standard library): the first call runs the function; if
that throws, the flag stays unset and the exception propagates; a call on a flag whose function is running
in the same thread never returns (`ub` here).
-/

namespace Verif.Quad

open Verif.Typ

variable {K : Type} [Field K]

/-- `std::once_flag` with the value that the guarded function has written -/
inductive Flag (V : Type) where
  | idle
  | running
  | done (v : V)

/-- quadraturerules.hh:263-270 and 281, all dimensions -/
structure Store (K : Type) where
  types : Nat → QType → Flag Nat
  orders : Nat → QType → Nat → Flag Nat
  rules : Nat → QType → Nat → Nat → Flag (Rule K)

/-- the store before the first request -/
def Store.empty : Store K := ⟨fun _ _ => .idle, fun _ _ _ => .idle, fun _ _ _ _ => .idle⟩

/-- a computation that may use the caches; an exception keeps the changes made so far -/
def CM (K : Type) (α : Type) : Type := Store K → Res α × Store K

/-- sequencing -/
def CM.bind {α β : Type} (x : CM K α) (f : α → CM K β) : CM K β := fun s =>
  match x s with
  | (.ok a, s') => f a s'
  | (.throw, s') => (.throw, s')
  | (.ub, s') => (.ub, s')

/-- a computation that does not touch the caches -/
def CM.lift {α : Type} (x : Res α) : CM K α := fun s => (x, s)

instance : Monad (CM K) where
  pure a := CM.lift (.ok a)
  bind := CM.bind

/-- `std::call_once` on the flag read by `get` and written by `set`, followed by a read of the value -/
def callOnce {V : Type} (get : Store K → Flag V) (set : Flag V → Store K → Store K) (init : CM K V) : CM K V := fun s =>
  match get s with
  | .done v => (.ok v, s)
  | .running => (.ub, s)
  | .idle =>
    match init (set .running s) with
    | (.ok v, s') => (.ok v, set (.done v) s')
    | (.throw, s') => (.throw, set .idle s')
    | (.ub, s') => (.ub, s')

/-- write access to a flag of the first family -/
def Store.setTypes (d : Nat) (qt : QType) (f : Flag Nat) (s : Store K) : Store K :=
  { s with types := fun d' qt' => if d' = d ∧ qt' = qt then f else s.types d' qt' }

/-- write access to a flag of the second family -/
def Store.setOrders (d : Nat) (qt : QType) (i : Nat) (f : Flag Nat) (s : Store K) : Store K :=
  { s with orders := fun d' qt' i' => if d' = d ∧ qt' = qt ∧ i' = i then f else s.orders d' qt' i' }

/-- write access to a flag of the third family -/
def Store.setRules (d : Nat) (qt : QType) (i k : Nat) (f : Flag (Rule K)) (s : Store K) : Store K :=
  { s with rules := fun d' qt' i' k' => if d' = d ∧ qt' = qt ∧ i' = i ∧ k' = k then f else s.rules d' qt' i' k' }

/-- quadraturerules.hh:275-305 `_rule` with the caches; `maxOrder` and `factory` are the functions of
`QuadratureRuleFactory<ctype,dim>` (the first does not use the caches) -/
def cachedRuleWith (dim : Nat) (t : GeometryType) (p : Int) (qt : QType) (maxOrder : Res Nat)
    (factory : CM K (Rule K)) : CM K (Rule K) :=
  if t.dim ≠ dim then CM.lift .ub else do
  let size ← callOnce (·.types dim qt) (Store.setTypes dim qt) (CM.lift (.ofOption (localSize dim)))
  let index ← CM.lift (.ofOption (localIndex t))
  if size ≤ index then CM.lift .ub else do
  let numRules ← callOnce (·.orders dim qt index) (Store.setOrders dim qt index)
    (CM.lift (if dim = 0 then .ok 1 else maxOrder.bind fun m => .ok (m + 1)))
  let k : Int := if dim = 0 then 0 else p
  if k < 0 ∨ (numRules : Int) ≤ k then CM.lift .ub else
  callOnce (·.rules dim qt index k.toNat) (Store.setRules dim qt index k.toNat) factory

/-- `QuadratureRules<ctype,1>::rule` for the tabulated types, as in `rule1Tab` -/
def cachedRule1Tab (t : GeometryType) (p : Int) (qt : QType) : CM K (Rule K) :=
  cachedRuleWith 1 t p qt (maxOrder1 t qt) (CM.lift (factory1Tab t p qt))

/-- jacobiNquadrature.hh:98-123 `decideRuleExponent` with the caches -/
def cachedDecideRuleExponent (env : Env K) (degree alpha : Int) : CM K (List (QPoint K)) :=
  if alpha = 0 then do return (← cachedRule1Tab line degree .GaussLegendre).pts
  else if alpha = 1 then do return scaleWeights (1 / 2) (← cachedRule1Tab line degree .GaussJacobi_1_0).pts
  else if alpha = 2 then do return scaleWeights (1 / 4) (← cachedRule1Tab line degree .GaussJacobi_2_0).pts
  else CM.lift (useLapackOrError env degree alpha)

/-- jacobiNquadrature.hh:69-76 `decideRule` with the caches -/
def cachedDecideRule (env : Env K) (degree alpha : Int) : CM K (List (QPoint K)) :=
  if toU32 degree < 61 then cachedDecideRuleExponent env degree alpha
  else CM.lift (useLapackOrError env degree alpha)

/-- jacobiNquadrature.hh:52-62 with the caches -/
def cachedJacobiN (env : Env K) (order alpha : Int) : CM K (Rule K) :=
  if toU32 order > jacobiNMaxOrder then CM.lift .throw else do
  let rule ← cachedDecideRule env order alpha
  return ⟨line, 2 * rule.length - 1, rule⟩

/-- quadraturerules.hh:436-460 with the caches -/
def cachedFactory1 (env : Env K) (t : GeometryType) (p : Int) (qt : QType) : CM K (Rule K) :=
  if isLine t then
    match tableOf qt with
    | some (table, _) => CM.lift (rule1D table p)
    | none => cachedJacobiN env p 0
  else CM.lift .throw

/-- `QuadratureRules<ctype,1>::rule` -/
def cachedRule1 (env : Env K) (t : GeometryType) (p : Int) (qt : QType) : CM K (Rule K) :=
  cachedRuleWith 1 t p qt (maxOrder1 t qt) (cachedFactory1 env t p qt)

/-- tensorproductquadrature.hh:39-52 with the caches -/
def cachedTensorRule (env : Env K) (dim topologyId : Nat) (order : Int) (qt : QType) (base : CM K (Rule K)) :
    CM K (Rule K) := do
  let baseQuad ← base
  if topologyId.testBit (dim - 1) then do
    let onedQuad ← cachedRule1 env line order qt
    return ⟨mk2 topologyId dim, order, tensorProduct dim baseQuad.pts onedQuad.pts⟩
  else if qt ≠ .GaussJacobi_n_0 then do
    let onedQuad ← cachedRule1 env line (order + (dim - 1 : Nat)) qt
    return ⟨mk2 topologyId dim, order, conicalProduct dim false baseQuad.pts onedQuad.pts⟩
  else do
    let onedQuad ← cachedJacobiN env order (dim - 1 : Nat)
    return ⟨mk2 topologyId dim, order, conicalProduct dim true baseQuad.pts onedQuad.pts⟩

/-- quadraturerules.hh:377-380, 396-403, 477-486, 506-522 with the caches -/
def cachedFactory (env : Env K) (dim : Nat) (t : GeometryType) (p : Int) (qt : QType)
    (base : CM K (Rule K)) : CM K (Rule K) :=
  match dim with
  | 0 => if isVertex t then CM.lift (.ok pointRule) else CM.lift .throw
  | 1 => cachedFactory1 env t p qt
  | 2 =>
    if isSimplex t ∧ (qt = .GaussLegendre ∨ qt = .GaussJacobi_n_0) ∧ p ≤ simplex2Highest then CM.lift (simplex2Rule p)
    else cachedTensorRule env 2 t.id p qt base
  | 3 =>
    if isSimplex t ∧ (qt = .GaussLegendre ∨ qt = .GaussJacobi_n_0) ∧ p ≤ simplex3Highest then CM.lift (simplex3Rule p)
    else if isPrism t ∧ qt = .GaussLegendre ∧ p ≤ prism3Highest then CM.lift (prism3Rule p)
    else cachedTensorRule env 3 t.id p qt base
  | d => cachedTensorRule env d t.id p qt base

/-- quadraturerules.hh:326-329 `QuadratureRules<ctype,dim>::rule(t, p, qt)` with the caches -/
def cachedRule (env : Env K) : (dim : Nat) → GeometryType → Int → QType → CM K (Rule K)
  | 0, t, p, qt => cachedRuleWith 0 t p qt (maxOrder 0 t qt) (cachedFactory env 0 t p qt (CM.lift .ub))
  | d + 1, t, p, qt =>
    cachedRuleWith (d + 1) t p qt (maxOrder (d + 1) t qt)
      (cachedFactory env (d + 1) t p qt (cachedRule env d (baseTypeOf (d + 1) t.id) p qt))

/-- a call of `QuadratureRules<ctype,dim>::rule` -/
structure Request where
  dim : Nat
  type : GeometryType
  order : Int
  qt : QType

/-- the answers to a list of calls, in order, and the store after them -/
def serve (env : Env K) : List Request → Store K → List (Res (Rule K)) × Store K
  | [], s => ([], s)
  | q :: l, s =>
    let (a, s') := cachedRule env q.dim q.type q.order q.qt s
    let (as, s'') := serve env l s'
    (a :: as, s'')

/-- the place in the cache to which the reference returned for a request points -/
def Request.place (q : Request) : Option (Nat × QType × Nat × Nat) := do
  let i ← localIndex q.type
  return (q.dim, q.qt, i, if q.dim = 0 then 0 else q.order.toNat)

end Verif.Quad
