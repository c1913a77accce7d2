/-!
# What scope guards should do

A program is what a thread executes, with its loops and branches unrolled: C++ statements with exceptions, local objects
with destructors, and scope guards. Guards are named by their distance: `0` is the innermost guard in scope.
-/
namespace Verif.Spec.ScopeGuard

inductive Kind where
  | always     -- scope_guard
  | onFail     -- scope_fail
  | onSuccess  -- scope_success
deriving DecidableEq, Repr

inductive Prog where
  | emit (n : Nat)                                -- an observable effect
  | throw
  | seq (p q : Prog)
  | tryCatch (body handler : Prog)                -- try { body } catch (...) { handler }
  | guard (kind : Kind) (callable body : Prog)    -- { scope_X g{ callable }; body }
  | object (dtor body : Prog)                     -- { T t; body } where ~T() noexcept executes dtor
  | dismiss (k : Nat)                             -- g.dismiss()
  | ask (k : Nat)                                 -- observes g.dismissed()
deriving DecidableEq, Repr

inductive Event where
  | effect (n : Nat)
  | asked (b : Bool)
deriving DecidableEq, Repr

/-- how an execution ends; `terminated`: an exception left a noexcept function, std::terminate was called -/
inductive Out where
  | normal
  | thrown
  | terminated
deriving DecidableEq, Repr

/-- is the callable of a guard due, when its scope is left in this way? -/
def due : Kind → Out → Bool
  | _, .terminated => false
  | .always, _ => true
  | .onFail, o => o = .thrown
  | .onSuccess, o => o = .normal

/-- The reference: how `p` ends, which of the guards in scope are then dismissed, and what is observed. `dismissed` says which of
    the guards in scope are dismissed at the start. A guard is an entry of this list, nothing else. -/
def exec : Prog → List Bool → Out × List Bool × List Event
  | .emit n, g => (.normal, g, [.effect n])
  | .throw, g => (.thrown, g, [])
  | .seq p q, g =>
    let (o, g, t) := exec p g
    if o = .normal then
      let (o', g', t') := exec q g
      (o', g', t ++ t')
    else (o, g, t)
  | .tryCatch p q, g =>
    let (o, g, t) := exec p g
    if o = .thrown then
      let (o', g', t') := exec q g
      (o', g', t ++ t')
    else (o, g, t)
  | .guard kind c p, g =>
    let (o, g, t) := exec p (false :: g)
    if due kind o ∧ g.head? ≠ some true then
      let (o', g', t') := exec c g.tail
      (if o' = .normal then o else .terminated, g', t ++ t')
    else (o, g.tail, t)
  | .object d p, g =>
    let (o, g, t) := exec p g
    if o = .terminated then (o, g, t)
    else
      let (o', g', t') := exec d g
      (if o' = .normal then o else .terminated, g', t ++ t')
  | .dismiss k, g => (.normal, g.set k true, [])
  | .ask k, g => (.normal, g, [.asked (g.getD k false)])

/-- how many exceptions can be in flight at the same time -/
def depth : Prog → Nat
  | .emit _ | .dismiss _ | .ask _ => 0
  | .throw => 1
  | .seq p q | .tryCatch p q => max (depth p) (depth q)
  | .guard _ c p | .object c p => max (depth p) (depth c + 1)

/-- does `p` dismiss the guard at distance `k`? -/
def dismisses : Prog → Nat → Bool
  | .emit _, _ | .throw, _ | .ask _, _ => false
  | .dismiss j, k => j = k
  | .seq p q, k | .tryCatch p q, k => dismisses p k || dismisses q k
  | .guard _ c p, k => dismisses c k || dismisses p (k + 1)
  | .object d p, k => dismisses d k || dismisses p k

end Verif.Spec.ScopeGuard
