import Verif.Spec.ScopeGuard
/-!
# Model of scope_guard, scope_fail and scope_success

Models `/repo/include/muu/scope_guard.h`. Programs are those of `Spec.ScopeGuard`, executed with the number of uncaught
exceptions of the thread, as C++ keeps it: thrown exceptions count until their handler is entered. The guards are dismissable
(the default, and all that scope_guard, scope_fail and scope_success use); where the callable is kept is not modelled. A guard
lives on the stack: the copy and move operations are deleted (a guard created with new is not modelled).
-/
namespace Verif.Model.ScopeGuard
open Verif.Spec.ScopeGuard

/-- scope_guard_storage: a bool for the modes unaware of exceptions (lines 61–82, 98–134), otherwise one unsigned holding the
    count and the flag (lines 169–240) -/
inductive Storage where
  | flag (dismissed : Bool)
  | packed (data : BitVec 32)
deriving DecidableEq, Repr

/-- scope_guard_dismissed_mask, line 166 -/
def dismissedMask : BitVec 32 := 1#32 <<< (4 * 8 - 1)

/-- scope_guard_excount_mask, line 167 -/
def excountMask : BitVec 32 := ~~~dismissedMask

/-- std::uncaught_exceptions(), an int -/
def uncaught (count : Nat) : BitVec 32 := BitVec.ofNat 32 count

/-- the constructors, lines 67, 107–111, 175, 206–210; the selection of the storage, lines 248–253 -/
def init (kind : Kind) (count : Nat) : Storage :=
  match kind with
  | .always => .flag false
  | .onFail | .onSuccess => .packed (uncaught count)

/-- dismissed, lines 70–74, 123–127, 185–189, 228–232 -/
def dismissed : Storage → Bool
  | .flag b => b
  | .packed d => (d &&& dismissedMask) ≠ 0#32

/-- dismiss, lines 76–80, 129–133, 191–195, 234–238 -/
def dismiss : Storage → Storage
  | .flag _ => .flag true
  | .packed d => .packed (d ||| dismissedMask)

/-- uncaught_exceptions, lines 178–182, 221–225 -/
def saved : Storage → BitVec 32
  | .flag _ => 0#32
  | .packed d => d &&& excountMask

/-- the tests of ~scope_guard_base, lines 289–306: is the callable invoked? -/
def invokes (kind : Kind) (s : Storage) (count : Nat) : Bool :=
  match kind with
  | .onFail => if saved s = uncaught count then false else !dismissed s
  | .onSuccess => if saved s ≠ uncaught count then false else !dismissed s
  | .always => !dismissed s

structure Result where
  out : Out
  count : Nat
  guards : List Storage
  trace : List Event
deriving DecidableEq, Repr

/-- `s[k] := f s[k]` -/
def modify (k : Nat) (f : Storage → Storage) : List Storage → List Storage
  | [] => []
  | s :: l => match k with
    | 0 => f s :: l
    | k + 1 => s :: modify k f l

/-- C++: execution of a program with `count` exceptions uncaught and the given guards in scope. The callables are nothrow
    invocable (lines 261–263) and ~scope_guard_base is noexcept: an exception leaving them terminates the program. -/
def run : Prog → Nat → List Storage → Result
  | .emit n, count, g => ⟨.normal, count, g, [.effect n]⟩
  | .throw, count, g => ⟨.thrown, count + 1, g, []⟩
  | .seq p q, count, g =>
    let r := run p count g
    if r.out = .normal then
      let r' := run q r.count r.guards
      { r' with trace := r.trace ++ r'.trace }
    else r
  | .tryCatch p q, count, g =>
    let r := run p count g
    if r.out = .thrown then
      let r' := run q (r.count - 1) r.guards
      { r' with trace := r.trace ++ r'.trace }
    else r
  | .guard kind c p, count, g =>
    let r := run p count (init kind count :: g)
    match r.guards with
    | [] => r
    | s :: g =>
      if r.out = .terminated then { r with guards := g }
      else if invokes kind s r.count then
        let r' := run c r.count g
        ⟨if r'.out = .normal then r.out else .terminated, r'.count, r'.guards, r.trace ++ r'.trace⟩
      else { r with guards := g }
  | .object d p, count, g =>
    let r := run p count g
    if r.out = .terminated then r
    else
      let r' := run d r.count r.guards
      ⟨if r'.out = .normal then r.out else .terminated, r'.count, r'.guards, r.trace ++ r'.trace⟩
  | .dismiss k, count, g => ⟨.normal, count, modify k dismiss g, []⟩
  | .ask k, count, g => ⟨.normal, count, g, [.asked ((g[k]?.map dismissed).getD false)]⟩

end Verif.Model.ScopeGuard
