import Mathlib.Data.List.Basic
import Mathlib.Logic.Function.Basic

/-!
# Model of `muu::function_view` (`include/muu/function_view.h`)

Memory maps addresses to the objects that are alive there: function objects of some class, with their state, and
function views.  Calling a free function or a function object may change the rest of the world `W`; a function object's
call may also change its own state.  Arguments are passed on unchanged; forwarding and exception specifications are not
modelled.
-/

namespace Verif.Model.FunctionView

/-- What the code that can be viewed does: free functions, classes without any state, classes with state `σ`. -/
structure Code (σ W A R : Type) where
  /-- calls of a free function -/
  free : ℕ → W → A → W × R
  /-- calls of a fresh object of an empty, trivial class -/
  fresh : ℕ → W → A → W × R
  /-- calls of an object of a class, in the object's present state -/
  method : ℕ → σ → W → A → σ × W × R

/-- What the view's `invoker_` was set to: `function_view.h` 70, 92-97, 115-121, 131-139. -/
inductive Invoker where
  | null
  /-- makes an object of the class and calls it -/
  | fresh (cls : ℕ)
  /-- reads a function pointer from the payload -/
  | free
  /-- reads a pointer to an object of the class from the payload -/
  | object (cls : ℕ)
  /-- reads a pointer to another function view from the payload -/
  | view
  deriving DecidableEq

/-- `function_view_payload`: `function_view.h` 44-47. -/
inductive Payload where
  | zero
  /-- a function pointer, which may be null -/
  | function (f : Option ℕ)
  | address (a : ℕ)
  deriving DecidableEq

/-- `function_view_base`: `function_view.h` 70-71. -/
structure View where
  invoker : Invoker
  payload : Payload
  deriving DecidableEq

/-- The default constructor: `function_view.h` 70-71, 144-145, 209-211. -/
def View.null : View := ⟨.null, .zero⟩

/-- The expressions a view can be bound to. -/
inductive Source where
  /-- of an empty class with trivial constructor and destructor -/
  | manifestable (cls : ℕ)
  /-- a lambda without captures that is not default-constructible; `+` gives the function -/
  | lambda (f : ℕ)
  /-- a function, or a function pointer, which may be null -/
  | function (f : Option ℕ)
  /-- any other object of a class, at an address -/
  | object (cls a : ℕ)
  /-- a function view, at an address -/
  | view (a : ℕ)
  deriving DecidableEq

/-- `bind`: `function_view.h` 73-141. -/
def bindTo (v : View) : Source → View
  | .manifestable cls => { v with invoker := .fresh cls }
  | .lambda f => ⟨.free, .function (some f)⟩
  | .function f => ⟨.free, .function f⟩
  | .object cls a => ⟨.object cls, .address a⟩
  | .view a => ⟨.view, .address a⟩

/-- `operator bool`: `function_view.h` 165-169. -/
def View.toBool (v : View) : Bool := decide (v.invoker ≠ .null)

/-- What lives at an address. -/
inductive Obj (σ : Type) where
  | functor (cls : ℕ) (s : σ)
  | view (v : View)

/-- The objects that are alive. -/
abbrev Mem (σ : Type) := ℕ → Option (Obj σ)

/-- What a call comes to. -/
inductive Outcome (β : Type) where
  | ok (b : β)
  /-- undefined behaviour: a call through a null pointer, or of an object that is not there -/
  | undefined
  /-- the call does not end within the given number of views -/
  | running

variable {σ W A R : Type}

/-- `operator()`: `function_view.h` 159-163 and the invokers 92-97, 115-121, 131-139, through at most `n` views. -/
def call (code : Code σ W A R) : ℕ → View → Mem σ → W → A → Outcome (Mem σ × W × R)
  | 0, _, _, _, _ => .running
  | n + 1, v, m, w, x =>
    match v.invoker, v.payload with
    | .fresh cls, _ => let r := code.fresh cls w x; .ok (m, r.1, r.2)
    | .free, .function (some f) => let r := code.free f w x; .ok (m, r.1, r.2)
    | .object cls, .address a =>
      match m a with
      | some (.functor k s) =>
        if k = cls then
          let r := code.method k s w x
          .ok (Function.update m a (some (.functor k r.1)), r.2.1, r.2.2)
        else .undefined
      | _ => .undefined
    | .view, .address a =>
      match m a with
      | some (.view u) => call code n u m w x
      | _ => .undefined
    | _, _ => .undefined

/-- What a program does with views and what they view. -/
inductive Op (σ A : Type) where
  /-- `Class obj{ ... };` -/
  | functor (a cls : ℕ) (s : σ)
  /-- `function_view v;` -/
  | null (a : ℕ)
  /-- `function_view v{ source };` -/
  | construct (a : ℕ) (s : Source)
  /-- `function_view v{ u };` where `u` is a constant function view -/
  | copyConst (a b : ℕ)
  /-- `function_view v{ u };` or `function_view v{ std::move(u) };` where `u` is not constant -/
  | copy (a b : ℕ)
  /-- `v = u;` -/
  | assign (a b : ℕ)
  /-- `v = source;` -/
  | rebind (a : ℕ) (s : Source)
  /-- the end of an object's life -/
  | destroy (a : ℕ)
  /-- `v(x);` -/
  | call (a : ℕ) (x : A)

/-- One step; `none` when it makes no sense or is undefined behaviour.  Construction: `function_view.h` 143-157, 209-229.
The constructor template of lines 225-229 is a better match than the copy constructor unless the source is constant, so
that `copy` binds to the other view.  Assignment from a callable constructs a view and assigns it (217-218). -/
def step (code : Code σ W A R) (n : ℕ) (m : Mem σ) (w : W) : Op σ A → Option (Mem σ × W)
  | .functor a cls s => match m a with
    | none => some (Function.update m a (some (.functor cls s)), w)
    | some _ => none
  | .null a => match m a with
    | none => some (Function.update m a (some (.view .null)), w)
    | some _ => none
  | .construct a s => match m a with
    | none => some (Function.update m a (some (.view (bindTo .null s))), w)
    | some _ => none
  | .copyConst a b => match m a, m b with
    | none, some (.view u) => some (Function.update m a (some (.view u)), w)
    | _, _ => none
  | .copy a b => match m a, m b with
    | none, some (.view _) => some (Function.update m a (some (.view (bindTo .null (.view b)))), w)
    | _, _ => none
  | .assign a b => match m a, m b with
    | some (.view _), some (.view u) => some (Function.update m a (some (.view u)), w)
    | _, _ => none
  | .rebind a s => match m a with
    | some (.view _) => some (Function.update m a (some (.view (bindTo .null s))), w)
    | _ => none
  | .destroy a => match m a with
    | some _ => some (Function.update m a none, w)
    | none => none
  | .call a x => match m a with
    | some (.view v) => match Verif.Model.FunctionView.call code n v m w x with
      | .ok (m', w', _) => some (m', w')
      | _ => none
    | _ => none

/-- A program. -/
def run (code : Code σ W A R) (n : ℕ) : Mem σ → W → List (Op σ A) → Option (Mem σ × W)
  | m, w, [] => some (m, w)
  | m, w, op :: ops => (step code n m w op).bind fun r => run code n r.1 r.2 ops

end Verif.Model.FunctionView
