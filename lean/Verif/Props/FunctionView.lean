import Verif.Proofs.FunctionView

/-!
# C112, C113: views of functions
-/

namespace Verif.Props.FunctionView

open Verif.Model.FunctionView Verif.Proofs.FunctionView

variable {σ W A R : Type}

/-- Whether a step creates, assigns to, or destroys what lives at an address. -/
def Touches (a : ℕ) : Op σ A → Prop
  | .functor b _ _ | .null b | .construct b _ | .copyConst b _ | .copy b _ | .assign b _ | .rebind b _ | .destroy b => b = a
  | .call _ _ => False

theorem touches_iff (a : ℕ) (op : Op σ A) : Touches a op ↔ target op = some a := by
  cases op <;> simp [Touches, target]

/-- C112.  A view made from a function object at address `b`, once the program has gone on in any way that did not touch
the view or the object, calls the object: the result, the change of the object's state and of the rest of the world are
those of a direct call of the object in its state at that time, and nothing else changes. -/
theorem C112_object (code : Code σ W A R) (n : ℕ) (m : Mem σ) (w : W) (a b cls : ℕ) (s : σ) (ops : List (Op σ A))
    (m' : Mem σ) (w' : W) (x : A)
    (hb : m b = some (.functor cls s))
    (hr : run code n m w (.construct a (.object cls b) :: ops) = some (m', w'))
    (ha : ∀ op ∈ ops, ¬Touches a op ∧ ¬Touches b op) :
    ∃ v s', m' a = some (.view v) ∧ m' b = some (.functor cls s') ∧ v.toBool = true ∧
      call code (n + 1) v m' w' x =
        .ok (Function.update m' b (some (.functor cls (code.method cls s' w' x).1)),
          (code.method cls s' w' x).2.1, (code.method cls s' w' x).2.2) := by
  rw [run] at hr
  cases hs : step code n m w (.construct a (.object cls b)) with
  | none => rw [hs] at hr; cases hr
  | some r =>
    rw [hs] at hr
    have hab : b ≠ a := by
      intro e
      subst e
      simp only [step, hb] at hs
      cases hs
    have k1 := run_keeps code n ops r.1 r.2 m' w' hr a
      (fun op ho => fun h => (ha op ho).1 ((touches_iff a op).mpr h))
    have k2 := run_keeps code n ops r.1 r.2 m' w' hr b
      (fun op ho => fun h => (ha op ho).2 ((touches_iff b op).mpr h))
    have e : r.1 a = some (.view ⟨.object cls, .address b⟩) ∧ r.1 b = some (.functor cls s) := by
      simp only [step] at hs
      split at hs
      · injection hs with hs
        rw [← hs]
        exact ⟨Function.update_self .., by simpa [Function.update_of_ne hab] using hb⟩
      · cases hs
    obtain ⟨s', hs'⟩ := k2.2 cls s e.2
    refine ⟨_, s', k1.1 _ e.1, hs', rfl, ?_⟩
    simp [call, hs']

/-- C112.  Views of functions, captureless lambdas and stateless function objects call what they were made from, whatever
has become of the memory. -/
theorem C112_stateless (code : Code σ W A R) (n : ℕ) (v : View) (m : Mem σ) (w : W) (x : A) (f : ℕ) :
    call code (n + 1) (bindTo v (.function (some f))) m w x = .ok (m, code.free f w x) ∧
    call code (n + 1) (bindTo v (.lambda f)) m w x = .ok (m, code.free f w x) ∧
    call code (n + 1) (bindTo v (.manifestable f)) m w x = .ok (m, code.fresh f w x) := by
  simp [bindTo, call]

/-- C112.  A default-constructed view is null, and a view made from anything is not. -/
theorem C112_bool (v : View) (s : Source) : View.null.toBool = false ∧ (bindTo v s).toBool = true := by
  cases s <;> simp [bindTo, View.toBool, View.null]

/-- C112 is violated by null function pointers: the view claims to represent a callable, and calling it is undefined. -/
theorem C112_null_function_violated (code : Code σ W A R) (n : ℕ) (m : Mem σ) (w : W) (x : A) :
    (bindTo .null (.function none)).toBool = true ∧
    call code (n + 1) (bindTo .null (.function none)) m w x = .undefined := by
  simp [bindTo, View.toBool, call]

/-- Counting function objects: a call adds its argument to the state and returns the sum. -/
def counting : Code ℕ Unit ℕ ℕ where
  free := fun f _ x => ((), f + x)
  fresh := fun k _ x => ((), k * x)
  method := fun _ s _ x => (s + x, (), s + x)

/-- The hypotheses of `C112_object` can be met, with calls in between. -/
example : (run counting 5 (fun _ => none) () [.functor 1 0 10, .construct 2 (.object 0 1), .call 2 5, .call 2 7]).isSome = true := by
  decide
example : ∀ r, run counting 5 (fun _ => none) () [.functor 1 0 10, .construct 2 (.object 0 1), .call 2 5, .call 2 7] = some r →
    ∃ s, r.1 1 = some (.functor 0 s) ∧ s = 22 := by
  intro r h
  simp [run, step, call, bindTo, counting, Function.update] at h
  subst h
  exact ⟨22, by simp, rfl⟩

/-! ## Copies -/

/-- C113 (full statement).  However a view is copied or assigned, the copy keeps calling what the original called at that
time, whatever becomes of the original. -/
def Statement : Prop :=
  ∀ (code : Code ℕ Unit ℕ ℕ) (n : ℕ) (m : Mem ℕ) (op : Op ℕ ℕ) (a b : ℕ) (u : View) (ops : List (Op ℕ ℕ)) (m' : Mem ℕ),
    (op = .copyConst a b ∨ op = .copy a b ∨ op = .assign a b) → m b = some (.view u) →
    run code n m () (op :: ops) = some (m', ()) → (∀ o ∈ ops, ¬Touches a o) →
    ∃ v, m' a = some (.view v) ∧ v.toBool = u.toBool ∧
      ∀ k x, call code (k + 1) u m' () x ≠ .running → ∃ k', call code k' v m' () x = call code (k + 1) u m' () x

/-- C113, for the copies of constant views and for assignment: the copy is the original's value at that time and stays
so until it is touched, whatever else the program does. -/
theorem C113_partial (code : Code σ W A R) (n : ℕ) (m : Mem σ) (w : W) (op : Op σ A) (a b : ℕ) (u : View)
    (ops : List (Op σ A)) (m' : Mem σ) (w' : W) (hop : op = .copyConst a b ∨ op = .assign a b)
    (hb : m b = some (.view u)) (hr : run code n m w (op :: ops) = some (m', w')) (ha : ∀ o ∈ ops, ¬Touches a o) :
    ∃ v, m' a = some (.view v) ∧ v.toBool = u.toBool ∧ ∀ k w x, call code k v m' w x = call code k u m' w x := by
  rw [run] at hr
  cases hs : step code n m w op with
  | none => rw [hs] at hr; cases hr
  | some r =>
    rw [hs] at hr
    have k1 := run_keeps code n ops r.1 r.2 m' w' hr a (fun o ho => fun h => ha o ho ((touches_iff a o).mpr h))
    have e : r.1 a = some (.view u) := by
      rcases hop with rfl | rfl
      · simp only [step, hb] at hs
        split at hs
        · rename_i u' _ h
          injection hs with hs
          injection h with h
          injection h with h
          rw [← hs, ← h]
          exact Function.update_self ..
        · cases hs
      · simp only [step, hb] at hs
        split at hs
        · rename_i u' _ h
          injection hs with hs
          injection h with h
          injection h with h
          rw [← hs, ← h]
          exact Function.update_self ..
        · cases hs
    exact ⟨u, k1.1 u e, rfl, fun _ _ _ => rfl⟩

/-- C113 is violated by copies of views that are not constant: rebinding the original changes what the copy calls. -/
theorem C113_rebind_violated :
    ∃ r v, run counting 5 (fun _ => none) () [.construct 1 (.function (some 10)), .copy 2 1, .rebind 1 (.function (some 20))]
      = some (r, ()) ∧ r 2 = some (.view v) ∧
      ∀ k x, call counting (k + 2) v r () x = .ok (r, (), 20 + x) := by
  refine ⟨_, ⟨.view, .address 1⟩, rfl, by simp [Function.update, bindTo], ?_⟩
  intro k x
  simp [call, bindTo, counting, Function.update]

/-- C113 is violated by copies of views that are not constant: once the original is gone, calling the copy is
undefined. -/
theorem C113_destroy_violated :
    ∃ r v, run counting 5 (fun _ => none) () [.construct 1 (.function (some 10)), .copy 2 1, .destroy 1]
      = some (r, ()) ∧ r 2 = some (.view v) ∧
      ∀ k x, call counting (k + 1) v r () x = .undefined := by
  refine ⟨_, ⟨.view, .address 1⟩, rfl, by simp [Function.update, bindTo], ?_⟩
  intro k x
  simp [call, Function.update]

/-- C113 is violated by copies of null views that are not constant: the copy is not null, and calling it is undefined. -/
theorem C113_null_violated :
    ∃ r v, run counting 5 (fun _ => none) () [.null 1, .copy 2 1] = some (r, ()) ∧ r 2 = some (.view v) ∧
      v.toBool = true ∧ ∀ k x, call counting (k + 2) v r () x = .undefined := by
  refine ⟨_, ⟨.view, .address 1⟩, rfl, by simp [Function.update, bindTo], rfl, ?_⟩
  intro k x
  simp [call, Function.update, View.null]

/-- The full statement is false. -/
theorem C113_violated : ¬Statement := by
  intro h
  obtain ⟨v, hv, hb, _⟩ := h counting 5 (Function.update (fun _ => none) 1 (some (.view .null))) (.copy 2 1) 2 1 .null []
    (Function.update (Function.update (fun _ => none) 1 (some (.view .null))) 2 (some (.view ⟨.view, .address 1⟩)))
    (Or.inr (Or.inl rfl)) (by simp) (by simp [run, step, bindTo, Function.update]) (by simp)
  rw [Function.update_self] at hv
  cases hv
  cases hb

/-- A copy followed by an assignment makes a view that calls itself for ever. -/
theorem C113_cycle_violated :
    ∃ r v, run counting 5 (fun _ => none) () [.construct 1 (.function (some 10)), .copy 2 1, .assign 1 2] = some (r, ()) ∧
      r 1 = some (.view v) ∧ ∀ k x, call counting k v r () x = .running := by
  refine ⟨_, ⟨.view, .address 1⟩, rfl, by simp [Function.update, bindTo], ?_⟩
  intro k x
  induction k with
  | zero => rfl
  | succ k ih =>
    rw [call]
    simpa [Function.update, bindTo] using ih

example : ∃ r v, run counting 5 (fun _ => none) () [.construct 1 (.function (some 10)), .copyConst 2 1, .rebind 1 (.function (some 20)),
    .destroy 1, .call 2 3] = some (r, ()) ∧ r 2 = some (.view v) ∧ ∀ k x, call counting (k + 1) v r () x = .ok (r, (), 10 + x) := by
  refine ⟨_, ⟨.free, .function (some 10)⟩, rfl, by simp [Function.update, bindTo], ?_⟩
  intro k x
  simp [call, counting]

end Verif.Props.FunctionView
