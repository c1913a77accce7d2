import Verif.Model.TaskStorage
import Mathlib.Tactic.SplitIfs
import Mathlib.Tactic.ByContra
import Mathlib.Data.List.Forall2
/-!
# C160: what the thread pool calls for a task

`enqueue c k husk fresh v later worker` is the life of a task whose callable has the type described by `c` and the value `v`, passed as a reference of category `k`; `later` is the caller's object when the task runs, `none` if it is gone by then.
-/
namespace Verif.Props.TaskStorage
open Verif.Spec.TaskCalls Verif.Model.TaskStorage

variable {V A : Type}

/-- A lambda which captures two references by value: two pointers, trivially copyable. -/
def lambda : Callable :=
  { isClass := true, trivialCopy := true, trivialDestructor := true, size := 16, align := 8, nothrowDestroy := true,
    nothrowFrom := fun _ => true, nothrowAssign := fun _ => false, copyable := true,
    given := fun s => s == .nothing, kept := fun s => s == .nothing }

/-- A lambda which captures a string by value: it can be moved without throwing but not copied without throwing. -/
def owning : Callable :=
  { isClass := true, size := 32, align := 8, nothrowDestroy := true,
    nothrowFrom := fun k => k == .rvalue, nothrowAssign := fun _ => false, copyable := true,
    given := fun s => s == .index || s == .value, kept := fun s => s == .index || s == .value }

/-- A lambda which captures five words: it fits into a task but not into one batch of a `for_each`. -/
def five : Callable := { lambda with size := 40, given := fun s => s == .nothing || s == .valueIndex, kept := fun s => s == .nothing || s == .valueIndex }

/-- An empty class with `void operator()(int) const noexcept` and `void operator()(int, size_t) noexcept`, passed as a constant. -/
def overloaded : Callable :=
  { lambda with empty := true, trivialDefault := true, size := 1, align := 1, given := fun s => s == .value, kept := fun s => s == .value || s == .valueIndex }

/-- What was called. -/
def calls : List (Event V A) → List (V × Args A)
  | [] => []
  | .call v a :: es => (v, a) :: calls es
  | _ :: es => calls es

/-- The life of a callable kept as an object: in the queue, then on the stack of the worker, called there; each object is destroyed once. -/
def asObject (v : V) (a : Args A) : List (Event V A) :=
  [.construct .queue, .construct .stack, .destroy .queue, .call v a, .destroy .stack]

/-- `storeOk` implies a way into and a way between buffers. -/
theorem work_object {c : Callable} {k : Category} {p : Nat} {husk fresh v : V} {later : Option V} {a : Args A}
    (h : storeOk p c k = true) :
    (store .object c k husk v).1 = .object v ∧
      work .object c husk fresh later a (.object v) =
        some [.construct .stack, .destroy .queue, .call v a, .destroy .stack] := by
  simp only [storeOk, Bool.and_eq_true, Bool.or_eq_true, decide_eq_true_eq] at h
  obtain ⟨⟨⟨⟨-, -⟩, -⟩, -⟩, h⟩ := h
  refine ⟨?_, ?_⟩
  · simp only [store]
    rcases h with h | ⟨h | h, -⟩
    · simp [h]
    · by_cases ht : c.trivialCopy = true <;> simp [ht, h]
    · by_cases ht : c.trivialCopy = true <;> simp [ht, h.1, h.2]
  · have hm : ∃ l, move .object c husk (.object v) = some (.object l, .object v) := by
      simp only [move]
      rcases h with h | ⟨-, (h | h) | ⟨h, h' | h'⟩⟩ <;> simp only [h] <;> split_ifs <;> simp_all
    obtain ⟨l, hm⟩ := hm
    simp only [work, hm]
    by_cases hd : c.trivialDestructor = true <;>
      simp [destroy, callee, hd, born, died]

theorem arguments_enqueued {t : Sig → Bool} {worker : Nat} (h : t .index = true ∨ t .nothing = true) :
    ∃ a : Args A, arguments t none worker = some a ∧ Enqueued (fun s => t s = true) worker a := by
  simp only [arguments, Enqueued]
  by_cases h1 : t .index = true
  · exact ⟨_, by rw [if_pos h1], fun _ => rfl, fun h => absurd h1 h⟩
  · rcases h with h | h
    · exact absurd h h1
    · exact ⟨_, by rw [if_neg h1, if_pos h], fun h => absurd h h1, fun _ _ => rfl⟩

/-- **C160 (temporaries).** A task passed as a temporary, or moved, and accepted by the compiler: it is called exactly once, with the index of the worker if it can take one, and what is called has the value the task had when it was enqueued, whatever has become of the object that was passed. If it is kept as an object, the objects in the queue and on the stack are each constructed once and destroyed once. (`hone`: an empty class has one value. `hsame`: the type can be called in the same ways as the reference that was passed; rvalues have no `const` to lose.) -/
theorem C160_temporary (c : Callable) (husk fresh v : V) (later : Option V) (worker : Nat)
    (hone : manifestable c = true → ∀ x y : V, x = y) (hsame : c.kept = c.given)
    (hok : enqueue (A := A) c .rvalue husk fresh v later worker ≠ .rejected) :
    ∃ a, Enqueued (fun s => c.given s = true) worker a ∧
      (enqueue (A := A) c .rvalue husk fresh v later worker = .ran [.call v a] ∨
       enqueue (A := A) c .rvalue husk fresh v later worker = .ran (asObject v a)) := by
  simp only [enqueue] at hok ⊢
  cases hs : select 0 c .rvalue with
  | none => simp [hs] at hok
  | some s =>
    simp only [hs] at hok ⊢
    cases he : enqueueTakes s c with
    | false => simp [he] at hok
    | true =>
      have ht : takes s c = c.given := by cases s <;> simp [takes, hsame]
      have hor : c.given .index = true ∨ c.given .nothing = true := by
        simp only [enqueueTakes, Bool.and_eq_true, Bool.or_eq_true] at he
        exact he.1
      obtain ⟨a, ha, hE⟩ := arguments_enqueued (A := A) (worker := worker) hor
      refine ⟨a, hE, ?_⟩
      simp only [he, ht, ha]
      cases s with
      | manifest =>
        left
        have : manifestable c = true := by
          by_contra h
          simp only [select] at hs
          split_ifs at hs <;> simp_all
        simp [store, work, move, destroy, callee, born, died, hone this fresh v]
      | function => left; simp [store, work, move, destroy, callee, born, died]
      | pointer =>
        simp only [select] at hs
        split_ifs at hs <;> simp_all
      | object =>
        right
        have : storeOk 0 c .rvalue = true := by
          simp only [select] at hs
          split_ifs at hs <;> simp_all
        obtain ⟨h1, h2⟩ := work_object (husk := husk) (fresh := fresh) (v := v) (later := later) (a := a) this
        simp [h1, h2, born, asObject]

example : enqueue (V := Nat) (A := Nat) owning .rvalue 0 0 7 none 3 = .ran (asObject 7 { index := some 3 }) := by decide
example : ∃ a, Enqueued (fun s => owning.given s = true) 3 a ∧
    (enqueue (A := Nat) owning .rvalue 0 0 7 none 3 = .ran [.call 7 a] ∨
     enqueue (A := Nat) owning .rvalue 0 0 7 none 3 = .ran (asObject 7 a)) :=
  C160_temporary owning 0 0 7 none 3 (by simp [manifestable, owning]) rfl (by decide)

/-- **C160 (copies).** The same for a task passed as an lvalue whose type is small enough (56 bytes) and can be copied into the pool and moved in it without throwing: what is called has the value the task had when it was enqueued; the object that was passed may be changed or end its life at once. -/
theorem C160_copied (c : Callable) (k : Category) (husk fresh v : V) (later : Option V) (worker : Nat)
    (hone : manifestable c = true → ∀ x y : V, x = y) (hsame : c.kept = c.given)
    (hc : c.isClass = true) (hsize : c.size ≤ 56) (halign : c.align ≤ 64) (hd : c.nothrowDestroy = true)
    (hf : c.function = false) (hp : c.functionPointer = false)
    (hcopy : c.trivialCopy = true ∨ (c.nothrowFrom k = true ∧ c.nothrowFrom .rvalue = true))
    (ht : c.given .index = true ∨ c.given .nothing = true) :
    ∃ a, Enqueued (fun s => c.given s = true) worker a ∧
      (enqueue (A := A) c k husk fresh v later worker = .ran [.call v a] ∨
       enqueue (A := A) c k husk fresh v later worker = .ran (asObject v a)) := by
  obtain ⟨a, ha, hE⟩ := arguments_enqueued (A := A) (worker := worker) ht
  have h1 : storeOk 0 c k = true := by
    simp [storeOk, hc, hd, capacity, alignment, hsize, halign]
    rcases hcopy with h | h <;> simp [h]
  have h2 : storeOk 0 c .rvalue = true := by
    simp [storeOk, hc, hd, capacity, alignment, hsize, halign]
    rcases hcopy with h | h <;> simp [h]
  refine ⟨a, hE, ?_⟩
  have he : ∀ s, enqueueTakes s c = true := by
    intro s
    have : takes s c = c.given := by cases s <;> simp [takes, hsame]
    simp [enqueueTakes, this, ht]
  have htk : ∀ s, takes s c = c.given := by intro s; cases s <;> simp [takes, hsame]
  by_cases hm : manifestable c = true
  · left
    simp [enqueue, select, hm, he, htk, ha, store, work, move, destroy, callee, born, died, hone hm fresh v]
  · right
    have hs : select 0 c k = some .object := by simp [select, hm, hf, hp, h1, h2]
    obtain ⟨h3, h4⟩ := work_object (husk := husk) (fresh := fresh) (v := v) (later := later) (a := a) h1
    simp [enqueue, hs, he, htk, ha, h3, h4, born, asObject]

example : ∃ a, Enqueued (fun s => lambda.given s = true) 2 a ∧
    (enqueue (A := Nat) lambda .lvalue 0 0 7 (some 9) 2 = .ran [.call 7 a] ∨
     enqueue (A := Nat) lambda .lvalue 0 0 7 (some 9) 2 = .ran (asObject 7 a)) :=
  C160_copied lambda .lvalue 0 0 7 (some 9) 2 (by simp [manifestable, lambda]) rfl rfl (by decide) (by decide) rfl rfl rfl (Or.inl rfl) (Or.inr rfl)

/-- **C160 (references, partial).** Any other lvalue of class type the compiler accepts is not copied: the task calls the object that was passed, as it is when the task runs. That object must then still be there. -/
theorem C160_referred_partial (c : Callable) (k : Category) (husk fresh v : V) (later : Option V) (worker : Nat)
    (hk : k ≠ .rvalue) (hc : c.isClass = true) (hm : manifestable c = false) (hf : c.function = false)
    (hp : c.functionPointer = false) (hl : c.statelessLambda = false) (hs : storeOk 0 c k = false)
    (ht : c.given .index = true ∨ c.given .nothing = true) :
    (∀ w, later = some w → ∃ a, Enqueued (fun s => c.given s = true) worker a ∧
      enqueue (A := A) c k husk fresh v later worker = .ran [.call w a]) ∧
    (later = none → enqueue (A := A) c k husk fresh v later worker = .undefined) := by
  obtain ⟨a, ha, hE⟩ := arguments_enqueued (A := A) (worker := worker) ht
  have hsel : select 0 c k = some .pointer := by simp [select, hm, hf, hp, hs, hl, hc, hk]
  have he : enqueueTakes .pointer c = true := by simp [enqueueTakes, takes, ht]
  refine ⟨fun w hw => ⟨a, hE, ?_⟩, fun hn => ?_⟩
  · subst hw
    simp [enqueue, hsel, he, takes, ha, store, work, move, destroy, callee, born, died]
  · subst hn
    simp [enqueue, hsel, he, takes, ha, store, work, move, destroy, callee]

/-- **C160 (lvalues, violated).** It is not true that a task enqueued as an lvalue is called as it was when it was enqueued, nor that it may go out of scope: a lambda that captured a string is neither copied nor refused. The same lambda is safe when moved. -/
theorem C160_lvalue_violated :
    enqueue (V := Nat) (A := Nat) owning .lvalue 0 0 7 none 3 = .undefined ∧
    enqueue (V := Nat) (A := Nat) owning .lvalue 0 0 7 (some 9) 3 = .ran [.call 9 { index := some 3 }] ∧
    enqueue (V := Nat) (A := Nat) owning .rvalue 0 0 7 none 3 = .ran (asObject 7 { index := some 3 }) := by
  decide

example : (∀ w, some 9 = some w → ∃ a, Enqueued (fun s => owning.given s = true) 3 a ∧
      enqueue (A := Nat) owning .lvalue 0 0 7 (some 9) 3 = .ran [.call w a]) ∧
    (some 9 = none → enqueue (A := Nat) owning .lvalue 0 0 7 (some 9) 3 = .undefined) :=
  C160_referred_partial owning .lvalue 0 0 7 (some 9) 3 (by decide) rfl rfl rfl rfl rfl rfl (Or.inl rfl)

/-- **C160 (acceptance).** A task of class type of at most 56 bytes, not aligned beyond 64, which can be destroyed and moved without throwing (or is trivially copyable), is accepted when it is moved; a larger one never is, unless it is an empty class or a function. -/
theorem C160_accepted (c : Callable) (husk fresh v : V) (later : Option V) (worker : Nat) (hc : c.isClass = true)
    (hf : c.function = false) (hp : c.functionPointer = false) (hl : c.statelessLambda = false)
    (hsame : c.kept = c.given) :
    (c.size ≤ 56 → c.align ≤ 64 → c.nothrowDestroy = true → (c.trivialCopy = true ∨ c.nothrowFrom .rvalue = true) →
      (c.given .index = true ∨ c.given .nothing = true) →
      enqueue (A := A) c .rvalue husk fresh v later worker ≠ .rejected) ∧
    (56 < c.size → c.empty = false → enqueue (A := A) c .rvalue husk fresh v later worker = .rejected) := by
  refine ⟨fun hs ha hd hm ht => ?_, fun hs he => ?_⟩
  · have h2 : storeOk 0 c .rvalue = true := by
      simp [storeOk, hc, hd, capacity, alignment, hs, ha]
      rcases hm with h | h <;> simp [h]
    have htk : ∀ s, takes s c = c.given := by intro s; cases s <;> simp [takes, hsame]
    have he : ∀ s, enqueueTakes s c = true := by intro s; simp [enqueueTakes, htk, ht]
    obtain ⟨a, ha, -⟩ := arguments_enqueued (A := A) (worker := worker) ht
    obtain ⟨h3, h4⟩ := work_object (husk := husk) (fresh := fresh) (v := v) (later := later) (a := a) h2
    by_cases hmf : manifestable c = true
    · simp [enqueue, select, hmf, he, htk, ha, store, work, move, destroy, callee]
    · simp [enqueue, select, hmf, hf, hp, h2, he, htk, ha, h3, h4]
  · have h2 : storeOk 0 c .rvalue = false := by
      have : decide (c.size + 0 ≤ capacity) = false := decide_eq_false (by simp only [capacity, alignment]; omega)
      simp only [storeOk, this, Bool.and_false, Bool.false_and]
    simp [enqueue, select, manifestable, he, hf, hp, h2, hl, hc]

example : owning.size ≤ 56 ∧ enqueue (V := Nat) (A := Nat) owning .rvalue 0 0 7 none 3 ≠ .rejected ∧
    enqueue (V := Nat) (A := Nat) { owning with size := 57 } .rvalue 0 0 7 none 3 = .rejected := by decide

/-- **C160 (tasks never run).** The callable of a task which is still in a queue when the pool is destroyed is destroyed exactly once, if it was kept as an object. -/
theorem C160_discarded (c : Callable) (k : Category) (husk v : V)
    (hok : dropped (A := A) c k husk v ≠ .rejected) :
    dropped (A := A) c k husk v = .ran [] ∨
    dropped (A := A) c k husk v = .ran [.construct .queue, .destroy .queue] := by
  simp only [dropped] at hok ⊢
  cases hs : select 0 c k with
  | none => simp [hs] at hok
  | some s =>
    simp only [hs] at hok ⊢
    cases he : enqueueTakes s c with
    | false => simp [he] at hok
    | true =>
      cases s with
      | manifest => left; simp [store, destroy, born, died]
      | function => left; simp [store, destroy, born, died]
      | pointer => left; simp [store, destroy, born, died]
      | object =>
        right
        have : storeOk 0 c k = true := by
          simp only [select] at hs
          split_ifs at hs <;> simp_all
        obtain ⟨h1, -⟩ := work_object (A := A) (husk := husk) (fresh := v) (v := v) (later := none) (a := {}) this
        by_cases hd : c.trivialDestructor = true <;> simp [h1, destroy, hd, born, died]

example : dropped (V := Nat) (A := Nat) owning .rvalue 0 7 = .ran [.construct .queue, .destroy .queue] := by decide

/-! ## Batches -/

theorem arguments_forEach {t : Sig → Bool} {x : A} {i : Nat}
    (h : t .valueIndex = true ∨ t .value = true ∨ t .nothing = true) :
    ∃ a : Args A, arguments t (some x) (if t .valueIndex then i else 0) = some a ∧
      ForEach (fun s => t s = true) x i a := by
  simp only [arguments, ForEach]
  by_cases h1 : t .valueIndex = true
  · exact ⟨_, by rw [if_pos h1, if_pos h1], fun _ => rfl, fun h => absurd h1 h, fun h => absurd h1 h⟩
  · by_cases h2 : t .value = true
    · exact ⟨_, by rw [if_neg h1, if_pos h2], fun h => absurd h h1, fun _ _ => rfl, fun _ h => absurd h2 h⟩
    · rcases h with h | h | h
      · exact absurd h h1
      · exact absurd h h2
      · exact ⟨_, by rw [if_neg h1, if_neg h2, if_pos h], fun h => absurd h h1, fun _ h => absurd h h2, fun _ _ _ => rfl⟩

/-- What batch `i` with the values `xs` is to do: a call for each value in order, with the arguments the task can take, of an object of its own which starts as the task was. -/
def BatchDone (c : Callable) (after : V → V) (v : V) (i : Nat) (xs : List A) (es : List (V × Args A)) : Prop :=
  List.Forall₂ (fun x e => ForEach (fun s => c.given s = true) x i e.2) xs es ∧ Successive after v es

theorem runBatch_object {c : Callable} {after : V → V} {fresh : V} {i : Nat} (hsame : c.kept = c.given)
    (h : c.given .valueIndex = true ∨ c.given .value = true ∨ c.given .nothing = true) :
    ∀ (xs : List A) (v : V) (caller : Option V),
      ∃ es, runBatch .object c after fresh i caller (.object v) xs = some es ∧ BatchDone c after v i xs es := by
  intro xs
  induction xs with
  | nil => intro v caller; exact ⟨[], rfl, .nil, trivial⟩
  | cons x xs ih =>
    intro v caller
    obtain ⟨es, h1, h2, h3⟩ := ih (after v) caller
    obtain ⟨a, ha, hF⟩ := arguments_forEach (x := x) (i := i) h
    refine ⟨(v, a) :: es, ?_, .cons hF h2, rfl, h3⟩
    have ha' : arguments c.given (some x) (if takesTwo c then i else 0) = some a := ha
    simp [runBatch, callee, takes, hsame, ha', h1]

theorem runBatch_constant {c : Callable} {after : V → V} {fresh v : V} {i : Nat} {s : Storage} {cell : Cell V}
    (hcell : ∀ caller, callee s fresh caller cell = some v) (hobj : ∀ w, cell ≠ .object w) (hs : s ≠ .pointer)
    (hafter : after v = v) (hsame : c.kept = c.given)
    (h : c.given .valueIndex = true ∨ c.given .value = true ∨ c.given .nothing = true) :
    ∀ (xs : List A) (caller : Option V),
      ∃ es, runBatch s c after fresh i caller cell xs = some es ∧ BatchDone c after v i xs es := by
  intro xs
  induction xs with
  | nil => intro caller; exact ⟨[], rfl, .nil, trivial⟩
  | cons x xs ih =>
    intro caller
    obtain ⟨es, h1, h2, h3⟩ := ih caller
    obtain ⟨a, ha, hF⟩ := arguments_forEach (x := x) (i := i) h
    refine ⟨(v, a) :: es, ?_, .cons hF h2, rfl, by rw [hafter]; exact h3⟩
    have ht : takes s c = c.given := by cases s <;> simp [takes, hsame]
    have hc' : (match cell with | .object v => Cell.object (after v) | cell => cell) = cell := by
      cases cell with
      | object w => exact absurd rfl (hobj w)
      | _ => rfl
    have hcl : (match s with | .pointer => caller.map after | _ => caller) = caller := by
      cases s with
      | pointer => exact absurd rfl hs
      | _ => rfl
    have ha' : arguments c.given (some x) (if takesTwo c then i else 0) = some a := ha
    simp only [runBatch, hcell, hc', hcl, h1, ht, ha']
    rfl

theorem wraps_kept {s : Storage} {k : Category} {husk v : V} {cell : Cell V}
    (h : ∀ last, (wrap s k last husk v).1 = cell ∧ (last = false → (wrap s k last husk v).2 = v)) :
    ∀ (bs : List (List A)) (i : Nat), wraps s k husk v i bs = (bs.zipIdx i).map (fun (b, j) => (j, b, cell)) := by
  intro bs
  induction bs with
  | nil => intro i; rfl
  | cons b bs ih =>
    intro i
    cases bs with
    | nil => simp [wraps, (h true).1]
    | cons b' bs' =>
      have h2 := h (b' :: bs').isEmpty
      rw [wraps]
      simp only [h2.1, h2.2 rfl, ih (i + 1), List.zipIdx_cons, List.map_cons]

theorem mapM_done {R : Type} {P : Nat → List A → R → Prop} {f : List A → Nat → Option R}
    (h : ∀ b i, ∃ r, f b i = some r ∧ P i b r) :
    ∀ (bs : List (List A)) (i : Nat), ∃ es, (bs.zipIdx i).mapM (fun (b, j) => f b j) = some es ∧
      es.length = bs.length ∧ ∀ j b r, bs[j]? = some b → es[j]? = some r → P (i + j) b r := by
  intro bs
  induction bs with
  | nil => intro i; exact ⟨[], rfl, rfl, by simp⟩
  | cons b bs ih =>
    intro i
    obtain ⟨r, hr, hP⟩ := h b i
    obtain ⟨es, h1, h2, h3⟩ := ih (i + 1)
    refine ⟨r :: es, ?_, by simp [h2], ?_⟩
    · simp only [List.zipIdx_cons, List.mapM_cons, hr, h1]
      rfl
    · intro j b' r' hb hr'
      cases j with
      | zero =>
        simp only [List.getElem?_cons_zero, Option.some.injEq] at hb hr'
        subst hb; subst hr'; exact hP
      | succ j =>
        simp only [List.getElem?_cons_succ] at hb hr'
        have := h3 j b' r' hb hr'
        rwa [show i + 1 + j = i + (j + 1) by omega] at this

/-- **C160 (batches).** A task given to `for_each` which is passed as a temporary or moved, or which is trivially copyable or copied without throwing and of at most 32 bytes, and is accepted by the compiler: each batch calls, for each of its values in order, an object of its own (or the function), which starts with the value the task had when `for_each` was called, in the last batch as in all others, whatever has become of the object that was passed. It is passed the value and the number of the batch, or just the value, or nothing, as it can take. (`hone`: an empty class has one value; `hfun`: a call does not change a function.) -/
theorem C160_batches (c : Callable) (k : Category) (husk fresh v : V) (after : V → V) (later : Nat → Option V)
    (batches : List (List A))
    (hone : manifestable c = true → ∀ x y : V, x = y)
    (hfun : c.function = true ∨ c.functionPointer = true ∨ c.statelessLambda = true → after v = v)
    (hsame : c.kept = c.given)
    (hkeep : k = .rvalue ∨ (c.size ≤ 32 ∧ c.align ≤ 64 ∧ c.nothrowDestroy = true ∧ (c.trivialCopy = true ∨ (c.nothrowFrom k = true ∧ c.nothrowFrom .rvalue = true))))
    (hok : forEach c k husk fresh v after later batches ≠ .rejected) :
    ∃ es, forEach c k husk fresh v after later batches = .ran es ∧ es.length = batches.length ∧
      ∀ i xs e, batches[i]? = some xs → es[i]? = some e → BatchDone c after v i xs e := by
  simp only [forEach] at hok ⊢
  cases hs : select batchPenalty c k with
  | none => simp [hs] at hok
  | some s =>
    simp only [hs] at hok ⊢
    split_ifs at hok ⊢ with hr
    · exact absurd rfl hok
    · simp only [Bool.or_eq_true, not_or, Bool.not_eq_true, Bool.not_eq_false'] at hr
      have hor : c.given .valueIndex = true ∨ c.given .value = true ∨ c.given .nothing = true := by
        have := hr.1
        simp only [forEachTakes, Bool.and_eq_true, Bool.or_eq_true] at this
        simpa [or_assoc] using this.1
      have key : ∃ cell, (∀ last, (wrap s k last husk v).1 = cell ∧ (last = false → (wrap s k last husk v).2 = v)) ∧
          ∀ (xs : List A) i caller, ∃ e, runBatch s c after fresh i caller cell xs = some e ∧ BatchDone c after v i xs e := by
        cases s with
        | manifest =>
          have hm : manifestable c = true := by
            by_contra h
            simp only [select] at hs
            split_ifs at hs <;> simp_all
          refine ⟨.raw, fun last => by simp [wrap], fun xs i caller => ?_⟩
          exact runBatch_constant (fun _ => by simp [callee, hone hm fresh v]) (by simp) (by simp) (hone hm _ _) hsame hor xs caller
        | function =>
          have hf : c.function = true ∨ c.functionPointer = true ∨ c.statelessLambda = true := by
            simp only [select] at hs
            split_ifs at hs <;> simp_all
          refine ⟨.function v, fun last => by simp [wrap], fun xs i caller => ?_⟩
          exact runBatch_constant (fun _ => by simp [callee]) (by simp) (by simp) (hfun hf) hsame hor xs caller
        | object =>
          refine ⟨.object v, fun last => ?_, fun xs i caller => runBatch_object hsame hor xs v caller⟩
          simp only [wrap]
          cases last <;> simp
          split_ifs <;> rfl
        | pointer =>
          exfalso
          rcases hkeep with hk | ⟨h1, h2, h3, h4⟩
          · simp only [select, hk] at hs
            split_ifs at hs <;> simp_all
          · have hst : c.isClass = true → storeOk batchPenalty c k = true := by
              intro hc
              simp [storeOk, hc, h3, capacity, alignment, batchPenalty, h2]
              refine ⟨by omega, ?_⟩
              rcases h4 with h | h <;> simp [h]
            simp only [select] at hs
            split_ifs at hs <;> simp_all
      obtain ⟨cell, hw, hrun⟩ := key
      rw [wraps_kept hw]
      obtain ⟨es, h1, h2, h3⟩ := mapM_done (P := fun i xs e => BatchDone c after v i xs e)
        (f := fun b i => runBatch s c after fresh i (later i) cell b)
        (fun b i => hrun b i (later i)) batches 0
      refine ⟨es, ?_, h2, fun i xs e hx he => by simpa using h3 i xs e hx he⟩
      have : ((batches.zipIdx 0).map (fun (b, j) => (j, b, cell))).mapM
          (fun (x : Nat × List A × Cell V) => runBatch s c after fresh x.1 (later x.1) x.2.2 x.2.1) = some es := by
        rw [List.mapM_map]; exact h1
      simp only [this]

example : forEach (V := Nat) owning .rvalue 0 0 7 (· + 1) (fun _ => none) [["a", "b"], ["c"]] =
    .ran [[(7, { value := some "a" }), (8, { value := some "b" })], [(7, { value := some "c" })]] := by decide
example : ∃ es, forEach (V := Nat) owning .rvalue 0 0 7 (· + 1) (fun _ => none) [["a", "b"], ["c"]] = .ran es ∧ es.length = 2 ∧
    ∀ i xs e, [["a", "b"], ["c"]][i]? = some xs → es[i]? = some e → BatchDone owning (· + 1) 7 i xs e :=
  C160_batches owning .rvalue 0 0 7 (· + 1) (fun _ => none) [["a", "b"], ["c"]] (by simp [manifestable, owning]) (by simp [owning]) rfl (Or.inl rfl) (by decide)

/-- **C160 (batches of lvalues, violated).** A task of 40 bytes passed as an lvalue is copied by `enqueue`, so it may go out of scope, but not by `for_each`, which refers to the object that was passed. -/
theorem C160_batch_lvalue_violated :
    enqueue (V := Nat) (A := Nat) five .lvalue 0 0 7 none 3 = .ran (asObject 7 {}) ∧
    forEach (V := Nat) (A := Nat) five .lvalue 0 0 7 id (fun _ => none) [[1]] = .undefined ∧
    forEach (V := Nat) (A := Nat) five .lvalue 0 0 7 id (fun _ => some 9) [[1]] = .ran [[(9, { value := some 1, index := some 0 })]] := by
  decide

/-- **C160 (batch index, violated).** A constant task which can be called with a value only, but whose type could be called with a value and an index if it were not constant, is called through the other overload, in every batch with the index 0. -/
theorem C160_batch_index_violated :
    forEach (V := Unit) (A := Nat) overloaded .constLvalue () () () id (fun _ => some ()) [[1], [2]] =
      .ran [[((), { value := some 1, index := some 0 })], [((), { value := some 2, index := some 0 })]] ∧
    ¬ ForEach (fun s => overloaded.given s = true) 2 1 ({ value := some 2, index := some 0 } : Args Nat) := by
  refine ⟨by decide, fun h => ?_⟩
  have := h.2.1 (by decide) (by decide)
  simp at this

end Verif.Props.TaskStorage
