import Verif.Proofs.PoolFair2
import Verif.Props.ThreadPool
import Mathlib.Tactic.IntervalCases
import Mathlib.Tactic.ByContra
/-!
# C177: under fair scheduling every task is run, every call returns, and destruction completes

C70 and C71 say that the pool *can* finish its work and its destruction from every state.  Here executions never end and
the scheduler is any one that is `Fair` (`Model/PoolFair.lean`): the pool *does* finish, whatever the order of the steps.

`(e.state n).next` is the number of tasks constructed up to moment `n`; tasks are named by the order of their construction.
The indices of the queues have 64 bits: the assumption `hb` is that fewer than 2^64 tasks are ever enqueued.
-/
namespace Verif.Props.PoolFair
open Verif.Spec.Pool Verif.Spec.Fairness Verif.Model.Pool Verif.Proofs.Pool

variable {cfg : Cfg}

/-- Every task enqueued in a pool that is not destroyed is run, to completion, by one of the workers, once, and is then
    destroyed: no task waits for ever, whatever other tasks arrive. -/
theorem C177_every_task_runs (e : Execution cfg) (hcap : cfg.capacity < 2 ^ 64) (hb : ∀ n, (e.state n).next < 2 ^ 64)
    (hf : Fair e) (ha : e.NeverDestroyed) (n t : ℕ) (ht : t < (e.state n).next) :
    EventuallyFrom n fun m => ∃ w < cfg.workers,
      eventsOf t (e.state m).log = [.constructed t, .started t w, .finished t, .destroyed t] := by
  obtain ⟨m, h1, h2⟩ := task_gone hcap hb hf ha ht
  refine ⟨m, h1, ?_⟩
  show ∃ w < cfg.workers, eventsOf t (e.state m).log = [.constructed t, .started t w, .finished t, .destroyed t]
  have hg := (good hcap e hb m).1
  have hl := hg.life t
  rw [h2] at hl; simp only [LifeAt] at hl
  have hf := hg.ran (by rw [ha m]; intro n r; simp) t h2
  have hm : Event.finished t ∈ eventsOf t (e.state m).log := List.mem_filter.mpr ⟨hf, by simp [Event.task]⟩
  generalize eventsOf t (e.state m).log = ev at *
  cases hl with
  | ran w hw => exact ⟨w, hw, rfl⟩
  | discarded => simp at hm

/-- Every call into a pool that is not destroyed (`enqueue`, the enqueuing of `for_each`, `wait`) returns: each caller is
    outside the pool again and again. -/
theorem C177_every_call_returns (e : Execution cfg) (hcap : cfg.capacity < 2 ^ 64) (hb : ∀ n, (e.state n).next < 2 ^ 64)
    (hf : Fair e) (ha : e.NeverDestroyed) (c : ℕ) (hc : c < cfg.callers) :
    Often fun n => (e.state n).callers c = .idle :=
  returns hcap hb hf ha hc

/-- The destructor, once begun, completes, although workers may be in the middle of tasks and the queues may be full. -/
theorem C177_destruction_completes (e : Execution cfg) (hcap : cfg.capacity < 2 ^ 64)
    (hb : ∀ n, (e.state n).next < 2 ^ 64) (hf : Fair e) (n : ℕ) (hd : (e.state n).dtor ≠ .alive) :
    EventuallyFrom n fun m => (e.state m).dtor = .done :=
  completes hcap hb hf hd

/-! ### A fair execution: a task is enqueued and run, then the worker looks for work for ever -/

def demoPrefix : List Label := [.callEnqueue 0 1, .tryLock 0 0, .examine 0, .acquire 0, .publish 0, .unlock 0,
  .wTryLock 0 0, .wBody 0, .wUnlock 0, .wStart 0, .wFinish 0, .wDecrement 0, .wNotify 0, .wDestroy 0]

def demoWant (n : ℕ) : Label :=
  if n < 14 then demoPrefix.getD n .dBegin
  else if (n - 14) % 4 = 0 then .wTryLock 0 0 else if (n - 14) % 4 = 1 then .wBody 0
  else if (n - 14) % 4 = 2 then .wUnlock 0 else .wLoop 0

def demo : Execution ⟨1, 2, 1⟩ := attempt ⟨1, 2, 1⟩ demoWant

structure Round (s : State) (pc : WPc) (h : Option Thread) : Prop where
  pc : s.workers 0 = pc
  holder : (s.queues 0).holder = h
  empty : (s.queues 0).empty = true
  flag : s.wterm 0 = false
  caller : s.callers 0 = .idle
  dtor : s.dtor = .alive
  next : s.next = 1

theorem demo_start : Round (demo.state 14) .polling none := by
  constructor <;> rfl

theorem demo_step {n l s'} (hl : demoWant n = l) (hs : step ⟨1, 2, 1⟩ (demo.state n) l = some s') :
    demo.state (n + 1) = s' ∧ demo.label n = some l := by
  subst hl
  constructor
  · show (step ⟨1, 2, 1⟩ (demo.state n) (demoWant n)).getD _ = s'
    rw [hs]; rfl
  · show (if (step ⟨1, 2, 1⟩ (demo.state n) (demoWant n)).isSome then some (demoWant n) else none) = _
    rw [hs]; rfl

theorem demo_round (k : ℕ) (h : Round (demo.state (14 + 4 * k)) .polling none) :
    (Round (demo.state (14 + 4 * k + 1)) (.locked 0) (some (.worker 0)) ∧ demo.label (14 + 4 * k) = some (.wTryLock 0 0)) ∧
    Round (demo.state (14 + 4 * k + 2)) (.leaving 0) (some (.worker 0)) ∧
    Round (demo.state (14 + 4 * k + 3)) .polling none ∧
    (Round (demo.state (14 + 4 * k + 4)) .polling none ∧ demo.label (14 + 4 * k + 3) = some (.wLoop 0)) := by
  have d0 : demoWant (14 + 4 * k) = .wTryLock 0 0 := by
    simp [demoWant]
  have d1 : demoWant (14 + 4 * k + 1) = .wBody 0 := by
    have h1 : (14 + 4 * k + 1 - 14) % 4 = 1 := by omega
    have h2 : ¬ 14 + 4 * k + 1 < 14 := by omega
    simp only [demoWant, h1, h2]; rfl
  have d2 : demoWant (14 + 4 * k + 2) = .wUnlock 0 := by
    have h1 : (14 + 4 * k + 2 - 14) % 4 = 2 := by omega
    have h2 : ¬ 14 + 4 * k + 2 < 14 := by omega
    simp only [demoWant, h1, h2]; rfl
  have d3 : demoWant (14 + 4 * k + 3) = .wLoop 0 := by
    have h1 : (14 + 4 * k + 3 - 14) % 4 = 3 := by omega
    have h2 : ¬ 14 + 4 * k + 3 < 14 := by omega
    simp only [demoWant, h1, h2]; rfl
  obtain ⟨a1, a2⟩ := demo_step d0 (s' := _) (by simp [step, stepWorker, h.pc, h.holder]; rfl)
  have r1 : Round (demo.state (14 + 4 * k + 1)) (.locked 0) (some (.worker 0)) := by
    rw [a1]
    constructor <;> simp [State.setQ, State.setW, upd, h.flag, h.caller, h.dtor, h.next, Queue.empty]
    simpa [Queue.empty] using h.empty
  obtain ⟨b1, b2⟩ := demo_step d1 (s' := _) (by simp [step, stepWorker, r1.pc, r1.empty]; rfl)
  have r2 : Round (demo.state (14 + 4 * k + 2)) (.leaving 0) (some (.worker 0)) := by
    rw [b1]
    constructor <;> simp [State.setW, upd, r1.flag, r1.caller, r1.dtor, r1.next, r1.holder, r1.empty]
  obtain ⟨c1, c2⟩ := demo_step d2 (s' := _) (by simp [step, stepWorker, r2.pc]; rfl)
  have r3 : Round (demo.state (14 + 4 * k + 3)) .polling none := by
    rw [c1]
    constructor <;> simp [State.setQ, State.setW, upd, r2.flag, r2.caller, r2.dtor, r2.next, Queue.empty]
    simpa [Queue.empty] using r2.empty
  obtain ⟨e1, e2⟩ := demo_step d3 (s' := _) (by simp [step, stepWorker, r3.pc, r3.flag]; rfl)
  have r4 : Round (demo.state (14 + 4 * k + 4)) .polling none := by rw [e1]; exact r3
  exact ⟨⟨r1, a2⟩, r2, r3, r4, e2⟩

theorem demo_rounds (k : ℕ) : Round (demo.state (14 + 4 * k)) .polling none := by
  induction k with
  | zero => exact demo_start
  | succ k ih => exact (demo_round k ih).2.2.2.1

theorem demo_late (n : ℕ) (h : 14 ≤ n) : ∃ pc h', Round (demo.state n) pc h' := by
  obtain ⟨k, r, hr, rfl⟩ : ∃ k r, r < 4 ∧ n = 14 + 4 * k + r := ⟨(n - 14) / 4, (n - 14) % 4, by omega, by omega⟩
  have h0 := demo_rounds k
  have h1 := demo_round k h0
  interval_cases r
  · exact ⟨_, _, h0⟩
  · exact ⟨_, _, h1.1.1⟩
  · exact ⟨_, _, h1.2.1⟩
  · exact ⟨_, _, h1.2.2.1⟩

theorem demo_next (n : ℕ) : (demo.state n).next ≤ 1 := by
  by_cases h : 14 ≤ n
  · obtain ⟨_, _, r⟩ := demo_late n h; exact Nat.le_of_eq r.next
  · have h : n < 14 := by omega
    interval_cases n <;> decide

theorem demo_alive : demo.NeverDestroyed := by
  intro n
  by_cases h : 14 ≤ n
  · obtain ⟨_, _, r⟩ := demo_late n h; exact r.dtor
  · have h : n < 14 := by omega
    interval_cases n <;> rfl

theorem demo_locks : Often fun n => demo.label n = some (.wTryLock 0 0) := fun n =>
  ⟨14 + 4 * n, by omega, (demo_round n (demo_rounds n)).1.2⟩

theorem demo_fair : Fair demo where
  worker w hw n _ := by
    obtain rfl : w = 0 := Nat.lt_one_iff.mp hw
    obtain ⟨m, h1, h2⟩ := demo_locks n
    exact ⟨m, h1, _, h2, rfl⟩
  caller c hc n h1 _ h3 := by
    obtain rfl : c = 0 := Nat.lt_one_iff.mp hc
    by_cases h : 14 ≤ n
    · obtain ⟨_, _, r⟩ := demo_late n h; exact absurd r.caller h1
    · have h : n < 14 := by omega
      interval_cases n
      · exact absurd rfl h1
      · exact absurd rfl (h3 1)
      · exact ⟨2, Nat.le_refl _, _, rfl, rfl⟩
      · exact ⟨3, Nat.le_refl _, _, rfl, rfl⟩
      · exact ⟨4, Nat.le_refl _, _, rfl, rfl⟩
      · exact ⟨5, Nat.le_refl _, _, rfl, rfl⟩
      all_goals exact absurd rfl h1
  ownQueue w hw _ _ := by
    obtain rfl : w = 0 := Nat.lt_one_iff.mp hw
    exact demo_locks
  ownFlag w hw _ n := by
    obtain rfl : w = 0 := Nat.lt_one_iff.mp hw
    exact ⟨14 + 4 * n + 3, by omega, (demo_round n (demo_rounds n)).2.2.2.2⟩
  search c hc h := by
    obtain rfl : c = 0 := Nat.lt_one_iff.mp hc
    obtain ⟨m, h1, k, _, h2⟩ := h 14
    obtain ⟨_, _, r⟩ := demo_late m h1
    rw [r.caller] at h2; cases h2
  tooMany c hc n k h hk := by
    obtain rfl : c = 0 := Nat.lt_one_iff.mp hc
    exfalso
    by_cases h' : 14 ≤ n
    · obtain ⟨_, _, r⟩ := demo_late n h'; rw [r.caller] at h; cases h
    · have h' : n < 14 := by omega
      interval_cases n
      · cases h
      · replace h : CPc.search 1 = .search k := h
        cases h; exact absurd hk (by decide)
      all_goals cases h
  destructor n h := by
    have h := h n (Nat.le_refl _)
    simp [step, stepDestroyer, demo_alive n] at h

/-- the hypotheses of the first two theorems are met by it, and the task is run -/
example : Fair demo ∧ demo.NeverDestroyed ∧ (∀ n, (demo.state n).next < 2 ^ 64) ∧ 0 < (demo.state 4).next ∧
    eventsOf 0 (demo.state 4).log = [.constructed 0] ∧ (demo.state 4).callers 0 ≠ .idle :=
  ⟨demo_fair, demo_alive, fun n => Nat.lt_of_le_of_lt (demo_next n) (by decide), by decide, by decide, by decide⟩

/-! ### Another: the pool is destroyed while a task is still queued -/

def demoWant2 (n : ℕ) : Label :=
  [.callEnqueue 0 1, .tryLock 0 0, .examine 0, .acquire 0, .publish 0, .unlock 0,
   .dBegin, .dStep, .dStep, .dStep, .wLoop 0].getD n .dStep

def demo2 : Execution ⟨1, 2, 1⟩ := attempt ⟨1, 2, 1⟩ demoWant2

theorem demo2_late (n : ℕ) (h : 17 ≤ n) : demo2.state n = demo2.state 17 := by
  induction n, h using Nat.le_induction with
  | base => rfl
  | succ n h ih =>
    have hw : demoWant2 n = .dStep := by
      simp only [demoWant2]
      rw [List.getD_eq_getElem?_getD, List.getElem?_eq_none (by simp; omega)]; rfl
    show (step ⟨1, 2, 1⟩ (demo2.state n) (demoWant2 n)).getD (demo2.state n) = _
    rw [hw, ih]; rfl

theorem demo2_next (n : ℕ) : (demo2.state n).next ≤ 1 := by
  by_cases h : 17 ≤ n
  · rw [demo2_late n h]; decide
  · have h : n < 17 := by omega
    interval_cases n <;> decide

theorem demo2_exits (n : ℕ) (h : (demo2.state n).workers 0 ≠ .exited) : n ≤ 10 := by
  by_contra h'
  apply h
  by_cases h2 : 17 ≤ n
  · rw [demo2_late n h2]; rfl
  · have h1 : 10 < n := by omega
    have h2 : n < 17 := by omega
    interval_cases n <;> rfl

theorem demo2_calls (n : ℕ) (h : (demo2.state n).callers 0 ≠ .idle) : n ≤ 5 := by
  by_contra h'
  apply h
  by_cases h2 : 17 ≤ n
  · rw [demo2_late n h2]; rfl
  · have h1 : 5 < n := by omega
    have h2 : n < 17 := by omega
    interval_cases n <;> rfl

theorem demo2_fair : Fair demo2 where
  worker w hw n h := by
    obtain rfl : w = 0 := Nat.lt_one_iff.mp hw
    exact ⟨10, demo2_exits n h, .wLoop 0, rfl, rfl⟩
  caller c hc n h1 _ h3 := by
    obtain rfl : c = 0 := Nat.lt_one_iff.mp hc
    exact ⟨5, demo2_calls n h1, .unlock 0, rfl, rfl⟩
  ownQueue w hw h _ := by
    obtain rfl : w = 0 := Nat.lt_one_iff.mp hw
    obtain ⟨m, h1, h2⟩ := h 11
    exact absurd (demo2_exits m (by rw [h2]; simp)) (by omega)
  ownFlag w hw h := by
    obtain rfl : w = 0 := Nat.lt_one_iff.mp hw
    obtain ⟨m, h1, h2⟩ := h 11
    exact absurd (demo2_exits m (by rw [h2]; simp)) (by omega)
  search c hc h := by
    obtain rfl : c = 0 := Nat.lt_one_iff.mp hc
    obtain ⟨m, h1, k, _, h2⟩ := h 11
    exact absurd (demo2_calls m (by rw [h2]; simp)) (by omega)
  tooMany c hc n k h hk := by
    obtain rfl : c = 0 := Nat.lt_one_iff.mp hc
    exfalso
    have h' := demo2_calls n (by rw [h]; simp)
    interval_cases n
    · cases h
    · replace h : CPc.search 1 = .search k := h
      cases h; exact absurd hk (by decide)
    all_goals cases h
  destructor n h := by
    have h := h (max n 17) (by omega)
    rw [demo2_late _ (by omega)] at h
    cases h

/-- the hypotheses of the third theorem are met by it, while a task waits in a queue -/
example : Fair demo2 ∧ (∀ n, (demo2.state n).next < 2 ^ 64) ∧ (demo2.state 9).dtor = .termW 1 ∧
    ((demo2.state 9).queues 0).size = 1#64 ∧ (demo2.state 17).dtor = .done :=
  ⟨demo2_fair, fun n => Nat.lt_of_le_of_lt (demo2_next n) (by decide), rfl, rfl, rfl⟩

end Verif.Props.PoolFair
