import Verif.Proofs.PoolInv6
import Verif.Proofs.PoolQueueAny
/-!
# C35, C36, C37, C41, C69: the thread pool under every schedule

`run cfg initial ls = some s` says: `s` is the state after the schedule `ls`, an arbitrary list of atomic
steps of callers, workers and the destroying thread, of a pool with `cfg.workers` workers and queues of
`cfg.capacity` tasks. The hypothesis `s.next < 2 ^ 64` says that fewer than 2^64 tasks were enqueued.
-/
namespace Verif.Props
open Verif.Spec.Pool Verif.Model.Pool Verif.Proofs.Pool

/-- a schedule used by the examples: two workers, queues of two tasks, two callers. Caller 0 enqueues two tasks
    into queue 0; worker 1 runs the first; caller 1 waits meanwhile. -/
def demoCfg : Cfg := ⟨2, 2, 2⟩
def demoEnqueue : List Label :=
  [.callEnqueue 0 1, .tryLock 0 0, .examine 0, .acquire 0, .publish 0, .unlock 0,
   .callEnqueue 0 1, .tryLock 0 0, .examine 0, .acquire 0, .publish 0, .unlock 0]
def demoTask (w q : Nat) : List Label :=
  [.wTryLock w q, .wBody w, .wUnlock w, .wStart w, .wFinish w, .wDecrement w]
def demoWait : List Label :=
  demoEnqueue ++ [.callWait 1, .check 1] ++ demoTask 1 0 ++ [.wDestroy 1] ++ demoTask 0 0 ++ [.wNotify 0]
def demoDestroy : List Label :=
  demoEnqueue ++ [.wTryLock 1 0, .wBody 1, .wUnlock 1, .dBegin, .dStep, .dStep, .dStep, .dStep, .wStart 1,
    .wFinish 1, .wDecrement 1, .wDestroy 1, .wLoop 1, .dStep, .dStep, .wLoop 0, .dStep, .dStep,
    .dStep, .dStep, .dStep, .dStep, .dStep, .dStep]

/-! ## C35 -/

/-- At every moment, what has happened to a task so far is an initial part of one of the two complete lives:
    stored, run once by one worker, finished, destroyed; or stored and destroyed without being run. So it is run
    at most once, never after it was destroyed, and destroyed at most once. -/
theorem C35_task_life (cfg : Cfg) (hcap : cfg.capacity < 2 ^ 64) (ls : List Label) (s : State)
    (h : run cfg initial ls = some s) (hb : s.next < 2 ^ 64) (t : Nat) :
    PartialLife cfg.workers t (eventsOf t s.log) := by
  obtain ⟨g, ha⟩ := all_reachable hcap h hb
  have hl := ha.life t
  cases hg : g.loc t with
  | fresh =>
    rw [hg] at hl; simp only [LifeAt] at hl
    rw [hl]; exact ⟨_, .discarded, List.nil_prefix⟩
  | queue i =>
    rw [hg] at hl; simp only [LifeAt] at hl
    rw [hl]; exact ⟨_, .discarded, ⟨[.destroyed t], rfl⟩⟩
  | worker w =>
    rw [hg] at hl; simp only [LifeAt] at hl
    have hw := ha.loc.locW t w hg
    refine ⟨_, .ran w hw, ?_⟩
    rw [hl]
    cases s.workers w <;> simp only [wLife] <;>
      first
      | exact ⟨[.started t w, .finished t, .destroyed t], rfl⟩
      | exact ⟨[.finished t, .destroyed t], rfl⟩
      | exact ⟨[.destroyed t], rfl⟩
  | gone =>
    rw [hg] at hl; simp only [LifeAt] at hl
    exact ⟨_, hl, List.prefix_refl _⟩

example : ∃ s, run demoCfg initial demoWait = some s ∧
    eventsOf 0 s.log = [.constructed 0, .started 0 1, .finished 0, .destroyed 0] ∧
    eventsOf 1 s.log = [.constructed 1, .started 1 0, .finished 1] := ⟨_, rfl, rfl, rfl⟩

/-- By the time the pool has been destroyed every task which was enqueued has had a complete life: it was
    destroyed exactly once, after having been run to completion exactly once or not at all. Nothing is lost. -/
theorem C35_all_destroyed (cfg : Cfg) (hcap : cfg.capacity < 2 ^ 64) (ls : List Label) (s : State)
    (h : run cfg initial ls = some s) (hb : s.next < 2 ^ 64) (hd : s.dtor = .done) (t : Nat) (ht : t < s.next) :
    CompleteLife cfg.workers t (eventsOf t s.log) := by
  obtain ⟨g, ha⟩ := all_reachable hcap h hb
  have hl := ha.life t
  cases hg : g.loc t with
  | fresh => have := (ha.loc.fresh t).mp hg; omega
  | queue i =>
    have hi := ha.loc.locQ t i hg
    have := ha.dtor.empty i hi (by rw [hd]; exact Nat.zero_le _)
    have hm := (ha.loc.contLoc i hi t).mpr hg
    rw [this] at hm; cases hm
  | worker w =>
    have hw := ha.loc.locW t w hg
    have := ha.dtor.exited w hw (by rw [hd]; exact Nat.zero_le _)
    have hm := (ha.loc.wLoc w hw t).mpr hg
    rw [this] at hm; cases hm
  | gone => rw [hg] at hl; exact hl

/-- No schedule constructs a task over a live one or takes a task out of an empty cell. -/
theorem C35_no_undefined_behaviour (cfg : Cfg) (hcap : cfg.capacity < 2 ^ 64) (ls : List Label) (s : State)
    (h : run cfg initial ls = some s) (hb : s.next < 2 ^ 64) : s.ub = false := by
  obtain ⟨g, ha⟩ := all_reachable hcap h hb
  exact ha.loc.ub

/-- A task whose enqueue call has returned is never forgotten while the pool lives: it waits in a queue
    (nothing but construction has happened to it), or is in the hands of a worker, or has finished. -/
theorem C35_never_lost (cfg : Cfg) (hcap : cfg.capacity < 2 ^ 64) (ls : List Label) (s : State)
    (h : run cfg initial ls = some s) (hb : s.next < 2 ^ 64) (hd : s.dtor = .alive) (t : Nat)
    (ht : t ∈ s.returned) :
    (∃ i < cfg.workers, ∃ j < cfg.capacity, (s.queues i).slots j = some t) ∨
    (∃ w < cfg.workers, wTask (s.workers w) = some t) ∨ .finished t ∈ s.log := by
  obtain ⟨g, ha⟩ := all_reachable hcap h hb
  cases hg : g.loc t with
  | fresh => have := (ha.loc.fresh t).mp hg; have := (ha.ret.ret t ht).1; omega
  | queue i =>
    have hi := ha.loc.locQ t i hg
    have hm := (ha.loc.contLoc i hi t).mpr hg
    obtain ⟨f, -, -, -, hlen, hs, -⟩ := ha.loc.abs i hi
    obtain ⟨j, hj, he⟩ := List.getElem_of_mem hm
    exact .inl ⟨i, hi, (f + j) % cfg.capacity, Nat.mod_lt _ (by omega), by rw [hs j hj, he]⟩
  | worker w =>
    have hw := ha.loc.locW t w hg
    exact .inr (.inl ⟨w, hw, (ha.loc.wLoc w hw t).mpr hg⟩)
  | gone =>
    exact .inr (.inr (ha.ran (by rw [hd]; intro n r; simp) t hg))

example : ∃ s, run demoCfg initial demoEnqueue = some s ∧ s.returned = [0, 1] ∧ s.dtor = .alive ∧
    (s.queues 0).slots 0 = some 0 ∧ (s.queues 0).slots 1 = some 1 := ⟨_, rfl, rfl, rfl, rfl, rfl⟩

/-! ## C36 -/

/-- When a call of `wait()` returns — the step at which the caller finds nothing outstanding — every task whose
    enqueue call had returned by then has finished executing. -/
theorem C36_wait (cfg : Cfg) (hcap : cfg.capacity < 2 ^ 64) (ls : List Label) (s s' : State) (c : Nat)
    (h : run cfg initial ls = some s) (hb : s.next < 2 ^ 64)
    (hc : s.callers c = .checking) (hs : step cfg s (.check c) = some s') (hr : s'.callers c = .idle)
    (t : Nat) (ht : t ∈ s.returned) : .finished t ∈ s.log := by
  obtain ⟨g, ha⟩ := all_reachable hcap h hb
  have htr := trans_of_step hs
  have hbusy : s.busy = 0#64 ∧ c < cfg.callers := by
    cases htr with
    | checkDone _ hc _ hb => exact ⟨hb, hc⟩
    | checkSleep _ _ _ _ => simp [upd_same] at hr
  have halive : s.dtor = .alive := by
    refine Classical.byContradiction fun hne => ?_
    have := ha.dtor.idle hne c hbusy.2
    rw [hc] at this; cases this
  have hcnt : g.cnt = [] := by
    have hlen := ha.cnt.length_le ha.loc ha.dtor
    have h0 := ha.cnt.busy
    rw [hbusy.1] at h0
    have h1 := congrArg BitVec.toNat h0
    simp only [BitVec.toNat_ofNat] at h1
    exact List.length_eq_zero_iff.mp (by omega)
  have hnot : ¬ Counted cfg s g t := by
    intro hx; have := (ha.cnt.mem t).mpr hx; rw [hcnt] at this; cases this
  cases hg : g.loc t with
  | fresh => have := (ha.loc.fresh t).mp hg; have := (ha.ret.ret t ht).1; omega
  | queue i =>
    refine absurd (.inl ⟨i, hg, ?_⟩) hnot
    rintro ⟨c', hc', hm⟩
    exact (ha.ret.ret t ht).2 c' hc' hm
  | worker w =>
    have hw := ha.loc.locW t w hg
    have htk := (ha.loc.wLoc w hw t).mpr hg
    have hl := ha.life t
    rw [hg] at hl; simp only [LifeAt] at hl
    have hnc : wCounts (s.workers w) ≠ true := fun hx => hnot (.inr (.inl ⟨w, hg, hx⟩))
    have hm : Event.finished t ∈ eventsOf t s.log := by
      rw [hl]
      cases hpc : s.workers w <;> rw [hpc] at hnc htk <;> simp_all [wCounts, wTask, wLife]
    exact (List.mem_filter.mp hm).1
  | gone => exact ha.ran (by rw [halive]; intro n r; simp) t hg

/-- the hypotheses are met: caller 1 waits for the two tasks of caller 0, sleeps, is woken and returns -/
example : ∃ s s', run demoCfg initial demoWait = some s ∧ s.next = 2 ∧ s.callers 1 = .checking ∧
    s.returned = [0, 1] ∧ step demoCfg s (.check 1) = some s' ∧ s'.callers 1 = .idle :=
  ⟨_, _, rfl, rfl, rfl, rfl, rfl, rfl⟩

/-! ## C69: no lost wake-up -/

/-- A thread blocked in `wait()` when nothing is outstanding is about to be woken: a worker has the
    notification as its next step, that step is enabled, and after it the waiting thread re-examines the count
    instead of sleeping on. -/
theorem C69_no_lost_wakeup (cfg : Cfg) (hcap : cfg.capacity < 2 ^ 64) (ls : List Label) (s : State)
    (h : run cfg initial ls = some s) (hb : s.next < 2 ^ 64) (c : Nat) (hc : c < cfg.callers)
    (hsl : s.callers c = .sleeping) (hz : s.busy = 0#64) :
    ∃ w < cfg.workers, ∃ s', step cfg s (.wNotify w) = some s' ∧ s'.callers c = .checking := by
  obtain ⟨g, ha⟩ := all_reachable hcap h hb
  obtain ⟨w, hw, t, ht⟩ := ha.sleep c hc hsl hz
  refine ⟨w, hw, s.notifyAll.setW w (.counted t), ?_, ?_⟩
  · simp only [step, if_pos hw, stepWorker, ht]
  · simp [hsl]

example : ∃ s, run demoCfg initial (demoWait.take 27) = some s ∧ s.callers 1 = .sleeping ∧
    s.busy = 0#64 := ⟨_, rfl, rfl, rfl⟩

/-! ## C37 -/

/-- Any sequence of puts and takes on one queue gives the results of the bounded first-in first-out buffer, for
    every capacity and however often the ring wraps, as long as fewer than 2^64 puts are made. -/
theorem C37_queue_fifo_partial (cap : Nat) (ops : List QOp) (h : puts ops < 2 ^ 64) :
    (({} : Queue).useMany cap ops).map (·.1) = some (fifoRun cap [] ops).1 := by
  obtain ⟨q', e, -⟩ := useMany_fifo cap ops {} [] 0 (QAbs.initial cap) rfl (by omega)
  rw [e]; rfl

example : (({} : Queue).useMany 2 [.put 1, .put 2, .put 3, .take, .put 4, .take, .take, .take]).map (·.1) =
    some [.stored, .stored, .refused, .got 1, .stored, .got 2, .got 4, .nothing] := rfl

/-- With a capacity which is a power of two there is no limit on the number of operations. -/
theorem C37_queue_fifo_pow2 (k : Nat) (hk : k < 64) (ops : List QOp) :
    (({} : Queue).useMany (2 ^ k) ops).map (·.1) = some (fifoRun (2 ^ k) [] ops).1 := by
  obtain ⟨q', e, -⟩ := useMany_fifo_any (2 ^ k) (Nat.pow_dvd_pow 2 (by omega)) (Nat.pow_lt_pow_right (by omega) hk)
    ops {} [] (QAny.initial _) rfl
  rw [e]; rfl

example : (({} : Queue).useMany (2 ^ 1) [.put 1, .put 2, .put 3, .take]).map (·.1) =
    some [.stored, .stored, .refused, .got 1] := rfl

/-- With another capacity the 2^64th put breaks the ring: after 2^64 - 1 put/take pairs on a queue for 3 tasks the
    queue is empty, yet the second of two further puts constructs a task over the first one (undefined behaviour,
    `none`). The buffer of the specification stores both. -/
theorem C37_unbounded_violated :
    ∃ ops : List QOp, ({} : Queue).useMany 3 ops = none ∧ (fifoRun 3 [] ops).2 = [1, 2] ∧
      [.stored, .stored] <:+ (fifoRun 3 [] ops).1 := by
  obtain ⟨n, hn⟩ : ∃ n, n = 2 ^ 64 - 1 := ⟨_, rfl⟩
  obtain ⟨rs, h⟩ := fifoRun_pairs 3 (by omega) n
  exact ⟨_, useMany_clash n hn, by rw [h], by rw [h]; exact ⟨rs, rfl⟩⟩

/-- In every reachable state of the pool no queue holds more tasks than its capacity. -/
theorem C37_bounded (cfg : Cfg) (hcap : cfg.capacity < 2 ^ 64) (ls : List Label) (s : State)
    (h : run cfg initial ls = some s) (hb : s.next < 2 ^ 64) (i : Nat) (hi : i < cfg.workers) :
    (s.queues i).size.toNat ≤ cfg.capacity := by
  obtain ⟨g, ha⟩ := all_reachable hcap h hb
  rw [(ha.loc.abs i hi).size_toNat hb]
  exact (ha.loc.abs i hi).le_cap

example : ∃ s, run demoCfg initial demoEnqueue = some s ∧ (s.queues 0).size.toNat = 2 := ⟨_, rfl, rfl⟩

/-! ## C41 -/

/-- No label of a schedule starts a task once the destructor has begun to destroy the queues. -/
theorem C41_no_start_after_workers_stop (cfg : Cfg) (hcap : cfg.capacity < 2 ^ 64) (ls : List Label) (s s' : State)
    (l : Label) (h : run cfg initial ls = some s) (hb : s.next < 2 ^ 64)
    (hd : (∃ n, s.dtor = .drain n) ∨ (∃ n r, s.dtor = .draining n r) ∨ s.dtor = .done)
    (hs : step cfg s l = some s') (t w : Nat) (he : .started t w ∈ s'.log) : .started t w ∈ s.log := by
  obtain ⟨g, ha⟩ := all_reachable hcap h hb
  have hx : ∀ w < cfg.workers, s.workers w = .exited := by
    intro w hw
    apply ha.dtor.exited w hw
    rcases hd with ⟨n, h⟩ | ⟨n, r, h⟩ | h <;> rw [h] <;> exact Nat.zero_le _
  have htr := trans_of_step hs
  cases htr
  case wStart w t hw h => rw [hx w hw] at h; cases h
  all_goals first
    | exact he
    | (simp only [emit_log, List.mem_append, List.mem_singleton, reduceCtorEq, or_false] at he; exact he)

/-- the hypotheses are met by the run below, four steps before its end -/
example : ∃ s s', run demoCfg initial (demoDestroy.take 33) = some s ∧ s.dtor = .draining 0 1#64 ∧
    step demoCfg s .dStep = some s' ∧ s'.log = s.log ++ [.destroyed 1] := ⟨_, _, rfl, rfl, rfl, rfl⟩

/-- When destruction is complete every worker has exited, every task which was started has finished, every other
    task was destroyed without being started, every queue is empty, and the count `wait()` looks at is zero. -/
theorem C41_destroyed (cfg : Cfg) (hcap : cfg.capacity < 2 ^ 64) (ls : List Label) (s : State)
    (h : run cfg initial ls = some s) (hb : s.next < 2 ^ 64) (hd : s.dtor = .done) :
    (∀ w < cfg.workers, s.workers w = .exited) ∧
    (∀ t < s.next, (∃ w, .started t w ∈ s.log) → .finished t ∈ s.log) ∧
    (∀ t < s.next, .destroyed t ∈ s.log) ∧
    (∀ i < cfg.workers, ∀ j < cfg.capacity, (s.queues i).slots j = none) ∧ s.busy = 0#64 := by
  have hall := C35_all_destroyed cfg hcap ls s h hb hd
  obtain ⟨g, ha⟩ := all_reachable hcap h hb
  have hx : ∀ w < cfg.workers, s.workers w = .exited := by
    intro w hw; apply ha.dtor.exited w hw; rw [hd]; exact Nat.zero_le _
  have hem : ∀ i < cfg.workers, g.cont i = [] := by
    intro i hi; apply ha.dtor.empty i hi; rw [hd]; exact Nat.zero_le _
  refine ⟨hx, ?_, ?_, ?_, ?_⟩
  · rintro t ht ⟨w, hw⟩
    have hm : Event.started t w ∈ eventsOf t s.log := List.mem_filter.mpr ⟨hw, by simp [Event.task]⟩
    have hc := hall t ht
    generalize he : eventsOf t s.log = ev at *
    cases hc with
    | ran w' hw' =>
      have : Event.finished t ∈ eventsOf t s.log := by rw [he]; simp
      exact (List.mem_filter.mp this).1
    | discarded => simp at hm
  · intro t ht
    have hc := hall t ht
    have : Event.destroyed t ∈ eventsOf t s.log := by
      generalize eventsOf t s.log = ev at *
      cases hc <;> simp
    exact (List.mem_filter.mp this).1
  · intro i hi j hj
    obtain ⟨f, -, -, -, -, -, hn⟩ := ha.loc.abs i hi
    apply hn j hj
    rw [hem i hi]; simp
  · have hcnt : g.cnt = [] := by
      cases hc : g.cnt with
      | nil => rfl
      | cons t l =>
        have hm : t ∈ g.cnt := by rw [hc]; simp
        rcases (ha.cnt.mem t).mp hm with ⟨i, hl, -⟩ | ⟨w, hl, -⟩ | hdr
        · have hi := ha.loc.locQ t i hl
          have := (ha.loc.contLoc i hi t).mpr hl
          rw [hem i hi] at this; cases this
        · have hw := ha.loc.locW t w hl
          have := (ha.loc.wLoc w hw t).mpr hl
          rw [hx w hw] at this; cases this
        · rw [ha.dtor.notDraining (by rw [hd]; rfl)] at hdr; cases hdr
    rw [ha.cnt.busy, hcnt]; rfl

/-- a pool destroyed while worker 1 has a task in hand (which it completes) and another one is queued (discarded) -/
example : ∃ s, run demoCfg initial demoDestroy = some s ∧ s.dtor = .done ∧ s.next = 2 ∧
    eventsOf 0 s.log = [.constructed 0, .started 0 1, .finished 0, .destroyed 0] ∧
    eventsOf 1 s.log = [.constructed 1, .destroyed 1] := ⟨_, rfl, rfl, rfl, rfl, rfl⟩

end Verif.Props
