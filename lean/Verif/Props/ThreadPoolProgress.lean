import Verif.Proofs.PoolQuiet
import Verif.Props.ThreadPool
/-!
# C70, C71: the thread pool can always finish its work and its destruction

`Continues cfg s s'` (Model/ThreadPool.lean) means that `s'` is reached from `s` by steps of the threads which
are already inside the pool: no new call, no destruction, no spurious wake-up.
-/
namespace Verif.Props
open Verif.Spec.Pool Verif.Model.Pool Verif.Proofs.Pool

/-- From every reachable state of a live pool with at least one worker, all pending calls can return and all tasks
    can be run: there is a continuation to a state in which every caller is outside the pool, every worker is
    looking for work, every queue is empty, the count of outstanding tasks is zero, and every task ever enqueued
    has been run to completion exactly once and destroyed. So no reachable state is a deadlock. -/
theorem C70_can_finish_work (cfg : Cfg) (hcap : cfg.capacity < 2 ^ 64) (hw : 0 < cfg.workers) (ls : List Label)
    (s : State) (h : run cfg initial ls = some s) (hd : s.dtor = .alive)
    (hb : s.next + 2 * cfg.callers * cfg.capacity < 2 ^ 64) :
    ∃ s', Continues cfg s s' ∧ (∀ c < cfg.callers, s'.callers c = .idle) ∧
      (∀ w < cfg.workers, s'.workers w = .polling) ∧ (∀ i < cfg.workers, (s'.queues i).empty = true) ∧
      s'.busy = 0#64 ∧ s'.dtor = .alive ∧
      ∀ t < s'.next, ∃ w < cfg.workers,
        eventsOf t s'.log = [.constructed t, .started t w, .finished t, .destroyed t] := by
  obtain ⟨hb', g, ha, hx⟩ := st_reachable hcap h (by omega)
  obtain ⟨s', g', a1, a2, a3, a4, a5⟩ := quiesce hcap hw ⟨hb', ha, hx⟩ hd hb
  refine ⟨s', a1, a5, a3.workers, ?_, busy_zero a2 a3 a4, a3.dtor, ?_⟩
  · intro i hi
    exact ((a2.all.loc.abs i hi).empty_iff a2.bound).mpr (a4 i hi)
  · intro t ht
    have hl := a2.all.life t
    cases hg : g'.loc t with
    | fresh => have := (a2.all.loc.fresh t).mp hg; omega
    | queue i =>
      have hi := a2.all.loc.locQ t i hg
      have hm := (a2.all.loc.contLoc i hi t).mpr hg
      rw [a4 i hi] at hm; cases hm
    | worker w =>
      have hw := a2.all.loc.locW t w hg
      have hm := (a2.all.loc.wLoc w hw t).mpr hg
      rw [a3.workers w hw] at hm; cases hm
    | gone =>
      rw [hg] at hl; simp only [LifeAt] at hl
      have hf := a2.all.ran (by rw [a3.dtor]; intro n r; simp) t hg
      have hm : Event.finished t ∈ eventsOf t s'.log := List.mem_filter.mpr ⟨hf, by simp [Event.task]⟩
      generalize eventsOf t s'.log = ev at *
      cases hl with
      | ran w hw => exact ⟨w, hw, rfl⟩
      | discarded => simp at hm

/-- the hypotheses are met by a state with a full queue, a caller looking for room, a sleeping waiter and a worker
    in the middle of a task -/
example : ∃ s, run ⟨1, 2, 3⟩ initial (demoEnqueue ++ [.wTryLock 0 0, .wBody 0, .wUnlock 0, .wStart 0,
      .callEnqueue 0 1, .tryLock 0 0, .examine 0, .acquire 0, .publish 0, .unlock 0,
      .callEnqueue 1 2, .tryLock 1 0, .examine 1, .publish 1, .unlock 1, .callWait 2, .check 2]) = some s ∧
    s.callers 1 = .search 2 ∧ s.callers 2 = .sleeping ∧ s.workers 0 = .running 0 ∧
    (s.queues 0).size = 2#64 ∧ s.dtor = .alive ∧ s.next + 2 * 3 * 2 < 2 ^ 64 :=
  ⟨_, rfl, rfl, rfl, rfl, rfl, rfl, by decide⟩

/-- From every state reached during destruction there is a continuation in which the destructor completes. -/
theorem C71_destructor_can_complete (cfg : Cfg) (hcap : cfg.capacity < 2 ^ 64) (ls : List Label) (s : State)
    (h : run cfg initial ls = some s) (hb : s.next < 2 ^ 64) (hd : s.dtor ≠ .alive) :
    ∃ more s', run cfg s more = some s' ∧ s'.dtor = .done :=
  can_finish hcap (st_reachable hcap h hb) hd

/-- the hypotheses are met in the middle of the demo run: worker 1 is being joined while it runs a task -/
example : ∃ s, run demoCfg initial (demoDestroy.take 21) = some s ∧ s.dtor = .join 1 ∧ s.workers 1 = .running 0 :=
  ⟨_, rfl, rfl, rfl⟩

/-- Destruction of a live pool can be started whenever no caller is inside it. -/
theorem C71_destructor_can_start (cfg : Cfg) (s : State) (hd : s.dtor = .alive)
    (hi : ∀ c < cfg.callers, s.callers c = .idle) : ∃ s', step cfg s .dBegin = some s' ∧ s'.dtor ≠ .alive :=
  ⟨{ s with dtor := .termQ cfg.workers }, by simp only [step, stepDestroyer, hd]; rw [if_pos hi], by simp⟩

end Verif.Props
