import Verif.Proofs.PoolInv6
/-! What is needed to show that the pool can always make progress. -/
namespace Verif.Proofs.Pool
open Verif.Spec.Pool Verif.Model.Pool

/-- every held mutex has an owner; nothing is terminated while the pool is alive -/
structure InvX (cfg : Cfg) (s : State) : Prop where
  held : ∀ i < cfg.workers, ∀ th, (s.queues i).holder = some th → Owns cfg s th i
  aliveQ : s.dtor = .alive → ∀ i < cfg.workers, (s.queues i).terminated = false
  aliveW : s.dtor = .alive → ∀ w < cfg.workers, s.wterm w = false ∧ s.workers w ≠ .exited
  joinT : ∀ n, s.dtor = .join n → s.wterm n = true

theorem invX_init (cfg : Cfg) : InvX cfg initial := by
  constructor <;> simp [initial]

set_option maxHeartbeats 1000000 in
theorem invX_step {cfg s l s' g} (ho : InvOwn cfg s) (hd : InvD cfg s g) (hi : InvX cfg s) (h : Trans cfg s l s') :
    InvX cfg s' := by
  obtain ⟨hh, hq, hw, hj⟩ := hi
  have hoc := fun c i => ho.own (.caller c) i
  have how := fun w i => ho.own (.worker w) i
  have hod := fun i => ho.own .destroyer i
  have hdb := ho.dbound
  simp only [Owns] at hoc how hod
  have hidle := hd.idle
  cases h <;>
  · refine ⟨?_, ?_, ?_, ?_⟩
    · intro i hi' th
      have hhi := hh i hi' th
      clear hh hq hw hj ho hd
      cases th <;> simp only [Owns] at hhi <;> simp only [Owns, pool_simp, upd_apply] <;>
      grind -ext [cOwn, wOwn, dOwn, Queue.tryLock, Queue.acquire, DBound]
    · clear hh hw hj ho hd
      try simp only [pool_simp, upd_apply]
      grind -ext [Queue.tryLock, Queue.acquire]
    · clear hh hq hj ho hd
      try simp only [pool_simp, upd_apply]
      grind -ext
    · clear hh hq hw ho hd
      try simp only [pool_simp, upd_apply]
      grind -ext

/-- the invariants, with the ghost state left open -/
def St (cfg : Cfg) (s : State) : Prop := s.next < 2 ^ 64 ∧ ∃ g, All cfg s g ∧ InvX cfg s

theorem st_step {cfg s l s'} (hcap : cfg.capacity < 2 ^ 64) (hs : St cfg s) (h : step cfg s l = some s')
    (hb : s'.next < 2 ^ 64) : St cfg s' := by
  obtain ⟨-, g, ha, hx⟩ := hs
  have ht := trans_of_step h
  exact ⟨hb, _, all_step hcap ha ht hb, invX_step ha.own ha.dtor hx ht⟩

theorem st_run {cfg} (hcap : cfg.capacity < 2 ^ 64) : ∀ {ls s s'}, St cfg s → run cfg s ls = some s' →
    s'.next < 2 ^ 64 → St cfg s' := by
  intro ls
  induction ls with
  | nil => intro s s' ha h _; simp only [run, Option.some.injEq] at h; subst h; exact ha
  | cons l ls ih =>
    intro s s' ha h hb
    simp only [run] at h
    split at h
    · cases h
    · rename_i s1 hs
      exact ih (st_step hcap ha hs (Nat.lt_of_le_of_lt (run_next_le h) hb)) h hb

theorem st_reachable {cfg ls s} (hcap : cfg.capacity < 2 ^ 64) (h : run cfg initial ls = some s)
    (hb : s.next < 2 ^ 64) : St cfg s :=
  st_run hcap ⟨by simp [initial], {}, all_init cfg, invX_init cfg⟩ h hb

/-! ### The steps of a worker, as equations -/
section
variable {cfg : Cfg} {s : State} {n q t : Nat} (hn : n < cfg.workers)
include hn
theorem step_leaving (hw : s.workers n = .leaving q) : step cfg s (.wUnlock n) =
    some ((s.setQ q { s.queues q with holder := none }).setW n .polling) := by
  simp only [step, hn, if_true, stepWorker, hw]
theorem step_popped (hw : s.workers n = .popped q t) : step cfg s (.wUnlock n) =
    some ((s.setQ q { s.queues q with holder := none }).setW n (.holding t)) := by
  simp only [step, hn, if_true, stepWorker, hw]
theorem step_holding (hw : s.workers n = .holding t) : step cfg s (.wStart n) =
    some ((s.setW n (.running t)).emit (.started t n)) := by
  simp only [step, hn, if_true, stepWorker, hw]
theorem step_running (hw : s.workers n = .running t) : step cfg s (.wFinish n) =
    some ((s.setW n (.ran t)).emit (.finished t)) := by
  simp only [step, hn, if_true, stepWorker, hw]
theorem step_ran (hw : s.workers n = .ran t) : step cfg s (.wDecrement n) =
    some { s.setW n (if s.busy - 1#64 = 0#64 then .notifying t else .counted t) with busy := s.busy - 1#64 } := by
  simp only [step, hn, if_true, stepWorker, hw]
theorem step_notifying (hw : s.workers n = .notifying t) : step cfg s (.wNotify n) =
    some (s.notifyAll.setW n (.counted t)) := by
  simp only [step, hn, if_true, stepWorker, hw]
theorem step_counted (hw : s.workers n = .counted t) : step cfg s (.wDestroy n) =
    some ((s.setW n .polling).emit (.destroyed t)) := by
  simp only [step, hn, if_true, stepWorker, hw]
end

/-! ### The destructor can always complete -/

def CanFinish (cfg : Cfg) (s : State) : Prop := ∃ ls s', run cfg s ls = some s' ∧ s'.dtor = .done

theorem canFinish_step {cfg s l s'} (h : step cfg s l = some s') (hc : CanFinish cfg s') : CanFinish cfg s := by
  obtain ⟨ls, s2, h2, hd⟩ := hc
  exact ⟨l :: ls, s2, by simp only [run, h, h2], hd⟩

/-- how far a terminating worker is from having exited -/
def wRank : WPc → Nat
  | .exited => 0
  | .polling => 1
  | .leaving _ => 2
  | .locked _ => 3
  | .counted _ => 2
  | .notifying _ => 3
  | .ran _ => 4
  | .running _ => 5
  | .holding _ => 6
  | .popped _ _ => 7

theorem finish_join {cfg n} (hcap : cfg.capacity < 2 ^ 64)
    (next : ∀ s, St cfg s → s.dtor = .termW n → CanFinish cfg s) :
    ∀ r s, St cfg s → s.dtor = .join n → wRank (s.workers n) ≤ r → CanFinish cfg s := by
  intro r
  induction r with
  | zero =>
    intro s hs hd hr
    have hx : s.workers n = .exited := by
      cases hw : s.workers n <;> rw [hw] at hr <;> simp_all [wRank]
    have hst : step cfg s .dStep = some { s with dtor := .termW n } := by
      simp [step, stepDestroyer, hd, hx]
    exact canFinish_step hst (next _ (st_step hcap hs hst hs.1) rfl)
  | succ r ih =>
    intro s hs hd hr
    obtain ⟨hb, g, ha, hx⟩ := hs
    have hn : n < cfg.workers := by have := ha.own.dbound; rw [hd] at this; exact this
    have go : ∀ l s', step cfg s l = some s' → s'.next = s.next → s'.dtor = s.dtor →
        wRank (s'.workers n) ≤ r → CanFinish cfg s := by
      intro l s' h h1 h2 h3
      exact canFinish_step h (ih s' (st_step hcap ⟨hb, g, ha, hx⟩ h (by omega)) (by rw [h2, hd]) h3)
    cases hw : s.workers n with
    | exited => exact ih s ⟨hb, g, ha, hx⟩ hd (by rw [hw]; simp [wRank])
    | polling =>
      rw [hw] at hr; simp only [wRank] at hr
      refine go (.wLoop n) (s.setW n .exited) ?_ rfl rfl ?_
      · simp [step, hn, stepWorker, hw, hx.joinT n hd]
      · simp [wRank]
    | locked q =>
      rw [hw] at hr; simp only [wRank] at hr
      have hq := (ha.own.own (.worker n) q ⟨hn, by rw [hw]; rfl⟩).1
      have ht := ha.dtor.term q hq (by rw [hd]; exact Nat.zero_le _)
      refine go (.wBody n) (s.setW n (.leaving q)) ?_ rfl rfl ?_
      · simp [step, hn, stepWorker, hw, ht]
      · simp [wRank]; omega
    | leaving q =>
      rw [hw] at hr; simp only [wRank] at hr
      refine go (.wUnlock n) _ (step_leaving hn hw) rfl rfl ?_
      simp [wRank]; omega
    | popped q t =>
      rw [hw] at hr; simp only [wRank] at hr
      refine go (.wUnlock n) _ (step_popped hn hw) rfl rfl ?_
      simp [wRank]; omega
    | holding t =>
      rw [hw] at hr; simp only [wRank] at hr
      refine go (.wStart n) _ (step_holding hn hw) rfl rfl ?_
      simp [wRank]; omega
    | running t =>
      rw [hw] at hr; simp only [wRank] at hr
      refine go (.wFinish n) _ (step_running hn hw) rfl rfl ?_
      simp [wRank]; omega
    | ran t =>
      rw [hw] at hr; simp only [wRank] at hr
      refine go (.wDecrement n) _ (step_ran hn hw) rfl rfl ?_
      simp only [pool_simp, upd_same]; split <;> simp [wRank] <;> omega
    | notifying t =>
      rw [hw] at hr; simp only [wRank] at hr
      refine go (.wNotify n) _ (step_notifying hn hw) rfl rfl ?_
      simp [wRank]; omega
    | counted t =>
      rw [hw] at hr; simp only [wRank] at hr
      refine go (.wDestroy n) _ (step_counted hn hw) rfl rfl ?_
      simp [wRank]; omega

theorem finish_draining {cfg n} (hcap : cfg.capacity < 2 ^ 64)
    (next : ∀ s, St cfg s → s.dtor = .drain n → CanFinish cfg s) :
    ∀ k s g r, s.next < 2 ^ 64 → All cfg s g → InvX cfg s → s.dtor = .draining n r → (g.cont n).length = k →
      CanFinish cfg s := by
  intro k
  induction k with
  | zero =>
    intro s g r hb ha hx hd hk
    have hn : n < cfg.workers := by have := ha.own.dbound; rw [hd] at this; exact this
    have he : (s.queues n).empty = true :=
      ((ha.loc.abs n hn).empty_iff hb).mpr (List.length_eq_zero_iff.mp hk)
    obtain ⟨s', hst, h1, h2⟩ : ∃ s', step cfg s .dStep = some s' ∧ s'.next = s.next ∧ s'.dtor = .drain n := by
      refine ⟨_, by simp only [step, stepDestroyer, hd, he, if_true]; rfl, ?_, rfl⟩
      (repeat' split) <;> rfl
    exact canFinish_step hst (next _ (st_step hcap ⟨hb, g, ha, hx⟩ hst (by omega)) h2)
  | succ k ih =>
    intro s g r hb ha hx hd hk
    have hn : n < cfg.workers := by have := ha.own.dbound; rw [hd] at this; exact this
    have he : (s.queues n).empty = false := by
      rw [← Bool.not_eq_true, (ha.loc.abs n hn).empty_iff hb]
      intro h; rw [h] at hk; simp at hk
    have habs := ha.loc.abs n hn
    cases hc : g.cont n with
    | nil => rw [hc] at hk; simp at hk
    | cons t l =>
      rw [hc] at habs
      obtain ⟨q', hp, -⟩ := habs.popFront hb
      have hst : step cfg s .dStep = some ((s.setQ n q').emit (.destroyed t)) := by
        simp only [step, stepDestroyer, hd, he, hp]; rfl
      have ht := trans_of_step hst
      refine canFinish_step hst (ih _ (gstep s .dStep g) r hb (all_step hcap ha ht hb)
        (invX_step ha.own ha.dtor hx ht) hd ?_)
      rw [hc] at hk
      simp only [gstep, hd, hc, upd_same]
      simpa using hk

theorem no_owner_drain {cfg s g n i} (ha : All cfg s g) (hx : InvX cfg s) (hd : s.dtor = .drain n)
    (hi : i < cfg.workers) : (s.queues i).holder = none := by
  cases hh : (s.queues i).holder with
  | none => rfl
  | some th =>
    have ho := hx.held i hi th hh
    cases th with
    | caller c =>
      have := ha.dtor.idle (by rw [hd]; simp) c ho.1
      have h2 := ho.2; rw [this] at h2; cases h2
    | worker w =>
      have := ha.dtor.exited w ho.1 (by rw [hd]; exact Nat.zero_le _)
      have h2 := ho.2; rw [this] at h2; cases h2
    | destroyer => simp only [Owns, hd, dOwn] at ho; cases ho

theorem finish_drain {cfg} (hcap : cfg.capacity < 2 ^ 64) : ∀ n s, St cfg s → s.dtor = .drain n → CanFinish cfg s := by
  intro n
  induction n with
  | zero =>
    intro s hs hd
    have hst : step cfg s .dStep = some { s with dtor := .done } := by simp [step, stepDestroyer, hd]
    exact ⟨[.dStep], { s with dtor := .done }, by simp only [run, hst], rfl⟩
  | succ n ih =>
    intro s hs hd
    obtain ⟨hb, g, ha, hx⟩ := hs
    have hn : n < cfg.workers := by have := ha.own.dbound; rw [hd] at this; exact this
    have hh := no_owner_drain ha hx hd hn
    have hst : step cfg s .dStep = some { s.setQ n { s.queues n with holder := some .destroyer } with
        dtor := .draining n (s.queues n).size } := by simp only [step, stepDestroyer, hd, hh, if_true]
    have ht := trans_of_step hst
    exact canFinish_step hst (finish_draining hcap ih _ _ _ _ hb (all_step hcap ha ht hb)
      (invX_step ha.own ha.dtor hx ht) rfl rfl)

theorem finish_termW {cfg} (hcap : cfg.capacity < 2 ^ 64) : ∀ n s, St cfg s → s.dtor = .termW n → CanFinish cfg s := by
  intro n
  induction n with
  | zero =>
    intro s hs hd
    have hst : step cfg s .dStep = some { s with dtor := .drain cfg.workers } := by simp [step, stepDestroyer, hd]
    exact canFinish_step hst (finish_drain hcap _ _ (st_step hcap hs hst hs.1) rfl)
  | succ n ih =>
    intro s hs hd
    have hst : step cfg s .dStep = some { s with wterm := upd s.wterm n true, dtor := .join n } := by
      simp [step, stepDestroyer, hd]
    exact canFinish_step hst (finish_join hcap ih _ _ (st_step hcap hs hst hs.1) rfl (Nat.le_refl _))

theorem finish_termQ {cfg} (hcap : cfg.capacity < 2 ^ 64) : ∀ n s, St cfg s → s.dtor = .termQ n → CanFinish cfg s := by
  intro n
  induction n with
  | zero =>
    intro s hs hd
    have hst : step cfg s .dStep = some { s with dtor := .termW cfg.workers } := by simp [step, stepDestroyer, hd]
    exact canFinish_step hst (finish_termW hcap _ _ (st_step hcap hs hst hs.1) rfl)
  | succ n ih =>
    intro s hs hd
    have hst : step cfg s .dStep =
        some { s.setQ n { s.queues n with terminated := true } with dtor := .termQ n } := by
      simp [step, stepDestroyer, hd]
    exact canFinish_step hst (ih _ (st_step hcap hs hst hs.1) rfl)

theorem can_finish {cfg s} (hcap : cfg.capacity < 2 ^ 64) (hs : St cfg s) (hd : s.dtor ≠ .alive) :
    CanFinish cfg s := by
  cases h : s.dtor with
  | alive => exact absurd h hd
  | termQ n => exact finish_termQ hcap n s hs h
  | termW n => exact finish_termW hcap n s hs h
  | join n => exact finish_join hcap (finish_termW hcap n) _ s hs h (Nat.le_refl _)
  | drain n => exact finish_drain hcap n s hs h
  | draining n r =>
    obtain ⟨hb, g, ha, hx⟩ := hs
    exact finish_draining hcap (finish_drain hcap n) _ s g r hb ha hx h rfl
  | done => exact ⟨[], s, rfl, h⟩

end Verif.Proofs.Pool
