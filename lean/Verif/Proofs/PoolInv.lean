import Verif.Proofs.PoolQueue
import Verif.Proofs.PoolSimp
/-! The steps of the pool as an inductive relation, and the invariant. -/
namespace Verif.Proofs.Pool
open Verif.Spec.Pool Verif.Model.Pool

section
variable (s : State) (i : Nat) (q : Queue) (cpc : CPc) (wpc : WPc) (e : Event)
@[simp, grind =, pool_simp] theorem setQ_queues : (s.setQ i q).queues = upd s.queues i q := rfl
@[simp, grind =, pool_simp] theorem setQ_callers : (s.setQ i q).callers = s.callers := rfl
@[simp, grind =, pool_simp] theorem setQ_workers : (s.setQ i q).workers = s.workers := rfl
@[simp, grind =, pool_simp] theorem setQ_wterm : (s.setQ i q).wterm = s.wterm := rfl
@[simp, grind =, pool_simp] theorem setQ_dtor : (s.setQ i q).dtor = s.dtor := rfl
@[simp, grind =, pool_simp] theorem setQ_busy : (s.setQ i q).busy = s.busy := rfl
@[simp, grind =, pool_simp] theorem setQ_next : (s.setQ i q).next = s.next := rfl
@[simp, grind =, pool_simp] theorem setQ_log : (s.setQ i q).log = s.log := rfl
@[simp, grind =, pool_simp] theorem setQ_returned : (s.setQ i q).returned = s.returned := rfl
@[simp, grind =, pool_simp] theorem setQ_ub : (s.setQ i q).ub = s.ub := rfl
@[simp, grind =, pool_simp] theorem setC_queues : (s.setC i cpc).queues = s.queues := rfl
@[simp, grind =, pool_simp] theorem setC_callers : (s.setC i cpc).callers = upd s.callers i cpc := rfl
@[simp, grind =, pool_simp] theorem setC_workers : (s.setC i cpc).workers = s.workers := rfl
@[simp, grind =, pool_simp] theorem setC_wterm : (s.setC i cpc).wterm = s.wterm := rfl
@[simp, grind =, pool_simp] theorem setC_dtor : (s.setC i cpc).dtor = s.dtor := rfl
@[simp, grind =, pool_simp] theorem setC_busy : (s.setC i cpc).busy = s.busy := rfl
@[simp, grind =, pool_simp] theorem setC_next : (s.setC i cpc).next = s.next := rfl
@[simp, grind =, pool_simp] theorem setC_log : (s.setC i cpc).log = s.log := rfl
@[simp, grind =, pool_simp] theorem setC_returned : (s.setC i cpc).returned = s.returned := rfl
@[simp, grind =, pool_simp] theorem setC_ub : (s.setC i cpc).ub = s.ub := rfl
@[simp, grind =, pool_simp] theorem setW_queues : (s.setW i wpc).queues = s.queues := rfl
@[simp, grind =, pool_simp] theorem setW_callers : (s.setW i wpc).callers = s.callers := rfl
@[simp, grind =, pool_simp] theorem setW_workers : (s.setW i wpc).workers = upd s.workers i wpc := rfl
@[simp, grind =, pool_simp] theorem setW_wterm : (s.setW i wpc).wterm = s.wterm := rfl
@[simp, grind =, pool_simp] theorem setW_dtor : (s.setW i wpc).dtor = s.dtor := rfl
@[simp, grind =, pool_simp] theorem setW_busy : (s.setW i wpc).busy = s.busy := rfl
@[simp, grind =, pool_simp] theorem setW_next : (s.setW i wpc).next = s.next := rfl
@[simp, grind =, pool_simp] theorem setW_log : (s.setW i wpc).log = s.log := rfl
@[simp, grind =, pool_simp] theorem setW_returned : (s.setW i wpc).returned = s.returned := rfl
@[simp, grind =, pool_simp] theorem setW_ub : (s.setW i wpc).ub = s.ub := rfl
@[simp, grind =, pool_simp] theorem emit_queues : (s.emit e).queues = s.queues := rfl
@[simp, grind =, pool_simp] theorem emit_callers : (s.emit e).callers = s.callers := rfl
@[simp, grind =, pool_simp] theorem emit_workers : (s.emit e).workers = s.workers := rfl
@[simp, grind =, pool_simp] theorem emit_wterm : (s.emit e).wterm = s.wterm := rfl
@[simp, grind =, pool_simp] theorem emit_dtor : (s.emit e).dtor = s.dtor := rfl
@[simp, grind =, pool_simp] theorem emit_busy : (s.emit e).busy = s.busy := rfl
@[simp, grind =, pool_simp] theorem emit_next : (s.emit e).next = s.next := rfl
@[simp, grind =, pool_simp] theorem emit_log : (s.emit e).log = s.log ++ [e] := rfl
@[simp, grind =, pool_simp] theorem emit_returned : (s.emit e).returned = s.returned := rfl
@[simp, grind =, pool_simp] theorem emit_ub : (s.emit e).ub = s.ub := rfl
@[simp, grind =, pool_simp] theorem notifyAll_queues : s.notifyAll.queues = s.queues := rfl
@[simp, grind =, pool_simp] theorem notifyAll_callers :
    s.notifyAll.callers = fun c => if s.callers c = .sleeping then .checking else s.callers c := rfl
@[simp, grind =, pool_simp] theorem notifyAll_workers : s.notifyAll.workers = s.workers := rfl
@[simp, grind =, pool_simp] theorem notifyAll_wterm : s.notifyAll.wterm = s.wterm := rfl
@[simp, grind =, pool_simp] theorem notifyAll_dtor : s.notifyAll.dtor = s.dtor := rfl
@[simp, grind =, pool_simp] theorem notifyAll_busy : s.notifyAll.busy = s.busy := rfl
@[simp, grind =, pool_simp] theorem notifyAll_next : s.notifyAll.next = s.next := rfl
@[simp, grind =, pool_simp] theorem notifyAll_log : s.notifyAll.log = s.log := rfl
@[simp, grind =, pool_simp] theorem notifyAll_returned : s.notifyAll.returned = s.returned := rfl
@[simp, grind =, pool_simp] theorem notifyAll_ub : s.notifyAll.ub = s.ub := rfl
end

/-- the steps, one constructor per case of `step` -/
inductive Trans (cfg : Cfg) (s : State) : Label → State → Prop where
  | callEnqueue (c k) (hc : c < cfg.callers) (h : s.callers c = .idle) (ha : s.dtor = .alive) (hk : 1 ≤ k) :
      Trans cfg s (.callEnqueue c k) (s.setC c (.search k))
  | tryLock (c q k) (hc : c < cfg.callers) (h : s.callers c = .search k) (hq : q < cfg.workers)
      (hh : (s.queues q).holder = none) :
      Trans cfg s (.tryLock c q) ((s.setQ q ((s.queues q).tryLock (.caller c))).setC c (.locked k q))
  | examineOk (c k q) (hc : c < cfg.callers) (h : s.callers c = .locked k q)
      (hk : k ≤ ((s.queues q).available cfg.capacity).toNat) :
      Trans cfg s (.examine c) (s.setC c (.filling k q [] none))
  | examineNo (c k q) (hc : c < cfg.callers) (h : s.callers c = .locked k q)
      (hk : ¬ k ≤ ((s.queues q).available cfg.capacity).toNat) :
      Trans cfg s (.examine c) (s.setC c (.filling 0 q [] (some k)))
  | abandon (c k) (hc : c < cfg.callers) (h : s.callers c = .search k) :
      Trans cfg s (.abandon c) (s.setC c .idle)
  | acquire (c todo q ts retry) (hc : c < cfg.callers) (h : s.callers c = .filling (todo + 1) q ts retry) :
      Trans cfg s (.acquire c)
        { ((s.setQ q ((s.queues q).acquire cfg.capacity s.next).1).setC c
            (.filling todo q (ts ++ [s.next]) retry)).emit (.constructed s.next) with
          next := s.next + 1, ub := s.ub || ((s.queues q).acquire cfg.capacity s.next).2 }
  | publish (c q ts retry) (hc : c < cfg.callers) (h : s.callers c = .filling 0 q ts retry) :
      Trans cfg s (.publish c)
        { s.setC c (.published q ts retry) with
          busy := if (s.queues q).enqueues = 0#64 then s.busy else s.busy + (s.queues q).enqueues }
  | unlockRetry (c q ts k) (hc : c < cfg.callers) (h : s.callers c = .published q ts (some k)) :
      Trans cfg s (.unlock c) ((s.setQ q { s.queues q with holder := none }).setC c (.search k))
  | unlock (c q ts) (hc : c < cfg.callers) (h : s.callers c = .published q ts none) :
      Trans cfg s (.unlock c)
        { (s.setQ q { s.queues q with holder := none }).setC c .idle with returned := s.returned ++ ts }
  | callWait (c) (hc : c < cfg.callers) (h : s.callers c = .idle) (ha : s.dtor = .alive) :
      Trans cfg s (.callWait c) (s.setC c .checking)
  | checkDone (c) (hc : c < cfg.callers) (h : s.callers c = .checking) (hb : s.busy = 0#64) :
      Trans cfg s (.check c) (s.setC c .idle)
  | checkSleep (c) (hc : c < cfg.callers) (h : s.callers c = .checking) (hb : s.busy ≠ 0#64) :
      Trans cfg s (.check c) (s.setC c .sleeping)
  | spurious (c) (hc : c < cfg.callers) (h : s.callers c = .sleeping) :
      Trans cfg s (.spurious c) (s.setC c .checking)
  | wExit (w) (hw : w < cfg.workers) (h : s.workers w = .polling) (ht : s.wterm w = true) :
      Trans cfg s (.wLoop w) (s.setW w .exited)
  | wLoop (w) (hw : w < cfg.workers) (h : s.workers w = .polling) (ht : s.wterm w = false) :
      Trans cfg s (.wLoop w) s
  | wTryLock (w q) (hw : w < cfg.workers) (h : s.workers w = .polling) (hq : q < cfg.workers)
      (hh : (s.queues q).holder = none) :
      Trans cfg s (.wTryLock w q)
        ((s.setQ q { s.queues q with holder := some (.worker w) }).setW w (.locked q))
  | wLeave (w q) (hw : w < cfg.workers) (h : s.workers w = .locked q)
      (he : (s.queues q).empty = true ∨ (s.queues q).terminated = true) :
      Trans cfg s (.wBody w) (s.setW w (.leaving q))
  | wUb (w q) (hw : w < cfg.workers) (h : s.workers w = .locked q)
      (he : (s.queues q).empty = false) (ht : (s.queues q).terminated = false)
      (hp : (s.queues q).popFront cfg.capacity = none) :
      Trans cfg s (.wBody w) { s with ub := true }
  | wPop (w q t q') (hw : w < cfg.workers) (h : s.workers w = .locked q)
      (he : (s.queues q).empty = false) (ht : (s.queues q).terminated = false)
      (hp : (s.queues q).popFront cfg.capacity = some (t, q')) :
      Trans cfg s (.wBody w) ((s.setQ q q').setW w (.popped q t))
  | wUnlockEmpty (w q) (hw : w < cfg.workers) (h : s.workers w = .leaving q) :
      Trans cfg s (.wUnlock w) ((s.setQ q { s.queues q with holder := none }).setW w .polling)
  | wUnlock (w q t) (hw : w < cfg.workers) (h : s.workers w = .popped q t) :
      Trans cfg s (.wUnlock w) ((s.setQ q { s.queues q with holder := none }).setW w (.holding t))
  | wStart (w t) (hw : w < cfg.workers) (h : s.workers w = .holding t) :
      Trans cfg s (.wStart w) ((s.setW w (.running t)).emit (.started t w))
  | wFinish (w t) (hw : w < cfg.workers) (h : s.workers w = .running t) :
      Trans cfg s (.wFinish w) ((s.setW w (.ran t)).emit (.finished t))
  | wDecLast (w t) (hw : w < cfg.workers) (h : s.workers w = .ran t) (hb : s.busy - 1#64 = 0#64) :
      Trans cfg s (.wDecrement w) { s.setW w (.notifying t) with busy := s.busy - 1#64 }
  | wDec (w t) (hw : w < cfg.workers) (h : s.workers w = .ran t) (hb : s.busy - 1#64 ≠ 0#64) :
      Trans cfg s (.wDecrement w) { s.setW w (.counted t) with busy := s.busy - 1#64 }
  | wNotify (w t) (hw : w < cfg.workers) (h : s.workers w = .notifying t) :
      Trans cfg s (.wNotify w) (s.notifyAll.setW w (.counted t))
  | wDestroy (w t) (hw : w < cfg.workers) (h : s.workers w = .counted t) :
      Trans cfg s (.wDestroy w) ((s.setW w .polling).emit (.destroyed t))
  | dBegin (h : s.dtor = .alive) (hi : ∀ c < cfg.callers, s.callers c = .idle) :
      Trans cfg s .dBegin { s with dtor := .termQ cfg.workers }
  | dTermQ0 (h : s.dtor = .termQ 0) : Trans cfg s .dStep { s with dtor := .termW cfg.workers }
  | dTermQ (n) (h : s.dtor = .termQ (n + 1)) :
      Trans cfg s .dStep { s.setQ n { s.queues n with terminated := true } with dtor := .termQ n }
  | dTermW0 (h : s.dtor = .termW 0) : Trans cfg s .dStep { s with dtor := .drain cfg.workers }
  | dTermW (n) (h : s.dtor = .termW (n + 1)) :
      Trans cfg s .dStep { s with wterm := upd s.wterm n true, dtor := .join n }
  | dJoin (n) (h : s.dtor = .join n) (hx : s.workers n = .exited) :
      Trans cfg s .dStep { s with dtor := .termW n }
  | dDrain0 (h : s.dtor = .drain 0) : Trans cfg s .dStep { s with dtor := .done }
  | dDrain (n) (h : s.dtor = .drain (n + 1)) (hh : (s.queues n).holder = none) :
      Trans cfg s .dStep { s.setQ n { s.queues n with holder := some .destroyer } with
        dtor := .draining n (s.queues n).size }
  | dDrained (n r) (h : s.dtor = .draining n r) (he : (s.queues n).empty = true)
      (hr : ¬(r ≠ 0#64 ∧ s.busy - r = 0#64)) :
      Trans cfg s .dStep { s.setQ n { s.queues n with holder := none } with
        busy := s.busy - r, dtor := .drain n }
  | dDrainedLast (n r) (h : s.dtor = .draining n r) (he : (s.queues n).empty = true)
      (hr : r ≠ 0#64 ∧ s.busy - r = 0#64) :
      Trans cfg s .dStep { (s.setQ n { s.queues n with holder := none }).notifyAll with
        busy := s.busy - r, dtor := .drain n }
  | dUb (n r) (h : s.dtor = .draining n r) (he : (s.queues n).empty = false)
      (hp : (s.queues n).popFront cfg.capacity = none) : Trans cfg s .dStep { s with ub := true }
  | dPop (n r t q') (h : s.dtor = .draining n r) (he : (s.queues n).empty = false)
      (hp : (s.queues n).popFront cfg.capacity = some (t, q')) :
      Trans cfg s .dStep ((s.setQ n q').emit (.destroyed t))

theorem trans_of_step {cfg s l s'} (h : step cfg s l = some s') : Trans cfg s l s' := by
  unfold step at h
  cases l <;> simp only [Option.ite_none_right_eq_some] at h
  case callEnqueue c k =>
    obtain ⟨hc, h⟩ := h
    unfold stepCaller at h; split at h <;> simp_all
    obtain ⟨⟨h1, h2⟩, h⟩ := h; subst h; exact .callEnqueue _ _ hc ‹_› h1 h2
  case tryLock c q =>
    obtain ⟨hc, h⟩ := h
    unfold stepCaller at h; split at h <;> simp_all
    obtain ⟨⟨h1, h2⟩, h⟩ := h; subst h; exact .tryLock _ _ _ hc ‹_› h1 h2
  case examine c =>
    obtain ⟨hc, h⟩ := h
    unfold stepCaller at h; split at h <;> simp_all
    split at h
    · simp only [Option.some.injEq] at h; subst h; exact .examineOk _ _ _ hc ‹_› ‹_›
    · simp only [Option.some.injEq] at h; subst h; exact .examineNo _ _ _ hc ‹_› ‹_›
  case abandon c =>
    obtain ⟨hc, h⟩ := h
    unfold stepCaller at h; split at h <;> simp_all
    subst h; exact .abandon _ _ hc ‹_›
  case acquire c =>
    obtain ⟨hc, h⟩ := h
    unfold stepCaller at h; split at h <;> simp_all
    subst h; exact .acquire _ _ _ _ _ hc ‹_›
  case publish c =>
    obtain ⟨hc, h⟩ := h
    unfold stepCaller at h; split at h <;> simp_all
    subst h; exact .publish _ _ _ _ hc ‹_›
  case unlock c =>
    obtain ⟨hc, h⟩ := h
    unfold stepCaller at h; split at h <;> simp_all
    split at h
    · simp only [Option.some.injEq] at h; subst h; exact .unlockRetry _ _ _ _ hc ‹_›
    · simp only [Option.some.injEq] at h; subst h; exact .unlock _ _ _ hc ‹_›
  case callWait c =>
    obtain ⟨hc, h⟩ := h
    unfold stepCaller at h; split at h <;> simp_all
    obtain ⟨h1, h⟩ := h; subst h; exact .callWait _ hc ‹_› h1
  case check c =>
    obtain ⟨hc, h⟩ := h
    unfold stepCaller at h; split at h <;> simp_all
    split at h
    · simp only [Option.some.injEq] at h; subst h; exact .checkDone _ hc ‹_› ‹_›
    · simp only [Option.some.injEq] at h; subst h; exact .checkSleep _ hc ‹_› ‹_›
  case spurious c =>
    obtain ⟨hc, h⟩ := h
    unfold stepCaller at h; split at h <;> simp_all
    subst h; exact .spurious _ hc ‹_›
  case wLoop w =>
    obtain ⟨hw, h⟩ := h
    unfold stepWorker at h; split at h <;> simp_all
    split at h
    · simp only [Option.some.injEq] at h; subst h; exact .wExit _ hw ‹_› ‹_›
    · simp only [Option.some.injEq] at h; subst h; exact .wLoop _ hw ‹_› (Bool.eq_false_iff.mpr ‹_›)
  case wTryLock w q =>
    obtain ⟨hw, h⟩ := h
    unfold stepWorker at h; split at h <;> simp_all
    obtain ⟨⟨h1, h2⟩, h⟩ := h; subst h; exact .wTryLock _ _ hw ‹_› h1 h2
  case wBody w =>
    obtain ⟨hw, h⟩ := h
    unfold stepWorker at h; split at h <;> simp_all
    split at h
    · simp only [Option.some.injEq] at h; subst h; exact .wLeave _ _ hw ‹_› ‹_›
    · rename_i hne
      simp only [not_or, Bool.not_eq_true] at hne
      split at h
      · simp only [Option.some.injEq] at h; subst h; exact .wUb _ _ hw ‹_› hne.1 hne.2 ‹_›
      · simp only [Option.some.injEq] at h; subst h; exact .wPop _ _ _ _ hw ‹_› hne.1 hne.2 ‹_›
  case wUnlock w =>
    obtain ⟨hw, h⟩ := h
    unfold stepWorker at h; split at h <;> simp_all
    · subst h; exact .wUnlockEmpty _ _ hw ‹_›
    · subst h; exact .wUnlock _ _ _ hw ‹_›
  case wStart w =>
    obtain ⟨hw, h⟩ := h
    unfold stepWorker at h; split at h <;> simp_all
    subst h; exact .wStart _ _ hw ‹_›
  case wFinish w =>
    obtain ⟨hw, h⟩ := h
    unfold stepWorker at h; split at h <;> simp_all
    subst h; exact .wFinish _ _ hw ‹_›
  case wDecrement w =>
    obtain ⟨hw, h⟩ := h
    unfold stepWorker at h; split at h <;> simp_all only [reduceCtorEq, Option.some.injEq, Label.wDecrement.injEq]
    subst h
    by_cases hb : s.busy - 1#64 = 0#64
    · have := Trans.wDecLast (cfg := cfg) _ _ hw ‹_› hb
      rwa [if_pos hb]
    · have := Trans.wDec (cfg := cfg) _ _ hw ‹_› hb
      rwa [if_neg hb]
  case wNotify w =>
    obtain ⟨hw, h⟩ := h
    unfold stepWorker at h; split at h <;> simp_all
    subst h; exact .wNotify _ _ hw ‹_›
  case wDestroy w =>
    obtain ⟨hw, h⟩ := h
    unfold stepWorker at h; split at h <;> simp_all
    subst h; exact .wDestroy _ _ hw ‹_›
  case dBegin =>
    unfold stepDestroyer at h; split at h <;> simp_all only [reduceCtorEq, Option.ite_none_right_eq_some, Option.some.injEq]
    obtain ⟨h1, h⟩ := h; subst h; exact .dBegin ‹_› h1
  case dStep =>
    unfold stepDestroyer at h; split at h <;> simp_all only [reduceCtorEq, Option.ite_none_right_eq_some, Option.some.injEq]
    · subst h; exact .dTermQ0 ‹_›
    · subst h; exact .dTermQ _ ‹_›
    · subst h; exact .dTermW0 ‹_›
    · subst h; exact .dTermW _ ‹_›
    · obtain ⟨h1, h⟩ := h; subst h; exact .dJoin _ ‹_› h1
    · subst h; exact .dDrain0 ‹_›
    · obtain ⟨h1, h⟩ := h; subst h; exact .dDrain _ ‹_› h1
    · rename_i n r hd
      split at h
      · rename_i he
        simp only [Option.some.injEq] at h
        have hb : (if r = 0#64 then s.busy else s.busy - r) = s.busy - r := by
          split
          · rename_i h0; rw [h0, BitVec.sub_zero]
          · rfl
        rw [setQ_busy, hb] at h
        by_cases hr : r ≠ 0#64 ∧ s.busy - r = 0#64
        · rw [if_pos hr] at h; subst h; exact .dDrainedLast _ _ hd he hr
        · rw [if_neg hr] at h; subst h; exact .dDrained _ _ hd he hr
      · rename_i hne
        rw [Bool.not_eq_true] at hne
        split at h
        · simp only [Option.some.injEq] at h; subst h
          have := Trans.dUb (cfg := cfg) _ _ hd hne ‹_›
          rwa [hd] at this
        · simp only [Option.some.injEq] at h; subst h; exact .dPop _ _ _ _ hd hne ‹_›

/-! ### The invariant -/

/-- the queue a caller has locked -/
def cOwn : CPc → Option Nat
  | .locked _ q | .filling _ q _ _ | .published q _ _ => some q
  | _ => none
/-- tasks a caller has constructed but not yet counted -/
def cPend : CPc → List Nat
  | .filling _ _ ts _ => ts
  | _ => []
/-- the queue a worker has locked -/
def wOwn : WPc → Option Nat
  | .locked q | .leaving q | .popped q _ => some q
  | _ => none
/-- the task a worker has taken -/
def wTask : WPc → Option Nat
  | .popped _ t | .holding t | .running t | .ran t | .notifying t | .counted t => some t
  | _ => none
/-- the worker's task is still counted -/
def wCounts : WPc → Bool
  | .popped _ _ | .holding _ | .running _ | .ran _ => true
  | _ => false
/-- the queue the destroying thread has locked -/
def dOwn : DPc → Option Nat
  | .draining n _ => some n
  | _ => none
/-- the events of the task a worker has taken -/
def wLife (w : Nat) (t : Nat) : WPc → List Event
  | .running _ => [.constructed t, .started t w]
  | .ran _ | .notifying _ | .counted _ => [.constructed t, .started t w, .finished t]
  | _ => [.constructed t]

def Owns (cfg : Cfg) (s : State) : Thread → Nat → Prop
  | .caller c, i => c < cfg.callers ∧ cOwn (s.callers c) = some i
  | .worker w, i => w < cfg.workers ∧ wOwn (s.workers w) = some i
  | .destroyer, i => dOwn s.dtor = some i

/-- the destroying thread only ever refers to existing queues -/
def DBound (cfg : Cfg) : DPc → Prop
  | .termQ n | .termW n | .drain n => n ≤ cfg.workers
  | .join n | .draining n _ => n < cfg.workers
  | _ => True

/-- mutual exclusion -/
structure InvOwn (cfg : Cfg) (s : State) : Prop where
  own : ∀ th i, Owns cfg s th i → i < cfg.workers ∧ (s.queues i).holder = some th
  dbound : DBound cfg s.dtor

theorem upd_self {α} (f : Nat → α) (i : Nat) : upd f i (f i) = f := by
  funext j; unfold upd; split <;> simp_all

theorem popFront_fields {q cap t q'} (h : Queue.popFront q cap = some (t, q')) :
    q'.holder = q.holder ∧ q'.enqueues = q.enqueues ∧ q'.terminated = q.terminated := by
  unfold Queue.popFront at h
  simp only at h
  split at h
  · cases h
  · simp only [Option.some.injEq, Prod.mk.injEq] at h
    obtain ⟨-, h⟩ := h
    subst h; exact ⟨rfl, rfl, rfl⟩

grind_pattern popFront_fields => Queue.popFront q cap, some (t, q')

theorem invOwn_init (cfg : Cfg) : InvOwn cfg initial := by
  constructor
  · intro th i h; cases th <;> simp [Owns, initial, cOwn, wOwn, dOwn] at h
  · trivial

set_option maxHeartbeats 1000000 in
theorem invOwn_step {cfg s l s'} (hi : InvOwn cfg s) (h : Trans cfg s l s') : InvOwn cfg s' := by
  obtain ⟨ho, hd⟩ := hi
  have hoc := fun c i => ho (.caller c) i
  have how := fun w i => ho (.worker w) i
  have hod := fun i => ho .destroyer i
  simp only [Owns] at hoc how hod
  cases h <;>
  · refine ⟨?_, ?_⟩
    · intro th i
      cases th <;> simp only [Owns, pool_simp, upd_apply] <;>
      grind [cOwn, wOwn, dOwn, Queue.tryLock, Queue.acquire, DBound]
    · first | exact hd | (simp_all [DBound]; done) | (simp_all [DBound]; omega)

end Verif.Proofs.Pool
