import Verif.Proofs.PoolLive
/-! From every reachable state of a live pool all pending work can be completed. -/
namespace Verif.Proofs.Pool
open Verif.Spec.Pool Verif.Model.Pool

theorem Continues.trans {cfg s s1 s2} (h : Continues cfg s s1) (h2 : Continues cfg s1 s2) : Continues cfg s s2 := by
  induction h with
  | refl => exact h2
  | step a b _ ih => exact .step a b (ih h2)

structure SG (cfg : Cfg) (s : State) (g : Ghost) : Prop where
  bound : s.next < 2 ^ 64
  all : All cfg s g
  x : InvX cfg s

theorem sg_step {cfg s l s' g} (hcap : cfg.capacity < 2 ^ 64) (h : SG cfg s g) (hs : step cfg s l = some s')
    (hb : s'.next < 2 ^ 64) : SG cfg s' (gstep s l g) :=
  ⟨hb, all_step hcap h.all (trans_of_step hs) hb, invX_step h.all.own h.all.dtor h.x (trans_of_step hs)⟩

/-- the callers are where they were, except that some waiting ones were woken -/
def Woken (s s' : State) : Prop :=
  ∀ c, s'.callers c = s.callers c ∨ (s.callers c = .sleeping ∧ s'.callers c = .checking)

theorem Woken.refl (s : State) : Woken s s := fun _ => .inl rfl
theorem Woken.trans {s s1 s2} (h : Woken s s1) (h2 : Woken s1 s2) : Woken s s2 := by
  intro c
  rcases h c with h | h <;> rcases h2 c with h2 | h2
  · exact .inl (h2.trans h)
  · exact .inr ⟨h ▸ h2.1, h2.2⟩
  · exact .inr ⟨h.1, h2.trans h.2⟩
  · rw [h.2] at h2; exact absurd h2.1 (by simp)
theorem Woken.of_eq {s s' : State} (h : s'.callers = s.callers) : Woken s s' := fun c => .inl (by rw [h])
theorem Woken.cOwn {s s'} (h : Woken s s') {c} (hc : cOwn (s.callers c) = none) : cOwn (s'.callers c) = none := by
  rcases h c with h | h
  · rw [h]; exact hc
  · rw [h.2]; rfl

/-- what one worker's activity may change -/
structure OnlyW (w : Nat) (s s' : State) (g g' : Ghost) : Prop where
  dtor : s'.dtor = s.dtor
  next : s'.next = s.next
  callers : Woken s s'
  workers : ∀ w', w' ≠ w → s'.workers w' = s.workers w'
  cont : g'.cont = g.cont

theorem OnlyW.trans {w s s1 s2 g g1 g2} (h : OnlyW w s s1 g g1) (h2 : OnlyW w s1 s2 g1 g2) : OnlyW w s s2 g g2 :=
  ⟨h2.dtor.trans h.dtor, h2.next.trans h.next, h.callers.trans h2.callers,
   fun w' hw => (h2.workers w' hw).trans (h.workers w' hw), h2.cont.trans h.cont⟩

/-- a worker which is not about to look into a queue gets back to polling -/
theorem park {cfg w} (hcap : cfg.capacity < 2 ^ 64) (hw : w < cfg.workers) :
    ∀ r s g, SG cfg s g → wRank (s.workers w) ≤ r → s.workers w ≠ .exited → (∀ q, s.workers w ≠ .locked q) →
    ∃ s' g', Continues cfg s s' ∧ SG cfg s' g' ∧ s'.workers w = .polling ∧ OnlyW w s s' g g' := by
  intro r
  induction r with
  | zero =>
    intro s g hs hr hne hnl
    cases hp : s.workers w <;> rw [hp] at hr <;> simp_all [wRank]
  | succ r ih =>
    intro s g hs hr hne hnl
    have go : ∀ l s1, step cfg s l = some s1 → CarriesOn cfg s l → s1.next = s.next → s1.dtor = s.dtor →
        Woken s s1 → (∀ w', w' ≠ w → s1.workers w' = s.workers w') → (gstep s l g).cont = g.cont →
        wRank (s1.workers w) ≤ r → s1.workers w ≠ .exited → (∀ q, s1.workers w ≠ .locked q) →
        ∃ s' g', Continues cfg s s' ∧ SG cfg s' g' ∧ s'.workers w = .polling ∧ OnlyW w s s' g g' := by
      intro l s1 h hcar h1 h2 h3 h4 h5 h6 h7 h8
      obtain ⟨s', g', a1, a2, a3, a4⟩ := ih s1 _ (sg_step hcap hs h (by rw [h1]; exact hs.bound)) h6 h7 h8
      exact ⟨s', g', .step h hcar a1, a2, a3, OnlyW.trans ⟨h2, h1, h3, h4, h5⟩ a4⟩
    cases hp : s.workers w with
    | exited => exact absurd hp hne
    | polling => exact ⟨s, g, .refl s, hs, hp, ⟨rfl, rfl, .refl s, fun _ _ => rfl, rfl⟩⟩
    | locked q => exact absurd hp (hnl q)
    | leaving q =>
      rw [hp] at hr; simp only [wRank] at hr
      refine go (.wUnlock w) _ (step_leaving hw hp) trivial rfl rfl (.of_eq rfl) ?_ ?_ ?_ ?_ ?_
      · intro w' hw'; simp [upd_ne _ _ hw']
      · simp [gstep]
      · simp [wRank]; omega
      · simp
      · simp
    | popped q t =>
      rw [hp] at hr; simp only [wRank] at hr
      refine go (.wUnlock w) _ (step_popped hw hp) trivial rfl rfl (.of_eq rfl) ?_ ?_ ?_ ?_ ?_
      · intro w' hw'; simp [upd_ne _ _ hw']
      · simp [gstep]
      · simp [wRank]; omega
      · simp
      · simp
    | holding t =>
      rw [hp] at hr; simp only [wRank] at hr
      refine go (.wStart w) _ (step_holding hw hp) trivial rfl rfl (.of_eq rfl) ?_ ?_ ?_ ?_ ?_
      · intro w' hw'; simp [upd_ne _ _ hw']
      · simp [gstep]
      · simp [wRank]; omega
      · simp
      · simp
    | running t =>
      rw [hp] at hr; simp only [wRank] at hr
      refine go (.wFinish w) _ (step_running hw hp) trivial rfl rfl (.of_eq rfl) ?_ ?_ ?_ ?_ ?_
      · intro w' hw'; simp [upd_ne _ _ hw']
      · simp [gstep]
      · simp [wRank]; omega
      · simp
      · simp
    | ran t =>
      rw [hp] at hr; simp only [wRank] at hr
      refine go (.wDecrement w) _ (step_ran hw hp) trivial rfl rfl (.of_eq rfl) ?_ ?_ ?_ ?_ ?_
      · intro w' hw'; simp [upd_ne _ _ hw']
      · simp [gstep, hp]
      · simp only [pool_simp, upd_same]; split <;> simp [wRank] <;> omega
      · simp only [pool_simp, upd_same]; split <;> simp
      · simp only [pool_simp, upd_same]; split <;> simp
    | notifying t =>
      rw [hp] at hr; simp only [wRank] at hr
      refine go (.wNotify w) _ (step_notifying hw hp) trivial rfl rfl ?_ ?_ ?_ ?_ ?_ ?_
      · intro c
        simp only [pool_simp]
        split
        · exact .inr ⟨‹_›, rfl⟩
        · exact .inl rfl
      · intro w' hw'; simp [upd_ne _ _ hw']
      · simp [gstep]
      · simp [wRank]; omega
      · simp
      · simp
    | counted t =>
      rw [hp] at hr; simp only [wRank] at hr
      refine go (.wDestroy w) _ (step_counted hw hp) trivial rfl rfl (.of_eq rfl) ?_ ?_ ?_ ?_ ?_
      · intro w' hw'; simp [upd_ne _ _ hw']
      · simp [gstep, hp]
      · simp [wRank]; omega
      · simp
      · simp

/-- the step of a worker which has locked a queue -/
theorem step_locked_leave {cfg s w q} (hw : w < cfg.workers) (hp : s.workers w = .locked q)
    (he : (s.queues q).empty = true) : step cfg s (.wBody w) = some (s.setW w (.leaving q)) := by
  simp [step, hw, stepWorker, hp, he]

theorem step_locked_pop {cfg s w q t q'} (hw : w < cfg.workers) (hp : s.workers w = .locked q)
    (he : (s.queues q).empty = false) (ht : (s.queues q).terminated = false)
    (hq : (s.queues q).popFront cfg.capacity = some (t, q')) :
    step cfg s (.wBody w) = some ((s.setQ q q').setW w (.popped q t)) := by
  simp [step, hw, stepWorker, hp, he, ht, hq]

/-- any worker of a live pool gets back to polling -/
theorem park_any {cfg w s g} (hcap : cfg.capacity < 2 ^ 64) (hw : w < cfg.workers) (hs : SG cfg s g)
    (hd : s.dtor = .alive) :
    ∃ s' g', Continues cfg s s' ∧ SG cfg s' g' ∧ s'.workers w = .polling ∧ s'.dtor = .alive ∧ s'.next = s.next ∧
      Woken s s' ∧ (∀ w', w' ≠ w → s'.workers w' = s.workers w') := by
  by_cases hl : ∃ q, s.workers w = .locked q
  · obtain ⟨q, hp⟩ := hl
    have hq := (hs.all.own.own (.worker w) q ⟨hw, by rw [hp]; rfl⟩).1
    obtain ⟨pc, s1, h1, e1, e2, e3, e4⟩ : ∃ pc s1, step cfg s (.wBody w) = some s1 ∧
        s1.workers = upd s.workers w pc ∧ (pc = .leaving q ∨ ∃ t, pc = .popped q t) ∧ s1.callers = s.callers ∧
        s1.next = s.next ∧ s1.dtor = s.dtor := by
      cases he : (s.queues q).empty with
      | true => exact ⟨_, _, step_locked_leave hw hp he, rfl, .inl rfl, rfl, rfl, rfl⟩
      | false =>
        have ht := hs.x.aliveQ hd q hq
        have hnn := popFront_none (hs.all.loc.abs q hq) hs.bound he
        cases hpop : (s.queues q).popFront cfg.capacity with
        | none => exact absurd hpop hnn
        | some r => exact ⟨_, _, step_locked_pop hw hp he ht hpop, rfl, .inr ⟨_, rfl⟩, rfl, rfl, rfl⟩
    have hs1 := sg_step hcap hs h1 (by rw [e4.1]; exact hs.bound)
    have hpc : s1.workers w = pc := by rw [e1]; simp
    obtain ⟨s', g', a1, a2, a3, a4⟩ := park hcap hw _ s1 _ hs1 (Nat.le_refl _)
      (by rw [hpc]; rcases e2 with h | ⟨t, h⟩ <;> rw [h] <;> simp)
      (by rw [hpc]; rcases e2 with h | ⟨t, h⟩ <;> rw [h] <;> simp)
    refine ⟨s', g', .step h1 trivial a1, a2, a3, ?_, ?_, ?_, ?_⟩
    · rw [a4.dtor, e4.2, hd]
    · rw [a4.next, e4.1]
    · exact (Woken.of_eq e3).trans a4.callers
    · intro w' hw'; rw [a4.workers w' hw', e1, upd_ne _ _ hw']
  · obtain ⟨s', g', a1, a2, a3, a4⟩ := park hcap hw _ s g hs (Nat.le_refl _) (hs.x.aliveW hd w hw).2
      (fun q h => hl ⟨q, h⟩)
    exact ⟨s', g', a1, a2, a3, a4.dtor.trans hd, a4.next, a4.callers, a4.workers⟩

theorem park_all {cfg s g} (hcap : cfg.capacity < 2 ^ 64) (hs : SG cfg s g) (hd : s.dtor = .alive) :
    ∀ n ≤ cfg.workers, ∃ s' g', Continues cfg s s' ∧ SG cfg s' g' ∧ (∀ w < n, s'.workers w = .polling) ∧
      s'.dtor = .alive ∧ s'.next = s.next := by
  intro n
  induction n with
  | zero => intro _; exact ⟨s, g, .refl s, hs, by simp, hd, rfl⟩
  | succ n ih =>
    intro hn
    obtain ⟨s1, g1, a1, a2, a3, a4, a5⟩ := ih (by omega)
    obtain ⟨s2, g2, b1, b2, b3, b4, b5, -, b6⟩ := park_any hcap (w := n) (by omega) a2 a4
    refine ⟨s2, g2, Continues.trans a1 b1, b2, ?_, b4, b5.trans a5⟩
    intro w hw
    by_cases h : w = n
    · rw [h]; exact b3
    · rw [b6 w h]; exact a3 w (by omega)

/-- what one caller's activity may change -/
structure OnlyC (c : Nat) (s s' : State) : Prop where
  dtor : s'.dtor = s.dtor
  workers : s'.workers = s.workers
  callers : ∀ c', c' ≠ c → s'.callers c' = s.callers c'

theorem OnlyC.trans {c s s1 s2} (h : OnlyC c s s1) (h2 : OnlyC c s1 s2) : OnlyC c s s2 :=
  ⟨h2.dtor.trans h.dtor, h2.workers.trans h.workers, fun c' hc => (h2.callers c' hc).trans (h.callers c' hc)⟩

/-- where a caller goes after unlocking -/
def afterUnlock : Option Nat → CPc
  | none => .idle
  | some k => .search k

section
variable {cfg : Cfg} {s : State} {c q todo : Nat} {ts : List Nat} {r : Option Nat} (hc : c < cfg.callers)
include hc
theorem step_publish (hp : s.callers c = .filling 0 q ts r) : ∃ s1, step cfg s (.publish c) = some s1 ∧
    s1.next = s.next ∧ s1.callers = upd s.callers c (.published q ts r) ∧ s1.dtor = s.dtor ∧
    s1.workers = s.workers := by
  have h : step cfg s (.publish c) = some { s.setC c (.published q ts r) with
      busy := if (s.queues q).enqueues = 0#64 then s.busy else s.busy + (s.queues q).enqueues } := by
    simp only [step, hc, if_true, stepCaller, hp]
  exact ⟨_, h, rfl, rfl, rfl, rfl⟩
theorem step_unlock (hp : s.callers c = .published q ts r) : ∃ s1, step cfg s (.unlock c) = some s1 ∧
    s1.next = s.next ∧ s1.callers = upd s.callers c (afterUnlock r) ∧ s1.dtor = s.dtor ∧
    s1.workers = s.workers := by
  cases r with
  | none =>
    have h : step cfg s (.unlock c) = some { (s.setQ q { s.queues q with holder := none }).setC c .idle with
        returned := s.returned ++ ts } := by
      simp only [step, hc, if_true, stepCaller, hp]; rfl
    exact ⟨_, h, rfl, rfl, rfl, rfl⟩
  | some k =>
    have h : step cfg s (.unlock c) = some ((s.setQ q { s.queues q with holder := none }).setC c (.search k)) := by
      simp only [step, hc, if_true, stepCaller, hp]
    exact ⟨_, h, rfl, rfl, rfl, rfl⟩
theorem step_acquire (hp : s.callers c = .filling (todo + 1) q ts r) : ∃ s1, step cfg s (.acquire c) = some s1 ∧
    s1.next = s.next + 1 ∧ s1.callers = upd s.callers c (.filling todo q (ts ++ [s.next]) r) ∧ s1.dtor = s.dtor ∧
    s1.workers = s.workers := by
  have h : step cfg s (.acquire c) = some { ((s.setQ q ((s.queues q).acquire cfg.capacity s.next).1).setC c
      (.filling todo q (ts ++ [s.next]) r)).emit (.constructed s.next) with
      next := s.next + 1, ub := s.ub || ((s.queues q).acquire cfg.capacity s.next).2 } := by
    simp only [step, hc, if_true, stepCaller, hp]
  exact ⟨_, h, rfl, rfl, rfl, rfl⟩
end

theorem onlyC_setC (c : Nat) (s : State) (pc : CPc) : OnlyC c s (s.setC c pc) :=
  ⟨rfl, rfl, fun c' hc' => by simp [upd_ne _ _ hc']⟩

/-- a caller which has found its queue constructs its tasks and returns, or goes on searching -/
theorem fill {cfg c} (hcap : cfg.capacity < 2 ^ 64) (hc : c < cfg.callers) :
    ∀ todo s g q ts r, SG cfg s g → s.callers c = .filling todo q ts r → s.next + todo < 2 ^ 64 →
    ∃ s' g', Continues cfg s s' ∧ SG cfg s' g' ∧ s'.callers c = afterUnlock r ∧
      s'.next = s.next + todo ∧ OnlyC c s s' := by
  intro todo
  induction todo with
  | zero =>
    intro s g q ts r hs hp hb
    obtain ⟨s1, h1, e1, e2, e3⟩ := step_publish hc hp
    have hp1 : s1.callers c = .published q ts r := by rw [e2]; simp
    have hs1 := sg_step hcap hs h1 (by rw [e1]; exact hs.bound)
    obtain ⟨s2, h2, f1, f2, f3⟩ := step_unlock hc hp1
    have hs2 := sg_step hcap hs1 h2 (by rw [f1]; exact hs1.bound)
    refine ⟨s2, _, .step h1 trivial (.step h2 trivial (.refl _)), hs2, by rw [f2]; simp, by rw [f1, e1]; rfl,
      ⟨f3.1.trans e3.1, f3.2.trans e3.2, ?_⟩⟩
    intro c' hc'
    rw [f2, upd_ne _ _ hc', e2, upd_ne _ _ hc']
  | succ todo ih =>
    intro s g q ts r hs hp hb
    obtain ⟨s1, h1, e1, e2, e3⟩ := step_acquire hc hp
    have hp1 : s1.callers c = .filling todo q (ts ++ [s.next]) r := by rw [e2]; simp
    have hs1 := sg_step hcap hs h1 (by rw [e1]; omega)
    obtain ⟨s', g', a1, a2, a3, a4, a5⟩ := ih s1 _ q _ r hs1 hp1 (by rw [e1]; omega)
    refine ⟨s', g', .step h1 trivial a1, a2, a3, by rw [a4, e1]; omega, OnlyC.trans ⟨e3.1, e3.2, ?_⟩ a5⟩
    intro c' hc'
    rw [e2, upd_ne _ _ hc']

/-- a caller which holds a queue with enough room for its request returns -/
theorem locked_returns {cfg c s g k q} (hcap : cfg.capacity < 2 ^ 64) (hc : c < cfg.callers) (hs : SG cfg s g)
    (hp : s.callers c = .locked k q) (hk : k ≤ ((s.queues q).available cfg.capacity).toNat)
    (hb : s.next + k < 2 ^ 64) :
    ∃ s' g', Continues cfg s s' ∧ SG cfg s' g' ∧ s'.callers c = .idle ∧ s'.next = s.next + k ∧ OnlyC c s s' := by
  have h1 : step cfg s (.examine c) = some (s.setC c (.filling k q [] none)) := by
    simp only [step, hc, if_true, stepCaller, hp, hk]
  obtain ⟨s', g', a1, a2, a3, a4, a5⟩ := fill hcap hc k (s.setC c (.filling k q [] none)) _ q [] none
    (sg_step hcap hs h1 hs.bound) (by simp) hb
  exact ⟨s', g', .step h1 trivial a1, a2, a3, a4, OnlyC.trans (onlyC_setC c s _) a5⟩

/-- every caller lets go of its queue -/
theorem settle {cfg c s g} (hcap : cfg.capacity < 2 ^ 64) (hc : c < cfg.callers) (hs : SG cfg s g)
    (hb : s.next + cfg.capacity < 2 ^ 64) :
    ∃ s' g', Continues cfg s s' ∧ SG cfg s' g' ∧ cOwn (s'.callers c) = none ∧ s'.next ≤ s.next + cfg.capacity ∧
      OnlyC c s s' := by
  cases hp : s.callers c with
  | idle => exact ⟨s, g, .refl s, hs, by rw [hp]; rfl, by omega, ⟨rfl, rfl, fun _ _ => rfl⟩⟩
  | search k => exact ⟨s, g, .refl s, hs, by rw [hp]; rfl, by omega, ⟨rfl, rfl, fun _ _ => rfl⟩⟩
  | checking => exact ⟨s, g, .refl s, hs, by rw [hp]; rfl, by omega, ⟨rfl, rfl, fun _ _ => rfl⟩⟩
  | sleeping => exact ⟨s, g, .refl s, hs, by rw [hp]; rfl, by omega, ⟨rfl, rfl, fun _ _ => rfl⟩⟩
  | locked k q =>
    by_cases hk : k ≤ ((s.queues q).available cfg.capacity).toNat
    · have hq := (hs.all.own.own (.caller c) q ⟨hc, by rw [hp]; rfl⟩).1
      have := (hs.all.loc.abs q hq).available hs.bound hcap
      obtain ⟨s', g', a1, a2, a3, a4, a5⟩ := locked_returns hcap hc hs hp hk (by omega)
      exact ⟨s', g', a1, a2, by rw [a3]; rfl, by omega, a5⟩
    · have h1 : step cfg s (.examine c) = some (s.setC c (.filling 0 q [] (some k))) := by
        simp only [step, hc, if_true, stepCaller, hp, hk, if_false]
      obtain ⟨s', g', a1, a2, a3, a4, a5⟩ := fill hcap hc 0 (s.setC c (.filling 0 q [] (some k))) _ q [] (some k)
        (sg_step hcap hs h1 hs.bound) (by simp) (by simp only [pool_simp]; omega)
      refine ⟨s', g', .step h1 trivial a1, a2, by rw [a3]; rfl, ?_,
        OnlyC.trans (onlyC_setC c s _) a5⟩
      rw [a4]; simp only [pool_simp]; omega
  | filling todo q ts r =>
    have hroom := hs.all.loc.pendRoom c hc _ _ _ _ hp
    obtain ⟨s', g', a1, a2, a3, a4, a5⟩ := fill hcap hc todo s g q ts r hs hp (by omega)
    exact ⟨s', g', a1, a2, by rw [a3]; cases r <;> rfl, by omega, a5⟩
  | published q ts r =>
    obtain ⟨s2, h2, f1, f2, f3⟩ := step_unlock hc hp
    refine ⟨s2, _, .step h2 trivial (.refl _), sg_step hcap hs h2 (by rw [f1]; exact hs.bound),
      by rw [f2]; cases r <;> simp [afterUnlock, cOwn], by omega, ⟨f3.1, f3.2, fun c' hc' => by rw [f2, upd_ne _ _ hc']⟩⟩

theorem settle_all {cfg s g} (hcap : cfg.capacity < 2 ^ 64) (hs : SG cfg s g) :
    ∀ n ≤ cfg.callers, s.next + n * cfg.capacity < 2 ^ 64 → ∃ s' g', Continues cfg s s' ∧ SG cfg s' g' ∧
      (∀ c < n, cOwn (s'.callers c) = none) ∧ s'.dtor = s.dtor ∧ s'.workers = s.workers ∧
      s'.next ≤ s.next + n * cfg.capacity := by
  intro n
  induction n with
  | zero => intro _ _; exact ⟨s, g, .refl s, hs, by simp, rfl, rfl, by omega⟩
  | succ n ih =>
    intro hn hb
    rw [Nat.succ_mul] at hb
    obtain ⟨s1, g1, a1, a2, a3, a4, a5, a6⟩ := ih (by omega) (by omega)
    obtain ⟨s2, g2, b1, b2, b3, b4, b5⟩ := settle hcap (c := n) (by omega) a2 (by omega)
    refine ⟨s2, g2, Continues.trans a1 b1, b2, ?_, b5.dtor.trans a4, b5.workers.trans a5, by rw [Nat.succ_mul]; omega⟩
    intro c hc
    by_cases h : c = n
    · rw [h]; exact b3
    · rw [b5.callers c h]; exact a3 c (by omega)

/-- a live pool with no worker and no caller inside a queue -/
structure Calm (cfg : Cfg) (s : State) : Prop where
  dtor : s.dtor = .alive
  workers : ∀ w < cfg.workers, s.workers w = .polling
  callers : ∀ c < cfg.callers, cOwn (s.callers c) = none

theorem Calm.free {cfg s g} (h : Calm cfg s) (hs : SG cfg s g) {i} (hi : i < cfg.workers) :
    (s.queues i).holder = none := by
  cases hh : (s.queues i).holder with
  | none => rfl
  | some th =>
    have ho := hs.x.held i hi th hh
    cases th with
    | caller c => have h2 := ho.2; rw [h.callers c ho.1] at h2; cases h2
    | worker w => have h2 := ho.2; rw [h.workers w ho.1] at h2; cases h2
    | destroyer => simp only [Owns, h.dtor, dOwn] at ho; cases ho

/-- worker 0 runs everything in queue `i` -/
theorem drain_one {cfg i} (hcap : cfg.capacity < 2 ^ 64) (hi : i < cfg.workers) :
    ∀ k s g, SG cfg s g → Calm cfg s → (g.cont i).length = k →
    ∃ s' g', Continues cfg s s' ∧ SG cfg s' g' ∧ Calm cfg s' ∧ Woken s s' ∧ s'.next = s.next ∧
      g'.cont i = [] ∧ (∀ j, j ≠ i → g'.cont j = g.cont j) := by
  intro k
  induction k with
  | zero =>
    intro s g hs hq hk
    exact ⟨s, g, .refl s, hs, hq, .refl s, rfl, List.length_eq_zero_iff.mp hk, fun _ _ => rfl⟩
  | succ k ih =>
    intro s g hs hq hk
    have hw : 0 < cfg.workers := by omega
    have h1 : step cfg s (.wTryLock 0 i) =
        some ((s.setQ i { s.queues i with holder := some (.worker 0) }).setW 0 (.locked i)) := by
      simp only [step, hw, if_true, stepWorker, hq.workers 0 hw, hi, hq.free hs hi, and_self]
    have hs1 := sg_step hcap hs h1 hs.bound
    generalize hS1 : (s.setQ i { s.queues i with holder := some (.worker 0) }).setW 0 (.locked i) = s1 at *
    have hd1 : s1.dtor = .alive := by rw [← hS1]; exact hq.dtor
    have hp1 : s1.workers 0 = .locked i := by rw [← hS1]; simp
    have hcont1 : (gstep s (.wTryLock 0 i) g).cont = g.cont := rfl
    have hn1 : s1.next = s.next := by rw [← hS1]; rfl
    have hc1 : s1.callers = s.callers := by rw [← hS1]; rfl
    have hwk1 : ∀ w, w ≠ 0 → s1.workers w = s.workers w := by
      intro w h; rw [← hS1]; simp [upd_ne _ _ h]
    have habs := hs1.all.loc.abs i hi
    rw [hcont1] at habs
    cases hct : g.cont i with
    | nil => rw [hct] at hk; simp at hk
    | cons t l =>
      rw [hct] at habs
      have he : (s1.queues i).empty = false := by
        rw [← Bool.not_eq_true, habs.empty_iff hs1.bound]; simp
      obtain ⟨q', hpop, -⟩ := habs.popFront hs1.bound
      have ht := hs1.x.aliveQ hd1 i hi
      have h2 := step_locked_pop hw hp1 he ht hpop
      have hs2 := sg_step hcap hs1 h2 hs1.bound
      have hcont2 : (gstep s1 (.wBody 0) (gstep s (.wTryLock 0 i) g)).cont = upd g.cont i l := by
        simp only [gstep, hp1, he, ht, hct]; simp
      obtain ⟨s3, g3, a1, a2, a3, a4⟩ := park hcap hw _ _ _ hs2 (Nat.le_refl _) (by simp) (by simp)
      have hcalm : Calm cfg s3 := by
        refine ⟨?_, ?_, ?_⟩
        · rw [a4.dtor]; exact hd1
        · intro w hw'
          by_cases h : w = 0
          · rw [h]; exact a3
          · rw [a4.workers w h]
            simp only [pool_simp, upd_ne _ _ h]
            rw [hwk1 w h]; exact hq.workers w hw'
        · intro c hc
          apply a4.callers.cOwn
          simp only [pool_simp]
          rw [hc1]; exact hq.callers c hc
      obtain ⟨s4, g4, b1, b2, b3, b4, b5, b6, b7⟩ := ih s3 g3 a2 hcalm (by
        rw [a4.cont, hcont2, upd_same]; rw [hct] at hk; simpa using hk)
      refine ⟨s4, g4, .step h1 trivial (.step h2 trivial (Continues.trans a1 b1)), b2, b3, ?_, ?_, b6, ?_⟩
      · refine Woken.trans (Woken.trans (Woken.of_eq ?_) a4.callers) b4
        simp only [pool_simp]; exact hc1
      · rw [b5, a4.next]; simp only [pool_simp]; exact hn1
      · intro j hj
        rw [b7 j hj, a4.cont, hcont2, upd_ne _ _ hj]

theorem drain_all {cfg s g} (hcap : cfg.capacity < 2 ^ 64) (hs : SG cfg s g) (hq : Calm cfg s) :
    ∀ n ≤ cfg.workers, ∃ s' g', Continues cfg s s' ∧ SG cfg s' g' ∧ Calm cfg s' ∧ Woken s s' ∧ s'.next = s.next ∧
      (∀ i < n, g'.cont i = []) := by
  intro n
  induction n with
  | zero => intro _; exact ⟨s, g, .refl s, hs, hq, .refl s, rfl, by simp⟩
  | succ n ih =>
    intro hn
    obtain ⟨s1, g1, a1, a2, a3, a4, a5, a6⟩ := ih (by omega)
    obtain ⟨s2, g2, b1, b2, b3, b4, b5, b6, b7⟩ := drain_one hcap (i := n) (by omega) _ s1 g1 a2 a3 rfl
    refine ⟨s2, g2, Continues.trans a1 b1, b2, b3, a4.trans b4, b5.trans a5, ?_⟩
    intro i hi
    by_cases h : i = n
    · rw [h]; exact b6
    · rw [b7 i h]; exact a6 i (by omega)

/-- not waiting for room in a queue -/
def NotSearching : CPc → Prop
  | .search _ => False
  | _ => True

theorem serve {cfg c s g} (hcap : cfg.capacity < 2 ^ 64) (hw : 0 < cfg.workers) (hc : c < cfg.callers)
    (hs : SG cfg s g) (hq : Calm cfg s) (he : ∀ i < cfg.workers, g.cont i = [])
    (hb : s.next + cfg.capacity < 2 ^ 64) :
    ∃ s' g', Continues cfg s s' ∧ SG cfg s' g' ∧ Calm cfg s' ∧ (∀ i < cfg.workers, g'.cont i = []) ∧
      s'.next ≤ s.next + cfg.capacity ∧ NotSearching (s'.callers c) ∧
      (∀ c', NotSearching (s.callers c') → NotSearching (s'.callers c')) := by
  cases hp : s.callers c with
  | search k =>
    by_cases hk : cfg.capacity < k
    · have h1 : step cfg s (.abandon c) = some (s.setC c .idle) := by
        simp only [step, hc, if_true, stepCaller, hp]
      refine ⟨s.setC c .idle, _, .step h1 ⟨k, hp, hk⟩ (.refl _), sg_step hcap hs h1 hs.bound,
        ⟨hq.dtor, hq.workers, ?_⟩, he, by simp only [pool_simp]; omega, by simp [NotSearching], ?_⟩
      · intro c' hc'
        simp only [pool_simp, upd_apply]
        split
        · rfl
        · exact hq.callers c' hc'
      · intro c' hc'
        simp only [pool_simp, upd_apply]
        split
        · trivial
        · exact hc'
    · have h1 : step cfg s (.tryLock c 0) =
          some ((s.setQ 0 ((s.queues 0).tryLock (.caller c))).setC c (.locked k 0)) := by
        simp only [step, hc, if_true, stepCaller, hp, hw, hq.free hs hw, and_self]
      have hs1 := sg_step hcap hs h1 hs.bound
      generalize hS1 : (s.setQ 0 ((s.queues 0).tryLock (.caller c))).setC c (.locked k 0) = s1 at *
      have hp1 : s1.callers c = .locked k 0 := by rw [← hS1]; simp
      have hn1 : s1.next = s.next := by rw [← hS1]; rfl
      have hav := (hs1.all.loc.abs 0 hw).available hs1.bound hcap
      have hg1 : (gstep s (.tryLock c 0) g).cont 0 = [] := he 0 hw
      rw [hg1] at hav
      obtain ⟨s2, g2, a1, a2, a3, a4, a5⟩ := locked_returns hcap hc hs1 hp1 (by simp at hav; omega) (by omega)
      have hcalm : Calm cfg s2 := by
        refine ⟨?_, ?_, ?_⟩
        · rw [a5.dtor, ← hS1]; exact hq.dtor
        · intro w hw'; rw [a5.workers, ← hS1]; exact hq.workers w hw'
        · intro c' hc'
          by_cases h : c' = c
          · rw [h, a3]; rfl
          · rw [a5.callers c' h, ← hS1]
            simp only [pool_simp, upd_ne _ _ h]; exact hq.callers c' hc'
      obtain ⟨s3, g3, b1, b2, b3, b4, b5, b6⟩ := drain_all hcap a2 hcalm cfg.workers (Nat.le_refl _)
      have hns : ∀ c', NotSearching (s2.callers c') → NotSearching (s3.callers c') := by
        intro c' hc'
        rcases b4 c' with h | h
        · rw [h]; exact hc'
        · rw [h.2]; trivial
      refine ⟨s3, g3, .step h1 trivial (Continues.trans a1 b1), b2, b3, b6, by omega, ?_, ?_⟩
      · apply hns; rw [a3]; trivial
      · intro c' hc'
        apply hns
        by_cases h : c' = c
        · rw [h, a3]; trivial
        · rw [a5.callers c' h, ← hS1]
          simp only [pool_simp, upd_ne _ _ h]; exact hc'
  | _ => exact ⟨s, g, .refl s, hs, hq, he, by omega, by rw [hp]; trivial, fun _ h => h⟩

theorem serve_all {cfg s g} (hcap : cfg.capacity < 2 ^ 64) (hw : 0 < cfg.workers)
    (hs : SG cfg s g) (hq : Calm cfg s) (he : ∀ i < cfg.workers, g.cont i = []) :
    ∀ n ≤ cfg.callers, s.next + n * cfg.capacity < 2 ^ 64 →
    ∃ s' g', Continues cfg s s' ∧ SG cfg s' g' ∧ Calm cfg s' ∧ (∀ i < cfg.workers, g'.cont i = []) ∧
      s'.next ≤ s.next + n * cfg.capacity ∧ (∀ c < n, NotSearching (s'.callers c)) := by
  intro n
  induction n with
  | zero => intro _ _; exact ⟨s, g, .refl s, hs, hq, he, by omega, by simp⟩
  | succ n ih =>
    intro hn hb
    rw [Nat.succ_mul] at hb
    obtain ⟨s1, g1, a1, a2, a3, a4, a5, a6⟩ := ih (by omega) (by omega)
    obtain ⟨s2, g2, b1, b2, b3, b4, b5, b6, b7⟩ := serve hcap hw (c := n) (by omega) a2 a3 a4 (by omega)
    refine ⟨s2, g2, Continues.trans a1 b1, b2, b3, b4, by rw [Nat.succ_mul]; omega, ?_⟩
    intro c hc
    by_cases h : c = n
    · rw [h]; exact b6
    · exact b7 c (a6 c (by omega))

/-- nothing queued, nothing in a worker's hands: nothing is counted -/
theorem busy_zero {cfg s g} (hs : SG cfg s g) (hq : Calm cfg s) (he : ∀ i < cfg.workers, g.cont i = []) :
    s.busy = 0#64 := by
  have hcnt : g.cnt = [] := by
    cases hc : g.cnt with
    | nil => rfl
    | cons t l =>
      have hm : t ∈ g.cnt := by rw [hc]; simp
      rcases (hs.all.cnt.mem t).mp hm with ⟨i, hl, -⟩ | ⟨w, hl, -⟩ | hdr
      · have hi := hs.all.loc.locQ t i hl
        have := (hs.all.loc.contLoc i hi t).mpr hl
        rw [he i hi] at this; cases this
      · have hw := hs.all.loc.locW t w hl
        have := (hs.all.loc.wLoc w hw t).mpr hl
        rw [hq.workers w hw] at this; cases this
      · rw [hs.all.dtor.notDraining (by rw [hq.dtor]; rfl)] at hdr; cases hdr
  rw [hs.all.cnt.busy, hcnt]; rfl

theorem check_all {cfg s g} (hcap : cfg.capacity < 2 ^ 64) (hs : SG cfg s g) (hq : Calm cfg s)
    (he : ∀ i < cfg.workers, g.cont i = []) (hns : ∀ c < cfg.callers, NotSearching (s.callers c)) :
    ∀ n ≤ cfg.callers, ∃ s' g', Continues cfg s s' ∧ SG cfg s' g' ∧ Calm cfg s' ∧ (∀ i < cfg.workers, g'.cont i = []) ∧
      s'.next = s.next ∧ (∀ c < cfg.callers, NotSearching (s'.callers c)) ∧ (∀ c < n, s'.callers c = .idle) := by
  intro n
  induction n with
  | zero => intro _; exact ⟨s, g, .refl s, hs, hq, he, rfl, hns, by simp⟩
  | succ n ih =>
    intro hn
    obtain ⟨s1, g1, a1, a2, a3, a4, a5, a6, a7⟩ := ih (by omega)
    have hb := busy_zero a2 a3 a4
    have hn' : n < cfg.callers := by omega
    have done : s1.callers n = .idle → ∃ s' g', Continues cfg s s' ∧ SG cfg s' g' ∧ Calm cfg s' ∧
        (∀ i < cfg.workers, g'.cont i = []) ∧ s'.next = s.next ∧ (∀ c < cfg.callers, NotSearching (s'.callers c)) ∧
        (∀ c < n + 1, s'.callers c = .idle) := by
      intro h
      refine ⟨s1, g1, a1, a2, a3, a4, a5, a6, fun c hc => ?_⟩
      by_cases hcn : c = n
      · rw [hcn]; exact h
      · exact a7 c (by omega)
    have hown := a3.callers n hn'
    have hns1 := a6 n hn'
    cases hp : s1.callers n with
    | idle => exact done hp
    | search k => rw [hp] at hns1; cases hns1
    | locked k q => rw [hp] at hown; cases hown
    | filling a b c d => rw [hp] at hown; cases hown
    | published a b c => rw [hp] at hown; cases hown
    | sleeping =>
      obtain ⟨w, hw, t, ht⟩ := a2.all.sleep n hn' hp hb
      rw [a3.workers w hw] at ht; cases ht
    | checking =>
      have h1 : step cfg s1 (.check n) = some (s1.setC n .idle) := by
        simp only [step, hn', if_true, stepCaller, hp, hb]
      refine ⟨s1.setC n .idle, _, Continues.trans a1 (.step h1 trivial (.refl _)), sg_step hcap a2 h1 a2.bound,
        ⟨a3.dtor, a3.workers, ?_⟩, a4, a5, ?_, ?_⟩ <;> simp only [pool_simp, upd_apply]
      · intro c hc
        split
        · rfl
        · exact a3.callers c hc
      · intro c hc
        split
        · trivial
        · exact a6 c hc
      · intro c hc
        split
        · rfl
        · exact a7 c (by omega)

theorem quiesce {cfg s g} (hcap : cfg.capacity < 2 ^ 64) (hw : 0 < cfg.workers) (hs : SG cfg s g)
    (hd : s.dtor = .alive) (hb : s.next + 2 * cfg.callers * cfg.capacity < 2 ^ 64) :
    ∃ s' g', Continues cfg s s' ∧ SG cfg s' g' ∧ Calm cfg s' ∧ (∀ i < cfg.workers, g'.cont i = []) ∧
      (∀ c < cfg.callers, s'.callers c = .idle) := by
  rw [Nat.mul_assoc] at hb
  obtain ⟨s1, g1, a1, a2, a3, a4, a5⟩ := park_all hcap hs hd cfg.workers (Nat.le_refl _)
  obtain ⟨s2, g2, b1, b2, b3, b4, b5, b6⟩ := settle_all hcap a2 cfg.callers (Nat.le_refl _) (by omega)
  have hcalm : Calm cfg s2 := ⟨b4.trans a4, fun w hw => by rw [b5]; exact a3 w hw, b3⟩
  obtain ⟨s3, g3, c1, c2, c3, -, c5, c6⟩ := drain_all hcap b2 hcalm cfg.workers (Nat.le_refl _)
  obtain ⟨s4, g4, d1, d2, d3, d4, d5, d6⟩ := serve_all hcap hw c2 c3 c6 cfg.callers (Nat.le_refl _) (by omega)
  obtain ⟨s5, g5, e1, e2, e3, e4, -, -, e7⟩ := check_all hcap d2 d3 d4 d6 cfg.callers (Nat.le_refl _)
  exact ⟨s5, g5, Continues.trans a1 (Continues.trans b1 (Continues.trans c1 (Continues.trans d1 e1))), e2, e3, e4, e7⟩

end Verif.Proofs.Pool
