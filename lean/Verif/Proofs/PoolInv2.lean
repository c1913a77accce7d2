import Verif.Proofs.PoolInv
/-! Where every task is: the queues' contents, the workers' hands, or destroyed. -/
namespace Verif.Proofs.Pool
open Verif.Spec.Pool Verif.Model.Pool

inductive Loc where
  | fresh
  | queue (i : Nat)
  | worker (w : Nat)
  | gone
  deriving DecidableEq

/-- what the proof keeps track of beside the state -/
structure Ghost where
  loc : Nat → Loc := fun _ => .fresh
  /-- the lists the queues represent -/
  cont : Nat → List Nat := fun _ => []
  /-- the tasks counted in `busy` -/
  cnt : List Nat := []
  /-- the tasks discarded by the running queue destructor and not yet subtracted from `busy` -/
  drained : List Nat := []

def gstep (s : State) (l : Label) (g : Ghost) : Ghost :=
  match l with
  | .acquire c => match s.callers c with
    | .filling _ q _ _ =>
      { g with loc := upd g.loc s.next (.queue q), cont := upd g.cont q (g.cont q ++ [s.next]) }
    | _ => g
  | .publish c => { g with cnt := g.cnt ++ cPend (s.callers c) }
  | .wBody w => match s.workers w with
    | .locked q =>
      if (s.queues q).empty = true ∨ (s.queues q).terminated = true then g
      else match g.cont q with
        | [] => g
        | t :: l => { g with loc := upd g.loc t (.worker w), cont := upd g.cont q l }
    | _ => g
  | .wDecrement w => match s.workers w with
    | .ran t => { g with cnt := g.cnt.erase t }
    | _ => g
  | .wDestroy w => match s.workers w with
    | .counted t => { g with loc := upd g.loc t .gone }
    | _ => g
  | .dStep => match s.dtor with
    | .draining n _ => match g.cont n with
      | [] => { g with cnt := g.cnt.filter (· ∉ g.drained), drained := [] }
      | t :: l => { g with loc := upd g.loc t .gone, cont := upd g.cont n l, drained := t :: g.drained }
    | _ => g
  | _ => g

structure InvLoc (cfg : Cfg) (s : State) (g : Ghost) : Prop where
  ub : s.ub = false
  abs : ∀ i < cfg.workers, QAbs cfg.capacity s.next (s.queues i) (g.cont i)
  nodup : ∀ i < cfg.workers, (g.cont i).Nodup
  contLoc : ∀ i < cfg.workers, ∀ t, t ∈ g.cont i ↔ g.loc t = .queue i
  wLoc : ∀ w < cfg.workers, ∀ t, wTask (s.workers w) = some t ↔ g.loc t = .worker w
  locQ : ∀ t i, g.loc t = .queue i → i < cfg.workers
  locW : ∀ t w, g.loc t = .worker w → w < cfg.workers
  fresh : ∀ t, g.loc t = .fresh ↔ s.next ≤ t
  lockedEnq : ∀ c < cfg.callers, ∀ k q, s.callers c = .locked k q → (s.queues q).enqueues = 0#64
  pendEnq : ∀ c < cfg.callers, ∀ todo q ts r, s.callers c = .filling todo q ts r →
    (s.queues q).enqueues = BitVec.ofNat 64 ts.length
  pendLoc : ∀ c < cfg.callers, ∀ todo q ts r, s.callers c = .filling todo q ts r →
    ∀ t ∈ ts, g.loc t = .queue q
  pendNodup : ∀ c < cfg.callers, ∀ todo q ts r, s.callers c = .filling todo q ts r → ts.Nodup
  pendRoom : ∀ c < cfg.callers, ∀ todo q ts r, s.callers c = .filling todo q ts r →
    todo + (g.cont q).length ≤ cfg.capacity

theorem popFront_none {cap b q l} (h : QAbs cap b q l) (hb : b < 2 ^ 64) (he : q.empty = false) :
    q.popFront cap ≠ none := by
  cases l with
  | nil => rw [(h.empty_iff hb).mpr rfl] at he; cases he
  | cons t l =>
    obtain ⟨q', e, -⟩ := h.popFront hb
    rw [e]; simp

theorem popFront_some {cap b q l t q'} (h : QAbs cap b q l) (hb : b < 2 ^ 64)
    (hp : q.popFront cap = some (t, q')) (he : q.empty = false) :
    ∃ l', l = t :: l' ∧ QAbs cap b q' l' := by
  cases l with
  | nil => rw [(h.empty_iff hb).mpr rfl] at he; cases he
  | cons t l =>
    obtain ⟨q', e, a, -⟩ := h.popFront hb
    rw [hp] at e
    simp only [Option.some.injEq, Prod.mk.injEq] at e
    obtain ⟨rfl, rfl⟩ := e
    exact ⟨l, rfl, a⟩

theorem invLoc_init (cfg : Cfg) : InvLoc cfg initial {} := by
  constructor <;> simp [initial, wTask]
  intro i _; exact QAbs.initial _

@[simp] theorem tryLock_enq (q : Queue) (th) : (q.tryLock th).enqueues = 0#64 := rfl

/-- steps which leave the ghost state alone -/
theorem invLoc_quiet {cfg s s' g g'} (hl : InvLoc cfg s g) (hg : g'.loc = g.loc ∧ g'.cont = g.cont)
    (h1 : s'.ub = s.ub) (h2 : s'.next = s.next)
    (h3 : ∀ i, (s'.queues i).slots = (s.queues i).slots ∧ (s'.queues i).front = (s.queues i).front ∧
      (s'.queues i).back = (s.queues i).back)
    (h4 : ∀ w < cfg.workers, wTask (s'.workers w) = wTask (s.workers w))
    (h5 : ∀ c < cfg.callers, ∀ k q, s'.callers c = .locked k q → (s'.queues q).enqueues = 0#64)
    (h6 : ∀ c < cfg.callers, ∀ todo q ts r, s'.callers c = .filling todo q ts r →
      (s.callers c = .filling todo q ts r ∧ (s'.queues q).enqueues = (s.queues q).enqueues) ∨
      (ts = [] ∧ todo + (g.cont q).length ≤ cfg.capacity ∧ (s'.queues q).enqueues = 0#64)) :
    InvLoc cfg s' g' := by
  obtain ⟨hg1, hg2⟩ := hg
  obtain ⟨ub, abs, nodup, contLoc, wLoc, locQ, locW, fresh, lockedEnq, pendEnq, pendLoc, pendNodup, pendRoom⟩ := hl
  constructor <;> (try rw [hg1]) <;> (try rw [hg2])
  · rw [h1, ub]
  · intro i hi; rw [h2]; exact (abs i hi).congr (h3 i).1 (h3 i).2.1 (h3 i).2.2
  · exact nodup
  · exact contLoc
  · intro w hw; rw [h4 w hw]; exact wLoc w hw
  · exact locQ
  · exact locW
  · rw [h2]; exact fresh
  · exact h5
  all_goals
    intro c hc todo q ts r he
    rcases h6 c hc todo q ts r he with ⟨a, b⟩ | ⟨rfl, a, b⟩
    · grind
    · grind

set_option maxHeartbeats 1000000 in
theorem invLoc_step {cfg s l s' g} (hcap : cfg.capacity < 2 ^ 64) (ho : InvOwn cfg s) (hl : InvLoc cfg s g)
    (h : Trans cfg s l s') (hb : s'.next < 2 ^ 64) : InvLoc cfg s' (gstep s l g) := by
  have hoc := fun c i => ho.own (.caller c) i
  have how := fun w i => ho.own (.worker w) i
  have hod := fun i => ho.own .destroyer i
  simp only [Owns] at hoc how hod
  have hl' := hl
  obtain ⟨ub, abs, nodup, contLoc, wLoc, locQ, locW, fresh, lockedEnq, pendEnq, pendLoc, pendNodup, pendRoom⟩ := hl
  cases h
  case examineOk c k q hc h hk =>
    have hq := (hoc c q ⟨hc, by rw [h]; rfl⟩).1
    rw [(abs q hq).available hb hcap] at hk
    have := (abs q hq).le_cap
    apply invLoc_quiet hl' ⟨rfl, rfl⟩ <;>
      (clear hl' ho abs nodup contLoc wLoc locQ locW fresh pendEnq pendLoc pendNodup pendRoom
       try simp only [pool_simp, upd_apply]
       try grind -ext [wTask, cOwn])
  case examineNo c k q hc h hk =>
    have hq := (hoc c q ⟨hc, by rw [h]; rfl⟩).1
    have := (abs q hq).le_cap
    apply invLoc_quiet hl' ⟨rfl, rfl⟩ <;>
      (clear hl' ho abs nodup contLoc wLoc locQ locW fresh pendEnq pendLoc pendNodup pendRoom
       try simp only [pool_simp, upd_apply]
       try grind -ext [wTask, cOwn])
  case acquire c todo q ts retry hc h =>
    have hq := (hoc c q ⟨hc, by rw [h]; rfl⟩)
    have hr := pendRoom c hc _ _ _ _ h
    have hn : s.next < 2 ^ 64 := by
      have : s.next + 1 < 2 ^ 64 := hb
      omega
    obtain ⟨a1, a2⟩ := (abs q hq.1).acquire hn (by omega) s.next
    have hfr := (fresh s.next).mpr (Nat.le_refl _)
    have henq := pendEnq c hc _ _ _ _ h
    have hnin : s.next ∉ g.cont q := by rw [contLoc q hq.1]; rw [hfr]; simp
    have hgs : gstep s (.acquire c) g =
        { g with loc := upd g.loc s.next (.queue q), cont := upd g.cont q (g.cont q ++ [s.next]) } := by
      simp only [gstep, h]
    rw [hgs]
    have henq' : ((s.queues q).acquire cfg.capacity s.next).1.enqueues = (s.queues q).enqueues + 1#64 := rfl
    generalize (s.queues q).acquire cfg.capacity s.next = aq at *
    obtain ⟨q', u⟩ := aq
    simp only at a1 a2 henq'
    subst a1
    have huniq : ∀ c' < cfg.callers, c' ≠ c → cOwn (s.callers c') ≠ some q := by
      intro c' hc' hne e
      have := (hoc c' q ⟨hc', e⟩).2
      rw [hq.2] at this
      simp at this; omega
    have hlen : BitVec.ofNat 64 (ts ++ [s.next]).length = BitVec.ofNat 64 ts.length + 1#64 := by
      apply BitVec.eq_of_toNat_eq; simp [BitVec.toNat_add]
    clear hoc how hod hgs
    constructor <;> simp only [pool_simp, upd_apply]
    · simp [ub]
    · intro i hi
      by_cases hiq : i = q
      · subst hiq; simp only [if_true]; exact a2
      · simp only [if_neg hiq]; exact (abs i hi).mono (by omega)
    · intro i hi
      by_cases hiq : i = q
      · subst hiq; simp only [if_true]
        rw [List.nodup_append]
        exact ⟨nodup i hi, by simp, by simp; intro a ha e; exact hnin (e ▸ ha)⟩
      · simp only [if_neg hiq]; exact nodup i hi
    · intro i hi t
      have := contLoc i hi t
      by_cases hiq : i = q <;> by_cases ht : t = s.next
      · subst hiq ht; simp
      · subst hiq; simp [ht, this]
      · subst ht; simp only [if_neg hiq, this, hfr, if_true]; grind
      · simp [hiq, ht, this]
    · intro w hw t
      rw [wLoc w hw t]
      by_cases ht : t = s.next
      · subst ht; simp [hfr]
      · simp [ht]
    · intro t i ht
      by_cases hts : t = s.next
      · simp only [hts, if_true, Loc.queue.injEq] at ht; subst ht; exact hq.1
      · rw [if_neg hts] at ht; exact locQ t i ht
    · intro t w ht
      by_cases hts : t = s.next
      · simp [hts] at ht
      · rw [if_neg hts] at ht; exact locW t w ht
    · intro t
      by_cases hts : t = s.next
      · subst hts; simp
      · rw [if_neg hts, fresh t]; omega
    all_goals
      intro c' hc'
      by_cases hcc : c' = c
      · subst hcc
        simp only [if_true]
        grind
      · simp only [if_neg hcc]
        have := huniq c' hc' hcc
        grind [cOwn]
  case wPop w q t q' hw h he ht hp =>
    have hq := how w q ⟨hw, by rw [h]; rfl⟩
    obtain ⟨l', hcl, a2⟩ := popFront_some (abs q hq.1) hb hp he
    have hgs : gstep s (.wBody w) g =
        { g with loc := upd g.loc t (.worker w), cont := upd g.cont q l' } := by
      simp [gstep, h, he, ht, hcl]
    rw [hgs]
    obtain ⟨-, pe, -⟩ := popFront_fields hp
    have hnd := nodup q hq.1
    rw [hcl, List.nodup_cons] at hnd
    have hlt : g.loc t = .queue q := (contLoc q hq.1 t).mp (by rw [hcl]; simp)
    have huniq : ∀ c' < cfg.callers, cOwn (s.callers c') ≠ some q := by
      intro c' hc' e
      have := (hoc c' q ⟨hc', e⟩).2
      rw [hq.2] at this
      simp at this
    clear hoc how hod hgs hp he ht
    constructor <;> simp only [pool_simp, upd_apply]
    · exact ub
    · intro i hi
      by_cases hiq : i = q
      · subst hiq; simp only [if_true]; exact a2
      · simp only [if_neg hiq]; exact abs i hi
    · intro i hi
      by_cases hiq : i = q
      · subst hiq; simp only [if_true]; exact hnd.2
      · simp only [if_neg hiq]; exact nodup i hi
    · intro i hi u
      have hc := contLoc i hi u
      by_cases hiq : i = q <;> by_cases hu : u = t
      · subst hiq hu; simp [hnd.1]
      · subst hiq; rw [hcl] at hc; simp [hu] at hc ⊢; exact hc
      · subst hu; simp only [if_neg hiq, hc, hlt, if_true]; grind
      · simp [hiq, hu, hc]
    · intro w' hw' u
      have hw2 := wLoc w' hw' u
      by_cases hww : w' = w <;> by_cases hu : u = t
      · subst hww hu; simp [wTask]
      · subst hww; rw [h] at hw2; simp only [wTask] at hw2; simp [wTask, hu, ← hw2]; omega
      · subst hu; simp only [if_neg hww, if_true, hw2, hlt]; grind
      · simp [hww, hu, hw2]
    · intro u i hu
      by_cases hut : u = t
      · simp [hut] at hu
      · rw [if_neg hut] at hu; exact locQ u i hu
    · intro u i hu
      by_cases hut : u = t
      · simp [hut] at hu; omega
      · rw [if_neg hut] at hu; exact locW u i hu
    · intro u
      have := fresh u
      by_cases hut : u = t
      · subst hut; rw [hlt] at this; simpa using this
      · rw [if_neg hut]; exact this
    all_goals
      intro c' hc'
      have := huniq c' hc'
      grind [cOwn]
  case wUb w q hw h he ht hp =>
    exact absurd hp (popFront_none (abs q (how w q ⟨hw, by rw [h]; rfl⟩).1) hb he)
  case wDestroy w t hw h =>
    have hgs : gstep s (.wDestroy w) g = { g with loc := upd g.loc t .gone } := by
      simp [gstep, h]
    rw [hgs]
    have hlt : g.loc t = .worker w := (wLoc w hw t).mp (by rw [h]; rfl)
    clear hoc how hod hgs
    constructor <;> simp only [pool_simp, upd_apply]
    · exact ub
    · exact abs
    · exact nodup
    · intro i hi u
      have hc := contLoc i hi u
      by_cases hu : u = t
      · subst hu; simp [hc, hlt]
      · simp [hu, hc]
    · intro w' hw' u
      have hw2 := wLoc w' hw' u
      by_cases hww : w' = w <;> by_cases hu : u = t
      · subst hww hu; simp [wTask]
      · subst hww; rw [h] at hw2; simp only [wTask] at hw2; simp [wTask, hu, ← hw2]; omega
      · subst hu; simp only [if_neg hww, if_true, hw2, hlt]; grind
      · simp [hww, hu, hw2]
    · intro u i hu
      by_cases hut : u = t
      · simp [hut] at hu
      · rw [if_neg hut] at hu; exact locQ u i hu
    · intro u i hu
      by_cases hut : u = t
      · simp [hut] at hu
      · rw [if_neg hut] at hu; exact locW u i hu
    · intro u
      have := fresh u
      by_cases hut : u = t
      · subst hut; rw [hlt] at this; simpa using this
      · rw [if_neg hut]; exact this
    · exact lockedEnq
    · exact pendEnq
    · intro c hc todo q ts r hf u hu
      have := pendLoc c hc todo q ts r hf u hu
      by_cases hut : u = t
      · subst hut; rw [hlt] at this; cases this
      · rw [if_neg hut]; exact this
    · exact pendNodup
    · exact pendRoom
  case dUb n r h he hp =>
    exact absurd hp (popFront_none (abs n (hod n (by rw [h]; rfl)).1) hb he)
  case dPop n r t q' h he hp =>
    have hq := hod n (by rw [h]; rfl)
    obtain ⟨l', hcl, a2⟩ := popFront_some (abs n hq.1) hb hp he
    have hgs : gstep s .dStep g =
        { g with loc := upd g.loc t .gone, cont := upd g.cont n l', drained := t :: g.drained } := by
      simp [gstep, h, hcl]
    rw [hgs]
    obtain ⟨-, pe, -⟩ := popFront_fields hp
    have hnd := nodup n hq.1
    rw [hcl, List.nodup_cons] at hnd
    have hlt : g.loc t = .queue n := (contLoc n hq.1 t).mp (by rw [hcl]; simp)
    have huniq : ∀ c' < cfg.callers, cOwn (s.callers c') ≠ some n := by
      intro c' hc' e
      have := (hoc c' n ⟨hc', e⟩).2
      rw [hq.2] at this
      simp at this
    clear hoc how hod hgs hp he
    constructor <;> simp only [pool_simp, upd_apply]
    · exact ub
    · intro i hi
      by_cases hiq : i = n
      · subst hiq; simp only [if_true]; exact a2
      · simp only [if_neg hiq]; exact abs i hi
    · intro i hi
      by_cases hiq : i = n
      · subst hiq; simp only [if_true]; exact hnd.2
      · simp only [if_neg hiq]; exact nodup i hi
    · intro i hi u
      have hc := contLoc i hi u
      by_cases hiq : i = n <;> by_cases hu : u = t
      · subst hiq hu; simp [hnd.1]
      · subst hiq; rw [hcl] at hc; simp [hu] at hc ⊢; exact hc
      · subst hu; simp only [if_neg hiq, hc, hlt, if_true]; grind
      · simp [hiq, hu, hc]
    · intro w' hw' u
      have hw2 := wLoc w' hw' u
      by_cases hu : u = t
      · subst hu; simp [hw2, hlt]
      · simp [hu, hw2]
    · intro u i hu
      by_cases hut : u = t
      · simp [hut] at hu
      · rw [if_neg hut] at hu; exact locQ u i hu
    · intro u i hu
      by_cases hut : u = t
      · simp [hut] at hu
      · rw [if_neg hut] at hu; exact locW u i hu
    · intro u
      have := fresh u
      by_cases hut : u = t
      · subst hut; rw [hlt] at this; simpa using this
      · rw [if_neg hut]; exact this
    all_goals
      intro c' hc'
      have := huniq c' hc'
      grind [cOwn]
  case dDrained n r h he hr =>
    have hq := hod n (by rw [h]; rfl)
    have hcn : g.cont n = [] := ((abs n hq.1).empty_iff hb).mp he
    apply invLoc_quiet hl' (by simp [gstep, h, hcn]) <;>
      (clear hl' ho abs nodup contLoc wLoc locQ locW fresh pendEnq pendLoc pendNodup pendRoom
       try simp only [pool_simp, upd_apply]
       try grind -ext [wTask, cOwn, Queue.tryLock])
  case dDrainedLast n r h he hr =>
    have hq := hod n (by rw [h]; rfl)
    have hcn : g.cont n = [] := ((abs n hq.1).empty_iff hb).mp he
    apply invLoc_quiet hl' (by simp [gstep, h, hcn]) <;>
      (clear hl' ho abs nodup contLoc wLoc locQ locW fresh pendEnq pendLoc pendNodup pendRoom
       try simp only [pool_simp, upd_apply]
       try grind -ext [wTask, cOwn, Queue.tryLock])
  all_goals
    apply invLoc_quiet hl' (by simp [gstep, *]) <;>
      (clear hl' ho abs nodup contLoc wLoc locQ locW fresh pendEnq pendLoc pendNodup pendRoom
       try simp only [pool_simp, upd_apply]
       try grind -ext [wTask, cOwn, Queue.tryLock])

end Verif.Proofs.Pool
