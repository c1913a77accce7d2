import Verif.Model.PoolActions
import Verif.Proofs.PoolInv6
/-! Happens-before in the thread pool. -/
namespace Verif.Proofs.Pool
open Verif.Spec.Pool Verif.Model.Pool Verif.Spec.HappensBefore

section order
variable {θ μ π ε : Type} {x : List (Action θ μ π ε)} {c : Action θ μ π ε}

theorem hb_lt {i j} (h : HB x i j) : i < j ∧ j < x.length := by
  induction h with
  | program h _ h2 _ => exact ⟨h, (List.getElem?_eq_some_iff.1 h2).1⟩
  | mutex h _ h2 _ _ => exact ⟨h, (List.getElem?_eq_some_iff.1 h2).1⟩
  | join h _ h2 _ => exact ⟨h, (List.getElem?_eq_some_iff.1 h2).1⟩
  | trans _ _ h1 h2 => exact ⟨by omega, h2.2⟩

theorem get_mono {i : ℕ} {a} (h : x[i]? = some a) : (x ++ [c])[i]? = some a := by
  rw [List.getElem?_append_left (List.getElem?_eq_some_iff.1 h).1, h]

theorem get_new : (x ++ [c])[x.length]? = some c := by simp

theorem get_cases {i : ℕ} {a} (h : (x ++ [c])[i]? = some a) : x[i]? = some a ∨ i = x.length ∧ a = c := by
  rcases Nat.lt_trichotomy i x.length with h' | h' | h'
  · rw [List.getElem?_append_left h'] at h; exact .inl h
  · subst h'; rw [get_new] at h; exact .inr ⟨rfl, (Option.some.inj h).symm⟩
  · have := (List.getElem?_eq_some_iff.1 h).1
    simp at this; omega

theorem lt_of_get {i : ℕ} {a} (h : x[i]? = some a) : i < x.length := (List.getElem?_eq_some_iff.1 h).1

theorem hb_mono {i j} (h : HB x i j) : HB (x ++ [c]) i j := by
  induction h with
  | program h h1 h2 h3 => exact .program h (get_mono h1) (get_mono h2) h3
  | mutex h h1 h2 h3 h4 => exact .mutex h (get_mono h1) (get_mono h2) h3 h4
  | join h h1 h2 h3 => exact .join h (get_mono h1) (get_mono h2) h3
  | trans _ _ h1 h2 => exact .trans h1 h2

/-- what a thread knows of -/
def Known (x : List (Action θ μ π ε)) (t : θ) (i : ℕ) : Prop := ∃ k a, x[k]? = some a ∧ a.thread = t ∧ (i = k ∨ HB x i k)
/-- what the next thread to lock a mutex will know of -/
def Left (x : List (Action θ μ π ε)) (m : μ) (i : ℕ) : Prop := ∃ k a, x[k]? = some a ∧ m ∈ a.unlocks ∧ (i = k ∨ HB x i k)

theorem Known.mono {t i} (h : Known x t i) : Known (x ++ [c]) t i := by
  obtain ⟨k, a, h1, h2, h3⟩ := h
  exact ⟨k, a, get_mono h1, h2, h3.imp id hb_mono⟩

theorem Left.mono {m i} (h : Left x m i) : Left (x ++ [c]) m i := by
  obtain ⟨k, a, h1, h2, h3⟩ := h
  exact ⟨k, a, get_mono h1, h2, h3.imp id hb_mono⟩

theorem Known.hb {i} (h : Known x c.thread i) : HB (x ++ [c]) i x.length := by
  obtain ⟨k, a, h1, h2, h3⟩ := h
  have : HB (x ++ [c]) k x.length := .program (lt_of_get h1) (get_mono h1) get_new h2
  rcases h3 with rfl | h3
  · exact this
  · exact .trans (hb_mono h3) this

theorem Left.hb {m i} (h : Left x m i) (hm : m ∈ c.locks) : HB (x ++ [c]) i x.length := by
  obtain ⟨k, a, h1, h2, h3⟩ := h
  have : HB (x ++ [c]) k x.length := .mutex (lt_of_get h1) (get_mono h1) get_new h2 hm
  rcases h3 with rfl | h3
  · exact this
  · exact .trans (hb_mono h3) this

theorem known_of_hb {i} (h : HB (x ++ [c]) i x.length) : Known (x ++ [c]) c.thread i := ⟨_, _, get_new, rfl, .inr h⟩
theorem known_new : Known (x ++ [c]) c.thread x.length := ⟨_, _, get_new, rfl, .inl rfl⟩
theorem left_of_hb {m i} (h : HB (x ++ [c]) i x.length) (hm : m ∈ c.unlocks) : Left (x ++ [c]) m i := ⟨_, _, get_new, hm, .inr h⟩
theorem left_new {m} (hm : m ∈ c.unlocks) : Left (x ++ [c]) m x.length := ⟨_, _, get_new, hm, .inl rfl⟩
end order

/-- the queue whose mutex guards a place -/
def guardOf : Place → Option Nat
  | .indices q | .cell q _ => some q
  | _ => none

/-- an action `i` that needed queue `q`'s mutex is known to whoever can have it next -/
def Guarded (x : List PoolAction) (h : Option Thread) (q i : Nat) : Prop :=
  match h with
  | none => Left x (.queue q) i
  | some th => Known x th i

/-- the action has the mutex of `q` when it touches memory -/
def Has (h : Option Thread) (a : PoolAction) (q : Nat) : Prop := h = some a.thread ∨ h = none ∧ .queue q ∈ a.locks
/-- and then keeps it or leaves it -/
def Keeps (h : Option Thread) (a : PoolAction) (q : Nat) : Prop := h = some a.thread ∨ h = none ∧ .queue q ∈ a.unlocks
/-- how the holder changes -/
def Changes (h h' : Option Thread) (a : PoolAction) (q : Nat) : Prop :=
  h' = h ∨ (h = none ∧ h' = some a.thread ∧ .queue q ∈ a.locks) ∨ (h = some a.thread ∧ h' = none ∧ .queue q ∈ a.unlocks)

theorem Guarded.step {x a h h' q i} (hg : Guarded x h q i) (hc : Changes h h' a q) : Guarded (x ++ [a]) h' q i := by
  rcases hc with rfl | ⟨rfl, rfl, hm⟩ | ⟨rfl, rfl, hm⟩
  · cases h' with
    | none => exact Left.mono hg
    | some th => exact Known.mono hg
  · exact known_of_hb (Left.hb hg hm)
  · exact left_of_hb (Known.hb hg) hm

theorem Guarded.new {x a h q} (hk : Keeps h a q) : Guarded (x ++ [a]) h q x.length := by
  rcases hk with rfl | ⟨rfl, hm⟩
  · exact known_new
  · exact left_new hm

theorem Guarded.hb {x a h q i} (hg : Guarded x h q i) (hh : Has h a q) : HB (x ++ [a]) i x.length := by
  rcases hh with rfl | ⟨rfl, hm⟩
  · exact Known.hb hg
  · exact Left.hb hg hm

/-- where the knowledge of the accesses to a task is -/
def TaskAt (x : List PoolAction) (s : State) (i : Nat) : Loc → Prop
  | .fresh => False
  | .queue q => Guarded x (s.queues q).holder q i
  | .worker w => Known x (.worker w) i
  | .gone => True

/-- the action may touch a task that is there -/
def MayTouch (s : State) (a : PoolAction) : Loc → Prop
  | .fresh => True
  | .queue q => Has (s.queues q).holder a q
  | .worker w => a.thread = .worker w
  | .gone => False

/-- and leaves it there -/
def PutsAt (s' : State) (a : PoolAction) : Loc → Prop
  | .fresh => False
  | .queue q => Keeps (s'.queues q).holder a q
  | .worker w => a.thread = .worker w
  | .gone => True

/-- what one step does -/
structure Facts (cfg : Cfg) (s : State) (a : PoolAction) (s' : State) (g g' : Ghost) : Prop where
  changes : ∀ q, Changes (s.queues q).holder (s'.queues q).holder a q
  guard : ∀ p ∈ a.touches, ∀ q, guardOf p = some q → Has (s.queues q).holder a q ∧ Keeps (s'.queues q).holder a q
  busy : .busy ∈ a.touches → .monitor ∈ a.locks ∧ .monitor ∈ a.unlocks
  buffer : ∀ w, .buffer w ∈ a.touches → a.thread = .worker w
  task : ∀ t, .callable t ∈ a.touches → MayTouch s a (g.loc t) ∧ PutsAt s' a (g'.loc t)
  still : ∀ t, .callable t ∉ a.touches → g'.loc t = g.loc t
  finished : ∀ t, a.event = some (.finished t) → ∃ w, w < cfg.workers ∧ s'.workers w = .ran t ∧ a.thread = .worker w
  ran : ∀ w t, s.workers w = .ran t → s'.workers w = .ran t ∨ a.thread = .worker w ∧ .monitor ∈ a.unlocks
  awake : ∀ w, a.thread = .worker w → w < cfg.workers ∧ s.workers w ≠ .exited
  joined : ∀ w < cfg.workers, ExitFrom cfg s'.dtor ≤ w → ExitFrom cfg s.dtor ≤ w ∨ .worker w ∈ a.joins ∧ a.thread = .destroyer
  event : s'.log = s.log ++ a.event.toList

/-- what is known after some steps -/
structure OInv (cfg : Cfg) (x : List PoolAction) (s : State) (g : Ghost) : Prop where
  free : RaceFree x
  guard : ∀ (i : Nat) (a : PoolAction) p q, x[i]? = some a → p ∈ a.touches → guardOf p = some q → Guarded x (s.queues q).holder q i
  busy : ∀ (i : Nat) (a : PoolAction), x[i]? = some a → .busy ∈ a.touches → Left x .monitor i
  buffer : ∀ (i : Nat) (a : PoolAction) w, x[i]? = some a → .buffer w ∈ a.touches → a.thread = .worker w
  task : ∀ (i : Nat) (a : PoolAction) t, x[i]? = some a → .callable t ∈ a.touches → TaskAt x s i (g.loc t)
  finished : ∀ (i : Nat) (a : PoolAction) t, x[i]? = some a → a.event = some (.finished t) → (∃ w, w < cfg.workers ∧ s.workers w = .ran t ∧ a.thread = .worker w) ∨ Left x .monitor i
  joined : ∀ (i : Nat) (a : PoolAction) w, x[i]? = some a → a.thread = .worker w → w < cfg.workers ∧ (ExitFrom cfg s.dtor ≤ w → Known x .destroyer i)
  log : s.log = x.filterMap (·.event)

theorem inv_init (cfg : Cfg) : OInv cfg [] initial {} := by
  constructor <;> simp [RaceFree, initial]

theorem inv_step {cfg x s a s' g g'} (hi : OInv cfg x s g) (f : Facts cfg s a s' g g')
    (hx : ∀ w < cfg.workers, ExitFrom cfg s.dtor ≤ w → s.workers w = .exited) : OInv cfg (x ++ [a]) s' g' := by
  constructor
  · intro i j b c p hij hb hc hpb hpc
    rcases get_cases hc with hc' | ⟨rfl, rfl⟩
    · rcases get_cases hb with hb | ⟨rfl, rfl⟩
      · exact hb_mono (hi.free i j b c p hij hb hc' hpb hpc)
      · exact absurd (lt_of_get hc') (by omega)
    · rcases get_cases hb with hb | ⟨rfl, rfl⟩
      · cases p with
        | indices q => exact (hi.guard i b _ q hb hpb rfl).hb (f.guard _ hpc q rfl).1
        | cell q k => exact (hi.guard i b _ q hb hpb rfl).hb (f.guard _ hpc q rfl).1
        | buffer w => exact .program hij (get_mono hb) get_new ((hi.buffer i b w hb hpb).trans (f.buffer w hpc).symm)
        | callable t =>
          have h1 := hi.task i b t hb hpb
          have h2 := (f.task t hpc).1
          cases hl : g.loc t with
          | fresh => rw [hl] at h1; exact h1.elim
          | queue q => rw [hl] at h1 h2; exact Guarded.hb h1 h2
          | worker w =>
            rw [hl] at h1 h2
            simp only [TaskAt, MayTouch] at h1 h2
            rw [← h2] at h1
            exact h1.hb
          | gone => rw [hl] at h2; exact h2.elim
        | busy => exact (hi.busy i b hb hpb).hb (f.busy hpc).1
      · omega
  · intro i b p q hb hp hq
    rcases get_cases hb with hb | ⟨rfl, rfl⟩
    · exact (hi.guard i b p q hb hp hq).step (f.changes q)
    · exact Guarded.new (f.guard p hp q hq).2
  · intro i b hb hp
    rcases get_cases hb with hb | ⟨rfl, rfl⟩
    · exact (hi.busy i b hb hp).mono
    · exact left_new (f.busy hp).2
  · intro i b w hb hp
    rcases get_cases hb with hb | ⟨rfl, rfl⟩
    · exact hi.buffer i b w hb hp
    · exact f.buffer w hp
  · intro i b t hb hp
    rcases get_cases hb with hb | ⟨rfl, rfl⟩
    · have h1 := hi.task i b t hb hp
      by_cases ht : .callable t ∈ a.touches
      · have h2 := (f.task t ht).1
        have h3 := (f.task t ht).2
        have hhb : HB (x ++ [a]) i x.length := by
          cases hl : g.loc t with
          | fresh => rw [hl] at h1; exact h1.elim
          | queue q => rw [hl] at h1 h2; exact Guarded.hb h1 h2
          | worker w =>
            rw [hl] at h1 h2
            simp only [TaskAt, MayTouch] at h1 h2
            rw [← h2] at h1
            exact h1.hb
          | gone => rw [hl] at h2; exact h2.elim
        cases hl : g'.loc t with
        | fresh => rw [hl] at h3; exact h3.elim
        | queue q =>
          rw [hl] at h3
          simp only [PutsAt] at h3
          simp only [TaskAt]
          rcases h3 with h3 | ⟨h3, hm⟩
          · rw [h3]; exact known_of_hb hhb
          · rw [h3]; exact left_of_hb hhb hm
        | worker w =>
          rw [hl] at h3
          simp only [PutsAt] at h3
          simp only [TaskAt]
          rw [← h3]
          exact known_of_hb hhb
        | gone => trivial
      · rw [f.still t ht]
        cases hl : g.loc t with
        | fresh => rw [hl] at h1; exact h1.elim
        | queue q => rw [hl] at h1; exact Guarded.step h1 (f.changes q)
        | worker w => rw [hl] at h1; exact Known.mono h1
        | gone => trivial
    · have h3 := (f.task t hp).2
      cases hl : g'.loc t with
      | fresh => rw [hl] at h3; exact h3.elim
      | queue q => rw [hl] at h3; exact Guarded.new h3
      | worker w =>
        rw [hl] at h3
        simp only [PutsAt] at h3
        simp only [TaskAt]
        rw [← h3]
        exact known_new
      | gone => trivial
  · intro i b t hb he
    rcases get_cases hb with hb | ⟨rfl, rfl⟩
    · rcases hi.finished i b t hb he with ⟨w, hw, hr, hth⟩ | h
      · rcases f.ran w t hr with h | ⟨h1, h2⟩
        · exact .inl ⟨w, hw, h, hth⟩
        · exact .inr (left_of_hb (.program (lt_of_get hb) (get_mono hb) get_new (hth.trans h1.symm)) h2)
      · exact .inr h.mono
    · exact .inl (f.finished t he)
  · intro i b w hb hth
    rcases get_cases hb with hb | ⟨rfl, rfl⟩
    · obtain ⟨hw, hk⟩ := hi.joined i b w hb hth
      refine ⟨hw, fun he => ?_⟩
      rcases f.joined w hw he with h | ⟨h1, h2⟩
      · exact (hk h).mono
      · rw [← h2]
        exact known_of_hb (.join (lt_of_get hb) (get_mono hb) get_new (hth ▸ h1))
    · obtain ⟨hw, hne⟩ := f.awake w hth
      refine ⟨hw, fun he => ?_⟩
      rcases f.joined w hw he with h | ⟨h1, h2⟩
      · exact absurd (hx w hw h) hne
      · rw [hth] at h2; cases h2
  · rw [f.event, hi.log, List.filterMap_append]
    cases h : a.event <;> simp [h]

theorem front_task {cfg s g n} (hl : InvLoc cfg s g) (hb : s.next < 2 ^ 64) (hn : n < cfg.workers) (he : (s.queues n).empty = false) :
    ∃ t l q', g.cont n = t :: l ∧ (s.queues n).slots ((s.queues n).front.toNat % cfg.capacity) = some t ∧ g.loc t = .queue n ∧
      (s.queues n).popFront cfg.capacity = some (t, q') := by
  cases hp : (s.queues n).popFront cfg.capacity with
  | none => exact absurd hp (popFront_none (hl.abs n hn) hb he)
  | some r =>
    obtain ⟨t, q'⟩ := r
    obtain ⟨l, h1, -⟩ := popFront_some (hl.abs n hn) hb hp he
    refine ⟨t, l, q', h1, ?_, (hl.contLoc n hn t).1 (by rw [h1]; simp), rfl⟩
    unfold Queue.popFront at hp
    simp only [BitVec.add_zero] at hp
    split at hp
    · cases hp
    · rename_i u hu
      simp only [Option.some.injEq, Prod.mk.injEq] at hp
      rw [hu, hp.1]

end Verif.Proofs.Pool
