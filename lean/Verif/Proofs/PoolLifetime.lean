import Verif.Model.PoolLifetime

/-! # Lemmas for C146 -/

namespace Verif.Proofs.PoolLifetime

open Verif.Model Verif.Model.PoolLifetime

theorem run_append (cfg : Pool.Cfg) (s : State) (l₁ l₂ : List Label) :
    run cfg s (l₁ ++ l₂) = (run cfg s l₁).bind fun s => run cfg s l₂ := by
  induction l₁ generalizing s with
  | nil => rfl
  | cons l ls ih =>
    simp only [List.cons_append, run]
    cases step cfg s l with
    | none => rfl
    | some t => exact ih t

theorem run_induct {cfg : Pool.Cfg} (P : State → Prop) (hstep : ∀ s l t, P s → step cfg s l = some t → P t) {s t : State} {ls : List Label}
    (h : run cfg s ls = some t) (hs : P s) : P t := by
  induction ls generalizing s with
  | nil => cases h; exact hs
  | cons l ls ih =>
    simp only [run] at h
    split at h
    · cases h
    · exact ih h (hstep _ _ _ hs ‹_›)

/-- what a worker's step does to the shared state: no worker is told to stop, none exits -/
theorem pool_step {cfg : Pool.Cfg} {p p' : Pool.State} {w : Nat} {l : Pool.Label} (hl : ofWorker w l = true) (hp : ∀ i, p.wterm i = false)
    (he : ∀ i, p.workers i ≠ .exited) (h : Pool.step cfg p l = some p') : (∀ i, p'.wterm i = false) ∧ ∀ i, p'.workers i ≠ .exited := by
  have upd_ne : ∀ (f : Nat → Pool.WPc) (v : Nat) (x : Pool.WPc), (∀ i, f i ≠ .exited) → x ≠ .exited → ∀ i, Pool.upd f v x i ≠ .exited := by
    intro f v x hf hx i
    unfold Pool.upd
    split
    · exact hx
    · exact hf i
  have key : ∀ v, Pool.stepWorker cfg p v l = some p' → (∀ i, p'.wterm i = false) ∧ ∀ i, p'.workers i ≠ .exited := by
    intro v h
    unfold Pool.stepWorker at h
    split at h
    all_goals (repeat' split at h)
    all_goals first
      | (simp only [hp] at *; contradiction)
      | (cases h
         first
          | exact ⟨hp, he⟩
          | exact ⟨hp, upd_ne _ _ _ he (by intro hc; cases hc)⟩
          | exact ⟨hp, upd_ne _ _ _ he (by split <;> (intro hc; cases hc))⟩)
  cases l <;> simp only [ofWorker, Bool.false_eq_true] at hl <;> simp only [Pool.step] at h <;> split at h <;> first | cases h; done | exact key _ h

/-- what exists at every point of the construction -/
structure Inv (cfg : Pool.Cfg) (s : State) : Prop where
  wterm : ∀ i, s.pool.wterm i = false
  exited : ∀ i, s.pool.workers i ≠ .exited
  shape : match s.pc with
    | .allocating => s.memory = false ∧ s.queues = 0 ∧ s.threads = 0
    | .queues i => s.memory = true ∧ s.queues = i ∧ s.threads = 0 ∧ i ≤ cfg.workers
    | .workers i => s.memory = true ∧ s.queues = cfg.workers ∧ s.threads = i ∧ i ≤ cfg.workers
    | .unwindWorkers i => s.memory = true ∧ s.queues = cfg.workers ∧ s.threads = i
    | .unwindQueues i => s.memory = true ∧ s.queues = i ∧ s.threads = 0
    | .freeing => s.memory = true ∧ s.queues = 0 ∧ s.threads = 0
    | .threw => s.memory = false ∧ s.queues = 0 ∧ s.threads = 0
    | .returned => s.memory = true ∧ s.queues = cfg.workers ∧ s.threads = cfg.workers

theorem inv_initial (cfg : Pool.Cfg) : Inv cfg {} :=
  ⟨fun _ => rfl, fun _ => by simp [Pool.initial], by simp⟩

theorem inv_step {cfg : Pool.Cfg} {s t : State} {l : Label} (hs : Inv cfg s) (h : step cfg s l = some t) : Inv cfg t := by
  cases l with
  | worker w l =>
    simp only [step] at h
    split at h
    · rename_i hw
      split at h
      · cases h
      · rename_i p hp
        cases h
        have := pool_step hw.2 hs.wterm hs.exited hp
        exact ⟨this.1, this.2, hs.shape⟩
    · cases h
  | go ok =>
    simp only [step, stepCreator] at h
    have hsh := hs.shape
    split at h <;> rename_i hpc <;> simp only [hpc] at hsh
    all_goals (repeat' split at h)
    all_goals first
      | (cases h
         refine ⟨hs.wterm, hs.exited, ?_⟩
         simp_all
         try omega)
      | cases h

/-- once an exception is on its way and a worker exists, it is there for ever -/
theorem stuck_step {cfg : Pool.Cfg} {s t : State} {l : Label} {i : Nat} (hs : Inv cfg s) (hpc : s.pc = .unwindWorkers (i + 1)) (h : step cfg s l = some t) :
    t.pc = .unwindWorkers (i + 1) := by
  cases l with
  | worker w l =>
    simp only [step] at h
    split at h
    · split at h
      · cases h
      · cases h; exact hpc
    · cases h
  | go ok =>
    simp only [step, stepCreator, hpc] at h
    split at h
    · exact absurd ‹_› (hs.exited i)
    · cases h

/-- the shared state while a pool is made is one that the pool's model reaches -/
theorem reach_step {cfg : Pool.Cfg} {s t : State} {l : Label} (hs : ∃ ls, Pool.run cfg Pool.initial ls = some s.pool) (h : step cfg s l = some t) :
    ∃ ls, Pool.run cfg Pool.initial ls = some t.pool := by
  cases l with
  | worker w l =>
    simp only [step] at h
    split at h
    · split at h
      · cases h
      · rename_i p hp
        cases h
        obtain ⟨ls, hls⟩ := hs
        refine ⟨ls ++ [l], ?_⟩
        have : ∀ (ls : List Pool.Label) (q : Pool.State), Pool.run cfg q ls = some s.pool → Pool.run cfg q (ls ++ [l]) = some p := by
          intro ls
          induction ls with
          | nil => intro q hq; cases hq; simp [Pool.run, hp]
          | cons l' ls ih =>
            intro q hq
            simp only [List.cons_append, Pool.run] at hq ⊢
            split at hq
            · cases hq
            · exact ih _ hq
        exact this ls _ hls
    · cases h
  | go ok =>
    have e : t.pool = s.pool := by
      simp only [step, stepCreator] at h
      split at h
      all_goals (repeat' split at h)
      all_goals first | (cases h; rfl) | cases h
    rw [e]; exact hs

/-- as long as no thread was started, the shared state is the initial one -/
def Idle (s : State) : Prop := s.threads = 0 → s.pool = Pool.initial

theorem idle_initial : Idle {} := fun _ => rfl

theorem idle_step {cfg : Pool.Cfg} {s t : State} {l : Label} (hi : Inv cfg s) (hs : Idle s) (h : step cfg s l = some t) : Idle t := by
  cases l with
  | worker w l =>
    simp only [step] at h
    split at h
    · split at h
      · cases h
      · cases h
        rename_i hw _ _ _
        intro h0
        exact absurd hw.1 (by simp only at h0; omega)
    · cases h
  | go ok =>
    simp only [step, stepCreator] at h
    have hsh := hi.shape
    split at h <;> rename_i hpc <;> simp only [hpc] at hsh
    all_goals (repeat' split at h)
    all_goals first
      | (cases h; exact hs)
      | (cases h; intro h0; simp at h0; done)
      | exact absurd ‹_› (hi.exited _)
      | cases h

/-! ### Ownership -/

/-- who owns what -/
structure Own (s : Objects) : Prop where
  known : ∀ x p, s.storage x = some (some p) → p < s.made ∧ p ∉ s.destroyed
  unique : ∀ x y p, s.storage x = some (some p) → s.storage y = some (some p) → x = y
  nodup : s.destroyed.Nodup
  made : ∀ p ∈ s.destroyed, p < s.made

theorem own_initial : Own {} := ⟨by simp, by simp, by simp, by simp⟩

theorem own_take {s : Objects} (hs : Own s) (x y : Nat) (p : Option Nat) (hy : s.storage y = some p) : Own (takeStorage s x y p) := by
  have key : ∀ z q, (takeStorage s x y p).storage z = some (some q) → (z = x ∧ p = some q) ∨ (z ≠ x ∧ z ≠ y ∧ s.storage z = some (some q)) := by
    intro z q h
    simp only [takeStorage, Pool.upd] at h
    split at h
    · left; exact ⟨‹_›, by simpa using h⟩
    · split at h
      · simp at h
      · right; exact ⟨‹_›, ‹_›, h⟩
  refine ⟨?_, ?_, hs.nodup, hs.made⟩
  · intro z q h
    rcases key z q h with ⟨_, rfl⟩ | ⟨_, _, h⟩
    · exact hs.known y q hy
    · exact hs.known z q h
  · intro z z' q h h'
    rcases key z q h with ⟨e, hq⟩ | ⟨hx, hzy, k⟩ <;> rcases key z' q h' with ⟨e', hq'⟩ | ⟨hx', hzy', k'⟩
    · rw [e, e']
    · subst hq
      exact absurd (hs.unique _ _ _ k' hy) hzy'
    · subst hq'
      exact absurd (hs.unique _ _ _ k hy) hzy
    · exact hs.unique _ _ _ k k'

theorem own_act {s t : Objects} {o : Op} (hs : Own s) (h : act s o = some t) : Own t := by
  cases o with
  | construct x =>
    simp only [act] at h
    split at h
    · rename_i hx
      cases h
      have key : ∀ z q, Pool.upd s.storage x (some (some s.made)) z = some (some q) → (z = x ∧ q = s.made) ∨ (z ≠ x ∧ s.storage z = some (some q)) := by
        intro z q h
        simp only [Pool.upd] at h
        split at h
        · left; simp at h; exact ⟨‹_›, h.symm⟩
        · right; exact ⟨‹_›, h⟩
      refine ⟨?_, ?_, hs.nodup, fun p hp => Nat.lt_succ_of_lt (hs.made p hp)⟩
      · intro z q h
        rcases key z q h with ⟨_, rfl⟩ | ⟨_, h⟩
        · exact ⟨Nat.lt_succ_self _, fun hc => absurd (hs.made _ hc) (Nat.lt_irrefl _)⟩
        · exact ⟨Nat.lt_succ_of_lt (hs.known z q h).1, (hs.known z q h).2⟩
      · intro z z' q h h'
        rcases key z q h with ⟨e, hq⟩ | ⟨_, k⟩ <;> rcases key z' q h' with ⟨e', hq'⟩ | ⟨_, k'⟩
        · rw [e, e']
        · subst hq
          exact absurd (hs.known _ _ k').1 (Nat.lt_irrefl _)
        · subst hq'
          exact absurd (hs.known _ _ k).1 (Nat.lt_irrefl _)
        · exact hs.unique _ _ _ k k'
    · cases h
  | moveConstruct x y =>
    simp only [act] at h
    split at h
    · rename_i hx hy
      cases h
      exact own_take hs x y _ hy
    · cases h
  | moveAssign x y =>
    simp only [act] at h
    split at h
    · rename_i hx hy
      cases h
      exact own_take hs x y _ hy
    · cases h
  | destruct x =>
    have key : ∀ z q, Pool.upd s.storage x none z = some (some q) → z ≠ x ∧ s.storage z = some (some q) := by
      intro z q h
      simp only [Pool.upd] at h
      split at h
      · cases h
      · exact ⟨‹_›, h⟩
    simp only [act] at h
    split at h
    · cases h
    · cases h
      exact ⟨fun z q h => hs.known z q (key z q h).2, fun z z' q h h' => hs.unique _ _ _ (key z q h).2 (key z' q h').2, hs.nodup, hs.made⟩
    · rename_i p hx
      cases h
      refine ⟨?_, fun z z' q h h' => hs.unique _ _ _ (key z q h).2 (key z' q h').2, ?_, ?_⟩
      · intro z q h
        have h' := key z q h
        refine ⟨(hs.known z q h'.2).1, ?_⟩
        simp only [List.mem_append, List.mem_singleton, not_or]
        refine ⟨(hs.known z q h'.2).2, ?_⟩
        rintro rfl
        exact h'.1 (hs.unique _ _ _ h'.2 hx)
      · rw [List.nodup_append]
        refine ⟨hs.nodup, by simp, ?_⟩
        intro a ha b hb
        rw [List.mem_singleton] at hb
        subst hb
        rintro rfl
        exact (hs.known x _ hx).2 ha
      · intro q hq
        rw [List.mem_append, List.mem_singleton] at hq
        rcases hq with hq | rfl
        · exact hs.made q hq
        · exact (hs.known x _ hx).1

theorem acts_append (s : Objects) (l₁ l₂ : List Op) : acts s (l₁ ++ l₂) = (acts s l₁).bind fun s => acts s l₂ := by
  induction l₁ generalizing s with
  | nil => rfl
  | cons o os ih =>
    simp only [List.cons_append, acts]
    cases act s o with
    | none => rfl
    | some t => exact ih t

theorem own_acts {s t : Objects} {os : List Op} (hs : Own s) (h : acts s os = some t) : Own t := by
  induction os generalizing s with
  | nil => cases h; exact hs
  | cons o os ih =>
    simp only [acts] at h
    split at h
    · cases h
    · exact ih (own_act hs ‹_›) h

/-- every pool that was made has been destroyed or has an owner -/
def NoLeak (s : Objects) : Prop := ∀ p < s.made, p ∈ s.destroyed ∨ ∃ x, s.storage x = some (some p)

theorem noLeak_act {s t : Objects} {o : Op} (hs : NoLeak s) (ho : ∀ x y, o = .moveAssign x y → x = y ∨ s.storage x = some none) (h : act s o = some t) : NoLeak t := by
  have take : ∀ x y p, s.storage y = some p → (x = y ∨ ∀ q, s.storage x ≠ some (some q)) → NoLeak (takeStorage s x y p) := by
    intro x y p hy hx q hq
    rcases hs q hq with h | ⟨z, hz⟩
    · exact Or.inl h
    · right
      by_cases hzy : z = y
      · subst hzy
        rw [hy] at hz
        exact ⟨x, by simp [takeStorage, Pool.upd, Option.some.inj hz]⟩
      · by_cases hzx : z = x
        · subst hzx
          rcases hx with rfl | hx
          · exact absurd rfl hzy
          · exact absurd hz (hx q)
        · exact ⟨z, by simp [takeStorage, Pool.upd, hzx, hzy, hz]⟩
  cases o with
  | construct x =>
    simp only [act] at h
    split at h
    · rename_i hx
      cases h
      intro q hq
      rcases Nat.lt_succ_iff_lt_or_eq.mp hq with hq | rfl
      · rcases hs q hq with h | ⟨z, hz⟩
        · exact Or.inl h
        · right
          refine ⟨z, ?_⟩
          have : z ≠ x := by rintro rfl; rw [hx] at hz; cases hz
          simp [Pool.upd, this, hz]
      · exact Or.inr ⟨x, by simp [Pool.upd]⟩
    · cases h
  | moveConstruct x y =>
    simp only [act] at h
    split at h
    · rename_i hx hy
      cases h
      exact take x y _ hy (Or.inr fun q hc => by rw [hx] at hc; cases hc)
    · cases h
  | moveAssign x y =>
    simp only [act] at h
    split at h
    · rename_i hx hy
      cases h
      refine take x y _ hy ?_
      rcases ho x y rfl with h | h
      · exact Or.inl h
      · exact Or.inr fun q hc => by rw [h] at hc; cases hc
    · cases h
  | destruct x =>
    simp only [act] at h
    split at h
    · cases h
    · rename_i hx
      cases h
      intro q hq
      rcases hs q hq with h | ⟨z, hz⟩
      · exact Or.inl h
      · have : z ≠ x := by rintro rfl; rw [hx] at hz; cases hz
        exact Or.inr ⟨z, by simp [Pool.upd, this, hz]⟩
    · rename_i p hx
      cases h
      intro q hq
      rcases hs q hq with h | ⟨z, hz⟩
      · exact Or.inl (List.mem_append_left _ h)
      · by_cases hzx : z = x
        · subst hzx
          rw [hx] at hz
          left
          simp [Option.some.inj (Option.some.inj hz)]
        · exact Or.inr ⟨z, by simp [Pool.upd, hzx, hz]⟩

/-- a pool nobody owns is not destroyed any more -/
theorem lost_act {s t : Objects} {o : Op} {p : Nat} (hp : p < s.made) (hd : p ∉ s.destroyed) (ho : ∀ x, s.storage x ≠ some (some p)) (h : act s o = some t) :
    p < t.made ∧ p ∉ t.destroyed ∧ ∀ x, t.storage x ≠ some (some p) := by
  have take : ∀ x y q, s.storage y = some q → p < (takeStorage s x y q).made ∧ p ∉ (takeStorage s x y q).destroyed ∧ ∀ z, (takeStorage s x y q).storage z ≠ some (some p) := by
    intro x y q hy
    refine ⟨hp, hd, ?_⟩
    intro z hz
    simp only [takeStorage, Pool.upd] at hz
    split at hz
    · exact ho y (hy.trans hz)
    · split at hz
      · cases hz
      · exact ho z hz
  cases o with
  | construct x =>
    simp only [act] at h
    split at h
    · cases h
      refine ⟨Nat.lt_succ_of_lt hp, hd, ?_⟩
      intro z hz
      simp only [Pool.upd] at hz
      split at hz
      · cases hz; exact absurd hp (Nat.lt_irrefl _)
      · exact ho z hz
    · cases h
  | moveConstruct x y =>
    simp only [act] at h
    split at h
    · cases h; exact take _ _ _ ‹_›
    · cases h
  | moveAssign x y =>
    simp only [act] at h
    split at h
    · cases h; exact take _ _ _ ‹_›
    · cases h
  | destruct x =>
    have key : ∀ z, Pool.upd s.storage x none z ≠ some (some p) := by
      intro z hz
      simp only [Pool.upd] at hz
      split at hz
      · cases hz
      · exact ho z hz
    simp only [act] at h
    split at h
    · cases h
    · cases h; exact ⟨hp, hd, key⟩
    · rename_i q hx
      cases h
      refine ⟨hp, ?_, key⟩
      simp only [List.mem_append, List.mem_singleton, not_or]
      refine ⟨hd, ?_⟩
      rintro rfl
      exact ho x hx

theorem lost_acts {s t : Objects} {os : List Op} {p : Nat} (hp : p < s.made) (hd : p ∉ s.destroyed) (ho : ∀ x, s.storage x ≠ some (some p)) (h : acts s os = some t) :
    p < t.made ∧ p ∉ t.destroyed ∧ ∀ x, t.storage x ≠ some (some p) := by
  induction os generalizing s with
  | nil => cases h; exact ⟨hp, hd, ho⟩
  | cons o os ih =>
    simp only [acts] at h
    split at h
    · cases h
    · rename_i u hu
      have := lost_act hp hd ho hu
      exact ih this.1 this.2.1 this.2.2 h

end Verif.Proofs.PoolLifetime
