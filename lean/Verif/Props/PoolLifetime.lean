import Verif.Proofs.PoolLifetime
import Mathlib.Data.List.Nodup

/-! # C146: creation and ownership of thread pools -/

namespace Verif.Props.PoolLifetime

open Verif.Model Verif.Model.PoolLifetime Verif.Proofs.PoolLifetime

/-- A pool whose constructor has returned has all its queues and all its threads, which may have run already as the threads of a pool do;
if the constructor has thrown, nothing is left of it. Whatever the threads that were started did meanwhile. -/
theorem C146_construction (cfg : Pool.Cfg) (ls : List Label) (s : State) (h : run cfg {} ls = some s) :
    (s.pc = .returned → s.memory = true ∧ s.queues = cfg.workers ∧ s.threads = cfg.workers ∧
      ∃ ls', Pool.run cfg Pool.initial ls' = some s.pool) ∧
    (s.pc = .threw → s.memory = false ∧ s.queues = 0 ∧ s.threads = 0) := by
  have hi := run_induct (Inv cfg) (fun _ _ _ h h' => inv_step h h') h (inv_initial cfg)
  have hr := run_induct (fun s => ∃ ls', Pool.run cfg Pool.initial ls' = some s.pool) (fun _ _ _ h h' => reach_step h h') h ⟨[], rfl⟩
  have hsh := hi.shape
  constructor
  · intro hpc
    rw [hpc] at hsh
    exact ⟨hsh.1, hsh.2.1, hsh.2.2, hr⟩
  · intro hpc
    rw [hpc] at hsh
    exact hsh

/-- The constructing thread alone, granted all it asks for, returns. -/
theorem C146_completes (cfg : Pool.Cfg) : ∃ s, run cfg {} (List.replicate (2 * cfg.workers + 3) (.go true)) = some s ∧ s.pc = .returned := by
  have h1 : ∀ n (s : State) (i : Nat), s.pc = .queues i → i + n = cfg.workers →
      ∃ t, run cfg s (List.replicate (n + 1) (.go true)) = some t ∧ t.pc = .workers 0 := by
    intro n
    induction n with
    | zero =>
      intro s i hpc hi
      exact ⟨{ s with pc := .workers 0 }, by simp [run, step, stepCreator, hpc, show ¬i < cfg.workers by omega], rfl⟩
    | succ n ih =>
      intro s i hpc hi
      rw [List.replicate_succ]
      simp only [run, step, stepCreator, hpc, if_pos (show i < cfg.workers by omega)]
      exact ih _ (i + 1) rfl (by omega)
  have h2 : ∀ n (s : State) (i : Nat), s.pc = .workers i → i + n = cfg.workers →
      ∃ t, run cfg s (List.replicate (n + 1) (.go true)) = some t ∧ t.pc = .returned := by
    intro n
    induction n with
    | zero =>
      intro s i hpc hi
      exact ⟨{ s with pc := .returned }, by simp [run, step, stepCreator, hpc, show ¬i < cfg.workers by omega], rfl⟩
    | succ n ih =>
      intro s i hpc hi
      rw [List.replicate_succ]
      simp only [run, step, stepCreator, hpc, if_pos (show i < cfg.workers by omega), if_true]
      exact ih _ (i + 1) rfl (by omega)
  obtain ⟨s₁, hr₁, hp₁⟩ := h1 cfg.workers { memory := true, pc := .queues 0 } 0 rfl (by omega)
  obtain ⟨s₂, hr₂, hp₂⟩ := h2 cfg.workers s₁ 0 hp₁ (by omega)
  refine ⟨s₂, ?_, hp₂⟩
  rw [show 2 * cfg.workers + 3 = ((cfg.workers + 1) + (cfg.workers + 1)) + 1 by omega, List.replicate_succ]
  simp only [run, step, stepCreator, if_true]
  rw [← List.replicate_append_replicate, run_append, hr₁]
  exact hr₂

/-- If the first thread cannot be started, the constructor throws (and nothing is left of the pool, `C146_construction`); of the failures
to start a thread only this one is dealt with. -/
theorem C146_throws_partial (cfg : Pool.Cfg) (s : State) (ls : List Label) (h : run cfg {} ls = some s) (hpc : s.pc = .workers 0) (hw : 0 < cfg.workers) :
    ∃ t, run cfg s (List.replicate (cfg.workers + 4) (.go false)) = some t ∧ t.pc = .threw := by
  have hi := run_induct (Inv cfg) (fun _ _ _ h h' => inv_step h h') h (inv_initial cfg)
  have hth : s.threads = 0 := by
    have := hi.shape
    rw [hpc] at this
    exact this.2.2.1
  have hq := (run_induct (fun s => Inv cfg s ∧ Idle s) (fun _ _ _ h h' => ⟨inv_step h.1 h', idle_step h.1 h.2 h'⟩) h ⟨inv_initial cfg, idle_initial⟩).2 hth
  have h1 : ∀ n (u : State), u.pc = .unwindQueues n → u.pool = s.pool →
      ∃ t, run cfg u (List.replicate (n + 2) (.go false)) = some t ∧ t.pc = .threw := by
    intro n
    induction n with
    | zero =>
      intro u hpc _
      exact ⟨{ u with memory := false, pc := .threw }, by simp [run, step, stepCreator, hpc], rfl⟩
    | succ n ih =>
      intro u hpc hu
      rw [show n + 1 + 2 = (n + 2) + 1 by omega, List.replicate_succ]
      simp only [run, step, stepCreator, hpc]
      rw [if_pos (by rw [hu, hq]; rfl)]
      exact ih _ rfl hu
  rw [show cfg.workers + 4 = (cfg.workers + 2) + 1 + 1 by omega, List.replicate_succ, List.replicate_succ]
  simp only [run, step, stepCreator, hpc, if_pos hw, Bool.false_eq_true, if_false]
  exact h1 cfg.workers _ rfl rfl

/-- If another thread than the first cannot be started, the constructor neither throws nor returns: it waits for the threads it has started,
and these have not been told to stop. -/
theorem C146_throws_violated (cfg : Pool.Cfg) (ls ls' : List Label) (s t : State) (i : Nat) (h : run cfg {} ls = some s)
    (hpc : s.pc = .workers (i + 1)) (hi : i + 1 < cfg.workers) (h' : run cfg s (.go false :: ls') = some t) : t.pc ≠ .threw ∧ t.pc ≠ .returned := by
  have hs := run_induct (Inv cfg) (fun _ _ _ h h' => inv_step h h') h (inv_initial cfg)
  simp only [run, step, stepCreator, hpc, if_pos hi, Bool.false_eq_true, if_false] at h'
  have hu : Inv cfg { s with pc := .unwindWorkers (i + 1) } := by
    apply inv_step hs (l := .go false)
    simp [step, stepCreator, hpc, hi]
  have := run_induct (fun s => Inv cfg s ∧ s.pc = .unwindWorkers (i + 1)) (fun _ _ _ h h' => ⟨inv_step h.1 h', stuck_step h.1 h.2 h'⟩) h' ⟨hu, rfl⟩
  rw [this.2]
  exact ⟨by simp, by simp⟩

/-- Such a state is reached: two workers, the first thread is started and runs, the second cannot be; and the one that runs goes on. -/
example : ∃ s t, run ⟨2, 4, 1⟩ {} [.go true, .go true, .go true, .go true, .go true, .worker 0 (.wLoop 0)] = some s ∧ s.pc = .workers 1 ∧
    run ⟨2, 4, 1⟩ s [.go false, .worker 0 (.wTryLock 0 1), .worker 0 (.wBody 0), .worker 0 (.wUnlock 0), .worker 0 (.wLoop 0)] = some t ∧
    t.pc = .unwindWorkers 1 := ⟨_, _, rfl, rfl, rfl, rfl⟩

/-- If there is no memory for the pool, it is constructed at a null pointer. -/
theorem C146_memory_violated (cfg : Pool.Cfg) : ∃ s, run cfg {} [.go false] = some s ∧ s.ub = true := ⟨_, rfl, rfl⟩

/-- Whatever a program does with `thread_pool` objects: no pool is destroyed twice, none has two owners, and none that has an owner has
been destroyed. -/
theorem C146_ownership (os : List Op) (s : Objects) (h : acts {} os = some s) :
    s.destroyed.Nodup ∧ ∀ x y p, s.storage x = some (some p) → p ∉ s.destroyed ∧ (s.storage y = some (some p) → x = y) := by
  have := own_acts own_initial h
  exact ⟨this.nodup, fun x y p hx => ⟨(this.known x p hx).2, fun hy => this.unique _ _ _ hx hy⟩⟩

/-- If the program does not assign to objects that own a pool (except from themselves), every pool has been destroyed when no object is
left. Full statement: the same for all programs; see `C146_destroyed_violated`. -/
theorem C146_destroyed_partial (os : List Op) (s : Objects) (h : acts {} os = some s) (hend : ∀ x, s.storage x = none)
    (hos : ∀ pre x y post t, os = pre ++ .moveAssign x y :: post → acts {} pre = some t → x = y ∨ t.storage x = some none) :
    ∀ p < s.made, s.destroyed.count p = 1 := by
  have key : ∀ (rest done : List Op) (u : Objects), os = done ++ rest → acts {} done = some u → NoLeak u → acts u rest = some s → NoLeak s := by
    intro rest
    induction rest with
    | nil => intro done u _ _ hu h; cases h; exact hu
    | cons o rest ih =>
      intro done u ho hd hu h
      simp only [acts] at h
      split at h
      · cases h
      · rename_i v hv
        refine ih (done ++ [o]) v (by simpa using ho) ?_ ?_ h
        · rw [acts_append, hd]; simp [acts, hv]
        · refine noLeak_act hu ?_ hv
          rintro x y rfl
          exact hos done x y rest u ho hd
  have hl := key os [] {} rfl rfl (fun p hp => absurd hp (Nat.not_lt_zero _)) h
  intro p hp
  have hn := (own_acts own_initial h).nodup
  rcases hl p hp with h | ⟨x, hx⟩
  · exact List.count_eq_one_of_mem hn h
  · rw [hend x] at hx; cases hx

/-- A pool whose owner is assigned another object is never destroyed, whatever the program does then: its threads run for ever. -/
theorem C146_destroyed_violated (s t u : Objects) (os os' : List Op) (x y p : Nat) (h : acts {} os = some s) (hx : s.storage x = some (some p)) (hxy : x ≠ y)
    (ha : act s (.moveAssign x y) = some t) (h' : acts t os' = some u) : p ∉ u.destroyed := by
  have ho := own_acts own_initial h
  have hk := ho.known x p hx
  simp only [act, hx] at ha
  split at ha
  · rename_i q _ hy
    cases ha
    refine (lost_acts (s := takeStorage s x y q) hk.1 hk.2 ?_ h').2.1
    intro z hz
    simp only [takeStorage, Pool.upd] at hz
    split at hz
    · subst_vars
      have : q = some p := Option.some.inj hz
      subst this
      exact hxy (ho.unique _ _ _ hx hy)
    · split at hz
      · cases hz
      · exact absurd (ho.unique _ _ _ hz hx) ‹_›
  · cases ha

/-- A program meets the hypotheses. -/
example : ∃ s, acts {} [.construct 0, .construct 1, .moveAssign 0 1, .destruct 0, .destruct 1] = some s ∧ s.made = 2 ∧ s.destroyed = [1] :=
  ⟨_, rfl, rfl, rfl⟩

/-- Moving a pool moves what it says about itself; the object moved from has no workers and no room. -/
theorem C146_moved (cfg : Nat → Pool.Cfg) (s t : Objects) (x y : Nat) (hxy : x ≠ y) (h : act s (.moveConstruct x y) = some t ∨ act s (.moveAssign x y) = some t) :
    sizes cfg t x = sizes cfg s y ∧ sizes cfg t y = some (0, 0) := by
  have key : ∃ p, s.storage y = some p ∧ t = takeStorage s x y p := by
    rcases h with h | h <;> simp only [act] at h <;> split at h
    · exact ⟨_, ‹_›, (Option.some.inj h).symm⟩
    · cases h
    · exact ⟨_, ‹_›, (Option.some.inj h).symm⟩
    · cases h
  obtain ⟨p, hp, rfl⟩ := key
  simp [sizes, takeStorage, Pool.upd, hp, Ne.symm hxy]

/-- Assigning an object to itself changes nothing. -/
theorem C146_self (s t : Objects) (x : Nat) (h : act s (.moveAssign x x) = some t) : t = s := by
  simp only [act] at h
  split at h
  · rename_i q p hx hp
    cases h
    have : (Pool.upd (Pool.upd s.storage x (some none)) x (some p)) = s.storage := by
      funext z
      unfold Pool.upd
      split
      · subst_vars; exact hp.symm
      · rfl
    simp only [takeStorage, this]
  · cases h

end Verif.Props.PoolLifetime
