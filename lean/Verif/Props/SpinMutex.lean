import Verif.Proofs.SpinMutex
/-! C42 (spin_mutex). -/
namespace Verif.Props
open Verif.Model.SpinMutex Verif.Proofs.SpinMutex

/-- **C42** in every interleaving, under the C++ memory model, at most one thread holds the mutex -/
theorem C42_mutual_exclusion {s : State} (h : Reach s) (t u : Nat) (ht : (s.thread t).pc = .holds)
    (hu : (s.thread u).pc = .holds) : t = u := (inv_reach h).one t u ht hu

/-- **C42** a thread which holds the mutex has seen everything that was done while the mutex was held before, so that
    what the mutex protects needs no other protection: there are no data races -/
theorem C42_no_data_race {s : State} (h : Reach s) :
    s.race = false ∧ ∀ t, (s.thread t).pc = .holds → (s.thread t).seen = s.version :=
  ⟨(inv_reach h).norace, (inv_reach h).fresh⟩

/-- **C42** the exchange in lock() or try_lock() acquires the mutex exactly if nobody holds it; in particular
    try_lock() succeeds only if nobody holds it -/
theorem C42_acquires_iff_free {s s' : State} (h : Reach s) (t : Nat) (hs : step s t .exchange = some s') :
    (s'.thread t).pc = .holds ↔ ∀ u, (s.thread u).pc ≠ .holds := by
  have hi := inv_reach h
  have key : ∀ yes, yes ≠ Pc.holds →
      (((s.exchange t yes .holds).thread t).pc = .holds ↔ ∀ u, (s.thread u).pc ≠ .holds) := by
    intro yes hy
    simp only [State.exchange, if_true]
    cases hv : s.last.val with
    | false => simp only [Bool.false_eq_true, if_false, true_iff]; exact (hi.free hv).1
    | true =>
      simp only [if_true]
      obtain ⟨u, hu⟩ := hi.held hv
      exact ⟨fun h => absurd h hy, fun h => absurd hu (h u)⟩
  simp only [step] at hs
  split at hs
  · obtain rfl := Option.some.inj hs; exact key _ (by simp)
  · obtain rfl := Option.some.inj hs; exact key _ (by simp)
  · exact absurd hs (by simp)

/-- **C42** a thread comes to hold the mutex only by such an exchange -/
theorem C42_acquired_by_exchange {s s' : State} (t u : Nat) (a : Act) (hs : step s t a = some s')
    (h0 : (s.thread u).pc ≠ .holds) (h1 : (s'.thread u).pc = .holds) : u = t ∧ a = .exchange := by
  cases a with
  | exchange =>
    refine ⟨?_, rfl⟩
    apply Classical.byContradiction
    intro hne
    simp only [step] at hs
    split at hs
    · obtain rfl := Option.some.inj hs; simp only [State.exchange, if_neg hne] at h1; exact h0 h1
    · obtain rfl := Option.some.inj hs; simp only [State.exchange, if_neg hne] at h1; exact h0 h1
    · exact absurd hs (by simp)
  | lock =>
    simp only [step] at hs
    split at hs
    · obtain rfl := Option.some.inj hs
      simp only [State.set] at h1
      split at h1
      · simp at h1
      · exact absurd h1 h0
    · exact absurd hs (by simp)
  | tryLock =>
    simp only [step] at hs
    split at hs
    · obtain rfl := Option.some.inj hs
      simp only [State.set] at h1
      split at h1
      · simp at h1
      · exact absurd h1 h0
    · exact absurd hs (by simp)
  | load i =>
    have key : ∀ yes no, yes ≠ Pc.holds → no ≠ Pc.holds → s.load t i yes no = some s' → False := by
      intro yes no hy hn hs
      unfold State.load at hs
      split at hs
      · exact absurd hs (by simp)
      · split at hs
        · obtain rfl := Option.some.inj hs
          simp only [State.set] at h1
          split at h1
          · simp only at h1
            split at h1
            · exact hy h1
            · exact hn h1
          · exact h0 h1
        · exact absurd hs (by simp)
    simp only [step] at hs
    split at hs
    · exact (key _ _ (by simp) (by simp) hs).elim
    · exact (key _ _ (by simp) (by simp) hs).elim
    · exact absurd hs (by simp)
  | write =>
    simp only [step] at hs
    split at hs
    · rename_i hp
      obtain rfl := Option.some.inj hs
      simp only [State.set] at h1
      split at h1
      · rename_i e; rw [e] at h0; exact absurd hp h0
      · exact absurd h1 h0
    · exact absurd hs (by simp)
  | unlock p =>
    simp only [step] at hs
    split at hs
    · unfold State.store at hs
      split at hs
      · obtain rfl := Option.some.inj hs
        simp only at h1
        split at h1
        · simp at h1
        · exact absurd h1 h0
      · exact absurd hs (by simp)
    · exact absurd hs (by simp)

/-- **C42** a mutex which nobody holds can be acquired by any thread waiting in lock(): at most two steps of that
    thread alone are enough. A thread which holds it can always unlock it. -/
theorem C42_free_can_be_acquired {s : State} (h : Reach s) (t : Nat) :
    ((∀ u, (s.thread u).pc ≠ .holds) → ((s.thread t).pc = .lockX ∨ (s.thread t).pc = .lockL) →
      ∃ l s', (∀ x ∈ l, x.1 = t) ∧ l.length ≤ 2 ∧ run s l = some s' ∧ (s'.thread t).pc = .holds) ∧
    ((s.thread t).pc = .holds → ∃ p s', step s t (.unlock p) = some s' ∧ ∀ u, (s'.thread u).pc ≠ .holds) := by
  have hi := inv_reach h
  constructor
  · intro hfree hpc
    have hacq : ∀ s1, Reach s1 → (∀ u, (s1.thread u).pc ≠ .holds) → (s1.thread t).pc = .lockX →
        ∃ s', step s1 t .exchange = some s' ∧ (s'.thread t).pc = .holds := by
      intro s1 h1 hf hp
      have hst : step s1 t .exchange = some (s1.exchange t .lockL .holds) := by simp only [step, hp]
      exact ⟨_, hst, (C42_acquires_iff_free h1 t hst).mpr hf⟩
    rcases hpc with hp | hp
    · obtain ⟨s', h1, h2⟩ := hacq s h hfree hp
      exact ⟨[(t, .exchange)], s', by simp, by simp, by simp only [run, h1], h2⟩
    · have hlen : 0 < s.order.length := List.length_pos_iff.mpr hi.ne
      have hlastv : s.last.val = false := by
        cases hv : s.last.val with
        | false => rfl
        | true => obtain ⟨u, hu⟩ := hi.held hv; exact absurd hu (hfree u)
      have hget : s.order[s.order.length - 1]? = some s.last := by
        unfold State.last
        rw [List.getLastD_eq_getLast?, List.getLast?_eq_getElem?, List.getElem?_eq_getElem (by omega)]
        rfl
      have hstep : step s t (.load (s.order.length - 1)) =
          some (s.set t { s.thread t with pc := .lockX, view := s.order.length - 1 }) := by
        simp only [step, hp, State.load, hget, hlastv, Bool.false_eq_true, if_false]
        rw [if_pos (by have := hi.views t; omega)]
      have hr1 := Reach.step t _ h hstep
      obtain ⟨s', h1, h2⟩ := hacq _ hr1 (by
        intro u; simp only [State.set]; split
        · simp
        · exact hfree u) (by simp [State.set])
      exact ⟨[(t, .load (s.order.length - 1)), (t, .exchange)], s', by simp, by simp,
        by simp only [run, hstep, h1], h2⟩
  · intro hp
    have hstep : ∃ s', step s t (.unlock s.order.length) = some s' := by
      simp only [step, hp, if_true, State.store]
      rw [if_pos ⟨hi.views t, Nat.le_refl _, by rw [List.getElem?_eq_none (Nat.le_refl _)]; rfl⟩]
      exact ⟨_, rfl⟩
    obtain ⟨s', hs⟩ := hstep
    refine ⟨_, s', hs, ?_⟩
    simp only [step, hp, if_true, State.store] at hs
    split at hs
    · obtain rfl := Option.some.inj hs
      intro u
      simp only
      split
      · simp
      · rename_i e; exact fun hu => e (hi.one u t hu hp)
    · exact absurd hs (by simp)

/-- two threads compete: 1 spins on the load (reading a stale value once) while 0 holds the mutex and writes, then
    gets it and has seen the write -/
example : ((run init [(0, .lock), (1, .lock), (0, .exchange), (1, .exchange), (0, .write), (1, .load 2), (0, .unlock 3),
      (1, .load 2), (1, .load 3), (1, .exchange), (1, .write)]).map
    fun s => ((s.thread 0).pc, (s.thread 1).pc, (s.thread 1).seen, s.version, s.race)) =
    some (.out, .holds, 2, 2, false) := by decide

end Verif.Props
