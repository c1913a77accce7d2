import Verif.Proofs.PoolLive
import Verif.Model.PoolFair
import Mathlib.Tactic.ByContra
import Mathlib.Tactic.Common
/-! Progress of the thread pool under fair scheduling. -/
namespace Verif.Proofs.Pool
open Verif.Spec.Pool Verif.Spec.Fairness Verif.Model.Pool

variable {cfg : Cfg}

/-- what the proofs keep track of beside the states of an execution -/
def ghost (e : Execution cfg) : ℕ → Ghost
  | 0 => {}
  | n + 1 => match e.label n with
    | none => ghost e n
    | some l => gstep (e.state n) l (ghost e n)

theorem good (hcap : cfg.capacity < 2 ^ 64) (e : Execution cfg) (hb : ∀ n, (e.state n).next < 2 ^ 64) :
    ∀ n, All cfg (e.state n) (ghost e n) ∧ InvX cfg (e.state n)
  | 0 => by rw [e.start]; exact ⟨all_init cfg, invX_init cfg⟩
  | n + 1 => by
    obtain ⟨ha, hx⟩ := good hcap e hb n
    cases hl : e.label n with
    | none => rw [e.waits n hl]; simp only [ghost, hl]; exact ⟨ha, hx⟩
    | some l =>
      have ht := trans_of_step (e.steps n l hl)
      simp only [ghost, hl]
      exact ⟨all_step hcap ha ht (hb _), invX_step ha.own ha.dtor hx ht⟩

theorem worker_other {s l s' w} (h : Trans cfg s l s') (hl : threadOf l ≠ .worker w) :
    s'.workers w = s.workers w := by
  cases h <;> simp only [threadOf, ne_eq, Thread.worker.injEq, reduceCtorEq, not_false_eq_true] at hl <;>
    first
    | rfl
    | (simp only [pool_simp, upd_apply]; rw [if_neg (fun h => hl h.symm)])
    | (simp only [pool_simp]; done)
    | (simp only [pool_simp]; split <;> rfl)

theorem caller_other {s l s' c} (h : Trans cfg s l s') (hl : threadOf l ≠ .caller c) (hs : s.callers c ≠ .sleeping) :
    s'.callers c = s.callers c := by
  cases h <;> simp only [threadOf, ne_eq, Thread.caller.injEq, reduceCtorEq, not_false_eq_true] at hl <;>
    first
    | rfl
    | (simp only [pool_simp, upd_apply]; rw [if_neg (fun h => hl h.symm)])
    | (simp only [pool_simp, if_neg hs]; done)
    | (simp only [pool_simp, hs, if_false])
    | (simp only [pool_simp]; split <;> simp only [pool_simp, hs, if_false])

/-- the first step of worker `w` from `n` on finds the worker where it was -/
theorem worker_moves {e : Execution cfg} (hf : Fair e) {w} (hw : w < cfg.workers) {n}
    (hx : (e.state n).workers w ≠ .exited) :
    ∃ m l, n ≤ m ∧ (e.state m).workers w = (e.state n).workers w ∧ e.label m = some l ∧ threadOf l = .worker w ∧
      Trans cfg (e.state m) l (e.state (m + 1)) := by
  obtain ⟨m, hm, hl⟩ := hf.worker w hw n hx
  obtain ⟨d, rfl⟩ := Nat.exists_eq_add_of_le hm
  clear hm
  induction d generalizing n with
  | zero => obtain ⟨l, h1, h2⟩ := hl; exact ⟨n, l, Nat.le_refl _, rfl, h1, h2, trans_of_step (e.steps n l h1)⟩
  | succ d ih =>
    by_cases hn : e.Moves (.worker w) n
    · obtain ⟨l, h1, h2⟩ := hn
      exact ⟨n, l, Nat.le_refl _, rfl, h1, h2, trans_of_step (e.steps n l h1)⟩
    · have e1 : (e.state (n + 1)).workers w = (e.state n).workers w := by
        cases h : e.label n with
        | none => rw [e.waits n h]
        | some l => exact worker_other (trans_of_step (e.steps n l h)) (fun h' => hn ⟨l, h, h'⟩)
      obtain ⟨m, l, h1, h2, h3⟩ := ih (n := n + 1) (by rwa [e1]) (by rwa [Nat.add_right_comm n 1 d])
      exact ⟨m, l, by omega, by rw [h2, e1], h3⟩

theorem caller_moves {e : Execution cfg} (hf : Fair e) {c} (hc : c < cfg.callers) {n}
    (h1 : (e.state n).callers c ≠ .idle) (h2 : (e.state n).callers c ≠ .sleeping)
    (h3 : ∀ k, (e.state n).callers c ≠ .search k) :
    ∃ m l, n ≤ m ∧ (e.state m).callers c = (e.state n).callers c ∧ e.label m = some l ∧ threadOf l = .caller c ∧
      Trans cfg (e.state m) l (e.state (m + 1)) := by
  obtain ⟨m, hm, hl⟩ := hf.caller c hc n h1 h2 h3
  obtain ⟨d, rfl⟩ := Nat.exists_eq_add_of_le hm
  clear hm
  induction d generalizing n with
  | zero => obtain ⟨l, h1, h2⟩ := hl; exact ⟨n, l, Nat.le_refl _, rfl, h1, h2, trans_of_step (e.steps n l h1)⟩
  | succ d ih =>
    by_cases hn : e.Moves (.caller c) n
    · obtain ⟨l, h1, h2⟩ := hn
      exact ⟨n, l, Nat.le_refl _, rfl, h1, h2, trans_of_step (e.steps n l h1)⟩
    · have e1 : (e.state (n + 1)).callers c = (e.state n).callers c := by
        cases h : e.label n with
        | none => rw [e.waits n h]
        | some l => exact caller_other (trans_of_step (e.steps n l h)) (fun h' => hn ⟨l, h, h'⟩) h2
      obtain ⟨m, l, i1, i2, i3⟩ := ih (n := n + 1) (by rwa [e1]) (by rwa [e1]) (by rwa [e1])
        (by rwa [Nat.add_right_comm n 1 d])
      exact ⟨m, l, by omega, by rw [i2, e1], i3⟩

/-- how far a worker is from looking for work again -/
def wFar : WPc → Nat
  | .exited | .polling => 0
  | .leaving _ => 1
  | .locked _ => 8
  | .counted _ => 1
  | .notifying _ => 2
  | .ran _ => 3
  | .running _ => 4
  | .holding _ => 5
  | .popped _ _ => 6

theorem worker_step {s l s' w} (h : Trans cfg s l s') (hl : threadOf l = .worker w) (hub : s'.ub = false)
    (hp : s.workers w ≠ .polling) (hx : s.workers w ≠ .exited) :
    wFar (s'.workers w) < wFar (s.workers w) ∧ s'.workers w ≠ .exited := by
  cases h <;> simp only [threadOf, Thread.worker.injEq, reduceCtorEq] at hl <;> subst hl <;>
    simp_all [wFar]

/-- a worker of a living pool looks for work again and again -/
theorem polls {e : Execution cfg} (hcap : cfg.capacity < 2 ^ 64) (hb : ∀ n, (e.state n).next < 2 ^ 64) (hf : Fair e)
    {w} (hw : w < cfg.workers) : ∀ r n, (e.state n).workers w ≠ .exited → wFar ((e.state n).workers w) ≤ r →
      ∃ m, n ≤ m ∧ (e.state m).workers w = .polling := by
  intro r
  induction r with
  | zero =>
    intro n hx hr
    refine ⟨n, Nat.le_refl _, ?_⟩
    cases h : (e.state n).workers w <;> rw [h] at hr hx <;> simp_all [wFar]
  | succ r ih =>
    intro n hx hr
    by_cases hp : (e.state n).workers w = .polling
    · exact ⟨n, Nat.le_refl _, hp⟩
    obtain ⟨m, l, h1, h2, h3, h4, h5⟩ := worker_moves hf hw hx
    have hub := (good hcap e hb (m + 1)).1.loc.ub
    obtain ⟨i1, i2⟩ := worker_step h5 h4 hub (by rwa [h2]) (by rwa [h2])
    obtain ⟨m', j1, j2⟩ := ih (m + 1) i2 (by rw [h2] at i1; omega)
    exact ⟨m', by omega, j2⟩

theorem often_polls {e : Execution cfg} (hcap : cfg.capacity < 2 ^ 64) (hb : ∀ n, (e.state n).next < 2 ^ 64)
    (hf : Fair e) (ha : e.NeverDestroyed) {w} (hw : w < cfg.workers) :
    Often (fun n => (e.state n).workers w = .polling) := fun n =>
  polls hcap hb hf hw _ n ((good hcap e hb n).2.aliveW (ha n) w hw).2 (Nat.le_refl _)

/-- how far a caller which holds a queue is from releasing it -/
def cFar : CPc → Nat
  | .locked k _ => k + 3
  | .filling todo _ _ _ => todo + 2
  | .published _ _ _ => 1
  | _ => 0

theorem caller_step {s l s' c q} (h : Trans cfg s l s') (hl : threadOf l = .caller c) (hq : cOwn (s.callers c) = some q) :
    (cOwn (s'.callers c) = some q ∧ cFar (s'.callers c) < cFar (s.callers c)) ∨ (s'.queues q).holder = none := by
  cases h <;> simp only [threadOf, Thread.caller.injEq, reduceCtorEq] at hl <;> subst hl <;>
    simp_all [cOwn, cFar]

theorem caller_releases {e : Execution cfg} (hf : Fair e) {c q} (hc : c < cfg.callers) :
    ∀ r n, cOwn ((e.state n).callers c) = some q → cFar ((e.state n).callers c) ≤ r →
      ∃ m, n ≤ m ∧ ((e.state m).queues q).holder = none := by
  intro r
  induction r with
  | zero =>
    intro n ho hr
    cases h : (e.state n).callers c <;> rw [h] at hr ho <;> simp_all [cOwn, cFar]
  | succ r ih =>
    intro n ho hr
    obtain ⟨m, l, h1, h2, h3, h4, h5⟩ := caller_moves hf hc (n := n)
      (by intro h; rw [h] at ho; cases ho) (by intro h; rw [h] at ho; cases ho)
      (by intro k h; rw [h] at ho; cases ho)
    rcases caller_step h5 h4 (by rw [h2]; exact ho) with ⟨i1, i2⟩ | i
    · obtain ⟨m', j1, j2⟩ := ih (m + 1) i1 (by rw [h2] at i2; omega)
      exact ⟨m', by omega, j2⟩
    · exact ⟨m + 1, by omega, i⟩

theorem worker_step_own {s l s' w q} (h : Trans cfg s l s') (hl : threadOf l = .worker w) (hub : s'.ub = false)
    (hq : wOwn (s.workers w) = some q) :
    (wOwn (s'.workers w) = some q ∧ wFar (s'.workers w) < wFar (s.workers w)) ∨ (s'.queues q).holder = none := by
  cases h <;> simp only [threadOf, Thread.worker.injEq, reduceCtorEq] at hl <;> subst hl <;>
    simp_all [wOwn, wFar]

theorem worker_releases {e : Execution cfg} (hcap : cfg.capacity < 2 ^ 64) (hb : ∀ n, (e.state n).next < 2 ^ 64)
    (hf : Fair e) {w q} (hw : w < cfg.workers) :
    ∀ r n, wOwn ((e.state n).workers w) = some q → wFar ((e.state n).workers w) ≤ r →
      ∃ m, n ≤ m ∧ ((e.state m).queues q).holder = none := by
  intro r
  induction r with
  | zero =>
    intro n ho hr
    cases h : (e.state n).workers w <;> rw [h] at hr ho <;> simp_all [wOwn, wFar]
  | succ r ih =>
    intro n ho hr
    obtain ⟨m, l, h1, h2, h3, h4, h5⟩ := worker_moves hf hw (n := n) (by intro h; rw [h] at ho; cases ho)
    rcases worker_step_own h5 h4 (good hcap e hb (m + 1)).1.loc.ub (by rw [h2]; exact ho) with ⟨i1, i2⟩ | i
    · obtain ⟨m', j1, j2⟩ := ih (m + 1) i1 (by rw [h2] at i2; omega)
      exact ⟨m', by omega, j2⟩
    · exact ⟨m + 1, by omega, i⟩

/-- the mutex of every queue of a living pool is free again and again -/
theorem often_free {e : Execution cfg} (hcap : cfg.capacity < 2 ^ 64) (hb : ∀ n, (e.state n).next < 2 ^ 64)
    (hf : Fair e) (ha : e.NeverDestroyed) {q} (hq : q < cfg.workers) :
    Often (fun n => ((e.state n).queues q).holder = none) := by
  intro n
  cases hh : ((e.state n).queues q).holder with
  | none => exact ⟨n, Nat.le_refl _, hh⟩
  | some th =>
    have ho := (good hcap e hb n).2.held q hq th hh
    cases th with
    | caller c => exact caller_releases hf ho.1 _ n ho.2 (Nat.le_refl _)
    | worker w => exact worker_releases hcap hb hf ho.1 _ n ho.2 (Nat.le_refl _)
    | destroyer => simp only [Owns, ha n, dOwn] at ho; cases ho

theorem often_locks {e : Execution cfg} (hcap : cfg.capacity < 2 ^ 64) (hb : ∀ n, (e.state n).next < 2 ^ 64)
    (hf : Fair e) (ha : e.NeverDestroyed) {w} (hw : w < cfg.workers) :
    Often (fun n => e.label n = some (.wTryLock w w)) :=
  hf.ownQueue w hw (often_polls hcap hb hf ha hw) (often_free hcap hb hf ha hw)

/-! ### Tasks in a queue move to the front and to a worker -/

theorem idxOf_next {a t : ℕ} {l : List ℕ} (h : a ≠ t) : (a :: l).idxOf t = l.idxOf t + 1 := by
  rw [List.idxOf_cons, beq_eq_false_iff_ne.mpr h]; rfl

theorem idxOf_before {t : ℕ} {l l' : List ℕ} (h : t ∈ l) : (l ++ l').idxOf t = l.idxOf t := by
  induction l with
  | nil => cases h
  | cons a l ih =>
    by_cases e : a = t
    · subst e; rw [List.cons_append, List.idxOf_cons, List.idxOf_cons, beq_self_eq_true]; rfl
    · have hm : t ∈ l := by rcases List.mem_cons.mp h with h | h; exact absurd h.symm e; exact h
      rw [List.cons_append, idxOf_next e, idxOf_next e, ih hm]

theorem gstep_queue {s l s' g t q} (h : Trans cfg s l s') (hal : s.dtor = .alive) (hl : InvLoc cfg s g)
    (ho : InvOwn cfg s) (hb : s.next < 2 ^ 64) (hq : q < cfg.workers) (ht : t ∈ g.cont q) :
    (∃ w, (gstep s l g).loc t = .worker w) ∨
      (t ∈ (gstep s l g).cont q ∧ ((gstep s l g).cont q).idxOf t ≤ (g.cont q).idxOf t) := by
  cases h
  all_goals try exact .inr ⟨ht, Nat.le_refl _⟩
  case acquire c todo q' ts retry hc h =>
    right
    simp only [gstep, h, upd_apply]
    split
    · rename_i e; subst e
      exact ⟨List.mem_append_left _ ht, Nat.le_of_eq (idxOf_before ht)⟩
    · exact ⟨ht, Nat.le_refl _⟩
  case wLeave w q' hw h he =>
    right
    simp only [gstep, h, if_pos he]
    exact ⟨ht, Nat.le_refl _⟩
  case wUb w q' hw h he htm hp =>
    exact absurd hp (popFront_none (hl.abs q' (ho.own (.worker w) q' ⟨hw, by rw [h]; rfl⟩).1) hb he)
  case wPop w q' t' q'' hw h he htm hp =>
    simp only [gstep, h, he, htm, Bool.false_eq_true, or_self, if_false]
    cases hc : g.cont q' with
    | nil => right; simp only [hc]; exact ⟨ht, Nat.le_refl _⟩
    | cons a rest =>
      simp only [upd_apply]
      by_cases hta : t = a
      · left; exact ⟨w, by rw [if_pos hta]⟩
      · right
        split
        · rename_i e; subst e
          rw [hc] at ht ⊢
          have hm : t ∈ rest := by simpa [hta] using ht
          refine ⟨hm, ?_⟩
          rw [idxOf_next (fun h => hta h.symm)]; omega
        · exact ⟨ht, Nat.le_refl _⟩
  case wDecLast w t' hw h hb => right; simp only [gstep, h]; exact ⟨ht, Nat.le_refl _⟩
  case wDec w t' hw h hb => right; simp only [gstep, h]; exact ⟨ht, Nat.le_refl _⟩
  case wDestroy w t' hw h => right; simp only [gstep, h]; exact ⟨ht, Nat.le_refl _⟩
  all_goals (exfalso; simp_all)

/-- popping takes the front -/
theorem gstep_pop {s g t q w} (hw : w < cfg.workers) (h : s.workers w = .locked q) (hl : InvLoc cfg s g)
    (hb : s.next < 2 ^ 64) (hq : q < cfg.workers) (htm : (s.queues q).terminated = false) (ht : t ∈ g.cont q) :
    ((gstep s (.wBody w) g).loc t = .worker w) ∨
      (t ∈ (gstep s (.wBody w) g).cont q ∧ ((gstep s (.wBody w) g).cont q).idxOf t < (g.cont q).idxOf t) := by
  have he : (s.queues q).empty = false := by
    rw [← Bool.not_eq_true, (hl.abs q hq).empty_iff hb]
    intro h; rw [h] at ht; cases ht
  simp only [gstep, h, he, htm, Bool.false_eq_true, or_self, if_false]
  cases hc : g.cont q with
  | nil => rw [hc] at ht; cases ht
  | cons a rest =>
    rw [hc] at ht
    simp only [upd_apply]
    by_cases hta : t = a
    · left; rw [if_pos hta]
    · right
      have hm : t ∈ rest := by simpa [hta] using ht
      simp only [if_true]
      exact ⟨hm, by rw [idxOf_next (fun h => hta h.symm)]; omega⟩

/-- as time passes, a task in a queue gets no further from its front, or is taken by a worker -/
theorem queue_later {e : Execution cfg} (hcap : cfg.capacity < 2 ^ 64) (hb : ∀ n, (e.state n).next < 2 ^ 64)
    (ha : e.NeverDestroyed) {q t} (hq : q < cfg.workers) : ∀ d n, t ∈ (ghost e n).cont q →
      (∃ m w, n ≤ m ∧ (ghost e m).loc t = .worker w) ∨
      (t ∈ (ghost e (n + d)).cont q ∧ ((ghost e (n + d)).cont q).idxOf t ≤ ((ghost e n).cont q).idxOf t) := by
  intro d
  induction d with
  | zero => intro n ht; exact .inr ⟨ht, Nat.le_refl _⟩
  | succ d ih =>
    intro n ht
    rcases ih n ht with h | ⟨h1, h2⟩
    · exact .inl h
    · rw [← Nat.add_assoc]
      simp only [ghost]
      cases hl : e.label (n + d) with
      | none => exact .inr ⟨h1, h2⟩
      | some l =>
        obtain ⟨g1, -⟩ := good hcap e hb (n + d)
        rcases gstep_queue (trans_of_step (e.steps _ l hl)) (ha _) g1.loc g1.own (hb _) hq h1 with ⟨w, i⟩ | ⟨i1, i2⟩
        · exact .inl ⟨n + d + 1, w, by omega, by simp only [ghost, hl]; exact i⟩
        · exact .inr ⟨i1, Nat.le_trans i2 h2⟩

theorem taken {e : Execution cfg} (hcap : cfg.capacity < 2 ^ 64) (hb : ∀ n, (e.state n).next < 2 ^ 64)
    (hf : Fair e) (ha : e.NeverDestroyed) {q t} (hq : q < cfg.workers) : ∀ r n, t ∈ (ghost e n).cont q →
      ((ghost e n).cont q).idxOf t ≤ r → ∃ m w, n ≤ m ∧ (ghost e m).loc t = .worker w := by
  intro r
  induction r using Nat.strongRecOn with
  | _ r ih =>
    intro n ht hr
    obtain ⟨m, hm, hl⟩ := often_locks hcap hb hf ha hq n
    obtain ⟨d, rfl⟩ := Nat.exists_eq_add_of_le hm
    rcases queue_later hcap hb ha hq (d + 1) n ht with h | ⟨h1, h2⟩
    · exact h
    have hlk : (e.state (n + d + 1)).workers q = .locked q := by
      have h := trans_of_step (e.steps _ _ hl)
      generalize e.state (n + d + 1) = s' at h
      cases h
      simp only [pool_simp, upd_same]
    obtain ⟨m', l, i1, i2, i3, i4, i5⟩ := worker_moves hf hq (n := n + d + 1) (by rw [hlk]; simp)
    rw [hlk] at i2
    obtain ⟨d', rfl⟩ := Nat.exists_eq_add_of_le i1
    rcases queue_later hcap hb ha hq d' (n + d + 1) h1 with ⟨m2, w, j1, j2⟩ | ⟨j1, j2⟩
    · exact ⟨m2, w, by omega, j2⟩
    obtain ⟨g1, x1⟩ := good hcap e hb (n + d + 1 + d')
    have hlb : l = .wBody q := by
      generalize e.state (n + d + 1 + d' + 1) = s' at i5
      cases i5 <;> simp only [threadOf, Thread.worker.injEq, reduceCtorEq] at i4 <;> subst i4 <;> simp_all
    subst hlb
    rcases gstep_pop hq i2 g1.loc (hb _) hq (x1.aliveQ (ha _) q hq) j1 with k | ⟨k1, k2⟩
    · exact ⟨n + d + 1 + d' + 1, q, by omega, by simp only [ghost, i3]; exact k⟩
    · have k3 : (ghost e (n + d + 1 + d' + 1)) = gstep (e.state (n + d + 1 + d')) (.wBody q) (ghost e (n + d + 1 + d')) := by
        simp only [ghost, i3]
      rw [← k3] at k1 k2
      have h2' : ((ghost e (n + d + 1)).cont q).idxOf t ≤ ((ghost e n).cont q).idxOf t := h2
      obtain ⟨m2, w, l1, l2⟩ := ih _ (by omega : ((ghost e (n + d + 1 + d' + 1)).cont q).idxOf t < r) _ k1 (Nat.le_refl _)
      exact ⟨m2, w, by omega, l2⟩

/-! ### Tasks taken by a worker are run and destroyed -/

theorem worker_step_task {s l s' g w t} (h : Trans cfg s l s') (hl : threadOf l = .worker w)
    (ht : wTask (s.workers w) = some t) :
    (wTask (s'.workers w) = some t ∧ wFar (s'.workers w) < wFar (s.workers w)) ∨ (gstep s l g).loc t = .gone := by
  cases h <;> simp only [threadOf, Thread.worker.injEq, reduceCtorEq] at hl <;> subst hl <;>
    simp_all [wTask, wFar, gstep]

theorem destroyed {e : Execution cfg} (hf : Fair e) {w t} (hw : w < cfg.workers) :
    ∀ r n, wTask ((e.state n).workers w) = some t → wFar ((e.state n).workers w) ≤ r →
      ∃ m, n ≤ m ∧ (ghost e m).loc t = .gone := by
  intro r
  induction r with
  | zero =>
    intro n ho hr
    cases h : (e.state n).workers w <;> rw [h] at hr ho <;> simp_all [wTask, wFar]
  | succ r ih =>
    intro n ho hr
    obtain ⟨m, l, h1, h2, h3, h4, h5⟩ := worker_moves hf hw (n := n) (by intro h; rw [h] at ho; cases ho)
    rcases worker_step_task (g := ghost e m) h5 h4 (by rw [h2]; exact ho) with ⟨i1, i2⟩ | i
    · obtain ⟨m', j1, j2⟩ := ih (m + 1) i1 (by rw [h2] at i2; omega)
      exact ⟨m', by omega, j2⟩
    · exact ⟨m + 1, by omega, by simp only [ghost, h3]; exact i⟩

/-- every task ends -/
theorem task_gone {e : Execution cfg} (hcap : cfg.capacity < 2 ^ 64) (hb : ∀ n, (e.state n).next < 2 ^ 64)
    (hf : Fair e) (ha : e.NeverDestroyed) {t n} (ht : t < (e.state n).next) :
    ∃ m, n ≤ m ∧ (ghost e m).loc t = .gone := by
  have fromWorker : ∀ m w, (ghost e m).loc t = .worker w → ∃ m', m ≤ m' ∧ (ghost e m').loc t = .gone := by
    intro m w hl
    have g := (good hcap e hb m).1.loc
    have hw := g.locW t w hl
    exact destroyed hf hw _ m ((g.wLoc w hw t).mpr hl) (Nat.le_refl _)
  have g := (good hcap e hb n).1.loc
  cases hl : (ghost e n).loc t with
  | fresh => have := (g.fresh t).mp hl; omega
  | gone => exact ⟨n, Nat.le_refl _, hl⟩
  | worker w => exact fromWorker n w hl
  | queue q =>
    have hq := g.locQ t q hl
    obtain ⟨m, w, h1, h2⟩ := taken hcap hb hf ha hq _ n ((g.contLoc q hq t).mpr hl) (Nat.le_refl _)
    obtain ⟨m', h3, h4⟩ := fromWorker m w h2
    exact ⟨m', by omega, h4⟩

end Verif.Proofs.Pool
