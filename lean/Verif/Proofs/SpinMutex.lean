import Verif.Model.SpinMutex
/-! The invariant of spin_mutex. -/
namespace Verif.Proofs.SpinMutex
open Verif.Model.SpinMutex

structure Inv (s : State) : Prop where
  ne : s.order ≠ []
  views : ∀ t, (s.thread t).view < s.order.length
  seen : ∀ t, (s.thread t).seen ≤ s.version
  carr : ∀ m ∈ s.order, m.carries ≤ s.version
  free : s.last.val = false → (∀ t, (s.thread t).pc ≠ .holds) ∧ s.last.carries = s.version
  held : s.last.val = true → ∃ t, (s.thread t).pc = .holds
  one : ∀ t u, (s.thread t).pc = .holds → (s.thread u).pc = .holds → t = u
  fresh : ∀ t, (s.thread t).pc = .holds → (s.thread t).seen = s.version
  after : ∀ t, (s.thread t).pc = .holds → ∀ i m, (s.thread t).view < i → s.order[i]? = some m → m.rmw = true
  norace : s.race = false

theorem last_mem {s : State} (h : s.order ≠ []) : s.last ∈ s.order := by
  unfold State.last
  rw [List.getLastD_eq_getLast?, List.getLast?_eq_some_getLast h]
  exact List.getLast_mem h

theorem last_append (s : State) (l : List Msg) (m : Msg) (h : s.order = l ++ [m]) : s.last = m := by
  unfold State.last; rw [h]; simp

theorem inv_init : Inv init where
  ne := by simp [init]
  views := by simp [init]
  seen := by simp [init]
  carr := by simp [init]
  free := by intro _; exact ⟨by simp [init], rfl⟩
  held := by intro h; simp [init, State.last] at h
  one := by simp [init]
  fresh := by simp [init]
  after := by simp [init]
  norace := rfl

/-- a step which changes only one thread, neither from nor to holding -/
theorem inv_set {s : State} (h : Inv s) (t : Nat) (x : Thread) (h1 : (s.thread t).pc ≠ .holds) (h2 : x.pc ≠ .holds)
    (hv : x.view < s.order.length) (hs : x.seen = (s.thread t).seen) : Inv (s.set t x) := by
  obtain ⟨a1, a2, a3, a4, a5, a6, a7, a8, a9, a10⟩ := h
  have hl : (s.set t x).last = s.last := rfl
  refine ⟨a1, ?_, ?_, a4, ?_, ?_, ?_, ?_, ?_, a10⟩
  · intro u; simp only [State.set]; split
    · exact hv
    · exact a2 u
  · intro u; simp only [State.set]; split
    · rw [hs]; exact a3 t
    · exact a3 u
  · intro h; rw [hl] at h
    refine ⟨?_, (a5 h).2⟩
    intro u; simp only [State.set]; split
    · exact h2
    · exact (a5 h).1 u
  · intro h; rw [hl] at h
    obtain ⟨u, hu⟩ := a6 h
    refine ⟨u, ?_⟩
    have : u ≠ t := by rintro rfl; exact h1 hu
    simp only [State.set, if_neg this]; exact hu
  · intro u v hu hv
    simp only [State.set] at hu hv
    split at hu
    · exact absurd hu h2
    · split at hv
      · exact absurd hv h2
      · exact a7 u v hu hv
  · intro u hu
    simp only [State.set] at hu ⊢
    split at hu
    · exact absurd hu h2
    · rename_i hne; rw [if_neg hne]; exact a8 u hu
  · intro u hu
    simp only [State.set] at hu ⊢
    split at hu
    · exact absurd hu h2
    · rename_i hne; rw [if_neg hne]; exact a9 u hu

theorem inv_exchange {s : State} (h : Inv s) (t : Nat) (yes : Pc) (h1 : (s.thread t).pc ≠ .holds) (h2 : yes ≠ .holds) :
    Inv (s.exchange t yes .holds) := by
  obtain ⟨a1, a2, a3, a4, a5, a6, a7, a8, a9, a10⟩ := h
  have hl : (s.exchange t yes .holds).last = ⟨true, s.last.carries, true⟩ := last_append _ s.order _ rfl
  have hc := a4 _ (last_mem a1)
  have ht : ∀ u, ((s.exchange t yes .holds).thread u).pc = .holds →
      (u = t ∧ s.last.val = false) ∨ (u ≠ t ∧ (s.thread u).pc = .holds) := by
    intro u hu
    simp only [State.exchange] at hu
    by_cases e : u = t
    · rw [if_pos e] at hu
      left
      refine ⟨e, ?_⟩
      cases hv : s.last.val with
      | false => rfl
      | true => simp only [hv, if_true] at hu; exact absurd hu h2
    · rw [if_neg e] at hu; exact .inr ⟨e, hu⟩
  have hlen : (s.exchange t yes .holds).order.length = s.order.length + 1 := by simp [State.exchange]
  refine ⟨by simp [State.exchange], ?_, ?_, ?_, ?_, ?_, ?_, ?_, ?_, a10⟩
  · intro u; rw [hlen]; simp only [State.exchange]; split
    · simp
    · have := a2 u; omega
  · intro u
    show ((s.exchange t yes .holds).thread u).seen ≤ s.version
    simp only [State.exchange]; split
    · exact Nat.max_le.mpr ⟨a3 t, hc⟩
    · exact a3 u
  · intro m hm
    show m.carries ≤ s.version
    simp only [State.exchange, List.mem_append, List.mem_singleton] at hm
    rcases hm with hm | rfl
    · exact a4 m hm
    · exact hc
  · intro h; rw [hl] at h; exact absurd h (by simp)
  · intro _
    cases hv : s.last.val with
    | false => exact ⟨t, by simp [State.exchange, hv]⟩
    | true =>
      obtain ⟨u, hu⟩ := a6 hv
      have : u ≠ t := by rintro rfl; exact h1 hu
      exact ⟨u, by simp only [State.exchange, if_neg this]; exact hu⟩
  · intro u v hu hv
    rcases ht u hu with ⟨e1, f1⟩ | ⟨e1, f1⟩ <;> rcases ht v hv with ⟨e2, f2⟩ | ⟨e2, f2⟩
    · rw [e1, e2]
    · exact absurd f2 ((a5 f1).1 v)
    · exact absurd f1 ((a5 f2).1 u)
    · exact a7 u v f1 f2
  · intro u hu
    show ((s.exchange t yes .holds).thread u).seen = s.version
    rcases ht u hu with ⟨e, f⟩ | ⟨e, f⟩
    · simp only [State.exchange, if_pos e]
      rw [(a5 f).2]
      exact Nat.max_eq_right (a3 t)
    · simp only [State.exchange, if_neg e]; exact a8 u f
  · intro u hu i m hi hm
    rcases ht u hu with ⟨e, f⟩ | ⟨e, f⟩
    · simp only [State.exchange, if_pos e] at hi hm
      rw [List.getElem?_eq_none (by simp; omega)] at hm
      exact absurd hm (by simp)
    · simp only [State.exchange, if_neg e] at hi hm
      by_cases hlt : i < s.order.length
      · rw [List.getElem?_append_left hlt] at hm
        exact a9 u f i m hi hm
      · rw [List.getElem?_append_right (by omega)] at hm
        cases hk : i - s.order.length with
        | zero => rw [hk] at hm; simp at hm; rw [← hm]
        | succ k => rw [hk] at hm; simp at hm

theorem inv_write {s s' : State} (h : Inv s) (t : Nat) (hs : step s t .write = some s') : Inv s' := by
  obtain ⟨a1, a2, a3, a4, a5, a6, a7, a8, a9, a10⟩ := h
  simp only [step] at hs
  split at hs
  case isFalse => exact absurd hs (by simp)
  case isTrue hp =>
    obtain rfl := Option.some.inj hs
    refine ⟨a1, ?_, ?_, ?_, ?_, ?_, ?_, ?_, ?_, ?_⟩
    · intro u; simp only [State.set]; split
      · exact a2 t
      · exact a2 u
    · intro u; simp only [State.set]; split
      · exact Nat.le_refl _
      · exact Nat.le_succ_of_le (a3 u)
    · intro m hm; exact Nat.le_succ_of_le (a4 m hm)
    · intro h
      exact absurd hp ((a5 h).1 t)
    · intro _; exact ⟨t, by simp [State.set, hp]⟩
    · intro u v hu hv
      simp only [State.set] at hu hv
      have hu' : (s.thread u).pc = .holds := by
        split at hu
        · rename_i e; rw [e]; exact hp
        · exact hu
      have hv' : (s.thread v).pc = .holds := by
        split at hv
        · rename_i e; rw [e]; exact hp
        · exact hv
      exact a7 u v hu' hv'
    · intro u hu
      simp only [State.set] at hu ⊢
      split at hu
      · rename_i e; rw [if_pos e]
      · rename_i e; exact absurd (a7 u t hu hp) e
    · intro u hu
      simp only [State.set] at hu ⊢
      split at hu
      · rename_i e; rw [if_pos e]; exact a9 t hp
      · rename_i e; rw [if_neg e]; exact a9 u hu
    · simp [a10, a8 t hp]

theorem inv_unlock {s s' : State} (h : Inv s) (t p : Nat) (hs : step s t (.unlock p) = some s') : Inv s' := by
  obtain ⟨a1, a2, a3, a4, a5, a6, a7, a8, a9, a10⟩ := h
  simp only [step] at hs
  split at hs
  case isFalse => exact absurd hs (by simp)
  case isTrue hp =>
    unfold State.store at hs
    split at hs
    case isFalse => exact absurd hs (by simp)
    case isTrue hc =>
      obtain ⟨c1, c2, c3⟩ := hc
      obtain rfl := Option.some.inj hs
      have hpl : p = s.order.length := by
        apply Classical.byContradiction
        intro hne
        have hlt : p < s.order.length := by omega
        rw [List.getElem?_eq_getElem hlt] at c3
        have := a9 t hp p _ c1 (List.getElem?_eq_getElem hlt)
        simp [this] at c3
      subst hpl
      have hpc : ∀ u, u ≠ t → (s.thread u).pc ≠ .holds := fun u hu h => hu (a7 u t h hp)
      have hpc' : ∀ u, (if u = t then (⟨.out, s.order.length, (s.thread t).seen⟩ : Thread)
          else { s.thread u with view := if s.order.length ≤ (s.thread u).view then (s.thread u).view + 1
            else (s.thread u).view }).pc ≠ .holds := by
        intro u; split
        · simp
        · rename_i e; exact hpc u e
      refine ⟨by simp, ?_, ?_, ?_, ?_, ?_, ?_, ?_, ?_, a10⟩
      · intro u; simp only [List.take_length, List.drop_length, List.append_nil, List.length_append, List.length_singleton]
        split
        · simp
        · have := a2 u
          simp only
          rw [if_neg (by omega)]; omega
      · intro u
        simp only; split
        · exact a3 t
        · exact a3 u
      · intro m hm
        simp only [List.take_length, List.drop_length, List.append_nil, List.mem_append, List.mem_singleton] at hm
        rcases hm with hm | rfl
        · exact a4 m hm
        · exact a3 t
      · intro _
        refine ⟨hpc', ?_⟩
        rw [last_append _ s.order ⟨false, (s.thread t).seen, false⟩
          (by simp only [List.take_length, List.drop_length, List.append_nil])]
        exact a8 t hp
      · intro h
        rw [last_append _ s.order ⟨false, (s.thread t).seen, false⟩
          (by simp only [List.take_length, List.drop_length, List.append_nil])] at h
        exact absurd h (by simp)
      · intro u v hu; exact absurd hu (hpc' u)
      · intro u hu; exact absurd hu (hpc' u)
      · intro u hu; exact absurd hu (hpc' u)

theorem inv_load {s s' : State} (h : Inv s) (t i : Nat) (yes no : Pc) (h1 : (s.thread t).pc ≠ .holds)
    (h2 : yes ≠ .holds) (h3 : no ≠ .holds) (hs : s.load t i yes no = some s') : Inv s' := by
  unfold State.load at hs
  split at hs
  · exact absurd hs (by simp)
  · rename_i m hm
    split at hs
    · obtain rfl := Option.some.inj hs
      apply inv_set h t _ h1
      · simp only; split
        · exact h2
        · exact h3
      · exact (List.getElem?_eq_some_iff.mp hm).1
      · rfl
    · exact absurd hs (by simp)

theorem inv_step {s s' : State} (h : Inv s) (t : Nat) (a : Act) (hs : step s t a = some s') : Inv s' := by
  cases a with
  | lock =>
    simp only [step] at hs
    split at hs
    · rename_i hp; obtain rfl := Option.some.inj hs
      exact inv_set h t _ (by rw [hp]; decide) (by simp) (h.views t) rfl
    · exact absurd hs (by simp)
  | tryLock =>
    simp only [step] at hs
    split at hs
    · rename_i hp; obtain rfl := Option.some.inj hs
      exact inv_set h t _ (by rw [hp]; decide) (by simp) (h.views t) rfl
    · exact absurd hs (by simp)
  | exchange =>
    simp only [step] at hs
    split at hs
    · rename_i hp; obtain rfl := Option.some.inj hs
      exact inv_exchange h t _ (by rw [hp]; decide) (by simp)
    · rename_i hp; obtain rfl := Option.some.inj hs
      exact inv_exchange h t _ (by rw [hp]; decide) (by simp)
    · exact absurd hs (by simp)
  | load i =>
    simp only [step] at hs
    split at hs
    · rename_i hp
      exact inv_load h t i _ _ (by rw [hp]; decide) (by simp) (by simp) hs
    · rename_i hp
      exact inv_load h t i _ _ (by rw [hp]; decide) (by simp) (by simp) hs
    · exact absurd hs (by simp)
  | write => exact inv_write h t hs
  | unlock p => exact inv_unlock h t p hs

theorem inv_reach {s : State} (h : Reach s) : Inv s := by
  induction h with
  | init => exact inv_init
  | step t a _ hs ih => exact inv_step ih t a hs

theorem reach_run {s s' : State} (l : List (Nat × Act)) (h : Reach s) (hr : run s l = some s') : Reach s' := by
  induction l generalizing s with
  | nil => obtain rfl := Option.some.inj hr; exact h
  | cons x l ih =>
    obtain ⟨t, a⟩ := x
    simp only [run] at hr
    split at hr
    · exact absurd hr (by simp)
    · rename_i s1 hs; exact ih (.step t a h hs) hr

end Verif.Proofs.SpinMutex
