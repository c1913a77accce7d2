import Verif.Proofs.ScopeGuard
/-! C54: scope guards. -/
namespace Verif.Props
open Verif.Spec.ScopeGuard Verif.Model.ScopeGuard Verif.Proofs.ScopeGuard

/-- **C54** whatever the program, however many exceptions are already in flight when it starts: with the guards of muu it ends in the
    same way, and has the same effects in the same order, as with guards that just know whether their scope was left by an exception -/
theorem C54_reference (p : Prog) (count : Nat) (h : count + depth p < 2 ^ 31) :
    (run p count []).out = (exec p []).1 ∧ (run p count []).trace = (exec p []).2.2 := by
  have a := run_exec p count [] h
  exact ⟨a.out, a.trace⟩

/-- two exceptions are in flight already; the destructor of an object uses guards during unwinding from a third one -/
example : (run (.tryCatch (.object (.guard .onSuccess (.emit 1) (.guard .onFail (.emit 2)
      (.tryCatch (.guard .onFail (.emit 3) .throw) (.emit 4)))) (.guard .onSuccess (.emit 5) .throw)) (.emit 6)) 2 []).trace =
    [.effect 3, .effect 4, .effect 1, .effect 6] := by decide

/-- **C54** a guard that is not dismissed runs its callable once, after the body, if the scope is left in the way it waits for, and not at
    all otherwise -/
theorem C54_once (kind : Kind) (c p : Prog) (count : Nat) (g : List Storage) (h : count + depth (.guard kind c p) < 2 ^ 31)
    (hd : dismisses p 0 = false) :
    ∃ out trace g', run p count (init kind count :: g) = ⟨out, (run p count (init kind count :: g)).count, g', trace⟩ ∧
      (run (.guard kind c p) count g).trace = trace ++
        (if (kind = .always ∧ out ≠ .terminated) ∨ (kind = .onFail ∧ out = .thrown) ∨ (kind = .onSuccess ∧ out = .normal)
          then (run c (run p count (init kind count :: g)).count g'.tail).trace else []) := by
  refine ⟨_, _, _, rfl, ?_⟩
  simp only [depth] at h
  have a := run_exec p count (init kind count :: g) (by omega)
  have e := (exec_guards p (List.map dismissed (init kind count :: g))).2 0
  have e2 := e.2 hd
  rw [← a.guards] at e2
  rw [List.map_cons, dismissed_init kind (by omega)] at e2
  rw [run]
  generalize run p count (init kind count :: g) = r at *
  obtain ⟨ro, rc, rg, rt⟩ := r
  have a4 := a.saved
  have a5 := a.normal
  have a6 := a.thrown
  simp only at a4 a5 a6 e2 ⊢
  cases rg with
  | nil => simp at a4
  | cons s rg =>
    simp only [List.map_cons, List.cons.injEq] at a4
    simp only [List.map_cons, List.getElem?_cons_zero, Option.some.injEq] at e2
    simp only [List.tail_cons]
    by_cases ho : ro = .terminated
    · subst ho
      simp
    · rw [if_neg ho, invokes_due kind s count rc ro (by omega) a4.1 a5 a6 ho, e2]
      cases kind <;> cases ro <;> simp [due] at ho ⊢

/-- a scope_fail left by an exception runs its callable -/
example : dismisses (.seq (.emit 1) .throw) 0 = false ∧
    (run (.guard .onFail (.emit 7) (.seq (.emit 1) .throw)) 5 []).trace = [.effect 1, .effect 7] := by decide

/-- **C54** a guard dismissed at the beginning of its scope runs nothing at the end, however the scope is left -/
theorem C54_dismissed (kind : Kind) (c p : Prog) (count : Nat) (g : List Storage)
    (h : count + depth (.guard kind c (.seq (.dismiss 0) p)) < 2 ^ 31) :
    (run (.guard kind c (.seq (.dismiss 0) p)) count g).trace = (run p count (dismiss (init kind count) :: g)).trace ∧
    (run (.guard kind c (.seq (.dismiss 0) p)) count g).out = (run p count (dismiss (init kind count) :: g)).out := by
  have a := run_exec _ count g h
  simp only [depth] at h
  have b := run_exec p count (dismiss (init kind count) :: g) (by omega)
  rw [List.map_cons, dismissed_dismiss] at b
  have e := ((exec_guards p (true :: g.map dismissed)).2 0).1 rfl
  rw [a.trace, b.trace, a.out, b.out, exec, exec, exec]
  simp only [if_true, List.nil_append, List.set_cons_zero]
  have hh : (exec p (true :: g.map dismissed)).2.1.head? = some true := by rw [List.head?_eq_getElem?]; exact e
  rw [if_neg (by rw [hh]; simp)]
  exact ⟨rfl, rfl⟩

example : (run (.guard .always (.emit 7) (.seq (.dismiss 0) (.seq (.ask 0) .throw))) 5 []).trace = [.asked true] := by decide

/-- **C54** once dismissed, a guard stays dismissed; a guard is dismissed only by calling dismiss() -/
theorem C54_dismissal (p : Prog) (count : Nat) (g : List Storage) (h : count + depth p < 2 ^ 31) (k : Nat) (s : Storage)
    (hs : g[k]? = some s) :
    ∃ s', (run p count g).guards[k]? = some s' ∧ (dismissed s = true → dismissed s' = true) ∧
      (dismisses p k = false → dismissed s' = dismissed s) := by
  have a := run_exec p count g h
  have e := (exec_guards p (g.map dismissed)).2 k
  rw [← a.guards] at e
  have hk : (g.map dismissed)[k]? = some (dismissed s) := by rw [List.getElem?_map, hs]; rfl
  have hlen : (run p count g).guards.length = g.length := by
    have := congrArg List.length a.saved
    simpa using this
  have hlt : k < (run p count g).guards.length := by
    rw [hlen]
    rcases Nat.lt_or_ge k g.length with h | h
    · exact h
    · rw [List.getElem?_eq_none h] at hs; simp at hs
  refine ⟨(run p count g).guards[k], List.getElem?_eq_getElem hlt, ?_, ?_⟩
  · intro hd
    have := e.1 (by rw [hk, hd])
    rw [List.getElem?_map, List.getElem?_eq_getElem hlt] at this
    simpa using this
  · intro hd
    have := e.2 hd
    rw [hk, List.getElem?_map, List.getElem?_eq_getElem hlt] at this
    simpa using this

example : (3 : Nat) + depth (.seq (.dismiss 1) .throw) < 2 ^ 31 ∧
    (run (.seq (.dismiss 1) .throw) 3 [init .onFail 1, init .onSuccess 0]).guards =
      [.packed 1#32, .packed 0x80000000#32] := by decide

end Verif.Props
