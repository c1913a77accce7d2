import Verif.Model.ScopeGuard
namespace Verif.Proofs.ScopeGuard
open Verif.Spec.ScopeGuard Verif.Model.ScopeGuard

theorem mask_eq : dismissedMask = 0x80000000#32 := by decide
theorem emask_eq : excountMask = 0x7fffffff#32 := by decide

theorem and_top (d : BitVec 32) : (d &&& 0x80000000#32 ≠ 0#32) ↔ d.getLsbD 31 = true := by
  constructor
  · intro h
    cases hb : d.getLsbD 31
    · exfalso
      apply h
      apply BitVec.eq_of_getLsbD_eq
      intro i hi
      rw [BitVec.getLsbD_and]
      have : ∀ i < 32, i ≠ 31 → (0x80000000#32).getLsbD i = false := by decide
      by_cases h31 : i = 31
      · subst h31; rw [hb]; rfl
      · rw [this i hi h31]; simp
    · rfl
  · intro h hc
    have : (d &&& 0x80000000#32).getLsbD 31 = false := by rw [hc]; simp
    rw [BitVec.getLsbD_and, h] at this
    simp at this

theorem dismissed_dismiss (s : Storage) : dismissed (dismiss s) = true := by
  cases s with
  | flag b => rfl
  | packed d =>
    show decide (_ ≠ _) = true
    rw [decide_eq_true_iff, mask_eq, and_top, BitVec.getLsbD_or]
    simp

theorem saved_dismiss (s : Storage) : saved (dismiss s) = saved s := by
  cases s with
  | flag b => rfl
  | packed d =>
    show (d ||| dismissedMask) &&& excountMask = d &&& excountMask
    apply BitVec.eq_of_getLsbD_eq
    intro i hi
    rw [mask_eq, emask_eq, BitVec.getLsbD_and, BitVec.getLsbD_and, BitVec.getLsbD_or]
    have : ∀ i < 32, i ≠ 31 → (0x80000000#32).getLsbD i = false := by decide
    by_cases h31 : i = 31
    · subst h31; simp
    · rw [this i hi h31]; simp

theorem uncaught_toNat {c : Nat} (h : c < 2 ^ 31) : (uncaught c).toNat = c := by
  unfold uncaught
  rw [BitVec.toNat_ofNat]; omega

theorem dismissed_init (k : Kind) {c : Nat} (h : c < 2 ^ 31) : dismissed (init k c) = false := by
  have : dismissed (.packed (uncaught c)) = false := by
    show decide (_ ≠ _) = false
    rw [decide_eq_false_iff_not, mask_eq, and_top]
    have h2 := BitVec.testBit_toNat (uncaught c) (i := 31)
    rw [uncaught_toNat h, Nat.testBit_lt_two_pow h] at h2
    rw [← h2]; simp
  cases k
  · rfl
  · exact this
  · exact this

theorem saved_init (k : Kind) (hk : k ≠ .always) {c : Nat} (h : c < 2 ^ 31) : saved (init k c) = uncaught c := by
  have : saved (.packed (uncaught c)) = uncaught c := by
    show uncaught c &&& excountMask = uncaught c
    rw [emask_eq]
    apply BitVec.eq_of_toNat_eq
    rw [BitVec.toNat_and, uncaught_toNat h]
    exact (Nat.and_two_pow_sub_one_eq_mod c 31).trans (Nat.mod_eq_of_lt h)
  cases k
  · exact absurd rfl hk
  · exact this
  · exact this

theorem uncaught_succ {c : Nat} (h : c + 1 < 2 ^ 31) : uncaught c ≠ uncaught (c + 1) := by
  intro hc
  have := congrArg BitVec.toNat hc
  rw [uncaught_toNat (by omega), uncaught_toNat h] at this
  omega

theorem modify_dismissed (k : Nat) (g : List Storage) : (modify k dismiss g).map dismissed = (g.map dismissed).set k true := by
  induction g generalizing k with
  | nil => simp [Model.ScopeGuard.modify]
  | cons s g ih =>
    cases k with
    | zero => show dismissed (dismiss s) :: _ = true :: _; rw [dismissed_dismiss]
    | succ k => show dismissed s :: (modify k dismiss g).map dismissed = dismissed s :: _; rw [ih]

theorem modify_saved (k : Nat) (g : List Storage) : (modify k dismiss g).map saved = g.map saved := by
  induction g generalizing k with
  | nil => simp [Model.ScopeGuard.modify]
  | cons s g ih =>
    cases k with
    | zero => show saved (dismiss s) :: _ = saved s :: _; rw [saved_dismiss]
    | succ k => show saved s :: (modify k dismiss g).map saved = saved s :: _; rw [ih]

theorem invokes_due (kind : Kind) (s : Storage) (count count' : Nat) (o : Out) (hc : count + 1 < 2 ^ 31 ∨ (o = .normal ∧ count < 2 ^ 31))
    (hs : saved s = saved (init kind count)) (hn : o = .normal → count' = count) (ht : o = .thrown → count' = count + 1)
    (ho : o ≠ .terminated) : invokes kind s count' = (due kind o && !dismissed s) := by
  cases o with
  | terminated => exact absurd rfl ho
  | normal =>
    rw [hn rfl]
    have h31 : count < 2 ^ 31 := by omega
    cases kind with
    | always => rfl
    | onFail => rw [saved_init _ (by decide) h31] at hs; simp [invokes, hs, due]
    | onSuccess => rw [saved_init _ (by decide) h31] at hs; simp [invokes, hs, due]
  | thrown =>
    rw [ht rfl]
    have h31 : count + 1 < 2 ^ 31 := by simp at hc; omega
    cases kind with
    | always => rfl
    | onFail =>
      rw [saved_init _ (by decide) (by omega)] at hs
      simp [invokes, hs, due, uncaught_succ h31]
    | onSuccess =>
      rw [saved_init _ (by decide) (by omega)] at hs
      simp [invokes, hs, due, uncaught_succ h31]

structure Agree (r : Result) (e : Out × List Bool × List Event) (count : Nat) (g : List Storage) : Prop where
  out : r.out = e.1
  guards : r.guards.map dismissed = e.2.1
  trace : r.trace = e.2.2
  saved : r.guards.map saved = g.map saved
  normal : r.out = .normal → r.count = count
  thrown : r.out = .thrown → r.count = count + 1

theorem run_exec (p : Prog) : ∀ count g, count + depth p < 2 ^ 31 →
    Agree (run p count g) (exec p (g.map dismissed)) count g := by
  induction p with
  | emit n => intro c g _; exact ⟨rfl, rfl, rfl, rfl, fun _ => rfl, fun h => by simp [run] at h⟩
  | throw => intro c g _; exact ⟨rfl, rfl, rfl, rfl, fun h => by simp [run] at h, fun _ => rfl⟩
  | dismiss k =>
    intro c g _
    exact ⟨rfl, modify_dismissed k g, rfl, modify_saved k g, fun _ => rfl, fun h => by simp [run] at h⟩
  | ask k =>
    intro c g _
    refine ⟨rfl, rfl, ?_, rfl, fun _ => rfl, fun h => by simp [run] at h⟩
    simp [run, exec, List.getD]
  | seq p q ihp ihq =>
    intro c g h
    simp only [depth] at h
    have a := ihp c g (by omega)
    rw [run, exec]
    generalize run p c g = r at *
    generalize exec p (g.map dismissed) = e at *
    obtain ⟨o, ge, te⟩ := e
    obtain ⟨ro, rc, rg, rt⟩ := r
    obtain ⟨a1, a2, a3, a4, a5, a6⟩ := a
    simp only at a1 a2 a3 a4 a5 a6
    subst a1 a2 a3
    simp only
    by_cases ho : ro = .normal
    · rw [if_pos ho, if_pos ho]
      have hrc := a5 ho
      subst hrc
      have b := ihq rc rg (by omega)
      exact ⟨b.1, b.2, by show _ ++ _ = _ ++ _; rw [b.3], b.4.trans a4, b.5, b.6⟩
    · rw [if_neg ho, if_neg ho]
      exact ⟨rfl, rfl, rfl, a4, a5, a6⟩
  | tryCatch p q ihp ihq =>
    intro c g h
    simp only [depth] at h
    have a := ihp c g (by omega)
    rw [run, exec]
    generalize run p c g = r at *
    generalize exec p (g.map dismissed) = e at *
    obtain ⟨o, ge, te⟩ := e
    obtain ⟨ro, rc, rg, rt⟩ := r
    obtain ⟨a1, a2, a3, a4, a5, a6⟩ := a
    simp only at a1 a2 a3 a4 a5 a6
    subst a1 a2 a3
    simp only
    by_cases ho : ro = .thrown
    · rw [if_pos ho, if_pos ho]
      have hrc := a6 ho
      subst hrc
      have b := ihq c rg (by omega)
      rw [Nat.add_sub_cancel]
      exact ⟨b.1, b.2, by show _ ++ _ = _ ++ _; rw [b.3], b.4.trans a4, b.5, b.6⟩
    · rw [if_neg ho, if_neg ho]
      exact ⟨rfl, rfl, rfl, a4, a5, a6⟩
  | object d p ihd ihp =>
    intro c g h
    simp only [depth] at h
    have a := ihp c g (by omega)
    rw [run, exec]
    generalize run p c g = r at *
    generalize exec p (g.map dismissed) = e at *
    obtain ⟨o, ge, te⟩ := e
    obtain ⟨ro, rc, rg, rt⟩ := r
    obtain ⟨a1, a2, a3, a4, a5, a6⟩ := a
    simp only at a1 a2 a3 a4 a5 a6
    subst a1 a2 a3
    simp only
    by_cases ho : ro = .terminated
    · rw [if_pos ho, if_pos ho]
      exact ⟨rfl, rfl, rfl, a4, a5, a6⟩
    · rw [if_neg ho, if_neg ho]
      have hrc : rc + depth d < 2 ^ 31 := by
        cases ro
        · have := a5 rfl; omega
        · have := a6 rfl; omega
        · exact absurd rfl ho
      have b := ihd rc rg hrc
      refine ⟨by simp only; rw [b.1], b.2, by show _ ++ _ = _ ++ _; rw [b.3], b.4.trans a4, ?_, ?_⟩
      · simp only
        intro hh
        split at hh
        · rename_i h1; exact (b.5 h1).trans (a5 hh)
        · simp at hh
      · simp only
        intro hh
        split at hh
        · rename_i h1; exact (b.5 h1).trans (a6 hh)
        · simp at hh
  | guard kind cl p ihc ihp =>
    intro c g h
    simp only [depth] at h
    have a := ihp c (init kind c :: g) (by omega)
    rw [List.map_cons, dismissed_init kind (by omega)] at a
    rw [run, exec]
    generalize run p c (init kind c :: g) = r at *
    generalize exec p (false :: g.map dismissed) = e at *
    obtain ⟨o, ge, te⟩ := e
    obtain ⟨ro, rc, rg, rt⟩ := r
    obtain ⟨a1, a2, a3, a4, a5, a6⟩ := a
    simp only at a1 a2 a3 a4 a5 a6
    subst a1 a2 a3
    cases rg with
    | nil => simp at a4
    | cons s rg =>
      simp only [List.map_cons, List.cons.injEq] at a4
      simp only [List.map_cons, List.tail_cons, List.head?_cons]
      by_cases ho : ro = .terminated
      · rw [if_pos ho, if_neg (by rw [ho]; cases kind <;> simp [due])]
        exact ⟨rfl, rfl, rfl, a4.2, a5, a6⟩
      · rw [if_neg ho]
        have hi := invokes_due kind s c rc ro (by omega) a4.1 a5 a6 ho
        rw [hi]
        by_cases hd : due kind ro = true ∧ some (dismissed s) ≠ some true
        · have : (due kind ro && !dismissed s) = true := by
            rw [hd.1]
            have := hd.2
            cases hds : dismissed s
            · rfl
            · rw [hds] at this; simp at this
          rw [if_pos this, if_pos hd]
          have hrc : rc + depth cl < 2 ^ 31 := by
            cases ro
            · have := a5 rfl; omega
            · have := a6 rfl; omega
            · exact absurd rfl ho
          have b := ihc rc rg hrc
          refine ⟨by simp only; rw [b.1], b.2, by show _ ++ _ = _ ++ _; rw [b.3], b.4.trans a4.2, ?_, ?_⟩
          · simp only
            intro hh
            split at hh
            · rename_i h1; exact (b.5 h1).trans (a5 hh)
            · simp at hh
          · simp only
            intro hh
            split at hh
            · rename_i h1; exact (b.5 h1).trans (a6 hh)
            · simp at hh
        · have : ¬ (due kind ro && !dismissed s) = true := by
            intro hh
            rw [Bool.and_eq_true] at hh
            apply hd
            refine ⟨hh.1, ?_⟩
            intro hs
            simp at hs
            rw [hs] at hh
            simp at hh
          rw [if_neg this, if_neg hd]
          exact ⟨rfl, rfl, rfl, a4.2, a5, a6⟩

/-- the guards in scope that a program does not dismiss stay as they are, and dismissed ones stay dismissed -/
theorem exec_guards (p : Prog) : ∀ g, (exec p g).2.1.length = g.length ∧
    ∀ k, (g[k]? = some true → (exec p g).2.1[k]? = some true) ∧
      (dismisses p k = false → (exec p g).2.1[k]? = g[k]?) := by
  have tail : ∀ (l : List Bool) k, l.tail[k]? = l[k + 1]? := by
    intro l k; cases l <;> simp
  induction p with
  | emit n => intro g; exact ⟨rfl, fun k => ⟨id, fun _ => rfl⟩⟩
  | throw => intro g; exact ⟨rfl, fun k => ⟨id, fun _ => rfl⟩⟩
  | ask k => intro g; exact ⟨rfl, fun k => ⟨id, fun _ => rfl⟩⟩
  | dismiss j =>
    intro g
    refine ⟨List.length_set, fun k => ⟨?_, ?_⟩⟩
    · intro h
      show (g.set j true)[k]? = some true
      rw [List.getElem?_set]
      split
      · rename_i hjk
        subst hjk
        have : j < g.length := by
          cases Nat.lt_or_ge j g.length with
          | inl h => exact h
          | inr hge => rw [List.getElem?_eq_none hge] at h; simp at h
        simp [this]
      · exact h
    · intro h
      simp only [dismisses, decide_eq_false_iff_not] at h
      show (g.set j true)[k]? = _
      rw [List.getElem?_set_ne h]
  | seq p q ihp ihq =>
    intro g
    have a := ihp g
    have b := ihq (exec p g).2.1
    have h : (exec (.seq p q) g).2.1 = if (exec p g).1 = .normal then (exec q (exec p g).2.1).2.1 else (exec p g).2.1 := by
      rw [exec]; simp only; split <;> rfl
    rw [h]
    split
    · refine ⟨b.1.trans a.1, fun k => ⟨fun h => (b.2 k).1 ((a.2 k).1 h), fun h => ?_⟩⟩
      simp only [dismisses, Bool.or_eq_false_iff] at h
      exact ((b.2 k).2 h.2).trans ((a.2 k).2 h.1)
    · refine ⟨a.1, fun k => ⟨(a.2 k).1, fun h => ?_⟩⟩
      simp only [dismisses, Bool.or_eq_false_iff] at h
      exact (a.2 k).2 h.1
  | tryCatch p q ihp ihq =>
    intro g
    have a := ihp g
    have b := ihq (exec p g).2.1
    have h : (exec (.tryCatch p q) g).2.1 = if (exec p g).1 = .thrown then (exec q (exec p g).2.1).2.1 else (exec p g).2.1 := by
      rw [exec]; simp only; split <;> rfl
    rw [h]
    split
    · refine ⟨b.1.trans a.1, fun k => ⟨fun h => (b.2 k).1 ((a.2 k).1 h), fun h => ?_⟩⟩
      simp only [dismisses, Bool.or_eq_false_iff] at h
      exact ((b.2 k).2 h.2).trans ((a.2 k).2 h.1)
    · refine ⟨a.1, fun k => ⟨(a.2 k).1, fun h => ?_⟩⟩
      simp only [dismisses, Bool.or_eq_false_iff] at h
      exact (a.2 k).2 h.1
  | object d p ihd ihp =>
    intro g
    have a := ihp g
    have b := ihd (exec p g).2.1
    have h : (exec (.object d p) g).2.1 = if (exec p g).1 = .terminated then (exec p g).2.1 else (exec d (exec p g).2.1).2.1 := by
      rw [exec]; simp only; split <;> rfl
    rw [h]
    split
    · refine ⟨a.1, fun k => ⟨(a.2 k).1, fun h => ?_⟩⟩
      simp only [dismisses, Bool.or_eq_false_iff] at h
      exact (a.2 k).2 h.2
    · refine ⟨b.1.trans a.1, fun k => ⟨fun h => (b.2 k).1 ((a.2 k).1 h), fun h => ?_⟩⟩
      simp only [dismisses, Bool.or_eq_false_iff] at h
      exact ((b.2 k).2 h.1).trans ((a.2 k).2 h.2)
  | guard kind c p ihc ihp =>
    intro g
    have a := ihp (false :: g)
    have b := ihc (exec p (false :: g)).2.1.tail
    have h : (exec (.guard kind c p) g).2.1 =
        if due kind (exec p (false :: g)).1 ∧ (exec p (false :: g)).2.1.head? ≠ some true then
          (exec c (exec p (false :: g)).2.1.tail).2.1 else (exec p (false :: g)).2.1.tail := by
      rw [exec]; simp only; split <;> rfl
    rw [h]
    have hl : (exec p (false :: g)).2.1.tail.length = g.length := by
      rw [List.length_tail, a.1]; rfl
    have h1 : ∀ k, (g[k]? = some true → (exec p (false :: g)).2.1.tail[k]? = some true) ∧
        (dismisses p (k + 1) = false → (exec p (false :: g)).2.1.tail[k]? = g[k]?) := by
      intro k
      have := a.2 (k + 1)
      rw [tail]
      exact ⟨fun h => this.1 h, fun h => this.2 h⟩
    split
    · refine ⟨b.1.trans hl, fun k => ⟨fun h => (b.2 k).1 ((h1 k).1 h), fun h => ?_⟩⟩
      simp only [dismisses, Bool.or_eq_false_iff] at h
      exact ((b.2 k).2 h.1).trans ((h1 k).2 h.2)
    · refine ⟨hl, fun k => ⟨(h1 k).1, fun h => ?_⟩⟩
      simp only [dismisses, Bool.or_eq_false_iff] at h
      exact (h1 k).2 h.2

end Verif.Proofs.ScopeGuard
