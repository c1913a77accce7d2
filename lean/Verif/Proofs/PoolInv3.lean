import Verif.Proofs.PoolInv2
/-! The lives of the tasks, the busy count, destruction and waiting. -/
namespace Verif.Proofs.Pool
open Verif.Spec.Pool Verif.Model.Pool

theorem eventsOf_append (t : Nat) (h : List Event) (e : Event) :
    eventsOf t (h ++ [e]) = if e.task = t then eventsOf t h ++ [e] else eventsOf t h := by
  unfold eventsOf
  rw [List.filter_append]
  by_cases he : e.task = t
  · simp [he]
  · simp [he]

/-- the life of each task so far, by where it is -/
def LifeAt (cfg : Cfg) (s : State) (t : Nat) : Loc → Prop
  | .fresh => eventsOf t s.log = []
  | .queue _ => eventsOf t s.log = [.constructed t]
  | .worker w => eventsOf t s.log = wLife w t (s.workers w)
  | .gone => CompleteLife cfg.workers t (eventsOf t s.log)

def InvLife (cfg : Cfg) (s : State) (g : Ghost) : Prop := ∀ t, LifeAt cfg s t (g.loc t)

theorem invLife_init (cfg : Cfg) : InvLife cfg initial {} := fun _ => rfl

theorem invLife_quiet {cfg s s' g g'} (hl : InvLife cfg s g) (hg : g'.loc = g.loc) (h1 : s'.log = s.log)
    (h2 : ∀ w t, g.loc t = .worker w → wLife w t (s'.workers w) = wLife w t (s.workers w)) :
    InvLife cfg s' g' := by
  intro t
  have := hl t
  rw [hg]
  cases hloc : g.loc t with
  | worker w =>
    rw [hloc] at this
    simp only [LifeAt] at this ⊢
    rw [h1, h2 w t hloc]; exact this
  | _ => rw [hloc] at this; simp only [LifeAt, h1] at this ⊢; exact this

theorem invLife_step {cfg s l s' g} (ho : InvOwn cfg s) (hl : InvLoc cfg s g)
    (hf : InvLife cfg s g) (h : Trans cfg s l s') (hb : s'.next < 2 ^ 64) : InvLife cfg s' (gstep s l g) := by
  obtain ⟨ub, abs, nodup, contLoc, wLoc, locQ, locW, fresh, -, -, -, -, -⟩ := hl
  have how := fun w i => ho.own (.worker w) i
  have hod := fun i => ho.own .destroyer i
  simp only [Owns] at how hod
  cases h
  case acquire c todo q ts retry hc h =>
    have hfr := (fresh s.next).mpr (Nat.le_refl _)
    have hgs : gstep s (.acquire c) g =
        { g with loc := upd g.loc s.next (.queue q), cont := upd g.cont q (g.cont q ++ [s.next]) } := by
      simp only [gstep, h]
    rw [hgs]
    intro t
    have hft := hf t
    simp only [upd_apply]
    by_cases ht : t = s.next
    · subst ht
      rw [hfr] at hft
      simp only [LifeAt] at hft
      simp only [if_true, LifeAt, pool_simp, eventsOf_append, Event.task, hft]
      rfl
    · rw [if_neg ht]
      have hne : eventsOf t (s.log ++ [.constructed s.next]) = eventsOf t s.log := by
        rw [eventsOf_append, if_neg]; simp only [Event.task]; omega
      cases hloc : g.loc t <;> rw [hloc] at hft <;> simp only [LifeAt, pool_simp, hne] at hft ⊢ <;> exact hft
  case wPop w q t q' hw h he ht hp =>
    have hq := how w q ⟨hw, by rw [h]; rfl⟩
    obtain ⟨l', hcl, a2⟩ := popFront_some (abs q hq.1) hb hp he
    have hgs : gstep s (.wBody w) g =
        { g with loc := upd g.loc t (.worker w), cont := upd g.cont q l' } := by
      simp [gstep, h, he, ht, hcl]
    rw [hgs]
    have hlt : g.loc t = .queue q := (contLoc q hq.1 t).mp (by rw [hcl]; simp)
    intro u
    have hfu := hf u
    simp only [upd_apply]
    by_cases hu : u = t
    · subst hu
      rw [hlt] at hfu
      simp only [LifeAt] at hfu
      simp only [if_true, LifeAt, pool_simp, upd_same, wLife, hfu]
    · rw [if_neg hu]
      cases hloc : g.loc u with
      | worker w' =>
        rw [hloc] at hfu
        have hww : w' ≠ w := by
          intro e; subst e
          have := (wLoc w' hw u).mpr hloc
          rw [h] at this; simp [wTask] at this
        simp only [LifeAt, pool_simp, upd_ne _ _ hww] at hfu ⊢; exact hfu
      | _ => rw [hloc] at hfu; simp only [LifeAt, pool_simp] at hfu ⊢; exact hfu
  case wDestroy w t hw h =>
    have hgs : gstep s (.wDestroy w) g = { g with loc := upd g.loc t .gone } := by
      simp [gstep, h]
    rw [hgs]
    have hlt : g.loc t = .worker w := (wLoc w hw t).mp (by rw [h]; rfl)
    intro u
    have hfu := hf u
    simp only [upd_apply]
    by_cases hu : u = t
    · subst hu
      rw [hlt] at hfu
      simp only [LifeAt, h, wLife] at hfu
      simp only [if_true, LifeAt, pool_simp, eventsOf_append, Event.task, hfu]
      exact .ran w hw
    · rw [if_neg hu]
      have hne : eventsOf u (s.log ++ [.destroyed t]) = eventsOf u s.log := by
        rw [eventsOf_append, if_neg]; simp only [Event.task]; omega
      cases hloc : g.loc u with
      | worker w' =>
        rw [hloc] at hfu
        have hww : w' ≠ w := by
          intro e; subst e
          have := (wLoc w' hw u).mpr hloc
          rw [h] at this; simp [wTask] at this; omega
        simp only [LifeAt, pool_simp, upd_ne _ _ hww, hne] at hfu ⊢; exact hfu
      | _ => rw [hloc] at hfu; simp only [LifeAt, pool_simp, hne] at hfu ⊢; exact hfu
  case wStart w t hw h =>
    have hlt : g.loc t = .worker w := (wLoc w hw t).mp (by rw [h]; rfl)
    show InvLife _ _ g
    intro u
    have hfu := hf u
    by_cases hu : u = t
    · subst hu
      rw [hlt] at hfu ⊢
      simp only [LifeAt, h, wLife] at hfu
      simp only [LifeAt, pool_simp, eventsOf_append, Event.task, hfu, upd_same, wLife]
      rfl
    · have hne : eventsOf u (s.log ++ [.started t w]) = eventsOf u s.log := by
        rw [eventsOf_append, if_neg]; simp only [Event.task]; omega
      cases hloc : g.loc u with
      | worker w' =>
        rw [hloc] at hfu
        have hww : w' ≠ w := by
          intro e; subst e
          have := (wLoc w' hw u).mpr hloc
          rw [h] at this; simp [wTask] at this; omega
        simp only [LifeAt, pool_simp, upd_ne _ _ hww, hne] at hfu ⊢; exact hfu
      | _ => rw [hloc] at hfu; simp only [LifeAt, pool_simp, hne] at hfu ⊢; exact hfu
  case wFinish w t hw h =>
    have hlt : g.loc t = .worker w := (wLoc w hw t).mp (by rw [h]; rfl)
    show InvLife _ _ g
    intro u
    have hfu := hf u
    by_cases hu : u = t
    · subst hu
      rw [hlt] at hfu ⊢
      simp only [LifeAt, h, wLife] at hfu
      simp only [LifeAt, pool_simp, eventsOf_append, Event.task, hfu, upd_same, wLife]
      rfl
    · have hne : eventsOf u (s.log ++ [.finished t]) = eventsOf u s.log := by
        rw [eventsOf_append, if_neg]; simp only [Event.task]; omega
      cases hloc : g.loc u with
      | worker w' =>
        rw [hloc] at hfu
        have hww : w' ≠ w := by
          intro e; subst e
          have := (wLoc w' hw u).mpr hloc
          rw [h] at this; simp [wTask] at this; omega
        simp only [LifeAt, pool_simp, upd_ne _ _ hww, hne] at hfu ⊢; exact hfu
      | _ => rw [hloc] at hfu; simp only [LifeAt, pool_simp, hne] at hfu ⊢; exact hfu
  case dPop n r t q' h he hp =>
    have hq := hod n (by rw [h]; rfl)
    obtain ⟨l', hcl, a2⟩ := popFront_some (abs n hq.1) hb hp he
    have hgs : gstep s .dStep g =
        { g with loc := upd g.loc t .gone, cont := upd g.cont n l', drained := t :: g.drained } := by
      simp [gstep, h, hcl]
    rw [hgs]
    have hlt : g.loc t = .queue n := (contLoc n hq.1 t).mp (by rw [hcl]; simp)
    intro u
    have hfu := hf u
    simp only [upd_apply]
    by_cases hu : u = t
    · subst hu
      rw [hlt] at hfu
      simp only [LifeAt] at hfu
      simp only [if_true, LifeAt, pool_simp, eventsOf_append, Event.task, hfu]
      exact .discarded
    · rw [if_neg hu]
      have hne : eventsOf u (s.log ++ [.destroyed t]) = eventsOf u s.log := by
        rw [eventsOf_append, if_neg]; simp only [Event.task]; omega
      cases hloc : g.loc u <;> rw [hloc] at hfu <;> simp only [LifeAt, pool_simp, hne] at hfu ⊢ <;> exact hfu
  case wUb w q hw h he ht hp =>
    exact absurd hp (popFront_none (abs q (how w q ⟨hw, by rw [h]; rfl⟩).1) hb he)
  case dUb n r h he hp =>
    exact absurd hp (popFront_none (abs n (hod n (by rw [h]; rfl)).1) hb he)
  case dDrained n r h he hr =>
    have hq := hod n (by rw [h]; rfl)
    have hcn : g.cont n = [] := ((abs n hq.1).empty_iff hb).mp he
    exact invLife_quiet hf (by simp [gstep, h, hcn]) rfl (fun _ _ _ => rfl)
  case dDrainedLast n r h he hr =>
    have hq := hod n (by rw [h]; rfl)
    have hcn : g.cont n = [] := ((abs n hq.1).empty_iff hb).mp he
    exact invLife_quiet hf (by simp [gstep, h, hcn]) rfl (fun _ _ _ => rfl)
  all_goals
    refine invLife_quiet hf (by simp [gstep, *]) rfl ?_
    clear abs nodup contLoc locQ fresh how hod
    intro w' t' hl'
    have hw' := locW _ _ hl'
    have := (wLoc w' hw' t').mpr hl'
    simp only [pool_simp, upd_apply]
    try grind -ext [wLife, wTask]

end Verif.Proofs.Pool
