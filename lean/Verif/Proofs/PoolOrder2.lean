import Verif.Proofs.PoolOrder
/-! What every step of the pool does, as far as ordering is concerned. -/
namespace Verif.Proofs.Pool
open Verif.Spec.Pool Verif.Model.Pool Verif.Spec.HappensBefore

set_option maxHeartbeats 4000000 in
theorem facts {cfg s l s' g} (ha : All cfg s g) (h : Trans cfg s l s') (hb : s'.next < 2 ^ 64) :
    Facts cfg s (action cfg s l) s' g (gstep s l g) := by
  have hn : s.next < 2 ^ 64 := Nat.lt_of_le_of_lt (trans_next_le h) hb
  have hoc := fun c i => ha.own.own (.caller c) i
  have how := fun w i => ha.own.own (.worker w) i
  have hod := fun i => ha.own.own .destroyer i
  simp only [Owns] at hoc how hod
  have hwl := ha.loc.wLoc
  have hfr := ha.loc.fresh
  have hft := fun n => @front_task cfg s g n ha.loc hn
  have hdb := ha.own.dbound
  have hem : ∀ n < cfg.workers, (s.queues n).empty = true → g.cont n = [] := fun n hw he => ((ha.loc.abs n hw).empty_iff hn).1 he
  clear ha
  cases h
  case wPop w q t q' hw h he ht hp =>
    obtain ⟨h1, h2⟩ := how w q ⟨hw, by rw [h]; rfl⟩
    obtain ⟨t', l, q2, hc, hs, hl, hp'⟩ := hft q h1 he
    rw [hp] at hp'
    simp only [Option.some.injEq, Prod.mk.injEq] at hp'
    obtain ⟨rfl, rfl⟩ := hp'
    have ea : action cfg s (.wBody w) =
        { thread := .worker w, touches := [.indices q, .cell q ((s.queues q).front.toNat % cfg.capacity), .buffer w, .callable t] } := by
      simp only [action, workerAction, h, he, ht, hs, Bool.or_self, Bool.false_eq_true, if_false]
    have eg : gstep s (.wBody w) g = { g with loc := upd g.loc t (.worker w), cont := upd g.cont q l } := by
      simp only [gstep, h, he, ht, hc, Bool.false_eq_true, or_self, if_false]
    rw [ea, eg]
    have hq := (popFront_fields hp).1
    clear hft hem hod hoc ea eg how hwl hfr hdb
    refine ⟨?_, ?_, ?_, ?_, ?_, ?_, ?_, ?_, ?_, ?_, ?_⟩ <;> simp only [pool_simp, List.mem_cons, List.not_mem_nil, or_false] <;>
      grind [Changes, Has, Keeps, guardOf, MayTouch, PutsAt, ExitFrom, wOwn, upd_apply]
  case dPop n r t q' h he hp =>
    obtain ⟨h1, h2⟩ := hod n (by rw [h]; rfl)
    obtain ⟨t', l, q2, hc, hs, hl, hp'⟩ := hft n h1 he
    rw [hp] at hp'
    simp only [Option.some.injEq, Prod.mk.injEq] at hp'
    obtain ⟨rfl, rfl⟩ := hp'
    have ea : action cfg s .dStep =
        { thread := .destroyer, touches := [.indices n, .cell n ((s.queues n).front.toNat % cfg.capacity), .callable t], event := some (.destroyed t) } := by
      simp only [action, destroyerAction, h, he, hs, Bool.false_eq_true, if_false]
    have eg : gstep s .dStep g = { g with loc := upd g.loc t .gone, cont := upd g.cont n l, drained := t :: g.drained } := by
      simp only [gstep, h, hc]
    rw [ea, eg]
    have hq := (popFront_fields hp).1
    clear hft hem hod hoc ea eg how hwl hfr hdb
    refine ⟨?_, ?_, ?_, ?_, ?_, ?_, ?_, ?_, ?_, ?_, ?_⟩ <;> simp only [pool_simp, List.mem_cons, List.not_mem_nil, or_false] <;>
      grind [Changes, Has, Keeps, guardOf, MayTouch, PutsAt, ExitFrom, wOwn, upd_apply]
  case dDrained n r h he hr =>
    obtain ⟨h1, h2⟩ := hod n (by rw [h]; rfl)
    have hc := hem n h1 he
    have eg : (gstep s .dStep g).loc = g.loc := by simp only [gstep, h, hc]
    clear hft hem hod hoc
    refine ⟨?_, ?_, ?_, ?_, ?_, ?_, ?_, ?_, ?_, ?_, ?_⟩ <;> simp only [action, destroyerAction, pool_simp, h, he, eg, if_true] <;>
      grind [Changes, Has, Keeps, guardOf, MayTouch, PutsAt, ExitFrom, wOwn, upd_apply]
  case dDrainedLast n r h he hr =>
    obtain ⟨h1, h2⟩ := hod n (by rw [h]; rfl)
    have hc := hem n h1 he
    have eg : (gstep s .dStep g).loc = g.loc := by simp only [gstep, h, hc]
    clear hft hem hod hoc
    refine ⟨?_, ?_, ?_, ?_, ?_, ?_, ?_, ?_, ?_, ?_, ?_⟩ <;> simp only [action, destroyerAction, pool_simp, h, he, eg, if_true] <;>
      grind [Changes, Has, Keeps, guardOf, MayTouch, PutsAt, ExitFrom, wOwn, upd_apply]
  case wUb w q hw h he ht hp =>
    obtain ⟨h1, h2⟩ := how w q ⟨hw, by rw [h]; rfl⟩
    obtain ⟨t', l, q2, -, -, -, hp'⟩ := hft q h1 he
    rw [hp] at hp'; cases hp'
  case dUb n r h he hp =>
    obtain ⟨h1, h2⟩ := hod n (by rw [h]; rfl)
    obtain ⟨t', l, q2, -, -, -, hp'⟩ := hft n h1 he
    rw [hp] at hp'; cases hp'
  all_goals
    clear hem hft hn hb
    refine ⟨?_, ?_, ?_, ?_, ?_, ?_, ?_, ?_, ?_, ?_, ?_⟩ <;> simp only [action, callerAction, workerAction, destroyerAction, gstep, pool_simp, List.mem_cons, List.not_mem_nil, or_false, *] <;>
      first
      | (simp; done)
      | grind [Changes, Has, Keeps, guardOf, MayTouch, PutsAt, ExitFrom, cOwn, wOwn, dOwn, wTask, upd_apply, Queue.tryLock, Queue.acquire, DBound]

/-- the invariant holds after every schedule -/
theorem order_run {cfg} (hcap : cfg.capacity < 2 ^ 64) : ∀ {ls x s s' g}, All cfg s g → OInv cfg x s g → run cfg s ls = some s' →
    s'.next < 2 ^ 64 → ∃ g', All cfg s' g' ∧ OInv cfg (x ++ actions cfg s ls) s' g' := by
  intro ls
  induction ls with
  | nil => intro x s s' g ha hi h _; simp only [run, Option.some.injEq] at h; subst h; exact ⟨g, ha, by simpa [actions] using hi⟩
  | cons l ls ih =>
    intro x s s' g ha hi h hb
    simp only [run] at h
    split at h
    · cases h
    · rename_i s1 hs
      have ht := trans_of_step hs
      have hb1 := Nat.lt_of_le_of_lt (run_next_le h) hb
      obtain ⟨g', h1, h2⟩ := ih (x := x ++ [action cfg s l]) (all_step hcap ha ht hb1) (inv_step hi (facts ha ht hb1) ha.dtor.exited) h hb
      refine ⟨g', h1, ?_⟩
      simp only [actions, hs]
      simpa using h2

theorem order_reachable {cfg ls s} (hcap : cfg.capacity < 2 ^ 64) (h : run cfg initial ls = some s)
    (hb : s.next < 2 ^ 64) : ∃ g, All cfg s g ∧ OInv cfg (actions cfg initial ls) s g := by
  simpa using order_run hcap (all_init cfg) (inv_init cfg) h hb

end Verif.Proofs.Pool
