import Verif.Proofs.PoolInv5
/-! Returned calls, sleeping waiters, and the invariant as a whole. -/
namespace Verif.Proofs.Pool
open Verif.Spec.Pool Verif.Model.Pool

structure InvRet (cfg : Cfg) (s : State) : Prop where
  ret : ∀ t ∈ s.returned, t < s.next ∧ ∀ c < cfg.callers, t ∉ cPend (s.callers c)
  pub : ∀ c < cfg.callers, ∀ q ts r, s.callers c = .published q ts r →
    ∀ t ∈ ts, t < s.next ∧ ∀ c < cfg.callers, t ∉ cPend (s.callers c)

theorem invRet_init (cfg : Cfg) : InvRet cfg initial := by
  constructor <;> simp [initial]

theorem invRet_quiet {cfg s s'} (hi : InvRet cfg s) (h1 : s'.returned = s.returned) (h2 : s.next ≤ s'.next)
    (h3 : ∀ c < cfg.callers, ∀ t ∈ cPend (s'.callers c), t < s.next → t ∈ cPend (s.callers c))
    (h4 : ∀ c < cfg.callers, ∀ q ts r, s'.callers c = .published q ts r →
      s.callers c = .published q ts r ∨ ∃ todo r, s.callers c = .filling todo q ts r ∧
       (∀ t ∈ ts, t < s.next ∧ ∀ c < cfg.callers, t ∉ cPend (s'.callers c))) : InvRet cfg s' := by
  constructor
  · rw [h1]; intro t ht
    have := hi.ret t ht
    exact ⟨by omega, fun c hc hm => this.2 c hc (h3 c hc t hm this.1)⟩
  · intro c hc q ts r hp t ht
    rcases h4 c hc q ts r hp with h | ⟨todo, r, h, h5⟩
    · have := hi.pub c hc q ts r h t ht
      exact ⟨by omega, fun c hc hm => this.2 c hc (h3 c hc t hm this.1)⟩
    · have := h5 t ht
      exact ⟨by omega, this.2⟩

set_option maxHeartbeats 1000000 in
theorem invRet_step {cfg s l s' g} (ho : InvOwn cfg s) (hl : InvLoc cfg s g) (hr : InvRet cfg s)
    (h : Trans cfg s l s') : InvRet cfg s' := by
  have hr' := hr
  obtain ⟨ret, pub⟩ := hr
  obtain ⟨ub, abs, nodup, contLoc, wLoc, locQ, locW, fresh, lockedEnq, pendEnq, pendLoc, pendNodup, pendRoom⟩ := hl
  have hoc := fun c i => ho.own (.caller c) i
  simp only [Owns] at hoc
  cases h
  case unlock c q ts hc h =>
    have hp := pub c hc q ts none h
    constructor <;> simp only [pool_simp, upd_apply]
    · intro t ht
      have h1 : t < s.next ∧ ∀ c < cfg.callers, t ∉ cPend (s.callers c) := by
        rcases List.mem_append.mp ht with h1 | h1
        · exact ret t h1
        · exact hp t h1
      refine ⟨h1.1, fun c' hc' => ?_⟩
      split
      · simp [cPend]
      · exact h1.2 c' hc'
    · intro c' hc' q' ts' r' hpub t ht
      split at hpub
      · cases hpub
      · have h1 := pub c' hc' q' ts' r' hpub t ht
        refine ⟨h1.1, fun c' hc' => ?_⟩
        split
        · simp [cPend]
        · exact h1.2 c' hc'
  case publish c q ts retry hc h =>
    have hq := hoc c q ⟨hc, by rw [h]; rfl⟩
    have hpl := pendLoc c hc _ _ _ _ h
    refine invRet_quiet hr' rfl (Nat.le_refl _) ?_ ?_
    · simp only [pool_simp, upd_apply]
      intro c' hc' t ht _
      split at ht
      · simp [cPend] at ht
      · exact ht
    · simp only [pool_simp, upd_apply]
      intro c' hc' q' ts' r' hp
      split at hp
      · rename_i e; subst e
        cases hp
        refine .inr ⟨0, retry, h, ?_⟩
        intro t ht
        have hlq := hpl t ht
        refine ⟨?_, ?_⟩
        · refine Classical.byContradiction fun hlt => ?_
          have := (fresh t).mpr (by omega)
          rw [hlq] at this; cases this
        · intro c2 hc2
          split
          · simp [cPend]
          · rename_i hcc
            intro hm
            cases hpc : s.callers c2 <;> rw [hpc] at hm <;> simp only [cPend, List.not_mem_nil] at hm
            have hl2 := pendLoc c2 hc2 _ _ _ _ hpc t hm
            rw [hlq] at hl2; cases hl2
            have := (hoc c2 q ⟨hc2, by rw [hpc]; rfl⟩).2
            rw [hq.2] at this; simp at this; omega
      · exact .inl hp
  case acquire c todo q ts retry hc h =>
    refine invRet_quiet hr' rfl (Nat.le_succ _) ?_ ?_
    · simp only [pool_simp, upd_apply]
      intro c' hc' t ht hlt
      split at ht
      · rename_i e; subst e
        simp only [cPend, List.mem_append, List.mem_singleton] at ht
        rw [h]; simp only [cPend]
        exact ht.resolve_right (by omega)
      · exact ht
    · simp only [pool_simp, upd_apply]
      intro c' hc' q' ts' r' hp
      split at hp
      · cases hp
      · exact .inl hp
  all_goals
    refine invRet_quiet hr' rfl (Nat.le_refl _) ?_ ?_ <;>
      (clear hr' ret pub abs nodup contLoc wLoc locQ locW fresh lockedEnq pendEnq pendLoc pendNodup pendRoom hoc ho
       try simp only [pool_simp, upd_apply]
       try grind -ext [cPend])

/-- a thread asleep in `wait` while nothing is counted: some worker is about to wake it -/
def InvSleep (cfg : Cfg) (s : State) : Prop :=
  ∀ c < cfg.callers, s.callers c = .sleeping → s.busy = 0#64 → ∃ w, w < cfg.workers ∧ ∃ t, s.workers w = .notifying t

theorem invSleep_step {cfg s l s' g} (hd : InvD cfg s g) (hl : InvLoc cfg s g) (hcnt : InvCnt cfg s g)
    (hs : InvSleep cfg s) (h : Trans cfg s l s') (hb : s'.next < 2 ^ 64) : InvSleep cfg s' := by
  have hlen := hcnt.length_le hl hd
  have idle := hd.idle
  unfold InvSleep at *
  cases h
  case publish c q ts retry hc h =>
    simp only [pool_simp, upd_apply]
    intro c' hc' hsl hbz
    have hbs : s.busy = 0#64 := by
      split at hbz
      · exact hbz
      · -- adding a non-zero count cannot give zero
        rename_i hne
        have henq := hl.pendEnq c hc _ _ _ _ h
        have hts : ts.length ≤ s.next := by
          apply nodup_length_le (hl.pendNodup c hc _ _ _ _ h)
          intro t ht
          refine Classical.byContradiction fun hlt => ?_
          have h1 := (hl.fresh t).mpr (by omega)
          rw [hl.pendLoc c hc _ _ _ _ h t ht] at h1; cases h1
        have hnd : (g.cnt ++ ts).Nodup := by
          rw [List.nodup_append]
          refine ⟨hcnt.nodup, hl.pendNodup c hc _ _ _ _ h, ?_⟩
          intro a ha b hb' e
          subst e
          have hlq := hl.pendLoc c hc _ _ _ _ h a hb'
          rcases (hcnt.mem a).mp ha with ⟨i, -, hp⟩ | ⟨w, hw, -⟩ | hdr
          · exact hp ⟨c, hc, by rw [h]; exact hb'⟩
          · rw [hlq] at hw; cases hw
          · have := hd.drainedGone a hdr; rw [hlq] at this; cases this
        have hsum : (g.cnt ++ ts).length ≤ s.next := by
          apply nodup_length_le hnd
          intro t ht
          refine Classical.byContradiction fun hlt => ?_
          have h1 := (hl.fresh t).mpr (by omega)
          rcases List.mem_append.mp ht with h2 | h2
          · rcases (hcnt.mem t).mp h2 with ⟨i, h, -⟩ | ⟨w, h, -⟩ | h
            · rw [h1] at h; cases h
            · rw [h1] at h; cases h
            · have := hd.drainedGone t h; rw [h1] at this; cases this
          · rw [hl.pendLoc c hc _ _ _ _ h t h2] at h1; cases h1
        rw [List.length_append] at hsum
        rw [henq, hcnt.busy] at hbz
        have h0 := congrArg BitVec.toNat hbz
        have : s.next < 2 ^ 64 := hb
        simp only [BitVec.toNat_add, BitVec.toNat_ofNat] at h0
        have : g.cnt.length = 0 := by omega
        rw [hcnt.busy, this]
    split at hsl
    · cases hsl
    · exact hs c' hc' hsl hbs
  case wDecLast w t hw h hbz =>
    simp only [pool_simp, upd_apply]
    intro c hc hsl _
    exact ⟨w, hw, t, by simp⟩
  case wNotify w t hw h =>
    simp only [pool_simp, upd_apply]
    intro c hc hsl _
    split at hsl
    · cases hsl
    · exact absurd hsl ‹_›
  case dDrained n r h he hr =>
    have := idle (by rw [h]; simp)
    intro c hc hsl
    simp only [pool_simp] at hsl
    rw [this c hc] at hsl; cases hsl
  case dDrainedLast n r h he hr =>
    have := idle (by rw [h]; simp)
    intro c hc hsl
    simp only [pool_simp] at hsl
    simp [this c hc] at hsl
  all_goals
    clear idle hd hl hcnt
    try simp only [pool_simp, upd_apply]
    try grind -ext

/-- as long as no queue is being destroyed, a destroyed task had finished -/
def InvRan (s : State) (g : Ghost) : Prop :=
  (∀ n r, s.dtor ≠ .drain n ∧ s.dtor ≠ .draining n r ∧ s.dtor ≠ .done) →
    ∀ t, g.loc t = .gone → .finished t ∈ s.log

theorem invRan_step {cfg s l s' g} (ho : InvOwn cfg s) (hl : InvLoc cfg s g) (hf : InvLife cfg s g) (hr : InvRan s g)
    (h : Trans cfg s l s') (hb : s'.next < 2 ^ 64) : InvRan s' (gstep s l g) := by
  have how := fun w i => ho.own (.worker w) i
  have hod := fun i => ho.own .destroyer i
  simp only [Owns] at how hod
  unfold InvRan at *
  cases h
  case wDestroy w t hw h =>
    have hlt : g.loc t = .worker w := (hl.wLoc w hw t).mp (by rw [h]; rfl)
    have hft := hf t
    rw [hlt] at hft
    simp only [LifeAt, h, wLife] at hft
    have hm : Event.finished t ∈ s.log := by
      have : Event.finished t ∈ eventsOf t s.log := by rw [hft]; simp
      exact (List.mem_filter.mp this).1
    simp only [gstep, h, pool_simp, upd_apply]
    intro hd u hu
    split at hu
    · rename_i e; subst e; exact List.mem_append_left _ hm
    · exact List.mem_append_left _ (hr hd u hu)
  case dPop n r t q' h he hp =>
    intro hd
    exact absurd h (hd n r).2.1
  case dDrained n r h he hr =>
    intro hd; exact absurd rfl (hd n r).1
  case dDrainedLast n r h he hr =>
    intro hd; exact absurd rfl (hd n r).1
  case dDrain n h hh =>
    intro hd; exact absurd rfl (hd n (s.queues n).size).2.1
  case wUb w q hw h he ht hp =>
    exact absurd hp (popFront_none (hl.abs q (how w q ⟨hw, by rw [h]; rfl⟩).1) hb he)
  case dUb n r h he hp =>
    exact absurd hp (popFront_none (hl.abs n (hod n (by rw [h]; rfl)).1) hb he)
  case wPop w q t q' hw h he ht hp =>
    have hq := how w q ⟨hw, by rw [h]; rfl⟩
    obtain ⟨l', hcl, a2⟩ := popFront_some (hl.abs q hq.1) hb hp he
    have hgs : gstep s (.wBody w) g =
        { g with loc := upd g.loc t (.worker w), cont := upd g.cont q l' } := by
      simp [gstep, h, he, ht, hcl]
    rw [hgs]
    simp only [pool_simp, upd_apply]
    intro hd u hu
    split at hu
    · cases hu
    · exact hr hd u hu
  case acquire c todo q ts retry hc h =>
    simp only [gstep, h, pool_simp, upd_apply]
    intro hd u hu
    split at hu
    · cases hu
    · exact List.mem_append_left _ (hr hd u hu)
  case dTermQ0 h =>
    have hgs : gstep s .dStep g = g := by simp [gstep, h]
    rw [hgs]
    intro _ t ht
    exact hr (by rw [h]; intro n r; simp) t ht
  case dTermQ n h =>
    have hgs : gstep s .dStep g = g := by simp [gstep, h]
    rw [hgs]
    intro _ t ht
    exact hr (by rw [h]; intro n r; simp) t ht
  case dTermW n h =>
    have hgs : gstep s .dStep g = g := by simp [gstep, h]
    rw [hgs]
    intro _ t ht
    exact hr (by rw [h]; intro n r; simp) t ht
  case dJoin n h hx =>
    have hgs : gstep s .dStep g = g := by simp [gstep, h]
    rw [hgs]
    intro _ t ht
    exact hr (by rw [h]; intro n r; simp) t ht
  case dTermW0 h =>
    intro hd; exact absurd rfl (hd cfg.workers 0#64).1
  case dDrain0 h =>
    intro hd; exact absurd rfl (hd 0 0#64).2.2
  all_goals
    try simp only [pool_simp, gstep]
    try grind -ext

structure All (cfg : Cfg) (s : State) (g : Ghost) : Prop where
  own : InvOwn cfg s
  loc : InvLoc cfg s g
  life : InvLife cfg s g
  dtor : InvD cfg s g
  cnt : InvCnt cfg s g
  ret : InvRet cfg s
  sleep : InvSleep cfg s
  ran : InvRan s g

theorem all_init (cfg : Cfg) : All cfg initial {} :=
  ⟨invOwn_init cfg, invLoc_init cfg, invLife_init cfg, invD_init cfg, invCnt_init cfg, invRet_init cfg,
   fun _ _ h => by simp [initial] at h, fun _ _ h => by simp at h⟩

theorem all_step {cfg s l s' g} (hcap : cfg.capacity < 2 ^ 64) (ha : All cfg s g)
    (h : Trans cfg s l s') (hb : s'.next < 2 ^ 64) : All cfg s' (gstep s l g) :=
  ⟨invOwn_step ha.own h, invLoc_step hcap ha.own ha.loc h hb, invLife_step ha.own ha.loc ha.life h hb,
   invD_step ha.own ha.loc ha.dtor h hb, invCnt_step ha.own ha.loc ha.dtor ha.cnt h hb,
   invRet_step ha.own ha.loc ha.ret h, invSleep_step ha.dtor ha.loc ha.cnt ha.sleep h hb,
   invRan_step ha.own ha.loc ha.life ha.ran h hb⟩

theorem trans_next_le {cfg s l s'} (h : Trans cfg s l s') : s.next ≤ s'.next := by
  cases h <;> first | exact Nat.le_refl _ | exact Nat.le_succ _

theorem run_next_le {cfg} : ∀ {ls s s'}, run cfg s ls = some s' → s.next ≤ s'.next := by
  intro ls
  induction ls with
  | nil => intro s s' h; simp only [run, Option.some.injEq] at h; subst h; exact Nat.le_refl _
  | cons l ls ih =>
    intro s s' h
    simp only [run] at h
    split at h
    · cases h
    · rename_i s1 hs
      exact Nat.le_trans (trans_next_le (trans_of_step hs)) (ih h)

theorem all_run {cfg} (hcap : cfg.capacity < 2 ^ 64) : ∀ {ls s s' g}, All cfg s g → run cfg s ls = some s' →
    s'.next < 2 ^ 64 → ∃ g', All cfg s' g' := by
  intro ls
  induction ls with
  | nil => intro s s' g ha h _; simp only [run, Option.some.injEq] at h; subst h; exact ⟨g, ha⟩
  | cons l ls ih =>
    intro s s' g ha h hb
    simp only [run] at h
    split at h
    · cases h
    · rename_i s1 hs
      have ht := trans_of_step hs
      exact ih (all_step hcap ha ht (Nat.lt_of_le_of_lt (run_next_le h) hb)) h hb

theorem all_reachable {cfg ls s} (hcap : cfg.capacity < 2 ^ 64) (h : run cfg initial ls = some s)
    (hb : s.next < 2 ^ 64) : ∃ g, All cfg s g := all_run hcap (all_init cfg) h hb

end Verif.Proofs.Pool
