import Verif.Proofs.PoolInv4
/-! The busy count, and what it says when it is zero. -/
namespace Verif.Proofs.Pool
open Verif.Spec.Pool Verif.Model.Pool

/-- `t` was constructed by a call which has not counted it yet -/
def Pending (cfg : Cfg) (s : State) (t : Nat) : Prop := ∃ c, c < cfg.callers ∧ t ∈ cPend (s.callers c)

def Counted (cfg : Cfg) (s : State) (g : Ghost) (t : Nat) : Prop :=
  (∃ i, g.loc t = .queue i ∧ ¬ Pending cfg s t) ∨
  (∃ w, g.loc t = .worker w ∧ wCounts (s.workers w) = true) ∨ t ∈ g.drained

structure InvCnt (cfg : Cfg) (s : State) (g : Ghost) : Prop where
  nodup : g.cnt.Nodup
  busy : s.busy = BitVec.ofNat 64 g.cnt.length
  mem : ∀ t, t ∈ g.cnt ↔ Counted cfg s g t

theorem invCnt_init (cfg : Cfg) : InvCnt cfg initial {} := by
  constructor <;> simp [initial, Counted]

theorem invCnt_quiet {cfg s s' g g'} (hi : InvCnt cfg s g) (hg : g'.loc = g.loc ∧ g'.cnt = g.cnt ∧ g'.drained = g.drained)
    (h1 : s'.busy = s.busy)
    (h2 : ∀ c < cfg.callers, cPend (s'.callers c) = cPend (s.callers c))
    (h3 : ∀ w t, g.loc t = .worker w → wCounts (s'.workers w) = wCounts (s.workers w)) : InvCnt cfg s' g' := by
  obtain ⟨hg1, hg2, hg3⟩ := hg
  have hp : ∀ t, Pending cfg s' t ↔ Pending cfg s t := by
    intro t
    constructor
    · rintro ⟨c, hc, h⟩; exact ⟨c, hc, by rwa [h2 c hc] at h⟩
    · rintro ⟨c, hc, h⟩; exact ⟨c, hc, by rwa [h2 c hc]⟩
  constructor
  · rw [hg2]; exact hi.nodup
  · rw [hg2, h1]; exact hi.busy
  · intro t
    rw [hg2, hi.mem t]
    unfold Counted
    rw [hg1, hg3, hp t]
    constructor
    · rintro (h | ⟨w, hw, h⟩ | h)
      · exact .inl h
      · exact .inr (.inl ⟨w, hw, by rw [h3 w t hw]; exact h⟩)
      · exact .inr (.inr h)
    · rintro (h | ⟨w, hw, h⟩ | h)
      · exact .inl h
      · exact .inr (.inl ⟨w, hw, by rw [h3 w t hw] at h; exact h⟩)
      · exact .inr (.inr h)

theorem nodup_length_le {l : List Nat} {n : Nat} (h : l.Nodup) (hl : ∀ t ∈ l, t < n) : l.length ≤ n := by
  have h1 : l ⊆ List.range n := fun t ht => List.mem_range.mpr (hl t ht)
  simpa using h.length_le_of_subset h1

theorem filter_length_add {α} (p : α → Bool) (l : List α) :
    (l.filter p).length + (l.filter (fun a => !p a)).length = l.length := by
  induction l with
  | nil => rfl
  | cons a l ih => cases h : p a <;> simp [h] <;> omega

theorem length_filter_notMem {l d : List Nat} (hl : l.Nodup) (hd : d.Nodup) (hs : ∀ t ∈ d, t ∈ l) :
    (l.filter (· ∉ d)).length + d.length = l.length := by
  have h1 := filter_length_add (fun t => decide (t ∈ d)) l
  have h2 : (l.filter (fun t => decide (t ∈ d))).length ≤ d.length :=
    (hl.sublist List.filter_sublist).length_le_of_subset (fun t ht => by
      have := (List.mem_filter.mp ht).2; simpa using this)
  have h3 : d.length ≤ (l.filter (fun t => decide (t ∈ d))).length :=
    hd.length_le_of_subset (fun t ht => List.mem_filter.mpr ⟨hs t ht, by simpa using ht⟩)
  have h4 : (l.filter (· ∉ d)) = (l.filter (fun t => !decide (t ∈ d))) := by
    congr 1; funext t; simp
  rw [h4]; omega

theorem InvCnt.length_le {cfg s g} (hc : InvCnt cfg s g) (hl : InvLoc cfg s g) (hd : InvD cfg s g) :
    g.cnt.length ≤ s.next := by
  apply nodup_length_le hc.nodup
  intro t ht
  refine Classical.byContradiction fun hlt => ?_
  have hf := (hl.fresh t).mpr (by omega)
  rcases (hc.mem t).mp ht with ⟨i, h, -⟩ | ⟨w, h, -⟩ | h
  · rw [hf] at h; cases h
  · rw [hf] at h; cases h
  · have := hd.drainedGone t h; rw [hf] at this; cases this

set_option maxHeartbeats 1000000 in
theorem invCnt_step {cfg s l s' g} (ho : InvOwn cfg s) (hl : InvLoc cfg s g)
    (hd : InvD cfg s g) (hc : InvCnt cfg s g) (h : Trans cfg s l s') (hb : s'.next < 2 ^ 64) :
    InvCnt cfg s' (gstep s l g) := by
  have hc' := hc
  have hlen := hc.length_le hl hd
  obtain ⟨cnd, cb, cm⟩ := hc
  obtain ⟨ub, abs, nodup, contLoc, wLoc, locQ, locW, fresh, lockedEnq, pendEnq, pendLoc, pendNodup, pendRoom⟩ := hl
  have hoc := fun c i => ho.own (.caller c) i
  have how := fun w i => ho.own (.worker w) i
  have hod := fun i => ho.own .destroyer i
  simp only [Owns] at how hod hoc
  -- a pending task is in the queue its caller has locked
  have pendQ : ∀ c < cfg.callers, ∀ t ∈ cPend (s.callers c),
      ∃ q, cOwn (s.callers c) = some q ∧ g.loc t = .queue q := by
    intro c hc t ht
    cases hpc : s.callers c <;> rw [hpc] at ht <;> simp only [cPend, List.not_mem_nil] at ht
    exact ⟨_, rfl, pendLoc c hc _ _ _ _ hpc t ht⟩
  cases h
  case acquire c todo q ts retry hc h =>
    have hfr := (fresh s.next).mpr (Nat.le_refl _)
    have hgs : gstep s (.acquire c) g =
        { g with loc := upd g.loc s.next (.queue q), cont := upd g.cont q (g.cont q ++ [s.next]) } := by
      simp only [gstep, h]
    rw [hgs]
    refine ⟨cnd, cb, ?_⟩
    intro t
    simp only []
    rw [cm t]
    unfold Counted
    simp only [pool_simp, upd_apply]
    by_cases ht : t = s.next
    · subst ht
      have hnd : s.next ∉ g.drained := by
        intro hm; have := hd.drainedGone _ hm; rw [hfr] at this; cases this
      simp only [hfr, reduceCtorEq, false_and, exists_false, hnd, or_self, if_true, or_false, false_iff]
      rintro ⟨i, -, hp⟩
      apply hp
      refine ⟨c, hc, ?_⟩
      simp [cPend, upd_same]
    · simp only [if_neg ht]
      have hp : Pending cfg { ((s.setQ q ((s.queues q).acquire cfg.capacity s.next).1).setC c
            (.filling todo q (ts ++ [s.next]) retry)).emit (.constructed s.next) with
          next := s.next + 1, ub := s.ub || ((s.queues q).acquire cfg.capacity s.next).2 } t ↔ Pending cfg s t := by
        unfold Pending
        simp only [pool_simp, upd_apply]
        constructor
        · rintro ⟨c', hc', hm⟩
          refine ⟨c', hc', ?_⟩
          by_cases hcc : c' = c
          · subst hcc; rw [h]; simp only [if_true, cPend, List.mem_append, List.mem_singleton, ht, or_false] at hm ⊢
            exact hm
          · rwa [if_neg hcc] at hm
        · rintro ⟨c', hc', hm⟩
          refine ⟨c', hc', ?_⟩
          by_cases hcc : c' = c
          · subst hcc; rw [h] at hm; simp only [if_true, cPend, List.mem_append] at hm ⊢
            exact .inl hm
          · rwa [if_neg hcc]
      exact or_congr (exists_congr fun _ => and_congr Iff.rfl (not_congr hp.symm)) Iff.rfl
  case publish c q ts retry hc h =>
    have hq := hoc c q ⟨hc, by rw [h]; rfl⟩
    have hgs : gstep s (.publish c) g = { g with cnt := g.cnt ++ ts } := by
      simp only [gstep, h, cPend]
    rw [hgs]
    have henq := pendEnq c hc _ _ _ _ h
    have hpl := pendLoc c hc _ _ _ _ h
    have hnot : ∀ t ∈ ts, t ∉ g.cnt := by
      intro t ht hm
      have hlq := hpl t ht
      rcases (cm t).mp hm with ⟨i, -, hp⟩ | ⟨w, hw, -⟩ | hdr
      · exact hp ⟨c, hc, by rw [h]; exact ht⟩
      · rw [hlq] at hw; cases hw
      · have := hd.drainedGone t hdr; rw [hlq] at this; cases this
    refine ⟨?_, ?_, ?_⟩
    · rw [List.nodup_append]
      exact ⟨cnd, pendNodup c hc _ _ _ _ h, fun a ha b hb e => hnot b hb (e ▸ ha)⟩
    · simp only [henq, List.length_append]
      rw [cb]
      split
      · rename_i h0
        rw [show BitVec.ofNat 64 (g.cnt.length + ts.length) = BitVec.ofNat 64 g.cnt.length + BitVec.ofNat 64 ts.length by
          apply BitVec.eq_of_toNat_eq; simp [BitVec.toNat_add], h0, BitVec.add_zero]
      · apply BitVec.eq_of_toNat_eq; simp [BitVec.toNat_add]
    · intro t
      simp only [List.mem_append]
      rw [cm t]
      unfold Counted
      simp only [pool_simp]
      have hpc : ∀ c', cPend (upd s.callers c (.published q ts retry) c') =
          if c' = c then [] else cPend (s.callers c') := by
        intro c'; rw [upd_apply]; split <;> rfl
      by_cases ht : t ∈ ts
      · have hlq := hpl t ht
        simp only [ht, or_true, true_iff]
        refine .inl ⟨q, hlq, ?_⟩
        rintro ⟨c', hc', hm⟩
        simp only [pool_simp, hpc] at hm
        by_cases hcc : c' = c
        · simp [hcc] at hm
        · rw [if_neg hcc] at hm
          obtain ⟨q', ho', hl'⟩ := pendQ c' hc' t hm
          rw [hlq] at hl'
          cases hl'
          have := (hoc c' q ⟨hc', ho'⟩).2
          rw [hq.2] at this
          simp at this
          omega
      · simp only [ht, or_false]
        have hp : Pending cfg { s.setC c (.published q ts retry) with
          busy := if (s.queues q).enqueues = 0#64 then s.busy else s.busy + (s.queues q).enqueues } t ↔ Pending cfg s t := by
          unfold Pending
          simp only [pool_simp, hpc]
          constructor
          · rintro ⟨c', hc', hm⟩
            by_cases hcc : c' = c
            · simp [hcc] at hm
            · rw [if_neg hcc] at hm; exact ⟨c', hc', hm⟩
          · rintro ⟨c', hc', hm⟩
            by_cases hcc : c' = c
            · subst hcc; rw [h] at hm; exact absurd hm ht
            · exact ⟨c', hc', by rwa [if_neg hcc]⟩
        exact or_congr (exists_congr fun _ => and_congr Iff.rfl (not_congr hp.symm)) Iff.rfl
  case wPop w q t q' hw h he ht hp =>
    have hq := how w q ⟨hw, by rw [h]; rfl⟩
    obtain ⟨l', hcl, a2⟩ := popFront_some (abs q hq.1) hb hp he
    have hgs : gstep s (.wBody w) g =
        { g with loc := upd g.loc t (.worker w), cont := upd g.cont q l' } := by
      simp [gstep, h, he, ht, hcl]
    have hlt : g.loc t = .queue q := (contLoc q hq.1 t).mp (by rw [hcl]; simp)
    rw [hgs]
    have hnp : ¬ Pending cfg s t := by
      rintro ⟨c, hc, hm⟩
      obtain ⟨q2, ho2, hl2⟩ := pendQ c hc t hm
      rw [hlt] at hl2; cases hl2
      have := (hoc c q ⟨hc, ho2⟩).2
      rw [hq.2] at this; cases this
    refine ⟨cnd, cb, ?_⟩
    intro u
    simp only []
    rw [cm u]
    have hpe : Pending cfg ((s.setQ q q').setW w (.popped q t)) u ↔ Pending cfg s u := Iff.rfl
    unfold Counted
    rw [hpe]
    simp only [pool_simp, upd_apply]
    by_cases hu : u = t
    · subst hu
      simp only [if_true, hlt]
      constructor
      · intro _; exact .inr (.inl ⟨w, rfl, by simp [wCounts]⟩)
      · intro _; exact .inl ⟨q, rfl, hnp⟩
    · simp only [if_neg hu]
      have : ∀ w', g.loc u = .worker w' → (if w' = w then WPc.popped q t else s.workers w') = s.workers w' := by
        intro w' hl'
        rw [if_neg]
        intro e; subst e
        have := (wLoc w' hw u).mpr hl'
        rw [h] at this; simp [wTask] at this
      grind
  case wDecLast w t hw h hbz =>
    have hgs : gstep s (.wDecrement w) g = { g with cnt := g.cnt.erase t } := by simp [gstep, h]
    rw [hgs]
    have hlt : g.loc t = .worker w := (wLoc w hw t).mp (by rw [h]; rfl)
    have hmem : t ∈ g.cnt := (cm t).mpr (.inr (.inl ⟨w, hlt, by rw [h]; rfl⟩))
    have hpos : 0 < g.cnt.length := List.length_pos_of_mem hmem
    refine ⟨cnd.erase t, ?_, ?_⟩
    · show s.busy - 1#64 = _
      rw [cb, List.length_erase_of_mem hmem]
      have : s.next < 2 ^ 64 := hb
      apply BitVec.eq_of_toNat_eq; simp [BitVec.toNat_sub]; omega
    · intro u
      simp only []
      rw [cnd.mem_erase_iff, cm u]
      have hpe : Pending cfg { s.setW w (.notifying t) with busy := s.busy - 1#64 } u ↔ Pending cfg s u := Iff.rfl
      unfold Counted
      rw [hpe]
      simp only [pool_simp, upd_apply]
      have hdr : t ∉ g.drained := by intro hm; have := hd.drainedGone t hm; rw [hlt] at this; cases this
      by_cases hu : u = t
      · subst hu
        simp [hlt, hdr, wCounts]
      · have : ∀ w', g.loc u = .worker w' → w' ≠ w := by
          intro w' hl' e
          subst e
          have := (wLoc w' hw u).mpr hl'
          rw [h] at this; simp [wTask] at this; omega
        grind
  case wDec w t hw h hbz =>
    have hgs : gstep s (.wDecrement w) g = { g with cnt := g.cnt.erase t } := by simp [gstep, h]
    rw [hgs]
    have hlt : g.loc t = .worker w := (wLoc w hw t).mp (by rw [h]; rfl)
    have hmem : t ∈ g.cnt := (cm t).mpr (.inr (.inl ⟨w, hlt, by rw [h]; rfl⟩))
    have hpos : 0 < g.cnt.length := List.length_pos_of_mem hmem
    refine ⟨cnd.erase t, ?_, ?_⟩
    · show s.busy - 1#64 = _
      rw [cb, List.length_erase_of_mem hmem]
      have : s.next < 2 ^ 64 := hb
      apply BitVec.eq_of_toNat_eq; simp [BitVec.toNat_sub]; omega
    · intro u
      simp only []
      rw [cnd.mem_erase_iff, cm u]
      have hpe : Pending cfg { s.setW w (.counted t) with busy := s.busy - 1#64 } u ↔ Pending cfg s u := Iff.rfl
      unfold Counted
      rw [hpe]
      simp only [pool_simp, upd_apply]
      have hdr : t ∉ g.drained := by intro hm; have := hd.drainedGone t hm; rw [hlt] at this; cases this
      by_cases hu : u = t
      · subst hu
        simp [hlt, hdr, wCounts]
      · have : ∀ w', g.loc u = .worker w' → w' ≠ w := by
          intro w' hl' e
          subst e
          have := (wLoc w' hw u).mpr hl'
          rw [h] at this; simp [wTask] at this; omega
        grind
  case wDestroy w t hw h =>
    have hgs : gstep s (.wDestroy w) g = { g with loc := upd g.loc t .gone } := by
      simp [gstep, h]
    rw [hgs]
    have hlt : g.loc t = .worker w := (wLoc w hw t).mp (by rw [h]; rfl)
    refine ⟨cnd, cb, ?_⟩
    intro u
    simp only []
    rw [cm u]
    have hpe : Pending cfg ((s.setW w .polling).emit (.destroyed t)) u ↔ Pending cfg s u := Iff.rfl
    unfold Counted
    rw [hpe]
    simp only [pool_simp, upd_apply]
    by_cases hu : u = t
    · subst hu; simp [hlt, h, wCounts]
    · have : ∀ w', g.loc u = .worker w' → w' ≠ w := by
        intro w' hl' e
        subst e
        have := (wLoc w' hw u).mpr hl'
        rw [h] at this; simp [wTask] at this; omega
      grind
  case dPop n r t q' h he hp =>
    have hq := hod n (by rw [h]; rfl)
    obtain ⟨l', hcl, a2⟩ := popFront_some (abs n hq.1) hb hp he
    have hgs : gstep s .dStep g =
        { g with loc := upd g.loc t .gone, cont := upd g.cont n l', drained := t :: g.drained } := by
      simp [gstep, h, hcl]
    rw [hgs]
    have hlt : g.loc t = .queue n := (contLoc n hq.1 t).mp (by rw [hcl]; simp)
    have hidle := hd.idle (by rw [h]; simp)
    have hnp : ∀ u, ¬ Pending cfg s u := by
      rintro u ⟨c, hc, hm⟩
      rw [hidle c hc] at hm; simp [cPend] at hm
    refine ⟨cnd, cb, ?_⟩
    intro u
    simp only []
    rw [cm u]
    have hpe : Pending cfg ((s.setQ n q').emit (.destroyed t)) u ↔ Pending cfg s u := Iff.rfl
    unfold Counted
    rw [hpe]
    simp only [pool_simp, upd_apply, hnp u]
    by_cases hu : u = t
    · subst hu; simp [hlt]
    · simp [hu]
  case wUb w q hw h he ht hp =>
    exact absurd hp (popFront_none (abs q (how w q ⟨hw, by rw [h]; rfl⟩).1) hb he)
  case dUb n r h he hp =>
    exact absurd hp (popFront_none (abs n (hod n (by rw [h]; rfl)).1) hb he)
  case dDrained n r h he hr =>
    have hq := hod n (by rw [h]; rfl)
    have hcn : g.cont n = [] := ((abs n hq.1).empty_iff hb).mp he
    have hgs : gstep s .dStep g = { g with cnt := g.cnt.filter (· ∉ g.drained), drained := [] } := by
      simp [gstep, h, hcn]
    rw [hgs]
    have hr' := hd.drainLen n r h
    rw [hcn] at hr'
    have hsub : ∀ t ∈ g.drained, t ∈ g.cnt := fun t ht => (cm t).mpr (.inr (.inr ht))
    have hfl := length_filter_notMem cnd hd.drainedNodup hsub
    refine ⟨cnd.sublist List.filter_sublist, ?_, ?_⟩
    · show s.busy - r = _
      have : s.next < 2 ^ 64 := hb
      rw [cb, hr']
      simp only []
      apply BitVec.eq_of_toNat_eq
      simp only [BitVec.toNat_sub, BitVec.toNat_ofNat, List.length_nil]
      omega
    · intro u
      have hpe : Pending cfg { s.setQ n { s.queues n with holder := none } with
        busy := s.busy - r, dtor := .drain n } u ↔ Pending cfg s u := Iff.rfl
      simp only [List.mem_filter, decide_not, Bool.not_eq_true', decide_eq_false_iff_not]
      rw [cm u]
      unfold Counted
      rw [hpe]
      simp only [pool_simp]
      have := hd.drainedGone u
      grind
  case dDrainedLast n r h he hr =>
    have hq := hod n (by rw [h]; rfl)
    have hcn : g.cont n = [] := ((abs n hq.1).empty_iff hb).mp he
    have hgs : gstep s .dStep g = { g with cnt := g.cnt.filter (· ∉ g.drained), drained := [] } := by
      simp [gstep, h, hcn]
    rw [hgs]
    have hr' := hd.drainLen n r h
    rw [hcn] at hr'
    have hsub : ∀ t ∈ g.drained, t ∈ g.cnt := fun t ht => (cm t).mpr (.inr (.inr ht))
    have hfl := length_filter_notMem cnd hd.drainedNodup hsub
    have hidle := hd.idle (by rw [h]; simp)
    refine ⟨cnd.sublist List.filter_sublist, ?_, ?_⟩
    · show s.busy - r = _
      have : s.next < 2 ^ 64 := hb
      rw [cb, hr']
      simp only []
      apply BitVec.eq_of_toNat_eq
      simp only [BitVec.toNat_sub, BitVec.toNat_ofNat, List.length_nil]
      omega
    · intro u
      have hpe : Pending cfg { (s.setQ n { s.queues n with holder := none }).notifyAll with
        busy := s.busy - r, dtor := .drain n } u ↔ Pending cfg s u := by
        constructor
        · rintro ⟨c, hc, hm⟩
          have := hidle c hc
          simp [this, cPend] at hm
        · rintro ⟨c, hc, hm⟩
          have := hidle c hc
          simp [this, cPend] at hm
      simp only [List.mem_filter, decide_not, Bool.not_eq_true', decide_eq_false_iff_not]
      rw [cm u]
      unfold Counted
      rw [hpe]
      simp only [pool_simp]
      have := hd.drainedGone u
      grind
  all_goals
    refine invCnt_quiet hc' (by simp [gstep, *]) rfl ?_ ?_ <;>
      (clear hc' abs nodup contLoc locQ locW fresh how hod hoc cnd cb cm lockedEnq pendEnq pendLoc pendNodup pendRoom hd ho
       try simp only [pool_simp, upd_apply]
       try grind -ext [cPend, wCounts, wTask])

end Verif.Proofs.Pool
