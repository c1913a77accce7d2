import Verif.Proofs.PoolInv3
/-! Destruction. -/
namespace Verif.Proofs.Pool
open Verif.Spec.Pool Verif.Model.Pool

/-- queues told to terminate -/
def TermFrom (cfg : Cfg) : DPc → Nat
  | .alive => cfg.workers
  | .termQ n => n
  | _ => 0
/-- workers known to have exited -/
def ExitFrom (cfg : Cfg) : DPc → Nat
  | .alive | .termQ _ => cfg.workers
  | .termW n => n
  | .join n => n + 1
  | _ => 0
/-- queues known to be empty -/
def EmptyFrom (cfg : Cfg) : DPc → Nat
  | .alive | .termQ _ | .termW _ | .join _ => cfg.workers
  | .drain n => n
  | .draining n _ => n + 1
  | .done => 0

structure InvD (cfg : Cfg) (s : State) (g : Ghost) : Prop where
  idle : s.dtor ≠ .alive → ∀ c < cfg.callers, s.callers c = .idle
  term : ∀ i < cfg.workers, TermFrom cfg s.dtor ≤ i → (s.queues i).terminated = true
  exited : ∀ w < cfg.workers, ExitFrom cfg s.dtor ≤ w → s.workers w = .exited
  empty : ∀ i < cfg.workers, EmptyFrom cfg s.dtor ≤ i → g.cont i = []
  notDraining : dOwn s.dtor = none → g.drained = []
  drainLen : ∀ n r, s.dtor = .draining n r → r = BitVec.ofNat 64 (g.drained.length + (g.cont n).length)
  drainedGone : ∀ t ∈ g.drained, g.loc t = .gone
  drainedNodup : g.drained.Nodup

theorem invD_init (cfg : Cfg) : InvD cfg initial {} := by
  constructor <;> simp [initial, TermFrom, ExitFrom]
  all_goals omega

theorem invD_quiet {cfg s s' g g'} (hi : InvD cfg s g) (h1 : s'.dtor = s.dtor) (h2 : g'.drained = g.drained)
    (h3 : s.dtor ≠ .alive → ∀ c < cfg.callers, s'.callers c = s.callers c)
    (h4 : ∀ i < cfg.workers, (s'.queues i).terminated = (s.queues i).terminated)
    (h5 : ∀ w < cfg.workers, s.workers w = .exited → s'.workers w = .exited)
    (h6 : ∀ i < cfg.workers, EmptyFrom cfg s.dtor ≤ i → g.cont i = [] → g'.cont i = [])
    (h7 : ∀ n, dOwn s.dtor = some n → (g'.cont n) = (g.cont n))
    (h8 : ∀ t, g.loc t = .gone → g'.loc t = .gone) : InvD cfg s' g' := by
  obtain ⟨idle, term, exited, empty, nd, dl, dg, dn⟩ := hi
  constructor
  · rw [h1]; intro ha c hc; rw [h3 ha c hc]; exact idle ha c hc
  · rw [h1]; intro i hi ht; rw [h4 i hi]; exact term i hi ht
  · rw [h1]; intro w hw ht; exact h5 w hw (exited w hw ht)
  · rw [h1]; intro i hi he; exact h6 i hi he (empty i hi he)
  · rw [h1, h2]; exact nd
  · rw [h1, h2]; intro n r hd; rw [h7 n (by rw [hd]; rfl)]; exact dl n r hd
  · rw [h2]; intro t ht; exact h8 t (dg t ht)
  · rw [h2]; exact dn

set_option maxHeartbeats 1000000 in
theorem invD_step {cfg s l s' g} (ho : InvOwn cfg s) (hl : InvLoc cfg s g)
    (hd : InvD cfg s g) (h : Trans cfg s l s') (hb : s'.next < 2 ^ 64) : InvD cfg s' (gstep s l g) := by
  have hd' := hd
  obtain ⟨idle, term, exited, empty, nd, dl, dg, dn⟩ := hd
  have hdb := ho.dbound
  obtain ⟨ub, abs, nodup, contLoc, wLoc, locQ, locW, fresh, -, -, -, -, -⟩ := hl
  have how := fun w i => ho.own (.worker w) i
  have hod := fun i => ho.own .destroyer i
  simp only [Owns] at how hod
  cases h
  case acquire c todo q ts retry hc h =>
    have ha : s.dtor = .alive := by
      refine Classical.byContradiction fun hne => ?_
      have := idle hne c hc; rw [h] at this; cases this
    have hfr := (fresh s.next).mpr (Nat.le_refl _)
    apply invD_quiet hd' <;> simp only [gstep, h, pool_simp, upd_apply, ha, EmptyFrom, dOwn]
    · simp
    · intro i hi; split
      · rename_i e; subst e; rfl
      · rfl
    · intros; assumption
    · intro i hi; omega
    · simp
    · intro t ht; split
      · rename_i e; subst e; rw [ht] at hfr; cases hfr
      · exact ht
  case wPop w q t q' hw h he ht hp =>
    have hq := how w q ⟨hw, by rw [h]; rfl⟩
    obtain ⟨l', hcl, a2⟩ := popFront_some (abs q hq.1) hb hp he
    have hgs : gstep s (.wBody w) g =
        { g with loc := upd g.loc t (.worker w), cont := upd g.cont q l' } := by
      simp [gstep, h, he, ht, hcl]
    have hlt : g.loc t = .queue q := (contLoc q hq.1 t).mp (by rw [hcl]; simp)
    obtain ⟨-, -, pt⟩ := popFront_fields hp
    rw [hgs]
    apply invD_quiet hd' <;> simp only [pool_simp, upd_apply]
    · intros; trivial
    · intro i hi; split
      · rename_i e; subst e; exact pt
      · rfl
    · intro w' hw' hx; split
      · rename_i e; subst e; rw [h] at hx; cases hx
      · exact hx
    · intro i hi hle hnil; split
      · rename_i e; subst e; rw [hcl] at hnil; cases hnil
      · exact hnil
    · intro n hn; split
      · rename_i e; subst e
        have := (hod n hn).2
        rw [hq.2] at this; cases this
      · rfl
    · intro u hu; split
      · rename_i e; subst e; rw [hlt] at hu; cases hu
      · exact hu
  case wDestroy w t hw h =>
    apply invD_quiet hd' <;> simp only [gstep, h, pool_simp, upd_apply]
    · intros; trivial
    · intros; trivial
    · intro w' hw' hx; split
      · rename_i e; subst e; rw [h] at hx; cases hx
      · exact hx
    · intros; assumption
    · intros; trivial
    · intro u hu; split
      · rfl
      · exact hu
  case wUb w q hw h he ht hp =>
    exact absurd hp (popFront_none (abs q (how w q ⟨hw, by rw [h]; rfl⟩).1) hb he)
  case dUb n r h he hp =>
    exact absurd hp (popFront_none (abs n (hod n (by rw [h]; rfl)).1) hb he)
  case dPop n r t q' h he hp =>
    have hq := hod n (by rw [h]; rfl)
    obtain ⟨l', hcl, a2⟩ := popFront_some (abs n hq.1) hb hp he
    have hgs : gstep s .dStep g =
        { g with loc := upd g.loc t .gone, cont := upd g.cont n l', drained := t :: g.drained } := by
      simp [gstep, h, hcl]
    rw [hgs]
    have hlt : g.loc t = .queue n := (contLoc n hq.1 t).mp (by rw [hcl]; simp)
    obtain ⟨-, -, pt⟩ := popFront_fields hp
    constructor <;> (try simp only [pool_simp, upd_apply])
    · exact idle
    · intro i hi ht; split
      · rename_i e; subst e; rw [pt]; exact term i hi ht
      · exact term i hi ht
    · exact exited
    · rw [h]; simp only [EmptyFrom]; intro i hi hle
      rw [if_neg (show ¬ i = n by omega)]
      exact empty i hi (by rw [h]; exact hle)
    · rw [h]; simp [dOwn]
    · intro n' r' hn'
      rw [h] at hn'
      simp only [DPc.draining.injEq] at hn'
      obtain ⟨rfl, rfl⟩ := hn'
      rw [dl n r h, hcl, if_pos rfl, List.length_cons, List.length_cons]
      congr 1; omega
    · intro u hu
      split
      · rfl
      · simp only [List.mem_cons] at hu
        exact dg u (hu.resolve_left ‹_›)
    · rw [List.nodup_cons]
      refine ⟨fun hm => ?_, dn⟩
      have := dg t hm; rw [hlt] at this; cases this
  case dDrained n r h he hr =>
    have hq := hod n (by rw [h]; rfl)
    have hcn : g.cont n = [] := ((abs n hq.1).empty_iff hb).mp he
    have hgs : gstep s .dStep g = { g with cnt := g.cnt.filter (· ∉ g.drained), drained := [] } := by
      simp [gstep, h, hcn]
    rw [hgs]
    rw [h] at term exited empty idle
    constructor <;> (try simp only [pool_simp, upd_apply])
    · intro _; exact idle (by simp)
    · intro i hi ht; split
      · rename_i e; subst e; exact term i hi ht
      · exact term i hi ht
    · exact exited
    · intro i hi hle
      simp only [EmptyFrom] at hle
      by_cases hin : i = n
      · rw [hin]; exact hcn
      · exact empty i hi (by simp only [EmptyFrom]; omega)
    · simp
    · intro n r hc; cases hc
    · simp
    · simp
  case dDrainedLast n r h he hr =>
    have hq := hod n (by rw [h]; rfl)
    have hcn : g.cont n = [] := ((abs n hq.1).empty_iff hb).mp he
    have hgs : gstep s .dStep g = { g with cnt := g.cnt.filter (· ∉ g.drained), drained := [] } := by
      simp [gstep, h, hcn]
    rw [hgs]
    rw [h] at term exited empty idle
    constructor <;> (try simp only [pool_simp, upd_apply])
    · intro _ c hc; have := idle (by simp) c hc; simp [this]
    · intro i hi ht; split
      · rename_i e; subst e; exact term i hi ht
      · exact term i hi ht
    · exact exited
    · intro i hi hle
      simp only [EmptyFrom] at hle
      by_cases hin : i = n
      · rw [hin]; exact hcn
      · exact empty i hi (by simp only [EmptyFrom]; omega)
    · simp
    · intro n r hc; cases hc
    · simp
    · simp
  case dDrain n h hh =>
    rw [h] at term exited empty idle nd hdb
    have hgs : gstep s .dStep g = g := by simp [gstep, h]
    rw [hgs]
    simp only [DBound] at hdb
    have hsz := (abs n (by omega)).size hb
    constructor <;> (try simp only [pool_simp, upd_apply])
    · intro _; exact idle (by simp)
    · intro i hi ht; split
      · rename_i e; subst e; exact term i hi ht
      · exact term i hi ht
    · exact exited
    · exact empty
    · simp [dOwn]
    · intro n' r' e
      simp only [DPc.draining.injEq] at e
      obtain ⟨rfl, rfl⟩ := e
      rw [hsz, nd rfl]; simp
    · exact dg
    · exact dn
  case dBegin h hi =>
    rw [h] at term exited empty idle nd
    constructor <;> simp only [gstep]
    · intro _; exact hi
    · exact term
    · exact exited
    · exact empty
    · intro _; exact nd rfl
    · intro n r e; cases e
    · exact dg
    · exact dn
  case dTermQ0 h =>
    rw [h] at term exited empty idle nd
    have hgs : gstep s .dStep g = g := by simp [gstep, h]
    rw [hgs]
    constructor <;> (try dsimp only)
    · intro _; exact idle (by simp)
    · exact term
    · exact exited
    · exact empty
    · intro _; exact nd rfl
    · intro n r e; cases e
    · exact dg
    · exact dn
  case dTermQ n h =>
    rw [h] at term exited empty idle nd
    have hgs : gstep s .dStep g = g := by simp [gstep, h]
    rw [hgs]
    constructor <;> (try simp only [pool_simp, upd_apply])
    · intro _; exact idle (by simp)
    · intro i hi ht
      simp only [TermFrom] at ht term
      split
      · rfl
      · exact term i hi (by omega)
    · exact exited
    · exact empty
    · intro _; exact nd rfl
    · intro n r e; cases e
    · exact dg
    · exact dn
  case dTermW0 h =>
    rw [h] at term exited empty idle nd
    have hgs : gstep s .dStep g = g := by simp [gstep, h]
    rw [hgs]
    constructor <;> (try dsimp only)
    · intro _; exact idle (by simp)
    · exact term
    · exact exited
    · exact empty
    · intro _; exact nd rfl
    · intro n r e; cases e
    · exact dg
    · exact dn
  case dTermW n h =>
    rw [h] at term exited empty idle nd
    have hgs : gstep s .dStep g = g := by simp [gstep, h]
    rw [hgs]
    constructor <;> (try dsimp only)
    · intro _; exact idle (by simp)
    · exact term
    · exact exited
    · exact empty
    · intro _; exact nd rfl
    · intro n r e; cases e
    · exact dg
    · exact dn
  case dJoin n h hx =>
    rw [h] at term exited empty idle nd
    have hgs : gstep s .dStep g = g := by simp [gstep, h]
    rw [hgs]
    constructor <;> (try dsimp only)
    · intro _; exact idle (by simp)
    · exact term
    · intro w hw hle
      simp only [ExitFrom] at hle exited
      by_cases e : w = n
      · rw [e]; exact hx
      · exact exited w hw (by omega)
    · exact empty
    · intro _; exact nd rfl
    · intro n r e; cases e
    · exact dg
    · exact dn
  case dDrain0 h =>
    rw [h] at term exited empty idle nd
    have hgs : gstep s .dStep g = g := by simp [gstep, h]
    rw [hgs]
    constructor <;> (try dsimp only)
    · intro _; exact idle (by simp)
    · exact term
    · exact exited
    · exact empty
    · intro _; exact nd rfl
    · intro n r e; cases e
    · exact dg
    · exact dn
  all_goals
    refine invD_quiet hd' rfl (by simp [gstep, *]) ?_ ?_ ?_ ?_ ?_ ?_ <;>
      (clear hd' abs nodup contLoc wLoc locQ locW fresh how hod term exited empty nd dl dg dn ho hdb
       try simp only [pool_simp, upd_apply, gstep]
       try grind -ext [Queue.tryLock])

end Verif.Proofs.Pool
