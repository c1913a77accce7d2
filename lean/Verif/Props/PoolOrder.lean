import Verif.Props.ThreadPool
import Verif.Proofs.PoolOrder2
/-!
# C159: what is visible to tasks, to callers of `wait()`, and after destruction; no data races

`actions cfg initial ls` lists, for every step of the schedule `ls`, the mutexes it locks and unlocks and the memory it touches; `HB` is the happens-before relation of the language.
-/
namespace Verif.Props.PoolOrder
open Verif.Spec.Pool Verif.Model.Pool Verif.Proofs.Pool Verif.Spec.HappensBefore Verif.Props

theorem length_actions {cfg} : ∀ {ls s s'}, run cfg s ls = some s' → (actions cfg s ls).length = ls.length := by
  intro ls
  induction ls with
  | nil => intro s s' _; rfl
  | cons l ls ih =>
    intro s s' h
    simp only [run] at h
    split at h
    · cases h
    · rename_i s1 hs
      simp only [actions, hs, List.length_cons, ih h]

theorem actions_snoc {cfg l} : ∀ {ls s s'}, run cfg s ls = some s' → actions cfg s (ls ++ [l]) = actions cfg s ls ++ [action cfg s' l] := by
  intro ls
  induction ls with
  | nil =>
    intro s s' h
    simp only [run, Option.some.injEq] at h
    subst h
    simp only [actions, List.nil_append]
    congr 1
    cases step cfg s l <;> rfl
  | cons l ls ih =>
    intro s s' h
    simp only [run] at h
    split at h
    · cases h
    · rename_i s1 hs
      simp only [List.cons_append, actions, hs, ih h]

/-- whatever is an event of a task touches the callable of the task -/
theorem event_touches {cfg s l e} (h : (action cfg s l).event = some e) : .callable e.task ∈ (action cfg s l).touches := by
  revert h
  cases l <;> simp only [action, callerAction, workerAction, destroyerAction]
  all_goals
    repeat' split
    all_goals first
      | (intro h; cases h; done)
      | (intro h; simp only [Option.some.injEq] at h; subst h; simp [Event.task]; done)

/-- callers only construct tasks -/
theorem event_caller {cfg s l e c} (h : (action cfg s l).event = some e) (hc : (action cfg s l).thread = .caller c) : ∃ t, e = .constructed t := by
  revert h hc
  cases l <;> simp only [action, callerAction, workerAction, destroyerAction]
  all_goals
    repeat' split
    all_goals first
      | (intro h; cases h; done)
      | (intro h hc; simp only [reduceCtorEq] at hc; done)
      | (intro h hc; simp only [Option.some.injEq] at h; exact ⟨_, h.symm⟩)

theorem touches_of_is {cfg} : ∀ {ls s i e}, Is (actions cfg s ls) i e → ∃ a, (actions cfg s ls)[i]? = some a ∧ a.event = some e ∧ .callable e.task ∈ a.touches ∧
    ∀ c, a.thread = .caller c → ∃ t, e = .constructed t := by
  intro ls
  induction ls with
  | nil => rintro s i e ⟨a, h, -⟩; simp [actions] at h
  | cons l ls ih =>
    rintro s i e ⟨a, h, he⟩
    cases i with
    | zero =>
      simp only [actions, List.getElem?_cons_zero, Option.some.injEq] at h
      subst h
      exact ⟨_, rfl, he, event_touches he, fun c => event_caller he⟩
    | succ i =>
      simp only [actions, List.getElem?_cons_succ] at h ⊢
      cases hs : step cfg s l with
      | none => rw [hs] at h; simp at h
      | some s1 => rw [hs] at h; exact ih ⟨a, h, he⟩

/-- two events at two positions are in the log in that order -/
theorem sublist_of_is {θ μ π ε : Type} {x : List (Action θ μ π ε)} {i j e e'} (hij : i < j) (h : Is x i e) (h' : Is x j e') :
    [e, e'].Sublist (x.filterMap (·.event)) := by
  obtain ⟨a, ha, hea⟩ := h
  obtain ⟨b, hb, heb⟩ := h'
  have hs : [a, b].Sublist x := by
    rw [List.getElem?_eq_some_iff] at ha hb
    obtain ⟨h1, rfl⟩ := ha
    obtain ⟨h2, rfl⟩ := hb
    have e1 : x[i] ∈ x.take j := List.mem_take_iff_getElem.2 ⟨i, by omega, rfl⟩
    have e2 : x[j] ∈ x.drop j := List.mem_drop_iff_getElem.2 ⟨0, by omega, by simp⟩
    have := (List.singleton_sublist.2 e1).append (List.singleton_sublist.2 e2)
    rwa [List.take_append_drop] at this
  have := hs.filterMap (·.event)
  simpa [hea, heb] using this

theorem in_order {cfg ls s} (hcap : cfg.capacity < 2 ^ 64) (h : run cfg initial ls = some s) (hb : s.next < 2 ^ 64) {i j e e'}
    (hi : Is (actions cfg initial ls) i e) (hj : Is (actions cfg initial ls) j e') (ht : e.task = e'.task)
    (hne : ¬[e', e].Sublist (eventsOf e.task s.log)) (hd : e ≠ e') : HB (actions cfg initial ls) i j := by
  obtain ⟨g, ha, ho⟩ := order_reachable hcap h hb
  obtain ⟨a, h1, h2, h3, h3'⟩ := touches_of_is hi
  obtain ⟨b, h4, h5, h6, -⟩ := touches_of_is hj
  have hlt : i < j := by
    rcases Nat.lt_trichotomy i j with h | rfl | h
    · exact h
    · rw [h1] at h4
      obtain rfl := Option.some.inj h4
      rw [h2] at h5
      exact absurd (Option.some.inj h5) hd
    · refine absurd ?_ hne
      have := (sublist_of_is h hj hi).filter (fun f => f.task == e.task)
      rw [← ho.log] at this
      simpa [eventsOf, ht] using this
  exact ho.free i j a b _ hlt h1 h4 h3 (ht ▸ h6)

/-- **No data race**: of any two steps that touch the same memory of the pool or of a task, the earlier happens before the later, in every schedule. -/
theorem C159_no_data_race (cfg : Cfg) (hcap : cfg.capacity < 2 ^ 64) (ls : List Label) (s : State)
    (h : run cfg initial ls = some s) (hb : s.next < 2 ^ 64) : RaceFree (actions cfg initial ls) := by
  obtain ⟨g, ha, ho⟩ := order_reachable hcap h hb
  exact ho.free

/-- the caller constructs task 0 (step 3), worker 1 takes it (step 15) and runs it (step 17): different threads, the same memory -/
example : ∃ a b c : PoolAction, (actions demoCfg initial demoWait)[3]? = some a ∧ (actions demoCfg initial demoWait)[15]? = some b ∧
    (actions demoCfg initial demoWait)[17]? = some c ∧ a.thread = .caller 0 ∧ b.thread = .worker 1 ∧ .cell 0 0 ∈ a.touches ∧ .cell 0 0 ∈ b.touches ∧
    .callable 0 ∈ a.touches ∧ .callable 0 ∈ c.touches ∧ c.event = some (.started 0 1) :=
  ⟨_, _, _, rfl, rfl, rfl, rfl, rfl, by decide, by decide, by decide, by decide, rfl⟩

/-- The events of the actions are the history that C35 is about. -/
theorem C159_history (cfg : Cfg) (hcap : cfg.capacity < 2 ^ 64) (ls : List Label) (s : State)
    (h : run cfg initial ls = some s) (hb : s.next < 2 ^ 64) :
    s.log = (actions cfg initial ls).filterMap (·.event) ∧ (actions cfg initial ls).length = ls.length := by
  obtain ⟨g, ha, ho⟩ := order_reachable hcap h hb
  exact ⟨ho.log, length_actions h⟩

/-- **What was done before a task was enqueued is visible to the task**: whatever the enqueuing thread did before it stored the task happens before the task starts; and the task finishes
before it is destroyed. -/
theorem C159_enqueue_visible (cfg : Cfg) (hcap : cfg.capacity < 2 ^ 64) (ls : List Label) (s : State)
    (h : run cfg initial ls = some s) (hb : s.next < 2 ^ 64) (t w i j : Nat) (hi : Is (actions cfg initial ls) i (.constructed t))
    (hj : Is (actions cfg initial ls) j (.started t w)) :
    HB (actions cfg initial ls) i j ∧
    (∀ k a b, k < i → (actions cfg initial ls)[k]? = some a → (actions cfg initial ls)[i]? = some b → a.thread = b.thread → HB (actions cfg initial ls) k j) ∧
    ∀ k l, Is (actions cfg initial ls) k (.finished t) → Is (actions cfg initial ls) l (.destroyed t) →
      HB (actions cfg initial ls) j k ∧ HB (actions cfg initial ls) k l := by
  have hlife := C35_task_life cfg hcap ls s h hb t
  obtain ⟨full, hf, hp⟩ := hlife
  have hno : ∀ e e' : Event, ¬[e', e].Sublist full → ¬[e', e].Sublist (eventsOf t s.log) := fun e e' hn hs => hn (hs.trans hp.sublist)
  have key : ∀ w', ¬[.started t w', .constructed t].Sublist full ∧ ¬[.finished t, .started t w'].Sublist full ∧ ¬[.destroyed t, .finished t].Sublist full := by
    intro w'
    cases hf <;> refine ⟨?_, ?_, ?_⟩ <;> intro hs <;> simp [List.sublist_cons_iff] at hs
  have h1 : HB (actions cfg initial ls) i j := in_order hcap h hb hi hj rfl (hno _ _ (key w).1) (by simp)
  refine ⟨h1, fun k a b hk hka hib hab => .trans (.program hk hka hib hab) h1, fun k l hk hl => ⟨?_, ?_⟩⟩
  · exact in_order hcap h hb hj hk rfl (hno _ _ (key w).2.1) (by simp)
  · exact in_order hcap h hb hk hl rfl (hno _ _ (key w).2.2) (by simp)

/-- **What a task did is visible after `wait()`**: when a call of `wait()` returns, the end of every task whose enqueue call had returned by then happens before the return. -/
theorem C159_wait_visible (cfg : Cfg) (hcap : cfg.capacity < 2 ^ 64) (ls : List Label) (s s' : State) (c : Nat)
    (h : run cfg initial ls = some s) (hb : s.next < 2 ^ 64)
    (hc : s.callers c = .checking) (hs : step cfg s (.check c) = some s') (hr : s'.callers c = .idle)
    (t : Nat) (ht : t ∈ s.returned) :
    ∃ i, Is (actions cfg initial ls) i (.finished t) ∧ HB (actions cfg initial (ls ++ [.check c])) i ls.length := by
  have hfin := C36_wait cfg hcap ls s s' c h hb hc hs hr t ht
  obtain ⟨g, ha, ho⟩ := order_reachable hcap h hb
  rw [ho.log, List.mem_filterMap] at hfin
  obtain ⟨a, ha', he⟩ := hfin
  obtain ⟨i, hi, hia⟩ := List.getElem_of_mem ha'
  have hget : (actions cfg initial ls)[i]? = some a := by rw [List.getElem?_eq_some_iff]; exact ⟨hi, hia⟩
  refine ⟨i, ⟨a, hget, he⟩, ?_⟩
  rw [actions_snoc h, ← length_actions h]
  rcases ho.finished i a t hget he with ⟨w, hw, hran, -⟩ | hl
  · exfalso
    have hbusy : s.busy = 0#64 := by
      have htr := trans_of_step hs
      cases htr with
      | checkDone _ hc _ hb => exact hb
      | checkSleep _ _ _ _ => simp [upd_same] at hr
    have hcnt : g.cnt = [] := by
      have hlen := ha.cnt.length_le ha.loc ha.dtor
      have h0 := ha.cnt.busy
      rw [hbusy] at h0
      have h1 := congrArg BitVec.toNat h0
      simp only [BitVec.toNat_ofNat] at h1
      exact List.length_eq_zero_iff.mp (by omega)
    have hx : Counted cfg s g t := .inr (.inl ⟨w, (ha.loc.wLoc w hw t).1 (by rw [hran]; rfl), by rw [hran]; rfl⟩)
    have := (ha.cnt.mem t).mpr hx
    rw [hcnt] at this
    cases this
  · exact hl.hb (by simp [action, callerAction])

example : ∃ s s', run demoCfg initial demoWait = some s ∧ s.callers 1 = .checking ∧ s.returned = [0, 1] ∧
    step demoCfg s (.check 1) = some s' ∧ s'.callers 1 = .idle ∧ Is (actions demoCfg initial demoWait) 25 (.finished 1) :=
  ⟨_, _, rfl, rfl, rfl, rfl, rfl, ⟨_, rfl, rfl⟩⟩

/-- **Violated**: the destruction of a task need not happen before `wait()` returns: the callable of a task which `wait()` waited for can be destroyed afterwards, concurrently with what the
waiting thread does next. -/
theorem C159_destroyed_after_wait_violated :
    ∃ (cfg : Cfg) (ls rest : List Label) (s s' s'' : State) (c t k : Nat), run cfg initial ls = some s ∧ s.callers c = .checking ∧
      step cfg s (.check c) = some s' ∧ s'.callers c = .idle ∧ t ∈ s.returned ∧ run cfg s' rest = some s'' ∧
      ls.length < k ∧ Is (actions cfg initial (ls ++ .check c :: rest)) k (.destroyed t) :=
  ⟨demoCfg, demoWait, [.wDestroy 0], _, _, _, 1, 1, _, rfl, rfl, rfl, rfl, by decide, rfl, (by decide : demoWait.length < 29), ⟨_, rfl, rfl⟩⟩

/-- **After destruction everything is visible**: when the destructor of the pool is done, every event of every task happens before its end, or is a step of the destructor itself. -/
theorem C159_destructor_visible (cfg : Cfg) (hcap : cfg.capacity < 2 ^ 64) (ls : List Label) (s : State)
    (h : run cfg initial ls = some s) (hb : s.next < 2 ^ 64) (hd : s.dtor = .done) (i : Nat) (e : Event) (hi : Is (actions cfg initial ls) i e) :
    ∃ k a, (actions cfg initial ls)[k]? = some a ∧ a.thread = .destroyer ∧ (i = k ∨ HB (actions cfg initial ls) i k) := by
  obtain ⟨g, ha, ho⟩ := order_reachable hcap h hb
  obtain ⟨a, h1, h2, h3, h3'⟩ := touches_of_is hi
  cases hth : a.thread with
  | worker w =>
    obtain ⟨hw, hk⟩ := ho.joined i a w h1 hth
    exact hk (by rw [hd]; exact Nat.zero_le _)
  | destroyer => exact ⟨i, a, h1, hth, .inl rfl⟩
  | caller c =>
    obtain ⟨t, rfl⟩ := h3' c hth
    have hm : Event.constructed t ∈ eventsOf t s.log := by
      rw [ho.log]
      refine List.mem_filter.2 ⟨List.mem_filterMap.2 ⟨a, List.mem_of_getElem? h1, h2⟩, by simp [Event.task]⟩
    have ht : t < s.next := by
      refine Classical.byContradiction fun hn => ?_
      have hl := ha.life t
      rw [(ha.loc.fresh t).2 (by omega)] at hl
      simp only [LifeAt] at hl
      rw [hl] at hm
      cases hm
    have hall := C35_all_destroyed cfg hcap ls s h hb hd t ht
    have hdm : Event.destroyed t ∈ s.log ∧ ¬[.destroyed t, .constructed t].Sublist (eventsOf t s.log) := by
      constructor
      · have : Event.destroyed t ∈ eventsOf t s.log := by
          generalize eventsOf t s.log = ev at *
          cases hall <;> simp
        exact (List.mem_filter.mp this).1
      · intro hs
        generalize eventsOf t s.log = ev at *
        cases hall <;> simp [List.sublist_cons_iff] at hs
    have hdl := hdm.1
    rw [ho.log, List.mem_filterMap] at hdl
    obtain ⟨b, hb', he⟩ := hdl
    obtain ⟨j, hj, hjb⟩ := List.getElem_of_mem hb'
    have hget : (actions cfg initial ls)[j]? = some b := by rw [List.getElem?_eq_some_iff]; exact ⟨hj, hjb⟩
    have hij : HB (actions cfg initial ls) i j := in_order hcap h hb hi ⟨b, hget, he⟩ rfl hdm.2 (by simp)
    have hkn : ∃ k a, (actions cfg initial ls)[k]? = some a ∧ a.thread = .destroyer ∧ (j = k ∨ HB (actions cfg initial ls) j k) := by
      cases hth' : b.thread with
      | worker w =>
        obtain ⟨hw, hk⟩ := ho.joined j b w hget hth'
        exact hk (by rw [hd]; exact Nat.zero_le _)
      | destroyer => exact ⟨j, b, hget, hth', .inl rfl⟩
      | caller c =>
        obtain ⟨b', h4, h5, h6, h7⟩ := touches_of_is ⟨b, hget, he⟩
        rw [hget] at h4
        obtain rfl := Option.some.inj h4
        obtain ⟨t', ht'⟩ := h7 c hth'
        cases ht'
    obtain ⟨k, a', hk1, hk2, hk3⟩ := hkn
    refine ⟨k, a', hk1, hk2, .inr ?_⟩
    rcases hk3 with rfl | hk3
    · exact hij
    · exact .trans hij hk3

example : ∃ s, run demoCfg initial demoDestroy = some s ∧ s.dtor = .done ∧ Is (actions demoCfg initial demoDestroy) 20 (.started 0 1) := ⟨_, rfl, rfl, ⟨_, rfl, rfl⟩⟩

end Verif.Props.PoolOrder
