import Verif.Proofs.StringLifetime4
/-! Views of string parameters over time (C178). -/
namespace Verif.Proofs.StringLifetime
open Verif.Spec.StringParam (Enc encode Text Obs)
open Verif.Spec.StringLifetime Verif.Model.StringLifetime

theorem plain_isSome {c : Known} {op c'} (h : c.step op = some c') : (c.plain op).isSome = true ∨ c.plain op = none ∧
    ∀ (ops : List Op) (os : List Obs), spread (op :: ops) os = .nothing :: spread ops os := by
  cases op with
  | fromView k =>
    simp only [Known.step] at h
    split at h
    · rename_i hk; simp [Known.plain, hk]
    · cases h
  | _ => simp [Known.plain, spread]

theorem spread_plain {c : Known} {op c'} (h : c.step op = some c') (hp : (c.plain op).isSome = true) (ops : List Op) (o : Obs) (os : List Obs) :
    spread (op :: ops) (o :: os) = o :: spread ops os := by
  cases op <;> simp [Known.plain] at hp <;> simp [spread]

theorem run_ok (sso : Enc → Nat) : ∀ (ops : List Op) {s : State} {c ps c' pl ps' os}, Rel s c ps → c.run ops = some (c', pl) →
    Model.StringParam.run ps pl = some (ps', os) →
    ∃ s' ys, s.run sso ops = some (s', ys) ∧ Rel s' c' ps' ∧ ys.map obs = spread ops os
  | [], s, c, ps, c', pl, ps', os, h, hc, hp => by
    cases hc; cases hp
    exact ⟨s, [], rfl, h, rfl⟩
  | op :: ops, s, c, ps, c', pl, ps', os, h, hc, hp => by
    simp only [Known.run, Option.bind_eq_some_iff, Option.map_eq_some_iff] at hc
    obtain ⟨c1, hc1, ⟨c2, pl2⟩, hc2, he⟩ := hc
    cases he
    rcases plain_isSome hc1 with hsome | ⟨hnone, hsp⟩
    · obtain ⟨o, ho⟩ := Option.isSome_iff_exists.mp hsome
      rw [ho] at hp
      simp only [Option.toList_some, List.cons_append, List.nil_append, Model.StringParam.run, Option.bind_eq_some_iff,
        Option.map_eq_some_iff] at hp
      obtain ⟨⟨ps1, x⟩, hp1, ⟨ps2, os2⟩, hp2, he⟩ := hp
      cases he
      obtain ⟨s1, y, a1, a2, a3⟩ := step_ok sso h hc1 (by rw [ho]; exact hp1)
      obtain ⟨s2, ys, b1, b2, b3⟩ := run_ok sso ops a2 hc2 hp2
      refine ⟨s2, y :: ys, by simp only [State.run, a1, b1, Option.bind_some, Option.map_some], b2, ?_⟩
      rw [spread_plain hc1 hsome, List.map_cons, a3, b3]
    · rw [hnone] at hp
      simp only [Option.toList_none, List.nil_append] at hp
      obtain ⟨s1, y, a1, a2, a3⟩ := step_ok sso (x := .nothing) h hc1 (by rw [hnone]; rfl)
      obtain ⟨s2, ys, b1, b2, b3⟩ := run_ok sso ops a2 hc2 hp
      refine ⟨s2, y :: ys, by simp only [State.run, a1, b1, Option.bind_some, Option.map_some], b2, ?_⟩
      rw [hsp, List.map_cons, a3, b3]

theorem known_append : ∀ (xs ys : List Op) (c : Known) {c2 pl}, c.run (xs ++ ys) = some (c2, pl) →
    ∃ c1 pl1 pl2, c.run xs = some (c1, pl1) ∧ c1.run ys = some (c2, pl2) ∧ pl = pl1 ++ pl2
  | [], ys, c, c2, pl, h => ⟨c, [], pl, rfl, h, rfl⟩
  | x :: xs, ys, c, c2, pl, h => by
    simp only [List.cons_append, Known.run, Option.bind_eq_some_iff, Option.map_eq_some_iff] at h
    obtain ⟨c1, hc1, ⟨c3, pl3⟩, hc2, he⟩ := h
    cases he
    obtain ⟨c4, p1, p2, e1, e2, rfl⟩ := known_append xs ys c1 hc2
    exact ⟨c4, (c.plain x).toList ++ p1, p2, by simp only [Known.run, hc1, e1, Option.bind_some, Option.map_some], e2, by simp⟩

theorem plain_append : ∀ (xs ys : List Spec.StringParam.Op) (ps : List Plain) {ps2 os}, Model.StringParam.run ps (xs ++ ys) = some (ps2, os) →
    ∃ ps1 os1 os2, Model.StringParam.run ps xs = some (ps1, os1) ∧ Model.StringParam.run ps1 ys = some (ps2, os2) ∧ os = os1 ++ os2
  | [], ys, ps, ps2, os, h => ⟨ps, [], os, rfl, h, rfl⟩
  | x :: xs, ys, ps, ps2, os, h => by
    simp only [List.cons_append, Model.StringParam.run, Option.bind_eq_some_iff, Option.map_eq_some_iff] at h
    obtain ⟨⟨c1, o1⟩, hc1, ⟨c3, pl3⟩, hc2, he⟩ := h
    cases he
    obtain ⟨c4, p1, p2, e1, e2, rfl⟩ := plain_append xs ys c1 hc2
    exact ⟨c4, o1 :: p1, p2, by simp only [Model.StringParam.run, hc1, e1, Option.bind_some, Option.map_some], e2, by simp⟩

theorem state_append (sso : Enc → Nat) : ∀ (xs ys : List Op) {s s1 s2 : State} {o1 o2}, s.run sso xs = some (s1, o1) →
    s1.run sso ys = some (s2, o2) → s.run sso (xs ++ ys) = some (s2, o1 ++ o2)
  | [], ys, s, s1, s2, o1, o2, h, h' => by cases h; exact h'
  | x :: xs, ys, s, s1, s2, o1, o2, h, h' => by
    simp only [State.run, Option.bind_eq_some_iff, Option.map_eq_some_iff] at h
    obtain ⟨⟨c1, y⟩, hc1, ⟨c3, pl3⟩, hc2, he⟩ := h
    cases he
    simp only [List.cons_append, State.run, hc1, Option.bind_some, state_append sso xs ys hc2 h', Option.map_some]

/-- the parameter says where its view in `e` is -/
def InEnc (e : Enc) : Param → Prop
  | none => True
  | some v => v.e = e

def whereIs (m : Mem) : Param → Option View
  | none => none
  | some v => m.asView v

theorem view_where {sso : Enc → Nat} {m e p w p' m' br srcs q'} (h : view sso m e p = some (w, p', m')) (hs : Sound m' srcs br p' q') :
    InEnc e p' ∧ whereIs m' p' = w := by
  simp only [view, Option.bind_eq_some_iff] at h
  obtain ⟨b, hb, h⟩ := h
  cases b with
  | true =>
    simp only [if_true, Option.some.injEq, Prod.mk.injEq] at h
    obtain ⟨rfl, rfl, rfl⟩ := h
    match p, q', hs with
    | none, none, _ => exact ⟨trivial, rfl⟩
    | some v, some x, ⟨u, h1, h2, h3, h4, h5⟩ =>
      obtain ⟨y, a1, a2, a3⟩ := asView_ok h1
      simp only [empty, a1, Option.map_some, a2, Option.some.injEq, beq_iff_eq, List.length_eq_zero_iff] at hb
      exact absurd hb h2
  | false =>
    simp only [Bool.false_eq_true, if_false, Option.map_eq_some_iff] at h
    obtain ⟨⟨w1, p1, m1⟩, h, he⟩ := h
    cases he
    cases p with
    | none => cases h
    | some v =>
      simp only [getView] at h
      split at h
      · rename_i hve
        rw [Option.map_eq_some_iff] at h
        obtain ⟨x, hx, he⟩ := h
        cases he
        exact ⟨hve, hx⟩
      · simp only [Option.bind_eq_some_iff] at h
        obtain ⟨u, _, new, _, m2, _, ⟨n, m3⟩, hn, h⟩ := h
        cases n with
        | none => cases h
        | some n =>
          simp only [Option.map_eq_some_iff] at h
          obtain ⟨x, hx, he⟩ := h
          cases he
          refine ⟨?_, hx⟩
          simp only [initString, Option.bind_eq_some_iff] at hn
          obtain ⟨u', _, hn⟩ := hn
          split at hn
          · cases hn
          · rw [Option.map_eq_some_iff] at hn
            obtain ⟨_, _, he⟩ := hn
            cases he
            rfl

/-- with the same parameter and the same text, the view is the same and reads the same -/
theorem same_view {m m' : Mem} {srcs srcs' br br' v q} (h : Sound m srcs br (some v) q) (h' : Sound m' srcs' br' (some v) q) :
    m'.asView v = m.asView v ∧ ∀ w, m.asView v = some w → m'.show (some w) = m.show (some w) := by
  match q, h, h' with
  | some x, ⟨u, h1, h2, h3, h4, h5⟩, ⟨u', h1', h2', h3', _, _⟩ =>
    subst h3
    have hu : u = u' := by injection h3'
    subst hu
    have hq : m'.asView v = m.asView v := by
      obtain ⟨e, st⟩ := v
      cases st with
      | view b off len => rfl
      | string o b =>
        simp only [Mem.content] at h1 h1'
        split at h1
        · split at h1'
          · simp only [Mem.asView, *]
          · cases h1'
        · cases h1
    refine ⟨hq, ?_⟩
    intro w hw
    obtain ⟨w1, a1, _, a3⟩ := asView_ok h1
    obtain ⟨w2, b1, _, b3⟩ := asView_ok h1'
    rw [hw] at a1
    rw [hq, hw] at b1
    cases a1; cases b1
    rw [a3, b3]

theorem state_keeps {sso : Enc → Nat} {s : State} {op s' y i e p} (h : s.step sso op = some (s', y)) (hl : op.leaves i e)
    (hi : s.params[i]? = some (some p)) (hp : InEnc e p) : s'.params[i]? = some (some p) := by
  have hlt := lt_of_get hi
  cases op with
  | source e t => cases h; exact hi
  | free k =>
    simp only [State.step, Option.bind_eq_some_iff, Option.map_eq_some_iff] at h
    obtain ⟨_, _, _, _, he⟩ := h
    cases he; exact hi
  | default => cases h; exact (List.getElem?_append_left hlt).trans hi
  | fromView k =>
    simp only [State.step, Option.bind_eq_some_iff, Option.map_eq_some_iff] at h
    obtain ⟨_, _, _, _, he⟩ := h
    cases he; exact (List.getElem?_append_left hlt).trans hi
  | fromString e t =>
    simp only [State.step, Option.map_eq_some_iff] at h
    obtain ⟨_, _, he⟩ := h
    cases he; exact (List.getElem?_append_left hlt).trans hi
  | moveConstruct j =>
    simp only [State.step, Option.bind_eq_some_iff, Option.map_eq_some_iff] at h
    obtain ⟨_, _, _, _, he⟩ := h
    cases he
    rw [List.getElem?_append_left (by simpa using hlt), List.getElem?_set_ne hl]; exact hi
  | moveAssign j k =>
    simp only [State.step, Option.bind_eq_some_iff] at h
    obtain ⟨_, _, _, _, h⟩ := h
    split at h
    · cases h; exact hi
    · rw [Option.map_eq_some_iff] at h
      obtain ⟨_, _, he⟩ := h
      cases he
      rw [List.getElem?_set_ne hl.2, List.getElem?_set_ne hl.1]; exact hi
  | view j e' =>
    simp only [State.step, Option.bind_eq_some_iff, Option.map_eq_some_iff] at h
    obtain ⟨p1, hp1, ⟨w, q, m⟩, hv, t, ht, he⟩ := h
    cases he
    by_cases hj : j = i
    · subst hj
      have he' : e' = e := by
        rcases hl with hl | hl
        · exact absurd rfl hl
        · exact hl
      subst he'
      have : p1 = p := by
        simp only [State.param, hi, Option.bind_some, id, Option.some.injEq] at hp1; exact hp1.symm
      subst this
      have : q = p1 := by
        simp only [view, Option.bind_eq_some_iff] at hv
        obtain ⟨b, _, hv⟩ := hv
        split at hv
        · cases hv; rfl
        · rw [Option.map_eq_some_iff] at hv
          obtain ⟨⟨w1, p1', m1⟩, hv, he⟩ := hv
          cases he
          cases p1 with
          | none => cases hv
          | some v =>
            simp only [getView, if_pos (show v.e = e' from hp), Option.map_eq_some_iff] at hv
            obtain ⟨_, _, he⟩ := hv
            cases he; rfl
      subst this
      exact List.getElem?_set_self hlt
    · exact (List.getElem?_set_ne hj).trans hi
  | toString j e' =>
    simp only [State.step, Option.bind_eq_some_iff, Option.map_eq_some_iff] at h
    obtain ⟨_, _, _, _, he⟩ := h
    cases he
    exact (List.getElem?_set_ne hl).trans hi
  | trim j =>
    simp only [State.step, Option.bind_eq_some_iff, Option.map_eq_some_iff] at h
    obtain ⟨_, _, _, _, he⟩ := h
    cases he
    exact (List.getElem?_set_ne hl).trans hi
  | isEmpty j =>
    simp only [State.step, Option.bind_eq_some_iff, Option.map_eq_some_iff] at h
    obtain ⟨_, _, _, _, he⟩ := h
    cases he; exact hi
  | destroy j =>
    simp only [State.step, Option.bind_eq_some_iff, Option.map_eq_some_iff] at h
    obtain ⟨_, _, _, _, he⟩ := h
    cases he
    exact (List.getElem?_set_ne hl).trans hi

def InEncP (e : Enc) : Plain → Prop
  | none => True
  | some v => v.e = e

theorem plain_keeps {c : Known} {op} {ps ps' : List Plain} {x i e q} (h : plainStep ps (c.plain op) = some (ps', x)) (hl : op.leaves i e)
    (hi : ps[i]? = some q) (hp : InEncP e q) (hc : (c.step op).isSome = true) : ps'[i]? = some q := by
  have hlt := lt_of_get hi
  cases op with
  | source e t => cases h; exact hi
  | free k => cases h; exact hi
  | destroy k => cases h; exact hi
  | default => cases h; exact (List.getElem?_append_left hlt).trans hi
  | fromView k =>
    simp only [Known.plain] at h
    cases hk : c.sources[k]? with
    | none => rw [hk] at h; cases h; exact hi
    | some y => rw [hk] at h; cases h; exact (List.getElem?_append_left hlt).trans hi
  | fromString e t => cases h; exact (List.getElem?_append_left hlt).trans hi
  | moveConstruct j =>
    simp only [Known.plain, plainStep, Model.StringParam.step, Option.bind_eq_some_iff, Option.map_eq_some_iff] at h
    obtain ⟨_, _, _, _, he⟩ := h
    cases he
    rw [List.getElem?_append_left (by simpa using hlt), List.getElem?_set_ne hl]; exact hi
  | moveAssign j k =>
    simp only [Known.plain, plainStep, Model.StringParam.step] at h
    split at h
    · split at h
      · cases h; exact hi
      · cases h
    · simp only [Option.bind_eq_some_iff, Option.map_eq_some_iff] at h
      obtain ⟨_, _, _, _, _, _, he⟩ := h
      cases he
      rw [List.getElem?_set_ne hl.2, List.getElem?_set_ne hl.1]; exact hi
  | view j e' =>
    simp only [Known.plain, plainStep, Model.StringParam.step, Option.bind_eq_some_iff, Option.map_eq_some_iff] at h
    obtain ⟨p1, hp1, ⟨t, q'⟩, hv, he⟩ := h
    cases he
    by_cases hj : j = i
    · subst hj
      have he' : e' = e := by
        rcases hl with hl | hl
        · exact absurd rfl hl
        · exact hl
      subst he'
      rw [hi] at hp1
      cases hp1
      have : q' = q := by
        simp only [Model.StringParam.view, Option.bind_eq_some_iff] at hv
        obtain ⟨b, _, hv⟩ := hv
        split at hv
        · cases hv; rfl
        · cases q with
          | none => cases hv
          | some v =>
            simp only [Model.StringParam.getView, Model.StringParam.visit, if_pos (show v.e = e' from hp)] at hv
            cases hv; rfl
      subst this
      exact List.getElem?_set_self hlt
    · exact (List.getElem?_set_ne hj).trans hi
  | toString j e' =>
    simp only [Known.plain, plainStep, Model.StringParam.step, Option.bind_eq_some_iff, Option.map_eq_some_iff] at h
    obtain ⟨_, _, _, _, he⟩ := h
    cases he
    exact (List.getElem?_set_ne hl).trans hi
  | trim j =>
    simp only [Known.plain, plainStep, Model.StringParam.step, Option.bind_eq_some_iff, Option.map_eq_some_iff] at h
    obtain ⟨_, _, _, _, he⟩ := h
    cases he
    exact (List.getElem?_set_ne hl).trans hi
  | isEmpty j =>
    simp only [Known.plain, plainStep, Model.StringParam.step, Option.bind_eq_some_iff, Option.map_eq_some_iff] at h
    obtain ⟨_, _, _, _, he⟩ := h
    cases he; exact hi

theorem sound_enc {m srcs br p q e} (h : Sound m srcs br p q) (hp : InEnc e p) : InEncP e q := by
  match p, q, h with
  | none, none, _ => trivial
  | some v, some w, ⟨u, h1, h2, h3, h4, h5⟩ => subst h3; exact hp

/-- nothing changes for a parameter that is left alone -/
theorem run_keeps (sso : Enc → Nat) {i e p q} (hp : InEnc e p) : ∀ (ops : List Op) {s : State} {c ps c' pl ps' os}, Rel s c ps →
    c.run ops = some (c', pl) → Model.StringParam.run ps pl = some (ps', os) → (∀ op ∈ ops, op.leaves i e) →
    s.params[i]? = some (some p) → ps[i]? = some q → InEncP e q →
    ∃ s' ys, s.run sso ops = some (s', ys) ∧ Rel s' c' ps' ∧ s'.params[i]? = some (some p) ∧ ps'[i]? = some q
  | [], s, c, ps, c', pl, ps', os, h, hc, hpl, _, hi, hq, _ => by
    cases hc; cases hpl
    exact ⟨s, [], rfl, h, hi, hq⟩
  | op :: ops, s, c, ps, c', pl, ps', os, h, hc, hpl, hl, hi, hq, hqe => by
    simp only [Known.run, Option.bind_eq_some_iff, Option.map_eq_some_iff] at hc
    obtain ⟨c1, hc1, ⟨c2, pl2⟩, hc2, he⟩ := hc
    cases he
    obtain ⟨ps1, x, os2, hp1, hp2⟩ : ∃ ps1 x os2, plainStep ps (c.plain op) = some (ps1, x) ∧ Model.StringParam.run ps1 pl2 = some (ps', os2) := by
      cases ho : c.plain op with
      | none =>
        rw [ho] at hpl
        exact ⟨ps, .nothing, os, rfl, by simpa using hpl⟩
      | some o =>
        rw [ho] at hpl
        simp only [Option.toList_some, List.cons_append, List.nil_append, Model.StringParam.run, Option.bind_eq_some_iff,
          Option.map_eq_some_iff] at hpl
        obtain ⟨⟨ps1, x⟩, hp1, ⟨ps2, os2⟩, hp2, he⟩ := hpl
        cases he
        exact ⟨ps1, x, os2, hp1, hp2⟩
    obtain ⟨s1, y, a1, a2, a3⟩ := step_ok sso h hc1 hp1
    have hl0 := hl op (by simp)
    obtain ⟨s2, ys, b1, b2, b3, b4⟩ := run_keeps sso hp ops a2 hc2 hp2 (fun o ho => hl o (by simp [ho])) (state_keeps a1 hl0 hi hp)
      (plain_keeps hp1 hl0 hq hqe (by simp [hc1])) hqe
    exact ⟨s2, y :: ys, by simp only [State.run, a1, b1, Option.bind_some, Option.map_some], b2, b3, b4⟩

theorem known_sources {c : Known} {op c' k x} (h : c.step op = some c') (hk : c.sources[k]? = some x) (hf : ∀ j, op = .free j → j ≠ k) :
    c'.sources[k]? = some x := by
  have hlt := lt_of_get hk
  cases op with
  | source e t => cases h; exact (List.getElem?_append_left hlt).trans hk
  | free j =>
    simp only [Known.step] at h
    split at h
    · split at h
      · cases h
      · cases h; exact (List.getElem?_set_ne (hf j rfl)).trans hk
    · cases h
  | default => cases h; exact hk
  | fromString => cases h; exact hk
  | fromView | moveConstruct | toString | trim | isEmpty | destroy =>
    simp only [Known.step] at h
    split at h
    · cases h; exact hk
    · cases h
  | moveAssign =>
    simp only [Known.step] at h
    split at h
    · split at h <;> (cases h; exact hk)
    · cases h
  | view =>
    simp only [Known.step] at h
    split at h
    · split at h
      · split at h <;> (cases h; exact hk)
      · cases h
    · cases h; exact hk
    · cases h

theorem known_run_sources {k x} : ∀ (ops : List Op) {c c' : Known} {pl}, c.run ops = some (c', pl) → c.sources[k]? = some x →
    .free k ∉ ops → c'.sources[k]? = some x
  | [], c, c', pl, h, hk, _ => by cases h; exact hk
  | op :: ops, c, c', pl, h, hk, hf => by
    simp only [Known.run, Option.bind_eq_some_iff, Option.map_eq_some_iff] at h
    obtain ⟨c1, hc1, ⟨c2, pl2⟩, hc2, he⟩ := h
    cases he
    simp only [List.mem_cons, not_or] at hf
    refine known_run_sources ops hc2 (known_sources hc1 hk ?_) hf.2
    rintro j rfl rfl
    exact hf.1 rfl

theorem state_sources {sso : Enc → Nat} {s : State} {op s' y} (h : s.step sso op = some (s', y)) : s.sources <+: s'.sources := by
  cases op with
  | source e t => cases h; exact List.prefix_append _ _
  | default => cases h; exact List.prefix_refl _
  | fromString =>
    simp only [State.step, Option.map_eq_some_iff] at h
    obtain ⟨_, _, he⟩ := h
    cases he; exact List.prefix_refl _
  | free | fromView | moveConstruct | toString | trim | isEmpty | destroy =>
    simp only [State.step, Option.bind_eq_some_iff, Option.map_eq_some_iff] at h
    obtain ⟨_, _, _, _, he⟩ := h
    cases he; exact List.prefix_refl _
  | view =>
    simp only [State.step, Option.bind_eq_some_iff, Option.map_eq_some_iff] at h
    obtain ⟨_, _, _, _, _, _, he⟩ := h
    cases he; exact List.prefix_refl _
  | moveAssign j k =>
    simp only [State.step, Option.bind_eq_some_iff] at h
    obtain ⟨_, _, _, _, h⟩ := h
    split at h
    · cases h; exact List.prefix_refl _
    · rw [Option.map_eq_some_iff] at h
      obtain ⟨_, _, he⟩ := h
      cases he; exact List.prefix_refl _

theorem state_run_sources {sso : Enc → Nat} : ∀ (ops : List Op) {s s' : State} {ys}, s.run sso ops = some (s', ys) → s.sources <+: s'.sources
  | [], s, s', ys, h => by cases h; exact List.prefix_refl _
  | op :: ops, s, s', ys, h => by
    simp only [State.run, Option.bind_eq_some_iff, Option.map_eq_some_iff] at h
    obtain ⟨⟨c1, y⟩, hc1, ⟨c3, pl3⟩, hc2, he⟩ := h
    cases he
    exact (state_sources hc1).trans (state_run_sources ops hc2)

end Verif.Proofs.StringLifetime
