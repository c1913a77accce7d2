import Verif.Proofs.StringLifetime5
import Verif.Props.StringParam
/-!
# C178: lifetimes of strings and views in `string_param`
-/
namespace Verif.Props.StringLifetime
open Verif.Spec.StringParam (Enc encode Text Obs Run)
open Verif.Spec.StringLifetime Verif.Model.StringLifetime Verif.Proofs.StringLifetime
open Verif.Props (Allowed GoodText)

/-- the history, as far as texts are concerned, has none of the operations shown undefined in C58 -/
def Fine (pl : List Spec.StringParam.Op) : Prop :=
  ∀ pre op post ts os, pl = pre ++ op :: post → Run [] pre os ts → op.valid ts.length ∧ Allowed ts op

/-- what is seen -/
def seenOf : Out → Obs
  | .nothing => .nothing
  | .bool b => .bool b
  | .text u => .text u
  | .view _ u => .text u

private theorem seenOf_eq : seenOf = obs := by funext y; cases y <;> rfl

/-- **C178 (partial)** In every history of a careful user, over sources and parameters that come and go, with any short-string size:
* no string or character is used after its end, or ended twice (the history is defined);
* what is seen at each operation is what the texts say (`Run` of C58);
* every character buffer that is alive belongs to a source that is alive or to exactly one parameter that is alive, and each string
  parameter has a buffer and a string object of its own.
Missing: the operations on texts shown undefined in C58 (`Fine`). -/
theorem C178_memory_partial (sso : Enc → Nat) (ops : List Op) (c : Known) (pl : List Spec.StringParam.Op)
    (hc : Known.init.run ops = some (c, pl)) (hf : Fine pl) :
    ∃ s outs os ts, State.init.run sso ops = some (s, outs) ∧ Run [] pl os ts ∧ outs.map seenOf = spread ops os ∧
      (∀ e b, s.mem.buf e b ≠ none → (∃ (k : Nat) (t : Text), s.sources[k]? = some (e, b) ∧ c.sources[k]? = some (e, t, true)) ∨
        ∃ i o, s.param i = some (some ⟨e, .string o b⟩)) ∧
      (∀ i e o b, s.param i = some (some ⟨e, .string o b⟩) → s.mem.buf e b ≠ none ∧ s.mem.object o = true ∧
        (e, b) ∉ s.sources ∧ ∀ j e' o' b', s.param j = some (some ⟨e', .string o' b'⟩) → (e', b') = (e, b) ∨ o' = o → j = i) := by
  obtain ⟨ps, os, ts, h1, h2⟩ := Props.C58_history_partial pl hf
  obtain ⟨s, ys, a1, a2, a3⟩ := run_ok sso ops Rel.init hc h1
  have up : ∀ {i e o b}, s.param i = some (some ⟨e, .string o b⟩) → tab s.params i = some ⟨e, .string o b⟩ := by
    intro i e o b h
    have h' : (s.params[i]?).bind id = some (some ⟨e, .string o b⟩) := h
    simp only [tab, h', Option.getD_some]
  have down : ∀ {i e b}, OwnsBuf (tab s.params i) e b → ∃ o, s.param i = some (some ⟨e, .string o b⟩) := by
    rintro i e b ⟨o, ho⟩
    refine ⟨o, ?_⟩
    simp only [tab, State.param] at ho ⊢
    cases hx : (s.params[i]?).bind id with
    | none => rw [hx] at ho; cases ho
    | some p => rw [hx] at ho; simp only [Option.getD_some] at ho; rw [ho]
  refine ⟨s, ys, os, ts, a1, h2, by rw [seenOf_eq]; exact a3, ?_, ?_⟩
  · intro e b hb
    rcases a2.own.leak e b hb with h | ⟨i, h⟩ | h
    · left
      obtain ⟨k, hk⟩ := List.getElem?_of_mem h
      obtain ⟨t, a, b1, b2⟩ := a2.src k e b hk
      cases a with
      | true => exact ⟨k, t, hk, b1⟩
      | false => exact absurd b2 hb
    · obtain ⟨o, ho⟩ := down h
      exact .inr ⟨i, o, ho⟩
    · cases h
  · intro i e o b h
    have ho : OwnsBuf (tab s.params i) e b := ⟨o, up h⟩
    have hoo : OwnsObj (tab s.params i) o := ⟨e, b, up h⟩
    refine ⟨a2.own.live i e b ho, a2.own.liveO i o hoo, a2.own.apart i e b ho, ?_⟩
    intro j e' o' b' hj hor
    rcases hor with heq | rfl
    · cases heq
      exact a2.own.bufs j i e b ⟨o', up hj⟩ ho
    · exact a2.own.objs j i o' ⟨e', b', up hj⟩ hoo

/-- **C178 (partial)** When everything the user made has ended, no characters remain. -/
theorem C178_no_leak_partial (sso : Enc → Nat) (ops : List Op) (c : Known) (pl : List Spec.StringParam.Op)
    (hc : Known.init.run ops = some (c, pl)) (hf : Fine pl) (hs : ∀ x ∈ c.sources, x.2.2 = false) (hp : ∀ x ∈ c.params, x = none) :
    ∃ s outs, State.init.run sso ops = some (s, outs) ∧ ∀ e b, s.mem.buf e b = none := by
  obtain ⟨ps, os, ts, h1, h2⟩ := Props.C58_history_partial pl hf
  obtain ⟨s, ys, a1, a2, a3⟩ := run_ok sso ops Rel.init hc h1
  refine ⟨s, ys, a1, ?_⟩
  intro e b
  by_contra hb
  rcases a2.own.leak e b hb with h | ⟨i, h⟩ | h
  · obtain ⟨k, hk⟩ := List.getElem?_of_mem h
    obtain ⟨t, a, b1, b2⟩ := a2.src k e b hk
    have := hs _ (List.mem_of_getElem? b1)
    simp only at this
    subst this
    exact hb b2
  · obtain ⟨o, ho⟩ := h
    simp only [tab] at ho
    cases hx : s.params[i]? with
    | none => rw [hx] at ho; cases ho
    | some p =>
      have hlt : i < c.params.length := by rw [← a2.len]; exact lt_of_get hx
      have hci := List.getElem?_eq_getElem hlt
      have := hp _ (List.mem_of_getElem? hci)
      rw [this] at hci
      have := a2.gone i hci
      rw [hx] at this
      cases this
      rw [hx] at ho; cases ho
  · cases h

/-- **C178 (partial)** A view a parameter gave still reads the same characters after any further operations of a careful user that are
not on that parameter, or ask for the same view or for emptiness. Missing: a request for another character type, which the user may think
as harmless (see `C178_view_violated`). -/
theorem C178_view_partial (sso : Enc → Nat) (before : List Op) (i : Nat) (e : Enc) (after : List Op) (c : Known) (pl : List Spec.StringParam.Op)
    (hc : Known.init.run (before ++ [.view i e] ++ after) = some (c, pl)) (hf : Fine pl) (hl : ∀ op ∈ after, op.leaves i e) :
    ∃ s outs w u s' outs', State.init.run sso (before ++ [.view i e]) = some (s, outs ++ [.view w u]) ∧
      s.run sso after = some (s', outs') ∧ s.mem.show w = some u ∧ s'.mem.show w = some u := by
  obtain ⟨ps, os, ts, h1, h2⟩ := Props.C58_history_partial pl hf
  obtain ⟨c2, pl2, pl3, k1, k2, rfl⟩ := known_append _ _ _ hc
  obtain ⟨c1, pl0, pl1, k3, k4, rfl⟩ := known_append _ _ _ k1
  obtain ⟨ps2, os2, os3, p1, p2, rfl⟩ := plain_append _ _ _ h1
  obtain ⟨ps1, os0, os1, p3, p4, rfl⟩ := plain_append _ _ _ p1
  obtain ⟨s1, y1, a1, a2, _⟩ := run_ok sso before Rel.init k3 p3
  obtain ⟨s2, y2, b1, b2, b3⟩ := run_ok sso [.view i e] a2 k4 p4
  have b1' := b1
  simp only [State.run, Option.bind_eq_some_iff, Option.map_eq_some_iff] at b1
  obtain ⟨⟨s3, y3⟩, d1, ⟨s4, y4⟩, d2, d3⟩ := b1
  cases d2
  simp only [Prod.mk.injEq] at d3
  obtain ⟨rfl, rfl⟩ := d3
  simp only [State.step, Option.bind_eq_some_iff, Option.map_eq_some_iff] at d1
  obtain ⟨p0, hp0, ⟨w, p', m'⟩, hv, u, hu, he⟩ := d1
  cases he
  have hlt : i < s1.params.length := by
    cases hx : s1.params[i]? with
    | none => simp [State.param, hx] at hp0
    | some _ => exact lt_of_get hx
  have hpi : (s1.set i p' m').params[i]? = some (some p') := List.getElem?_set_self hlt
  have hlc : i < c2.params.length := by rw [← b2.len]; exact lt_of_get hpi
  obtain ⟨br, hbr⟩ : ∃ br, c2.params[i]? = some (some br) := by
    have hx := List.getElem?_eq_getElem hlc
    cases hy : c2.params[i] with
    | none =>
      rw [hy] at hx
      have := b2.gone i hx
      rw [hpi] at this; cases this
    | some br => exact ⟨br, by rw [hx, hy]⟩
  obtain ⟨pp, q, e1, e2, e3⟩ := b2.par i br hbr
  rw [hpi] at e1
  cases e1
  obtain ⟨f1, f2⟩ := view_where hv e3
  obtain ⟨s5, y5, g1, g2, g3, g4⟩ := run_keeps sso f1 after b2 k2 p2 hl hpi e2 (sound_enc e3 f1)
  refine ⟨s1.set i p' m', y1, w, u, s5, y5, state_append sso _ _ a1 b1', g1, hu, ?_⟩
  have hlc5 : i < c.params.length := by rw [← g2.len]; exact lt_of_get g3
  obtain ⟨br5, hbr5⟩ : ∃ br, c.params[i]? = some (some br) := by
    have hx := List.getElem?_eq_getElem hlc5
    cases hy : c.params[i] with
    | none =>
      rw [hy] at hx
      have := g2.gone i hx
      rw [g3] at this; cases this
    | some br => exact ⟨br, by rw [hx, hy]⟩
  obtain ⟨pp, q', i1, i2, i3⟩ := g2.par i br5 hbr5
  rw [g3] at i1
  cases i1
  rw [g4] at i2
  cases i2
  cases p' with
  | none =>
    simp only [whereIs] at f2
    subst f2
    exact hu
  | some v =>
    simp only [whereIs] at f2
    obtain ⟨j1, j2⟩ := same_view e3 i3
    have e3' : Sound m' s1.sources br (some v) q := e3
    match q, e3' with
    | some x, ⟨uu, n1, _⟩ =>
      obtain ⟨w1, o1, _, _⟩ := asView_ok n1
      rw [o1] at f2
      subst f2
      rw [j2 w1 o1]
      exact hu

/-- **C178 (partial)** A view of a non-owning parameter in the character type of its source reads the same characters until the source
is freed, whatever happens to the parameter: it may be trimmed, moved, converted or destroyed. -/
theorem C178_source_view_partial (sso : Enc → Nat) (before : List Op) (i : Nat) (e : Enc) (after : List Op) (c c0 : Known)
    (pl pl0 : List Spec.StringParam.Op) (k : Nat) (t : Text) (alive : Bool)
    (hc : Known.init.run (before ++ [.view i e] ++ after) = some (c, pl)) (hf : Fine pl)
    (hc0 : Known.init.run before = some (c0, pl0)) (hk : c0.params[i]? = some (some (some k))) (hs : c0.sources[k]? = some (e, t, alive))
    (hn : .free k ∉ after) :
    ∃ s outs w u s' outs', State.init.run sso (before ++ [.view i e]) = some (s, outs ++ [.view w u]) ∧
      s.run sso after = some (s', outs') ∧ s.mem.show w = some u ∧ s'.mem.show w = some u := by
  obtain ⟨ps, os, ts, h1, h2⟩ := Props.C58_history_partial pl hf
  obtain ⟨c2, pl2, pl3, k1, k2, rfl⟩ := known_append _ _ _ hc
  obtain ⟨c1, pl0', pl1, k3, k4, rfl⟩ := known_append _ _ _ k1
  rw [hc0] at k3
  cases k3
  obtain ⟨ps2, os2, os3, p1, p2, rfl⟩ := plain_append _ _ _ h1
  obtain ⟨ps1, os0, os1, p3, p4, rfl⟩ := plain_append _ _ _ p1
  obtain ⟨s1, y1, a1, a2, _⟩ := run_ok sso before Rel.init hc0 p3
  obtain ⟨s2, y2, b1, b2, b3⟩ := run_ok sso [.view i e] a2 k4 p4
  obtain ⟨s5, y5, g1, g2, _⟩ := run_ok sso after b2 k2 p2
  have b1' := b1
  simp only [State.run, Option.bind_eq_some_iff, Option.map_eq_some_iff] at b1
  obtain ⟨⟨s3, y3⟩, d1, ⟨s4, y4⟩, d2, d3⟩ := b1
  cases d2
  simp only [Prod.mk.injEq] at d3
  obtain ⟨rfl, rfl⟩ := d3
  simp only [State.step, Option.bind_eq_some_iff, Option.map_eq_some_iff] at d1
  obtain ⟨p0, hp0, ⟨w, p', m'⟩, hv, u, hu, he⟩ := d1
  cases he
  refine ⟨s1.set i p' m', y1, w, u, s5, y5, state_append sso _ _ a1 b1', g1, hu, ?_⟩
  -- the parameter afterwards
  have kn : c2 = c0 := by
    simp only [Known.run, Known.step, hk, hs, if_true, Option.bind_some, Option.map_some, Option.some.injEq, Prod.mk.injEq] at k4
    exact k4.1.symm
  subst kn
  obtain ⟨pp, q, e1, e2, e3⟩ := b2.par i _ hk
  have hlt : i < s1.params.length := by
    cases hx : s1.params[i]? with
    | none => simp [State.param, hx] at hp0
    | some _ => exact lt_of_get hx
  have hpi : (s1.set i p' m').params[i]? = some (some p') := List.getElem?_set_self hlt
  rw [hpi] at e1
  cases e1
  obtain ⟨f1, f2⟩ := view_where hv e3
  cases p' with
  | none =>
    simp only [whereIs] at f2
    subst f2
    exact hu
  | some v =>
    obtain ⟨ve, st⟩ := v
    match q, e3 with
    | some x, ⟨uu, n1, n2, n3, n4, n5⟩ =>
      cases st with
      | string o b => exact absurd (n5 rfl) (by simp)
      | view b off len =>
        obtain ⟨k', hk', hsrc⟩ := n4 b off len rfl
        cases hk'
        simp only [whereIs, Mem.asView] at f2
        subst f2
        obtain ⟨t1, al1, q1, q2⟩ := b2.src k ve b hsrc
        have hs5 : s5.sources[k]? = some (ve, b) := by
          obtain ⟨tl, htl⟩ := state_run_sources after g1
          rw [← htl, List.getElem?_append_left (lt_of_get hsrc)]; exact hsrc
        obtain ⟨t2, al2, r1, r2⟩ := g2.src k ve b hs5
        have := known_run_sources after k2 q1 hn
        rw [this] at r1
        cases r1
        have : s5.mem.buf ve b = m'.buf ve b := by rw [r2]; exact q2.symm
        rw [← hu]
        simp only [Mem.show, Mem.read, this]

/-- **C178 is violated** for views: whenever an owning parameter has given a view and is then asked (as a constant) for its text in another
character type, the string the view refers to is destroyed, and reading the view is undefined. -/
theorem C178_view_violated (sso : Enc → Nat) (e e' : Enc) (t : Text) (hg : GoodText t) (ht : t ≠ []) (he : e ≠ e') :
    ∃ s y w u y' s', State.init.run sso [.fromString e t, .view 0 e] = some (s, [y, .view w u]) ∧ s.mem.show w = some u ∧
      s.step sso (.view 0 e') = some (s', y') ∧ s'.mem.show w = none := by
  have hne := Proofs.StringParam.encode_ne_nil e ht
  have hne' := Proofs.StringParam.encode_ne_nil e' ht
  have r1 : Model.StringParam.run [] [.construct e true t, .view 0 e] =
      some ([some ⟨e, true, encode e t⟩], [.nothing, .text ((encode e t).map BitVec.toNat)]) := by
    simp [Model.StringParam.run, Model.StringParam.step, init_ne hne, Model.StringParam.view, Model.StringParam.empty,
      Model.StringParam.visit, hne, Model.StringParam.getView]
  have r2 : Model.StringParam.step [some ⟨e, true, encode e t⟩] (.view 0 e') =
      some ([some ⟨e', true, encode e' t⟩], .text ((encode e' t).map BitVec.toNat)) := by
    simp [Model.StringParam.step, init_ne hne', Model.StringParam.view, Model.StringParam.empty,
      Model.StringParam.visit, hne, Model.StringParam.getView, he, Props.transcode_plain hg.1]
  have k1 : Known.init.run [.fromString e t, .view 0 e] = some (⟨[], [some none]⟩, [.construct e true t, .view 0 e]) := rfl
  obtain ⟨s, ys, a1, a2, a3⟩ := run_ok sso _ Rel.init k1 r1
  obtain ⟨s', y', b1, b2, b3⟩ := step_ok sso (op := .view 0 e') (c' := ⟨[], [some none]⟩) a2 rfl r2
  simp only [State.run, Option.bind_eq_some_iff, Option.map_eq_some_iff] at a1
  obtain ⟨⟨s1, y1⟩, c1, ⟨s2, y2⟩, ⟨⟨s3, y3⟩, c2, ⟨s4, y4⟩, c3, c4⟩, c5⟩ := a1
  cases c3
  cases c4
  cases c5
  simp only [State.step, Option.bind_eq_some_iff, Option.map_eq_some_iff] at c2
  obtain ⟨p0, hp0, ⟨w, p', m'⟩, hv, u, hu, hx⟩ := c2
  cases hx
  obtain ⟨pp, q, e1, e2, e3⟩ := a2.par 0 none rfl
  have hlt : 0 < s1.params.length := by
    cases hx : s1.params[0]? with
    | none => simp [State.param, hx] at hp0
    | some _ => exact lt_of_get hx
  have hpi : (s1.set 0 p' m').params[0]? = some (some p') := List.getElem?_set_self hlt
  rw [hpi] at e1
  cases e1
  cases e2
  obtain ⟨f1, f2⟩ := view_where hv e3
  refine ⟨s1.set 0 p' m', y1, w, u, y', s', ?_, hu, b1, ?_⟩
  · have hu' : m'.show w = some u := hu
    have hst : s1.step sso (.view 0 e) = some (s1.set 0 p' m', .view w u) := by
      simp only [State.step, hp0, Option.bind_some, hv, hu', Option.map_some]
    simp only [State.run, c1, Option.bind_some, hst, Option.map_some]
  · match p', e3 with
    | some ⟨ve, .view b off len⟩, ⟨uu, n1, n2, n3, n4, n5⟩ =>
      obtain ⟨k, hk, _⟩ := n4 b off len rfl
      cases hk
    | some ⟨ve, .string o b⟩, ⟨uu, n1, n2, n3, n4, n5⟩ =>
      have hve : ve = e := f1
      subst hve
      have hbuf : s'.mem.buf ve b = none := by
        by_contra hb
        have hsrc : s'.sources = [] := List.eq_nil_of_length_eq_zero b2.slen
        rcases b2.own.leak ve b hb with h | ⟨i, o', h⟩ | h
        · rw [hsrc] at h; cases h
        · have hl : s'.params.length = 1 := b2.len
          obtain ⟨p2, q2, g1, g2, g3⟩ := b2.par 0 none rfl
          cases g2
          have hi : i = 0 := by
            by_contra hc
            rw [tab_end _ (by omega)] at h; cases h
          subst hi
          rw [tab_at g1] at h
          subst h
          obtain ⟨uu', _, _, w3, _⟩ := g3
          injection w3 with w3
          exact he w3.symm
        · cases h
      have n1' : m'.content ⟨ve, .string o b⟩ = some uu := n1
      have f2' : m'.asView ⟨ve, .string o b⟩ = w := f2
      simp only [Mem.content] at n1'
      simp only [Mem.asView] at f2'
      split at n1'
      · rename_i hobj
        rw [if_pos hobj, n1', Option.map_some] at f2'
        subst f2'
        simp only [Mem.show, Mem.read, hbuf, Option.bind_none, Option.map_none]
      · cases n1'

/-- **C178 is violated** for destructors: a string parameter that is moved into a new one leaves a string object whose lifetime never ends
(the destructor is called for moves between parameters of the same kind only). -/
theorem C178_destroyed_violated (sso : Enc → Nat) (e : Enc) (t : Text) (ht : t ≠ []) :
    ∃ s outs, State.init.run sso [.fromString e t, .moveConstruct 0, .destroy 0, .destroy 1] = some (s, outs) ∧
      (∀ x ∈ s.params, x = none) ∧ s.mem.object 0 = true := by
  have hne := Proofs.StringParam.encode_ne_nil e ht
  by_cases hs : (encode e t).length ≤ sso e <;>
    simp [State.run, State.step, fromString, initString, State.init, Mem.init, Mem.alloc, Mem.moveBuffer, hne, hs, Mem.make,
      Mem.setBuf, Mem.setObject, endString, State.param, moveAssign, mode, clear, destructor]

/-! Concrete cases -/

/-- constructions from good text, views and emptiness checks of parameters there are -/
private def Simple : Nat → List Spec.StringParam.Op → Prop
  | _, [] => True
  | n, .construct _ _ t :: r => GoodText t ∧ Simple (n + 1) r
  | n, .view i _ :: r | n, .isEmpty i :: r => i < n ∧ Simple n r
  | _, _ => False

private theorem fine_simple : ∀ (pre : List Spec.StringParam.Op) (pl : List Spec.StringParam.Op) (ts0 : List Text), Simple ts0.length pl →
    ∀ op post ts os, pl = pre ++ op :: post → Run ts0 pre os ts → op.valid ts.length ∧ Allowed ts op
  | [], pl, ts0, h, op, post, ts, os, he, hr => by
    cases hr
    subst he
    match op, h with
    | .construct _ _ t, h => exact ⟨trivial, .inr h.1⟩
    | .view i _, h => exact ⟨h.1, trivial⟩
    | .isEmpty i, h => exact ⟨h.1, trivial⟩
  | x :: pre, pl, ts0, h, op, post, ts, os, he, hr => by
    subst he
    cases hr with
    | cons h1 hr =>
      match x, h, h1 with
      | .construct _ _ t, h, .construct _ _ _ _ => exact fine_simple pre _ _ (by simpa using h.2) op post ts _ rfl hr
      | .view i _, h, .view _ _ _ _ _ => exact fine_simple pre _ _ h.2 op post ts _ rfl hr
      | .isEmpty i, h, .isEmpty _ _ _ _ => exact fine_simple pre _ _ h.2 op post ts _ rfl hr

/-- " é€b " -/
private def txt : Text := [0x20, 0xE9, 0x20AC, 0x62, 0x20]

private theorem txt_good : GoodText txt :=
  ⟨⟨⟨by decide, by decide, by decide, by decide⟩, by decide, by decide, by decide⟩,
    Or.inr ⟨⟨by decide, by decide, by decide, by decide⟩, by decide, by decide, by decide⟩⟩

private def before : List Op := [.source .u16 txt, .fromView 0, .fromString .narrow txt]
private def rest : List Op := [.isEmpty 1, .view 1 .narrow, .view 0 .wide, .free 0, .destroy 0, .destroy 1]

private theorem before_careful : Known.init.run before =
    some (⟨[(.u16, txt, true)], [some (some 0), some none]⟩, [.construct .u16 false txt, .construct .narrow true txt]) := rfl

private theorem all_careful : Known.init.run (before ++ [.view 1 .narrow] ++ rest) =
    some (⟨[(.u16, txt, false)], [none, none]⟩,
      [.construct .u16 false txt, .construct .narrow true txt, .view 1 .narrow, .isEmpty 1, .view 1 .narrow, .view 0 .wide]) := rfl

private theorem all_fine : Fine [.construct .u16 false txt, .construct .narrow true txt, .view 1 .narrow, .isEmpty 1, .view 1 .narrow,
    .view 0 .wide] := by
  intro pre op post ts os he hr
  refine fine_simple pre _ [] ?_ op post ts os he hr
  exact ⟨txt_good, txt_good, by decide, by decide, by decide, by decide, trivial⟩

/-- sources and parameters that come and go: nothing is left -/
example (sso : Enc → Nat) : ∃ s outs, State.init.run sso (before ++ [.view 1 .narrow] ++ rest) = some (s, outs) ∧ ∀ e b, s.mem.buf e b = none :=
  C178_no_leak_partial sso _ _ _ all_careful all_fine (by decide) (by decide)

/-- the view of an owning parameter that is left alone -/
example (sso : Enc → Nat) : ∃ s outs w u s' outs', State.init.run sso (before ++ [.view 1 .narrow]) = some (s, outs ++ [.view w u]) ∧
    s.run sso [.isEmpty 1, .view 1 .narrow, .view 0 .wide, .free 0, .destroy 0] = some (s', outs') ∧
    s.mem.show w = some u ∧ s'.mem.show w = some u := by
  refine C178_view_partial sso before 1 .narrow _ ⟨[(.u16, txt, false)], [none, some none]⟩
    [.construct .u16 false txt, .construct .narrow true txt, .view 1 .narrow, .isEmpty 1, .view 1 .narrow, .view 0 .wide] rfl all_fine ?_
  intro op hop
  simp only [List.mem_cons, List.not_mem_nil, or_false] at hop
  rcases hop with rfl | rfl | rfl | rfl | rfl <;> simp [Op.leaves]

/-- the view of a borrowed source outlives the parameter -/
example (sso : Enc → Nat) : ∃ s outs w u s' outs', State.init.run sso (before ++ [.view 0 .u16]) = some (s, outs ++ [.view w u]) ∧
    s.run sso [.view 0 .wide, .destroy 0] = some (s', outs') ∧ s.mem.show w = some u ∧ s'.mem.show w = some u := by
  refine C178_source_view_partial sso before 0 .u16 _ ⟨[(.u16, txt, true)], [none, some none]⟩ _
    [.construct .u16 false txt, .construct .narrow true txt, .view 0 .u16, .view 0 .wide] _ 0 txt true rfl ?_ before_careful rfl rfl (by simp)
  intro pre op post ts os he hr
  refine fine_simple pre _ [] ?_ op post ts os he hr
  exact ⟨txt_good, txt_good, by decide, by decide, trivial⟩

end Verif.Props.StringLifetime
