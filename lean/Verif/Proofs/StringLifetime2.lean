import Verif.Proofs.StringLifetime
import Mathlib.Tactic.Cases
/-! The operations of string parameters with memory, and those without (C178). -/
namespace Verif.Proofs.StringLifetime
open Verif.Spec.StringParam (Enc encode Text)
open Verif.Spec.StringLifetime Verif.Model.StringLifetime
open Verif.Model (StringParam.Val StringParam.transcode StringParam.trimUnits)

abbrev Plain := Model.StringParam.Param

def isString : Store → Bool
  | .string .. => true
  | .view .. => false

/-- a parameter with memory has what the one without says -/
def Sound (m : Mem) (srcs : List (Enc × Nat)) (br : Option Nat) : Param → Plain → Prop
  | none, none => True
  | some v, some w => ∃ u, m.content v = some u ∧ u ≠ [] ∧ w = ⟨v.e, isString v.store, u⟩ ∧
      (∀ b off len, v.store = .view b off len → ∃ k, br = some k ∧ srcs[k]? = some (v.e, b)) ∧ (isString v.store = true → br = none)
  | _, _ => False

theorem Sound.frame {m m' : Mem} {srcs br p q} (h : Sound m srcs br p q)
    (hb : ∀ e b, OwnsBuf p e b → m'.buf e b = m.buf e b) (ho : ∀ o, OwnsObj p o → m'.object o = true)
    (hs : ∀ k e b, br = some k → srcs[k]? = some (e, b) → m'.buf e b = m.buf e b) : Sound m' srcs br p q := by
  match p, q, h with
  | none, none, _ => trivial
  | some ⟨e, .string o b⟩, some w, ⟨u, h1, h2, h3, h4, h5⟩ =>
    refine ⟨u, ?_, h2, h3, h4, h5⟩
    simp only [Mem.content] at h1 ⊢
    split at h1
    · rw [if_pos (ho o ⟨e, b, rfl⟩), hb e b ⟨o, rfl⟩]; exact h1
    · cases h1
  | some ⟨e, .view b off len⟩, some w, ⟨u, h1, h2, h3, h4, h5⟩ =>
    refine ⟨u, ?_, h2, h3, h4, h5⟩
    obtain ⟨k, hk, hk2⟩ := h4 b off len rfl
    simp only [Mem.content, Mem.read] at h1 ⊢
    rw [hs k e b hk hk2]; exact h1

theorem Sound.mode {m srcs br p q} (h : Sound m srcs br p q) : mode p = Model.StringParam.mode q := by
  match p, q, h with
  | none, none, _ => rfl
  | some ⟨e, .string o b⟩, some w, ⟨u, _, _, h3, _, _⟩ => subst h3; rfl
  | some ⟨e, .view b off len⟩, some w, ⟨u, _, _, h3, _, _⟩ => subst h3; rfl

/-- what may not change, except for the parameters in `C` -/
structure Keep (m m' : Mem) (srcs : List (Enc × Nat)) (g : Table) (C : Nat → Prop) : Prop where
  src : ∀ e b, (e, b) ∈ srcs → m'.buf e b = m.buf e b
  buf : ∀ k, ¬ C k → ∀ e b, OwnsBuf (g k) e b → m'.buf e b = m.buf e b
  obj : ∀ k, ¬ C k → ∀ o, OwnsObj (g k) o → m'.object o = true

variable {m : Mem} {srcs : List (Enc × Nat)} {g : Table} {T : List (Enc × Nat)}

theorem Own.keep (h : Own m srcs g T) (C) : Keep m m srcs g C := ⟨fun _ _ _ => rfl, fun _ _ _ _ _ => rfl, fun k _ o ho => h.liveO k o ho⟩

theorem Keep.sound {m' C i br q} (h : Keep m m' srcs g C) (hi : ¬ C i) (hs : Sound m srcs br (g i) q) : Sound m' srcs br (g i) q :=
  hs.frame (h.buf i hi) (h.obj i hi) fun k e b _ hk => h.src e b (List.mem_of_getElem? hk)

theorem asView_ok {v : Val} {u} (h : m.content v = some u) :
    ∃ w, m.asView v = some w ∧ w.len = u.length ∧ m.show (some w) = some (u.map BitVec.toNat) := by
  obtain ⟨e, st⟩ := v
  cases st with
  | string o b =>
    simp only [Mem.content] at h
    split at h
    · rename_i ho
      refine ⟨⟨e, b, 0, u.length⟩, by simp [Mem.asView, ho, h], rfl, ?_⟩
      simp [Mem.show, Mem.read, h]
    · cases h
  | view b off len =>
    simp only [Mem.content] at h
    refine ⟨⟨e, b, off, len⟩, rfl, ?_, by simp only [Mem.show, h, Option.map_some]⟩
    simp only [Mem.read] at h
    cases hb : m.buf e b with
    | none => rw [hb] at h; cases h
    | some x =>
      rw [hb] at h
      simp only [Option.bind_some] at h
      split at h
      · rename_i hl
        have := congrArg List.length (Option.some.inj h)
        simp only [List.length_take, List.length_drop] at this hl ⊢
        omega
      · cases h

theorem empty_ok {br p q} (h : Sound m srcs br p q) : empty m p = Model.StringParam.empty q := by
  match p, q, h with
  | none, none, _ => rfl
  | some v, some w, ⟨u, h1, h2, h3, _, _⟩ =>
    obtain ⟨x, a1, a2, _⟩ := asView_ok h1
    subst h3
    simp only [empty, a1, Option.map_some, a2, Model.StringParam.empty, Model.StringParam.visit]
    cases u <;> rfl

theorem init_nil (e o) : Model.StringParam.init e o [] = none := rfl

theorem init_ne {e o u} (h : u ≠ []) : Model.StringParam.init e o u = some ⟨e, o, u⟩ := by
  unfold Model.StringParam.init; rw [if_neg (by simpa using h)]

theorem view_ok (sso : Enc → Nat) {i p q e br t q'} (h : Own m srcs g []) (hg : g i = p) (hs : Sound m srcs br p q)
    (hv : Model.StringParam.view e q = some (t, q')) :
    ∃ w p' m', view sso m e p = some (w, p', m') ∧ m'.show w = some t ∧ Own m' srcs (upd g i p') [] ∧ Keep m m' srcs g (· = i) ∧
      ∀ br', (br' = br ∧ (∀ v, p = some v → br ≠ none → v.e = e)) ∨ (br' = none ∧ ∀ b off len, p ≠ some ⟨e, .view b off len⟩) →
        Sound m' srcs br' p' q' := by
  match p, q, hs with
  | none, none, _ =>
    have : t = [] ∧ q' = none := by
      simp [Model.StringParam.view, Model.StringParam.empty] at hv; exact ⟨hv.1, hv.2.symm⟩
    obtain ⟨rfl, rfl⟩ := this
    exact ⟨none, none, m, rfl, rfl, by rw [← hg, upd_self]; exact h, h.keep _, fun _ _ => trivial⟩
  | some v, some w, ⟨u, h1, h2, h3, h4, h5⟩ =>
    obtain ⟨x, a1, a2, a3⟩ := asView_ok h1
    have he : empty m (some v) = some false := by
      simp only [empty, a1, Option.map_some, a2]
      cases u with
      | nil => exact absurd rfl h2
      | cons => rfl
    subst h3
    have hv' : Model.StringParam.getView e (some ⟨v.e, isString v.store, u⟩) = some (t, q') := by
      simpa [Model.StringParam.view, Model.StringParam.empty, Model.StringParam.visit, h2] using hv
    simp only [view, he, Option.bind_some, Bool.false_eq_true, if_false]
    unfold Model.StringParam.getView Model.StringParam.visit at hv'
    unfold getView
    by_cases hve : v.e = e
    · simp only [hve, if_true, Option.some.injEq, Prod.mk.injEq] at hv'
      obtain ⟨rfl, rfl⟩ := hv'
      refine ⟨some x, some v, m, by simp [hve, a1], a3, by rw [← hg, upd_self]; exact h, h.keep _, ?_⟩
      intro br' hbr
      refine ⟨u, h1, h2, rfl, ?_, ?_⟩
      · intro b off len hst
        rcases hbr with ⟨rfl, _⟩ | ⟨_, hbr⟩
        · exact h4 b off len hst
        · exact absurd (by rw [← hve, ← hst]) (hbr b off len)
      · intro hst
        rcases hbr with ⟨rfl, _⟩ | ⟨hbr, _⟩
        · exact h5 hst
        · exact hbr
    · simp only [hve, if_false] at hv' ⊢
      rw [h1, Option.bind_some]
      cases htr : Model.StringParam.transcode v.e e u with
      | none => rw [htr] at hv'; cases hv'
      | some new =>
        rw [htr, Option.bind_some] at hv'
        have hne : new ≠ [] := by
          rintro rfl; rw [init_nil] at hv'; cases hv'
        rw [init_ne hne] at hv'
        simp only [Option.some.injEq, Prod.mk.injEq] at hv'
        obtain ⟨rfl, rfl⟩ := hv'
        obtain ⟨b1, b2⟩ := h.alloc e new
        obtain ⟨m2, c1, c2, c3, c4, c5, c6⟩ := b1.destructor hg
        have hbuf : m2.buf e m.next = some new := by
          rw [c5 e m.next ((b1.temp e m.next (by simp)).2.2 i)]; exact alloc_same m e new
        obtain ⟨o, b', m3, d1, d2, d3, d4, d5, d6⟩ := c2.init (sso := sso) (i := i) (by simp) hbuf hne (upd_at g i none)
        rw [upd_upd] at d4
        have hcon : m3.content ⟨e, .string o b'⟩ = some new := by simp [Mem.content, d2, d3]
        obtain ⟨y, f1, f2, f3⟩ := asView_ok hcon
        refine ⟨some y, some ⟨e, .string o b'⟩, m3, ?_, f3, d4, ?_, ?_⟩
        · have hfst : (m.alloc e new).1 = m.next := rfl
          simp only [Option.bind_some, c1, hfst, d1, f1, Option.map_some]
        · have hn2 : m2.next = m.next + 1 := c3
          have keep : ∀ e' b'', b'' < m.next → ¬ OwnsBuf (g i) e' b'' → m3.buf e' b'' = m.buf e' b'' := by
            intro e' b'' hlt hno
            rw [d6 e' b'' (by omega) (by intro hx; cases hx; omega), c5 e' b'' hno, alloc_ne m e new hlt]
          refine ⟨?_, ?_, ?_⟩
          · intro e' b'' hm
            exact keep e' b'' (h.freshS _ _ hm) fun ho => h.apart i e' b'' ho hm
          · intro k hk e' b'' ho
            exact keep e' b'' (h.fresh _ _ (h.live k _ _ ho)) fun ho' => hk (h.bufs k i e' b'' ho ho')
          · intro k hk o' ho
            refine d5 o' ?_
            rw [c6 o' fun ho' => hk (h.objs k i o' ho ho')]
            exact h.liveO k o' ho
        · intro br' hbr
          refine ⟨new, hcon, hne, rfl, fun b off len hst => (by cases hst), fun _ => ?_⟩
          rcases hbr with ⟨rfl, hbr⟩ | ⟨hbr, _⟩
          · by_contra hc
            exact hve (hbr v rfl hc)
          · exact hbr

theorem toString_ok {i p q e br t q'} (h : Own m srcs g []) (hg : g i = p) (hs : Sound m srcs br p q)
    (hv : Model.StringParam.toString e q = some (t, q')) :
    ∃ p' m', toString m e p = some (t, p', m') ∧ Own m' srcs (upd g i p') [] ∧ Keep m m' srcs g (· = i) ∧ Sound m' srcs br p' q' := by
  match p, q, hs with
  | none, none, _ =>
    have : t = [] ∧ q' = none := by
      simp [Model.StringParam.toString, Model.StringParam.empty] at hv; exact ⟨hv.1, hv.2.symm⟩
    obtain ⟨rfl, rfl⟩ := this
    exact ⟨none, m, rfl, by rw [← hg, upd_self]; exact h, h.keep _, trivial⟩
  | some v, some w, ⟨u, h1, h2, h3, h4, h5⟩ =>
    have he := empty_ok (m := m) (srcs := srcs) (br := br) (p := some v) (q := some w) ⟨u, h1, h2, h3, h4, h5⟩
    have hs : Sound m srcs br (some v) (some w) := ⟨u, h1, h2, h3, h4, h5⟩
    subst h3
    have hf : Model.StringParam.empty (some ⟨v.e, isString v.store, u⟩) = some false := by
      simp [Model.StringParam.empty, Model.StringParam.visit, h2]
    simp only [Model.StringParam.toString, hf, Option.bind_some, Bool.false_eq_true, if_false, Model.StringParam.moveIntoString,
      Model.StringParam.visit] at hv
    simp only [Verif.Model.StringLifetime.toString, he, hf, Option.bind_some, Bool.false_eq_true, if_false, moveIntoString]
    have same : Own m srcs (upd g i (some v)) [] := by rw [← hg, upd_self]; exact h
    by_cases hve : v.e = e
    · simp only [hve, if_true] at hv ⊢
      obtain ⟨ve, st⟩ := v
      cases st with
      | string o b =>
        simp only [isString, if_true, Option.some.injEq, Prod.mk.injEq] at hv
        obtain ⟨rfl, rfl⟩ := hv
        obtain ⟨m2, c1, c2, c3, c4, c5, c6⟩ := h.destructor hg
        refine ⟨none, m2, by simp [h1, c1], c2, ⟨?_, ?_, ?_⟩, trivial⟩
        · intro e' b'' hm
          exact c5 e' b'' fun ho => h.apart i e' b'' ho hm
        · intro k hk e' b'' ho
          exact c5 e' b'' fun ho' => hk (h.bufs k i e' b'' ho ho')
        · intro k hk o' ho
          rw [c6 o' fun ho' => hk (h.objs k i o' ho ho')]
          exact h.liveO k o' ho
      | view b off len =>
        simp only [isString, Bool.false_eq_true, if_false, Option.some.injEq, Prod.mk.injEq] at hv
        obtain ⟨rfl, rfl⟩ := hv
        exact ⟨_, m, by simp [h1], same, h.keep _, hs⟩
    · simp only [hve, if_false] at hv ⊢
      cases htr : Model.StringParam.transcode v.e e u with
      | none => rw [htr] at hv; cases hv
      | some new =>
        rw [htr, Option.map_some] at hv
        simp only [Option.some.injEq, Prod.mk.injEq] at hv
        obtain ⟨rfl, rfl⟩ := hv
        exact ⟨_, m, by simp [h1, htr], same, h.keep _, hs⟩

theorem trimmedAt_ok {υ : Type} (decode) (pred) (str : List υ) :
    (∀ a n, trimmedAt decode pred str = some (a, n) → a + n ≤ str.length) ∧
    Model.predicatedTrim decode pred str = (trimmedAt decode pred str).map fun x => (str.drop x.1).take x.2 := by
  unfold trimmedAt Model.predicatedTrim
  by_cases hs : str.isEmpty = true
  · simp only [hs, if_true]
    refine ⟨?_, by simp⟩
    intro a n h; cases h; simp
  · simp only [hs, if_false, Bool.false_eq_true]
    have take_min : ∀ a n, (str.drop a).take n = (str.drop a).take (min n (str.length - a)) := by
      intro a n
      rcases Nat.le_total n (str.length - a) with hn | hn
      · rw [Nat.min_eq_left hn]
      · rw [Nat.min_eq_right hn, List.take_of_length_le (by simpa using hn), List.take_of_length_le (by simp)]
    cases Model.utfFind decode str false pred with
    | none => simp
    | some f =>
      cases f with
      | none => simp
      | some first =>
        simp only [Option.bind_some]
        cases Model.utfFind decode str true pred with
        | none => simp
        | some l =>
          simp only [Option.bind_some]
          cases l <;>
          · simp only [Model.substr]
            by_cases hle : first.start ≤ str.length
            · simp only [hle, if_true, Option.map_some, Option.some.injEq, Prod.mk.injEq]
              refine ⟨?_, take_min _ _⟩
              rintro a n ⟨rfl, rfl⟩
              omega
            · simp only [hle, if_false, Option.map_none]
              simp

theorem trimAt_ok (e : Enc) (u : List (BitVec e.bits)) :
    (∀ a n, trimAt e u = some (a, n) → a + n ≤ u.length) ∧
    Model.StringParam.trimUnits e u = (trimAt e u).map fun x => (u.drop x.1).take x.2 := by
  cases e <;> exact trimmedAt_ok _ _ _

theorem trim_ok {i p q br q'} (h : Own m srcs g []) (hg : g i = p) (hs : Sound m srcs br p q)
    (hv : Model.StringParam.trim q = some q') :
    ∃ p' m', trim m p = some (p', m') ∧ Own m' srcs (upd g i p') [] ∧ Keep m m' srcs g (· = i) ∧ Sound m' srcs br p' q' := by
  match p, q, hs with
  | none, none, _ => cases hv
  | some v, some w, ⟨u, h1, h2, h3, h4, h5⟩ =>
    subst h3
    obtain ⟨t1, t2⟩ := trimAt_ok v.e u
    simp only [Model.StringParam.trim, Model.StringParam.visit, t2] at hv
    cases ht : trimAt v.e u with
    | none => rw [ht] at hv; cases hv
    | some x =>
      obtain ⟨a, n⟩ := x
      have hle := t1 a n ht
      rw [ht] at hv
      simp only [Option.map_some, Option.some.injEq] at hv
      simp only [trim, h1, ht, Option.bind_some]
      by_cases hn : n = 0
      · subst hn
        simp only [List.take_zero, List.isEmpty_nil, if_true] at hv
        subst hv
        obtain ⟨m2, c1, c2, c3, c4, c5, c6⟩ := h.destructor hg
        refine ⟨none, m2, by simp [c1], c2, ⟨?_, ?_, ?_⟩, trivial⟩
        · intro e' b'' hm
          exact c5 e' b'' fun ho => h.apart i e' b'' ho hm
        · intro k hk e' b'' ho
          exact c5 e' b'' fun ho' => hk (h.bufs k i e' b'' ho ho')
        · intro k hk o' ho
          rw [c6 o' fun ho' => hk (h.objs k i o' ho ho')]
          exact h.liveO k o' ho
      · have hne : (u.drop a).take n ≠ [] := by
          intro hc
          have := congrArg List.length hc
          simp only [List.length_take, List.length_drop, List.length_nil] at this
          omega
        rw [if_neg (by simpa using hne)] at hv
        subst hv
        simp only [hn, if_false]
        obtain ⟨ve, st⟩ := v
        cases st with
        | string o b =>
          refine ⟨some ⟨ve, .string o b⟩, m.setBuf ve b (some ((u.drop a).take n)), rfl, ?_, ⟨?_, ?_, ?_⟩, ?_⟩
          · rw [← hg, upd_self]; exact h.write hg
          · intro e' b'' hm
            exact setBuf_ne m _ fun hx => h.apart i e' b'' (by rw [hg]; exact ownsBuf_string.mpr hx) hm
          · intro k hk e' b'' ho
            exact setBuf_ne m _ fun hx => hk (h.bufs k i e' b'' ho (by rw [hg]; exact ownsBuf_string.mpr hx))
          · intro k hk o' ho; exact h.liveO k o' ho
          · refine ⟨_, ?_, hne, rfl, h4, h5⟩
            have hob := h.liveO i o ⟨ve, b, hg⟩
            simp [Mem.content, hob]
        | view b off len =>
          refine ⟨_, m, rfl, h.plain (by rw [hg]; simp [OwnsBuf]) (by simp [OwnsBuf]), h.keep _, ?_⟩
          refine ⟨_, ?_, hne, rfl, ?_, h5⟩
          · simp only [Mem.content, Mem.read] at h1 ⊢
            cases hb : m.buf ve b with
            | none => rw [hb] at h1; cases h1
            | some x =>
              rw [hb] at h1
              simp only [Option.bind_some] at h1 ⊢
              split at h1
              · rename_i hl
                have hu := Option.some.inj h1
                have hlen : u.length ≤ len := by rw [← hu]; simp; omega
                have hlen2 : off + u.length ≤ x.length := by rw [← hu]; simp; omega
                rw [if_pos (by omega), ← hu]
                congr 1
                rw [List.drop_take, List.drop_drop, List.take_take]
                congr 1
                omega
              · cases h1
          · intro b' off' len' hst
            cases hst
            exact h4 b off len rfl

theorem fromString_ok (sso : Enc → Nat) {i} (h : Own m srcs g []) (hg : g i = none) (e : Enc) (u) :
    ∃ p m', fromString sso m e u = some (p, m') ∧ Own m' srcs (upd g i p) [] ∧ Keep m m' srcs g (fun _ => False) ∧
      Sound m' srcs none p (Model.StringParam.init e true u) := by
  obtain ⟨b1, b2⟩ := h.alloc e u
  by_cases hu : u = []
  · subst hu
    refine ⟨none, (m.alloc e []).2.setBuf e m.next none, ?_, ?_, ⟨?_, ?_, ?_⟩, trivial⟩
    · have : initString sso (m.alloc e []).2 e (m.alloc e []).1 = some (none, (m.alloc e []).2) := by
        unfold initString
        rw [show (m.alloc e []).1 = m.next from rfl, alloc_same]; rfl
      simp only [fromString, this, Option.map_some]; rfl
    · have := b1.drop b2
      rw [← hg, upd_self]; exact this
    · intro e' b'' hm
      have := h.freshS _ _ hm
      rw [setBuf_ne _ _ (by intro hx; cases hx; omega), alloc_ne m e [] this]
    · intro k _ e' b'' ho
      have := h.fresh _ _ (h.live k _ _ ho)
      rw [setBuf_ne _ _ (by intro hx; cases hx; omega), alloc_ne m e [] this]
    · intro k _ o ho; exact h.liveO k o ho
  · obtain ⟨o, b', m3, d1, d2, d3, d4, d5, d6⟩ := b1.init (sso := sso) (i := i) b2 (alloc_same m e u) hu hg
    have keep : ∀ e' b'', b'' < m.next → m3.buf e' b'' = m.buf e' b'' := by
      intro e' b'' hlt
      rw [d6 e' b'' (by show b'' < m.next + 1; omega) (by intro hx; cases hx; omega), alloc_ne m e u hlt]
    refine ⟨some ⟨e, .string o b'⟩, m3, ?_, d4, ⟨?_, ?_, ?_⟩, ?_⟩
    · simp only [fromString, show (m.alloc e u).1 = m.next from rfl, d1, Option.map_some]; rfl
    · intro e' b'' hm; exact keep _ _ (h.freshS _ _ hm)
    · intro k _ e' b'' ho; exact keep _ _ (h.fresh _ _ (h.live k _ _ ho))
    · intro k _ o' ho; exact d5 o' (h.liveO k o' ho)
    · rw [init_ne hu]
      exact ⟨u, by simp [Mem.content, d2, d3], hu, rfl, fun b off len hst => (by cases hst), fun _ => rfl⟩

theorem initView_ok {k e b u off len} (hk : srcs[k]? = some (e, b)) (hu : m.content ⟨e, .view b off len⟩ = some u)
    (hl : len = u.length) : Sound m srcs (some k) (initView e b off len) (Model.StringParam.init e false u) := by
  by_cases h : u = []
  · subst h
    simp at hl; subst hl
    exact trivial
  · have : len ≠ 0 := by rw [hl]; simpa using h
    rw [init_ne h]
    simp only [initView, this, if_false]
    exact ⟨u, hu, h, rfl, fun b' off' len' hst => ⟨k, rfl, by cases hst; exact hk⟩, fun hst => by cases hst⟩

end Verif.Proofs.StringLifetime
