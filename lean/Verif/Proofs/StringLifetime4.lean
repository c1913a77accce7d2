import Verif.Proofs.StringLifetime3
/-! Histories of string parameters with memory (C178). -/
namespace Verif.Proofs.StringLifetime
open Verif.Spec.StringParam (Enc encode Text Obs)
open Verif.Spec.StringLifetime Verif.Model.StringLifetime

def obs : Out → Obs
  | .nothing => .nothing
  | .bool b => .bool b
  | .text u => .text u
  | .view _ u => .text u

def tab (ps : List (Option Param)) : Table := fun i => ((ps[i]?).bind id).getD none

theorem tab_set {ps : List (Option Param)} {i} (p : Param) (h : i < ps.length) : tab (ps.set i (some p)) = upd (tab ps) i p := by
  funext k
  simp only [tab, upd]
  by_cases hk : k = i
  · subst hk; simp [h]
  · simp [hk, List.getElem?_set_ne (Ne.symm hk)]

theorem tab_gone {ps : List (Option Param)} {i} (h : i < ps.length) : tab (ps.set i none) = upd (tab ps) i none := by
  funext k
  simp only [tab, upd]
  by_cases hk : k = i
  · subst hk; simp [h]
  · simp [hk, List.getElem?_set_ne (Ne.symm hk)]

theorem tab_push (ps : List (Option Param)) (p : Param) : tab (ps ++ [some p]) = upd (tab ps) ps.length p := by
  funext k
  simp only [tab, upd]
  by_cases hk : k = ps.length
  · subst hk; simp
  · simp only [hk, if_false]
    rcases Nat.lt_or_gt_of_ne hk with h | h
    · rw [List.getElem?_append_left h]
    · rw [List.getElem?_append_right (by omega), List.getElem?_eq_none (by simp; omega), List.getElem?_eq_none (by omega)]

theorem tab_end (ps : List (Option Param)) {k} (h : ps.length ≤ k) : tab ps k = none := by
  simp [tab, List.getElem?_eq_none h]

theorem tab_at {ps : List (Option Param)} {i p} (h : ps[i]? = some (some p)) : tab ps i = p := by simp [tab, h]

structure Rel (s : State) (c : Known) (ps : List Plain) : Prop where
  own : Own s.mem s.sources (tab s.params) []
  slen : s.sources.length = c.sources.length
  src : ∀ (k : Nat) e b, s.sources[k]? = some (e, b) →
    ∃ t, ∃ a : Bool, c.sources[k]? = some (e, t, a) ∧ s.mem.buf e b = if a then some (encode e t) else none
  nodup : s.sources.Nodup
  len : s.params.length = c.params.length
  len' : ps.length = c.params.length
  par : ∀ (i : Nat) br, c.params[i]? = some (some br) →
    ∃ p q, s.params[i]? = some (some p) ∧ ps[i]? = some q ∧ Sound s.mem s.sources br p q
  gone : ∀ i : Nat, c.params[i]? = some none → s.params[i]? = some none

theorem Rel.update {s : State} {c ps} (h : Rel s c ps) (C : Nat → Prop) (m' : Mem) (params' : List (Option Param))
    (known' : List (Option (Option Nat))) (ps' : List Plain) (hl : params'.length = known'.length) (hl' : ps'.length = known'.length)
    (hown : Own m' s.sources (tab params') []) (hk : Keep s.mem m' s.sources (tab s.params) C)
    (same : ∀ k, ¬ C k → params'[k]? = s.params[k]? ∧ known'[k]? = c.params[k]? ∧ ps'[k]? = ps[k]?)
    (new : ∀ k, C k → ∀ br, known'[k]? = some (some br) →
      ∃ p q, params'[k]? = some (some p) ∧ ps'[k]? = some q ∧ Sound m' s.sources br p q)
    (gone : ∀ k, C k → known'[k]? = some none → params'[k]? = some none) :
    Rel ⟨m', s.sources, params'⟩ ⟨c.sources, known'⟩ ps' := by
  refine ⟨hown, h.slen, ?_, h.nodup, hl, hl', ?_, ?_⟩
  · intro k e b hb
    obtain ⟨t, a, h1, h2⟩ := h.src k e b hb
    exact ⟨t, a, h1, by rw [← h2]; exact hk.src e b (List.mem_of_getElem? hb)⟩
  · intro k br hbr
    by_cases hC : C k
    · exact new k hC br hbr
    · obtain ⟨s1, s2, s3⟩ := same k hC
      obtain ⟨p, q, a1, a2, a3⟩ := h.par k br (by rw [← s2]; exact hbr)
      refine ⟨p, q, by rw [← a1]; exact s1, by rw [← a2]; exact s3, ?_⟩
      have := tab_at a1
      rw [← this] at a3 ⊢
      exact hk.sound hC a3
  · intro k hg
    by_cases hC : C k
    · exact gone k hC hg
    · obtain ⟨s1, s2, s3⟩ := same k hC
      rw [s1]
      exact h.gone k (by rw [← s2]; exact hg)

theorem lt_of_get {α : Type} {l : List α} {i x} (h : l[i]? = some x) : i < l.length := by
  by_contra hc
  rw [List.getElem?_eq_none (by omega)] at h; cases h

/-- one parameter changes -/
theorem Rel.set {s : State} {c ps i br} (h : Rel s c ps) (hi : c.params[i]? = some (some br)) {m' p' q'} (br')
    (hown : Own m' s.sources (upd (tab s.params) i p') []) (hk : Keep s.mem m' s.sources (tab s.params) (· = i))
    (hs : Sound m' s.sources br' p' q') : Rel (s.set i p' m') ⟨c.sources, c.params.set i (some br')⟩ (ps.set i q') := by
  have hc := lt_of_get hi
  have h1 : i < s.params.length := by rw [h.len]; exact hc
  have h2 : i < ps.length := by rw [h.len']; exact hc
  refine h.update (· = i) m' _ _ _ (by simp [h.len]) (by simp [h.len']) (by rw [tab_set _ h1]; exact hown) hk ?_ ?_ ?_
  · intro k hk
    exact ⟨List.getElem?_set_ne (Ne.symm hk), List.getElem?_set_ne (Ne.symm hk), List.getElem?_set_ne (Ne.symm hk)⟩
  · rintro k rfl br hbr
    rw [List.getElem?_set_self hc] at hbr
    cases hbr
    exact ⟨p', q', List.getElem?_set_self h1, List.getElem?_set_self h2, hs⟩
  · rintro k rfl hbr
    rw [List.getElem?_set_self hc] at hbr
    cases hbr

theorem set_same {α : Type} {l : List α} {i x} (h : l[i]? = some x) : l.set i x = l := by
  apply List.ext_getElem?
  intro k
  by_cases hk : k = i
  · subst hk; rw [List.getElem?_set_self (lt_of_get h), h]
  · rw [List.getElem?_set_ne (Ne.symm hk)]

theorem get_push {α : Type} (l : List α) (x : α) : (l ++ [x])[l.length]? = some x := by simp

theorem get_push_ne {α : Type} (l : List α) (x : α) {k} (h : k ≠ l.length) : (l ++ [x])[k]? = l[k]? := by
  rcases Nat.lt_or_gt_of_ne h with h | h
  · rw [List.getElem?_append_left h]
  · rw [List.getElem?_append_right (by omega), List.getElem?_eq_none (by simp; omega), List.getElem?_eq_none (by omega)]

/-- a new parameter -/
theorem Rel.push {s : State} {c ps} (h : Rel s c ps) {m' p q} (br) 
    (hown : Own m' s.sources (upd (tab s.params) s.params.length p) []) (hk : Keep s.mem m' s.sources (tab s.params) (fun _ => False))
    (hs : Sound m' s.sources br p q) : Rel ⟨m', s.sources, s.params ++ [some p]⟩ ⟨c.sources, c.params ++ [some br]⟩ (ps ++ [q]) := by
  refine h.update (· = s.params.length) m' _ _ _ (by simp [h.len]) (by simp [h.len']) (by rw [tab_push]; exact hown)
    ⟨hk.src, fun k _ => hk.buf k not_false, fun k _ => hk.obj k not_false⟩ ?_ ?_ ?_
  · intro k hk
    exact ⟨get_push_ne _ _ hk, get_push_ne _ _ (by rw [← h.len]; exact hk), get_push_ne _ _ (by rw [h.len', ← h.len]; exact hk)⟩
  · rintro k rfl br' hbr
    rw [h.len, get_push] at hbr
    cases hbr
    exact ⟨p, q, get_push _ _, by rw [h.len, ← h.len', get_push], hs⟩
  · rintro k rfl hbr
    rw [h.len, get_push] at hbr
    cases hbr

theorem Own.adopt {m srcs g T e b} (h : Own m srcs g ((e, b) :: T)) (hT : (e, b) ∉ T) : Own m (srcs ++ [(e, b)]) g T := by
  have ht := h.temp e b (by simp)
  refine ⟨?_, h.bufs, h.objs, h.live, h.liveO, h.fresh, ?_, h.freshO, ?_, ?_⟩
  · intro i e' b' ho hm
    rcases List.mem_append.mp hm with hm | hm
    · exact h.apart i e' b' ho hm
    · rw [List.mem_singleton] at hm; cases hm; exact ht.2.2 i ho
  · intro e' b' hm
    rcases List.mem_append.mp hm with hm | hm
    · exact h.freshS e' b' hm
    · rw [List.mem_singleton] at hm; cases hm; exact h.fresh e b ht.1
  · intro e' b' hb
    rcases h.leak e' b' hb with h1 | h1 | h1
    · exact .inl (List.mem_append_left _ h1)
    · exact .inr (.inl h1)
    · rcases List.mem_cons.mp h1 with h1 | h1
      · exact .inl (by rw [h1]; simp)
      · exact .inr (.inr h1)
  · intro e' b' hb
    obtain ⟨t1, t2, t3⟩ := h.temp e' b' (List.mem_cons_of_mem _ hb)
    refine ⟨t1, ?_, t3⟩
    intro hm
    rcases List.mem_append.mp hm with hm | hm
    · exact t2 hm
    · rw [List.mem_singleton] at hm; exact hT (hm ▸ hb)

theorem Own.freeSource {m srcs g T e b} (h : Own m srcs g T) (hm : (e, b) ∈ srcs) : Own (m.setBuf e b none) srcs g T := by
  have ne : ∀ {i e' b'}, OwnsBuf (g i) e' b' → (e', b') ≠ (e, b) := by
    intro i e' b' ho hx; cases hx; exact h.apart i e b ho hm
  have back : ∀ {e' b'}, (m.setBuf e b none).buf e' b' ≠ none → m.buf e' b' ≠ none := by
    intro e' b' hb
    by_cases hx : (e', b') = (e, b)
    · cases hx; simp at hb
    · rwa [setBuf_ne _ _ hx] at hb
  refine ⟨h.apart, h.bufs, h.objs, ?_, h.liveO, fun e' b' hb => h.fresh e' b' (back hb), h.freshS, h.freshO,
    fun e' b' hb => h.leak e' b' (back hb), ?_⟩
  · intro i e' b' ho; rw [setBuf_ne _ _ (ne ho)]; exact h.live i e' b' ho
  · intro e' b' hb
    obtain ⟨t1, t2, t3⟩ := h.temp e' b' hb
    refine ⟨?_, t2, t3⟩
    rw [setBuf_ne _ _ (by intro hx; cases hx; exact t2 hm)]; exact t1

theorem Rel.init : Rel .init .init [] := by
  refine ⟨⟨?_, ?_, ?_, ?_, ?_, ?_, ?_, ?_, ?_, ?_⟩, rfl, ?_, ?_, rfl, rfl, ?_, ?_⟩ <;>
    simp [State.init, Known.init, tab, OwnsBuf, OwnsObj, Mem.init]

/-- the operation without memory, if it is one -/
def plainStep (ps : List Plain) : Option Spec.StringParam.Op → Option (List Plain × Obs)
  | none => some (ps, .nothing)
  | some o => Model.StringParam.step ps o

theorem step_ok (sso : Enc → Nat) {s c ps op c' ps' x} (h : Rel s c ps) (hc : c.step op = some c')
    (hp : plainStep ps (c.plain op) = some (ps', x)) :
    ∃ s' y, s.step sso op = some (s', y) ∧ Rel s' c' ps' ∧ obs y = x := by
  cases op with
  | source e t =>
    cases hc; cases hp
    obtain ⟨a1, a2⟩ := h.own.alloc e (encode e t)
    refine ⟨_, _, rfl, ?_, rfl⟩
    have old : ∀ k e' b', s.sources[k]? = some (e', b') → (s.mem.alloc e (encode e t)).2.buf e' b' = s.mem.buf e' b' :=
      fun k e' b' hk => alloc_ne _ _ _ (h.own.freshS _ _ (List.mem_of_getElem? hk))
    refine ⟨a1.adopt a2, by simp [h.slen], ?_, ?_, h.len, h.len', ?_, h.gone⟩
    · intro k e' b' hk
      by_cases hkl : k = s.sources.length
      · subst hkl
        rw [get_push] at hk
        cases hk
        refine ⟨t, true, by rw [h.slen, get_push], alloc_same _ _ _⟩
      · rw [get_push_ne _ _ hkl] at hk
        obtain ⟨t', a, h1, h2⟩ := h.src k e' b' hk
        exact ⟨t', a, by rw [get_push_ne _ _ (by rw [← h.slen]; exact hkl)]; exact h1, by rw [← h2]; exact old k e' b' hk⟩
    · rw [List.nodup_append]
      refine ⟨h.nodup, by simp, ?_⟩
      intro x hx y hy
      rw [List.mem_singleton] at hy
      subst hy
      rintro rfl
      have := h.own.freshS _ _ hx
      exact absurd this (Nat.lt_irrefl _)
    · intro i br hbr
      obtain ⟨p, q, b1, b2, b3⟩ := h.par i br hbr
      refine ⟨p, q, b1, b2, ?_⟩
      have hg := tab_at b1
      have b4 : Sound (s.mem.alloc e (encode e t)).2 s.sources br p q := by
        refine b3.frame ?_ ?_ ?_
        · intro e' b' ho
          exact alloc_ne _ _ _ (h.own.fresh _ _ (h.own.live i _ _ (by rw [hg]; exact ho)))
        · intro o ho; exact h.own.liveO i o (by rw [hg]; exact ho)
        · intro k e' b' _ hk; exact old k e' b' hk
      match p, q, b4 with
      | none, none, _ => trivial
      | some v, some w, ⟨u, h1, h2, h3, h4, h5⟩ =>
        refine ⟨u, h1, h2, h3, ?_, h5⟩
        intro b off len hst
        obtain ⟨k, k1, k2⟩ := h4 b off len hst
        exact ⟨k, k1, by rw [List.getElem?_append_left (lt_of_get k2)]; exact k2⟩
  | free k =>
    cases hp
    simp only [Known.step] at hc
    split at hc
    · rename_i e t hk
      split at hc
      · cases hc
      · rename_i hnb
        cases hc
        have hlt : k < s.sources.length := by rw [h.slen]; exact lt_of_get hk
        obtain ⟨⟨e', b⟩, hsk⟩ : ∃ x, s.sources[k]? = some x := ⟨_, List.getElem?_eq_getElem hlt⟩
        obtain ⟨t', a, h1, h2⟩ := h.src k e' b hsk
        rw [hk] at h1
        cases h1
        refine ⟨{ s with mem := s.mem.setBuf e b none }, .nothing, by simp only [State.step, hsk, Option.bind_some, h2, if_true, Option.map_some], ?_, rfl⟩
        have hmem := List.mem_of_getElem? hsk
        have other : ∀ k' e' b', k' ≠ k → s.sources[k']? = some (e', b') → (e', b') ≠ (e, b) := by
          intro k' e' b' hne hk' hx
          rw [hx] at hk'
          exact hne ((List.getElem?_inj (lt_of_get hk') h.nodup).mp (hk'.trans hsk.symm))
        refine ⟨h.own.freeSource hmem, by simp [h.slen], ?_, h.nodup, h.len, h.len', ?_, h.gone⟩
        · intro k' e' b' hk'
          by_cases hkk : k' = k
          · subst hkk
            rw [hsk] at hk'
            cases hk'
            exact ⟨t, false, List.getElem?_set_self (lt_of_get hk), by simp⟩
          · obtain ⟨t', a, h1, h2⟩ := h.src k' e' b' hk'
            exact ⟨t', a, by rw [List.getElem?_set_ne (Ne.symm hkk)]; exact h1,
              by rw [← h2]; exact setBuf_ne _ _ (other k' e' b' hkk hk')⟩
        · intro i br hbr
          obtain ⟨p, q, b1, b2, b3⟩ := h.par i br hbr
          refine ⟨p, q, b1, b2, b3.frame ?_ ?_ ?_⟩
          · intro e' b' ho
            refine setBuf_ne _ _ ?_
            rintro hx
            cases hx
            exact h.own.apart i e b (by rw [tab_at b1]; exact ho) hmem
          · intro o ho; exact h.own.liveO i o (by rw [tab_at b1]; exact ho)
          · intro k' e' b' hb' hk'
            subst hb'
            refine setBuf_ne _ _ (other k' e' b' ?_ hk')
            rintro rfl
            exact hnb (List.mem_of_getElem? hbr)
    · cases hc
  | default =>
    cases hc; cases hp
    refine ⟨_, _, rfl, h.push (p := none) (q := none) none ?_ (h.own.keep _) trivial, rfl⟩
    rw [← tab_end s.params (Nat.le_refl _), upd_self]; exact h.own
  | fromView k =>
    simp only [Known.step] at hc
    split at hc
    · rename_i e t hk
      cases hc
      simp only [Known.plain, hk, Option.map_some, plainStep, Model.StringParam.step, Option.some.injEq, Prod.mk.injEq] at hp
      obtain ⟨rfl, rfl⟩ := hp
      have hlt : k < s.sources.length := by rw [h.slen]; exact lt_of_get hk
      obtain ⟨⟨e', b⟩, hsk⟩ : ∃ x, s.sources[k]? = some x := ⟨_, List.getElem?_eq_getElem hlt⟩
      obtain ⟨t', a, h1, h2⟩ := h.src k e' b hsk
      rw [hk] at h1
      cases h1
      simp only [if_true] at h2
      refine ⟨⟨s.mem, s.sources, s.params ++ [some (initView e b 0 (encode e t).length)]⟩, .nothing,
        by simp only [State.step, hsk, Option.bind_some, h2, Option.map_some], ?_, rfl⟩
      refine h.push (some k) ?_ (h.own.keep _) (initView_ok hsk ?_ rfl)
      · refine h.own.plain (by rw [tab_end _ (Nat.le_refl _)]; simp [OwnsBuf]) ?_
        intro e' b' ⟨o, ho⟩
        unfold initView at ho
        split at ho <;> cases ho
      · simp [Mem.content, Mem.read, h2]
    · cases hc
  | fromString e t =>
    cases hc
    simp only [Known.plain, plainStep, Model.StringParam.step, Option.some.injEq, Prod.mk.injEq] at hp
    obtain ⟨rfl, rfl⟩ := hp
    obtain ⟨p, m', a1, a2, a3, a4⟩ := fromString_ok sso h.own (tab_end s.params (Nat.le_refl _)) e (encode e t)
    exact ⟨_, .nothing, by simp only [State.step, a1, Option.map_some], h.push none a2 a3 a4, rfl⟩
  | moveConstruct j =>
    simp only [Known.step] at hc
    split at hc
    · rename_i br hj
      cases hc
      obtain ⟨p, q, b1, b2, b3⟩ := h.par j br hj
      simp only [Known.plain, plainStep, Model.StringParam.step, b2, Option.bind_some, Option.map_eq_some_iff] at hp
      obtain ⟨q', hq, hp⟩ := hp
      cases hp
      have hjl := lt_of_get b1
      have hij : s.params.length ≠ j := by omega
      have hend := tab_end s.params (Nat.le_refl s.params.length)
      obtain ⟨p', m', a1, a2, a3, a4⟩ := moveAssign_ok sso (i := s.params.length) (j := j) (br := none) (lq := none) hij h.own
        (by rw [hend]; trivial) (by rw [tab_at b1]; exact b3) hq
      rw [hend, tab_at b1] at a1
      refine ⟨⟨m', s.sources, s.params.set j (some none) ++ [some p']⟩, .nothing,
        by simp only [State.step, State.param, b1, Option.bind_some, id, a1, Option.map_some], ?_, rfl⟩
      have hcl : c.params.length = s.params.length := h.len.symm
      have hpl : ps.length = s.params.length := by rw [h.len', h.len]
      refine h.update (fun k => k = s.params.length ∨ k = j) m' _ _ _ (by simp [h.len]) (by simp [h.len']) ?_ a3 ?_ ?_ ?_
      · rw [tab_push, tab_set _ hjl, List.length_set, upd_comm _ _ _ hij.symm]; exact a2
      · intro k hk
        rw [not_or] at hk
        refine ⟨?_, ?_, ?_⟩
        · rw [get_push_ne _ _ (by simpa using hk.1), List.getElem?_set_ne (Ne.symm hk.2)]
        · rw [get_push_ne _ _ (by simpa [hcl] using hk.1), List.getElem?_set_ne (Ne.symm hk.2)]
        · rw [get_push_ne _ _ (by simpa [hpl] using hk.1), List.getElem?_set_ne (Ne.symm hk.2)]
      · rintro k (rfl | rfl) br' hbr
        · have e1 : (c.params.set j (some none) ++ [some br])[s.params.length]? = some (some br) := by
            have := get_push (c.params.set j (some none)) (some br)
            rwa [List.length_set, hcl] at this
          have e2 : (s.params.set j (some none) ++ [some p'])[s.params.length]? = some (some p') := by
            have := get_push (s.params.set j (some none)) (some p')
            rwa [List.length_set] at this
          have e3 : (ps.set j none ++ [q'])[s.params.length]? = some q' := by
            have := get_push (ps.set j none) q'
            rwa [List.length_set, hpl] at this
          rw [e1] at hbr
          cases hbr
          exact ⟨p', q', e2, e3, a4⟩
        · refine ⟨none, none, ?_, ?_, trivial⟩
          · rw [get_push_ne _ _ (by simpa using hij.symm), List.getElem?_set_self hjl]
          · rw [get_push_ne _ _ (by simpa [hpl] using hij.symm), List.getElem?_set_self (by omega)]
      · rintro k (rfl | rfl) hbr
        · have e1 : (c.params.set j (some none) ++ [some br])[s.params.length]? = some (some br) := by
            have := get_push (c.params.set j (some none)) (some br)
            rwa [List.length_set, hcl] at this
          rw [e1] at hbr; cases hbr
        · rw [get_push_ne _ _ (by simpa [hcl] using hij.symm), List.getElem?_set_self (by omega)] at hbr
          cases hbr
    · cases hc
  | moveAssign i j =>
    simp only [Known.step] at hc
    split at hc
    · rename_i br br' hi hj
      obtain ⟨p, q, b1, b2, b3⟩ := h.par i br hi
      obtain ⟨p2, q2, d1, d2, d3⟩ := h.par j br' hj
      by_cases hij : i = j
      · subst hij
        rw [if_pos rfl] at hc
        cases hc
        simp only [Known.plain, plainStep, Model.StringParam.step, if_true, lt_of_get b2] at hp
        cases hp
        exact ⟨s, .nothing, by simp only [State.step, State.param, b1, Option.bind_some, id, if_true], h, rfl⟩
      · rw [if_neg hij] at hc
        cases hc
        simp only [Known.plain, plainStep, Model.StringParam.step, hij, if_false, b2, d2, Option.bind_some,
          Option.map_eq_some_iff] at hp
        obtain ⟨q', hq, hp⟩ := hp
        cases hp
        have hil := lt_of_get b1
        have hjl := lt_of_get d1
        obtain ⟨p', m', a1, a2, a3, a4⟩ := moveAssign_ok sso (i := i) (j := j) (br := br) hij h.own
          (by rw [tab_at b1]; exact b3) (by rw [tab_at d1]; exact d3) hq
        rw [tab_at b1, tab_at d1] at a1
        refine ⟨⟨m', s.sources, (s.params.set i (some p')).set j (some none)⟩, .nothing,
          by simp only [State.step, State.param, b1, d1, Option.bind_some, id, hij, if_false, a1, Option.map_some], ?_, rfl⟩
        have hcl : c.params.length = s.params.length := h.len.symm
        have hpl : ps.length = s.params.length := by rw [h.len', h.len]
        refine h.update (fun k => k = i ∨ k = j) m' _ _ _ (by simp [h.len]) (by simp [h.len']) ?_ a3 ?_ ?_ ?_
        · rw [tab_set _ (by simpa using hjl), tab_set _ hil]; exact a2
        · intro k hk
          rw [not_or] at hk
          refine ⟨?_, ?_, ?_⟩ <;> rw [List.getElem?_set_ne (Ne.symm hk.2), List.getElem?_set_ne (Ne.symm hk.1)]
        · rintro k (rfl | rfl) br2 hbr
          · rw [List.getElem?_set_ne (Ne.symm hij), List.getElem?_set_self (by omega)] at hbr
            cases hbr
            refine ⟨p', q', ?_, ?_, a4⟩ <;> rw [List.getElem?_set_ne (Ne.symm hij), List.getElem?_set_self (by omega)]
          · refine ⟨none, none, ?_, ?_, trivial⟩ <;> rw [List.getElem?_set_self (by rw [List.length_set]; omega)]
        · rintro k (rfl | rfl) hbr
          · rw [List.getElem?_set_ne (Ne.symm hij), List.getElem?_set_self (by omega)] at hbr
            cases hbr
          · rw [List.getElem?_set_self (by rw [List.length_set]; omega)] at hbr
            cases hbr
    · cases hc
  | view i e =>
    simp only [Known.step] at hc
    have key : ∀ br br', c.params[i]? = some (some br) →
        (br' = br ∧ ∀ k, br = some k → ∃ t a, c.sources[k]? = some (e, t, a)) ∨
          (br' = none ∧ ∃ k e' t a, br = some k ∧ c.sources[k]? = some (e', t, a) ∧ e' ≠ e) →
        ∃ s' y, s.step sso (.view i e) = some (s', y) ∧ Rel s' ⟨c.sources, c.params.set i (some br')⟩ ps' ∧ obs y = x := by
      intro br br' hi hbr
      obtain ⟨p, q, b1, b2, b3⟩ := h.par i br hi
      simp only [Known.plain, plainStep, Model.StringParam.step, b2, Option.bind_some, Option.map_eq_some_iff] at hp
      obtain ⟨⟨t, q'⟩, hq, hp⟩ := hp
      cases hp
      obtain ⟨w, p', m', a1, a2, a3, a4, a5⟩ := view_ok sso h.own (tab_at b1) b3 hq
      refine ⟨s.set i p' m', .view w t, ?_, ?_, rfl⟩
      · simp only [State.step, State.param, b1, Option.bind_some, id, a1, a2, Option.map_some]
      · refine h.set hi br' a3 a4 (a5 br' ?_)
        rcases hbr with ⟨hbr, hsrc⟩ | ⟨hbr, k, e', t', a, rfl, hk, hne⟩
        · refine .inl ⟨hbr, ?_⟩
          rintro ⟨ve, st⟩ rfl hnn
          match q, b3 with
          | some w, ⟨u, h1, h2, h3, h4, h5⟩ =>
            cases st with
            | string o b => exact absurd (h5 rfl) hnn
            | view b off len =>
              obtain ⟨k', k1, k2⟩ := h4 b off len rfl
              obtain ⟨t1, a1, k4⟩ := hsrc k' k1
              obtain ⟨t2, a2, k3, _⟩ := h.src k' _ b k2
              rw [k4] at k3
              cases k3
              rfl
        · refine .inr ⟨hbr, ?_⟩
          rintro b off len rfl
          match q, b3 with
          | some w, ⟨u, h1, h2, h3, h4, h5⟩ =>
            obtain ⟨k', k1, k2⟩ := h4 b off len rfl
            cases k1
            obtain ⟨t2, a2, k3, _⟩ := h.src k _ b k2
            rw [hk] at k3
            cases k3
            exact hne rfl
    split at hc
    · rename_i k hi
      split at hc
      · rename_i e' t a hk
        split at hc
        · rename_i heq
          cases hc
          subst heq
          obtain ⟨s', y, r1, r2, r3⟩ := key _ _ hi (.inl ⟨rfl, fun k' hk' => by cases hk'; exact ⟨t, a, hk⟩⟩)
          rw [set_same hi] at r2
          exact ⟨s', y, r1, r2, r3⟩
        · rename_i hne
          cases hc
          exact key _ none hi (.inr ⟨rfl, k, e', t, a, rfl, hk, hne⟩)
      · cases hc
    · rename_i hi
      cases hc
      obtain ⟨s', y, r1, r2, r3⟩ := key _ _ hi (.inl ⟨rfl, fun k' hk' => by cases hk'⟩)
      rw [set_same hi] at r2
      exact ⟨s', y, r1, r2, r3⟩
    · cases hc
  | toString i e =>
    simp only [Known.step] at hc
    split at hc
    · rename_i br hi
      cases hc
      obtain ⟨p, q, b1, b2, b3⟩ := h.par i br hi
      simp only [Known.plain, plainStep, Model.StringParam.step, b2, Option.bind_some, Option.map_eq_some_iff] at hp
      obtain ⟨⟨t, q'⟩, hq, hp⟩ := hp
      cases hp
      obtain ⟨p', m', a1, a2, a3, a4⟩ := toString_ok h.own (tab_at b1) b3 hq
      refine ⟨s.set i p' m', .text t, by simp only [State.step, State.param, b1, Option.bind_some, id, a1, Option.map_some], ?_, rfl⟩
      have := h.set hi br a2 a3 a4
      rwa [set_same hi] at this
    · cases hc
  | trim i =>
    simp only [Known.step] at hc
    split at hc
    · rename_i br hi
      cases hc
      obtain ⟨p, q, b1, b2, b3⟩ := h.par i br hi
      simp only [Known.plain, plainStep, Model.StringParam.step, b2, Option.bind_some, Option.map_eq_some_iff] at hp
      obtain ⟨q', hq, hp⟩ := hp
      cases hp
      obtain ⟨p', m', a1, a2, a3, a4⟩ := trim_ok h.own (tab_at b1) b3 hq
      refine ⟨s.set i p' m', .nothing, by simp only [State.step, State.param, b1, Option.bind_some, id, a1, Option.map_some], ?_, rfl⟩
      have := h.set hi br a2 a3 a4
      rwa [set_same hi] at this
    · cases hc
  | isEmpty i =>
    simp only [Known.step] at hc
    split at hc
    · rename_i br hi
      cases hc
      obtain ⟨p, q, b1, b2, b3⟩ := h.par i br hi
      simp only [Known.plain, plainStep, Model.StringParam.step, b2, Option.bind_some, Option.map_eq_some_iff] at hp
      obtain ⟨b, hq, hp⟩ := hp
      cases hp
      rw [← empty_ok b3] at hq
      exact ⟨s, .bool b, by simp only [State.step, State.param, b1, Option.bind_some, id, hq, Option.map_some], h, rfl⟩
    · cases hc
  | destroy i =>
    simp only [Known.step] at hc
    split at hc
    · rename_i br hi
      cases hc; cases hp
      obtain ⟨p, q, b1, b2, b3⟩ := h.par i br hi
      obtain ⟨m', a1, a2, a3, a4, a5⟩ := clear_ok (i := i) h.own
      rw [tab_at b1] at a1
      have hil := lt_of_get b1
      have hcl := lt_of_get hi
      refine ⟨⟨m', s.sources, s.params.set i none⟩, .nothing,
        by simp only [State.step, State.param, b1, Option.bind_some, id, a1, Option.map_some], ?_, rfl⟩
      refine h.update (· = i) m' _ _ _ (by simp [h.len]) (by simp [h.len']) (by rw [tab_gone hil]; exact a2) ⟨?_, ?_, ?_⟩ ?_ ?_ ?_
      · intro e' c' hmem; exact a4 e' c' fun x => h.own.apart i _ _ x hmem
      · intro k hk e' c' hown; exact a4 e' c' fun x => hk (h.own.bufs k i _ _ hown x)
      · intro k hk c' hown
        rw [a5 c' fun x => hk (h.own.objs k i c' hown x)]; exact h.own.liveO k c' hown
      · intro k hk
        exact ⟨List.getElem?_set_ne (Ne.symm hk), List.getElem?_set_ne (Ne.symm hk), rfl⟩
      · rintro k rfl br' hbr
        rw [List.getElem?_set_self hcl] at hbr
        cases hbr
      · rintro k rfl _
        exact List.getElem?_set_self hil
    · cases hc

end Verif.Proofs.StringLifetime
