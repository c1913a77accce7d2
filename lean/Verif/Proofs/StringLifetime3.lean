import Verif.Proofs.StringLifetime2
/-! Moving string parameters, and histories (C178). -/
namespace Verif.Proofs.StringLifetime
open Verif.Spec.StringParam (Enc encode Text)
open Verif.Spec.StringLifetime Verif.Model.StringLifetime

variable {m : Mem} {srcs : List (Enc × Nat)} {g : Table} {T : List (Enc × Nat)}

theorem upd_ne (g : Table) {i k} (p) (h : k ≠ i) : upd g i p k = g k := by simp [upd, h]

theorem upd_comm (g : Table) {i j} (p q) (h : i ≠ j) : upd (upd g i p) j q = upd (upd g j q) i p := by
  funext k
  simp only [upd]
  by_cases h1 : k = i <;> by_cases h2 : k = j <;> simp_all

/-- the left side destroyed -/
theorem clear_ok {i} (h : Own m srcs g T) :
    ∃ m', clear m (g i) = some m' ∧ Own m' srcs (upd g i none) T ∧ m'.next = m.next ∧
      (∀ e b, ¬ OwnsBuf (g i) e b → m'.buf e b = m.buf e b) ∧ (∀ o, ¬ OwnsObj (g i) o → m'.object o = m.object o) := by
  cases hg : g i with
  | none => exact ⟨m, rfl, by rw [← hg, upd_self]; exact h, rfl, fun _ _ _ => rfl, fun _ _ => rfl⟩
  | some v =>
    obtain ⟨m2, c1, c2, c3, c4, c5, c6⟩ := h.destructor hg
    rw [hg] at c5 c6
    exact ⟨m2, c1, c2, c3, c5, c6⟩

theorem moveAssign_ok (sso : Enc → Nat) {i j lq rq br br' q'} (hij : i ≠ j) (h : Own m srcs g [])
    (hl : Sound m srcs br (g i) lq) (hr : Sound m srcs br' (g j) rq) (hv : Model.StringParam.moveAssign lq rq = some q') :
    ∃ p' m', moveAssign sso m (g i) (g j) = some (p', m') ∧ Own m' srcs (upd (upd g i p') j none) [] ∧
      Keep m m' srcs g (fun k => k = i ∨ k = j) ∧ Sound m' srcs br' p' q' := by
  have hml := hl.mode
  have hmr := hr.mode
  generalize hp : g j = r at hr hmr ⊢
  match r, rq, hr with
  | none, none, _ =>
    simp only [Model.StringParam.moveAssign, Model.StringParam.visit] at hv
    split at hv <;> cases hv
  | some r, some w, ⟨u, h1, h2, h3, h4, h5⟩ =>
    have hsr : Sound m srcs br' (g j) (some w) := by rw [hp]; exact ⟨u, h1, h2, h3, h4, h5⟩
    have hq : q' = some w := by
      simp only [Model.StringParam.moveAssign, Model.StringParam.visit] at hv
      split at hv
      · exact (Option.some.inj hv).symm
      · subst h3; rw [init_ne h2] at hv; exact (Option.some.inj hv).symm
    subst hq
    simp only [moveAssign]
    by_cases hm : mode (g i) = mode (some r)
    · rw [if_pos hm]
      cases hgi : g i with
      | none => rw [hgi] at hm; cases hm
      | some l =>
        obtain ⟨le, ls⟩ := l
        obtain ⟨re, rs⟩ := r
        rw [hgi] at hm
        cases ls with
        | string o b =>
          cases rs with
          | view b' off len => simp [mode] at hm
          | string o' b' =>
            have hee : le = re := by simp [mode] at hm; exact hm
            subst hee
            have ho := h.liveO i o ⟨le, b, hgi⟩
            have ho' := h.liveO j o' ⟨le, b', hp⟩
            have hb := h.live i le b ⟨o, hgi⟩
            have hbb : (le, b') ≠ (le, b) := by
              intro hx; cases hx; exact hij (h.bufs i j le b ⟨o, hgi⟩ ⟨o', hp⟩)
            have hoo : o ≠ o' := by
              rintro rfl; exact hij (h.objs i j o ⟨le, b, hgi⟩ ⟨le, b', hp⟩)
            obtain ⟨a1, a2⟩ := h.give hgi
            have a3 := a1.drop a2
            obtain ⟨b1, b2⟩ := a3.give (i := j) (e := le) (o := o') (b := b') (by rw [upd_ne _ _ hij.symm]; exact hp)
            have hu : (m.setBuf le b none).buf le b' = some u := by
              rw [setBuf_ne _ _ hbb]
              simpa [Mem.content, ho'] using h1
            obtain ⟨b'', m3, d1, d2, d3, d4, d5, d6⟩ := b1.move (sso := sso) b2 hu
            have no : ∀ k, ¬ OwnsObj (upd (upd g i none) j none k) o := by
              intro k hk
              by_cases hkj : k = j
              · subst hkj; rw [upd_at] at hk; exact ownsObj_none hk
              · rw [upd_ne _ _ hkj] at hk; exact give_obj h hgi k hk
            have no' : ∀ k, ¬ OwnsObj (upd (upd g i none) j none k) o' := give_obj a3 (by rw [upd_ne _ _ hij.symm]; exact hp)
            have e1 := d3.endObject no'
            have hobj : (m3.setObject o' false).object o = true := by
              simp only [Mem.setObject, if_neg hoo, d5]; exact ho
            have f1 := e1.take (i := i) (o := o) d4 (by rw [upd_ne _ _ hij, upd_at]) hobj no
            have keep : ∀ e' c, c < m.next → ¬ OwnsBuf (g i) e' c → ¬ OwnsBuf (g j) e' c → m3.buf e' c = m.buf e' c := by
              intro e' c hc n1 n2
              rw [hgi, ownsBuf_string] at n1
              rw [hp, ownsBuf_string] at n2
              rw [d6 e' c hc n2, setBuf_ne _ _ n1]
            refine ⟨some ⟨le, .string o b''⟩, m3.setObject o' false, ?_, ?_, ⟨?_, ?_, ?_⟩, ?_⟩
            · simp [ho, ho', Option.isSome_iff_ne_none.mpr hb, d1]
            · rw [upd_comm (upd g i none) none _ hij.symm, upd_upd] at f1
              exact f1
            · intro e' c hmem
              exact keep e' c (h.freshS _ _ hmem) (fun x => h.apart i _ _ x hmem) fun x => h.apart j _ _ x hmem
            · intro k hk e' c hown
              exact keep e' c (h.fresh _ _ (h.live k _ _ hown)) (fun x => hk (.inl (h.bufs k i _ _ hown x)))
                fun x => hk (.inr (h.bufs k j _ _ hown x))
            · intro k hk c hown
              have : c ≠ o' := by rintro rfl; exact hk (.inr (h.objs k j c hown ⟨le, b', hp⟩))
              simp only [Mem.setObject, if_neg this, d5]
              exact h.liveO k c hown
            · subst h3
              refine ⟨u, ?_, h2, rfl, fun _ _ _ hst => (by cases hst), h5⟩
              simp only [Mem.content, hobj, if_true, setObject_buf]; exact d2
        | view b off len =>
          have nil : ∀ e b, ¬ OwnsBuf (g i) e b := by rw [hgi]; simp [OwnsBuf]
          cases rs with
          | string o' b' => simp [mode] at hm
          | view b' off' len' =>
            have nj : ∀ e b, ¬ OwnsBuf (g j) e b := by rw [hp]; simp [OwnsBuf]
            refine ⟨_, m, rfl, ?_, h.keep _, by rw [← hp]; exact hsr⟩
            refine (h.plain nil (by simp [OwnsBuf])).plain ?_ (by simp [OwnsBuf])
            rw [upd_ne _ _ hij.symm]; exact nj
    · rw [if_neg hm]
      obtain ⟨m2, c1, c2, c3, c5, c6⟩ := clear_ok (i := i) h
      rw [c1, Option.bind_some]
      obtain ⟨re, rs⟩ := r
      have hgj : upd g i none j = g j := upd_ne _ _ hij.symm
      cases rs with
      | string o b =>
        have hown : OwnsBuf (g j) re b := ⟨o, hp⟩
        have hownO : OwnsObj (g j) o := ⟨re, b, hp⟩
        have ho : m2.object o = true := by
          rw [c6 o fun x => hij (h.objs i j o x hownO)]; exact h.liveO j o hownO
        have hu : m2.buf re b = some u := by
          rw [c5 re b fun x => hij (h.bufs i j re b x hown)]
          simpa [Mem.content, h.liveO j o hownO] using h1
        obtain ⟨a1, a2⟩ := c2.give (i := j) (by rw [hgj]; exact hp)
        obtain ⟨o3, b3, m3, d1, d2, d3, d4, d5, d6⟩ := a1.init (sso := sso) (i := i) a2 hu h2 (by rw [upd_ne _ _ hij, upd_at])
        rw [upd_comm (upd g i none) none _ hij.symm, upd_upd] at d4
        have keep : ∀ e' c, c < m.next → ¬ OwnsBuf (g i) e' c → ¬ OwnsBuf (g j) e' c → m3.buf e' c = m.buf e' c := by
          intro e' c hc n1 n2
          rw [d6 e' c (by omega) (by rw [hp, ownsBuf_string] at n2; exact n2), c5 e' c n1]
        refine ⟨_, m3, by simp only [ho, if_true]; exact d1, d4, ⟨?_, ?_, ?_⟩, ?_⟩
        · intro e' c hmem
          exact keep e' c (h.freshS _ _ hmem) (fun x => h.apart i _ _ x hmem) fun x => h.apart j _ _ x hmem
        · intro k hk e' c hown
          exact keep e' c (h.fresh _ _ (h.live k _ _ hown)) (fun x => hk (.inl (h.bufs k i _ _ hown x)))
            fun x => hk (.inr (h.bufs k j _ _ hown x))
        · intro k hk c hown
          refine d5 c ?_
          rw [c6 c fun x => hk (.inl (h.objs k i c hown x))]
          exact h.liveO k c hown
        · subst h3
          exact ⟨u, by simp [Mem.content, d2, d3], h2, rfl, fun _ _ _ hst => (by cases hst), h5⟩
      | view b off len =>
        have hlen : len ≠ 0 := by
          rintro rfl
          simp only [Mem.content, Mem.read] at h1
          cases hb : m.buf re b with
          | none => rw [hb] at h1; cases h1
          | some x =>
            rw [hb] at h1
            simp only [Option.bind_some, List.take_zero] at h1
            split at h1
            · exact h2 (Option.some.inj h1).symm
            · cases h1
        have keep : Keep m m2 srcs g (fun k => k = i ∨ k = j) := by
          refine ⟨?_, ?_, ?_⟩
          · intro e' c hmem; exact c5 e' c fun x => h.apart i _ _ x hmem
          · intro k hk e' c hown; exact c5 e' c fun x => hk (.inl (h.bufs k i _ _ hown x))
          · intro k hk c hown
            rw [c6 c fun x => hk (.inl (h.objs k i c hown x))]; exact h.liveO k c hown
        have nj : ∀ e b, ¬ OwnsBuf (g j) e b := by rw [hp]; simp [OwnsBuf]
        have hres : initView re b off len = some ⟨re, .view b off len⟩ := by simp [initView, hlen]
        refine ⟨_, m2, rfl, ?_, keep, ?_⟩
        · rw [hres]
          have s1 := c2.plain (i := i) (p := some ⟨re, .view b off len⟩) (by rw [upd_at]; simp [OwnsBuf]) (by simp [OwnsBuf])
          rw [upd_upd] at s1
          exact s1.plain (by rw [upd_ne _ _ hij.symm]; exact nj) (by simp [OwnsBuf])
        · rw [hres]
          have : Sound m srcs br' (some ⟨re, .view b off len⟩) (some w) := ⟨u, h1, h2, h3, h4, h5⟩
          refine this.frame (fun e b x => absurd x (by simp [OwnsBuf])) (fun o x => absurd x (by simp [OwnsObj])) ?_
          intro k e' c _ hk
          exact keep.src e' c (List.mem_of_getElem? hk)

end Verif.Proofs.StringLifetime
