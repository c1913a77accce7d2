import Verif.Model.StringLifetime
import Mathlib.Tactic.Common
import Mathlib.Tactic.SplitIfs
/-! Who owns which buffer: lemmas about the memory of string parameters (C178). -/
namespace Verif.Proofs.StringLifetime
open Verif.Spec.StringParam (Enc encode Text)
open Verif.Spec.StringLifetime Verif.Model.StringLifetime

@[simp] theorem setBuf_same (m : Mem) (e b x) : (m.setBuf e b x).buf e b = x := by simp [Mem.setBuf]

theorem setBuf_ne (m : Mem) {e b e' b'} (x) (h : (e', b') ≠ (e, b)) : (m.setBuf e b x).buf e' b' = m.buf e' b' := by
  by_cases he : e' = e
  · subst he
    have hb : b' ≠ b := fun hb => h (by rw [hb])
    simp [Mem.setBuf, Function.update_of_ne hb]
  · simp [Mem.setBuf, Function.update_of_ne he]

@[simp] theorem setBuf_next (m : Mem) (e b x) : (m.setBuf e b x).next = m.next := rfl
@[simp] theorem setBuf_object (m : Mem) (e b x) : (m.setBuf e b x).object = m.object := rfl
@[simp] theorem setBuf_made (m : Mem) (e b x) : (m.setBuf e b x).made = m.made := rfl
@[simp] theorem setObject_buf (m : Mem) (o x) : (m.setObject o x).buf = m.buf := rfl
@[simp] theorem setObject_next (m : Mem) (o x) : (m.setObject o x).next = m.next := rfl
@[simp] theorem setObject_made (m : Mem) (o x) : (m.setObject o x).made = m.made := rfl

def OwnsBuf (p : Param) (e : Enc) (b : Nat) : Prop := ∃ o, p = some ⟨e, .string o b⟩
def OwnsObj (p : Param) (o : Nat) : Prop := ∃ e b, p = some ⟨e, .string o b⟩

theorem ownsBuf_string {e o b e' b'} : OwnsBuf (some ⟨e, .string o b⟩) e' b' ↔ (e', b') = (e, b) := by
  simp [OwnsBuf, eq_comm]
theorem ownsObj_string {e o b o'} : OwnsObj (some ⟨e, .string o b⟩) o' ↔ o' = o := by simp [OwnsObj, eq_comm]
theorem ownsBuf_none {e b} : ¬ OwnsBuf none e b := by simp [OwnsBuf]
theorem ownsObj_none {o} : ¬ OwnsObj none o := by simp [OwnsObj]

abbrev Table := Nat → Param
def upd (g : Table) (i : Nat) (p : Param) : Table := fun k => if k = i then p else g k

/-- `g` the parameters, `T` buffers of strings that are between owners -/
structure Own (m : Mem) (srcs : List (Enc × Nat)) (g : Table) (T : List (Enc × Nat)) : Prop where
  apart : ∀ i e b, OwnsBuf (g i) e b → (e, b) ∉ srcs
  bufs : ∀ i j e b, OwnsBuf (g i) e b → OwnsBuf (g j) e b → i = j
  objs : ∀ i j o, OwnsObj (g i) o → OwnsObj (g j) o → i = j
  live : ∀ i e b, OwnsBuf (g i) e b → m.buf e b ≠ none
  liveO : ∀ i o, OwnsObj (g i) o → m.object o = true
  fresh : ∀ e b, m.buf e b ≠ none → b < m.next
  freshS : ∀ e b, (e, b) ∈ srcs → b < m.next
  freshO : ∀ o, m.object o = true → o < m.made
  leak : ∀ e b, m.buf e b ≠ none → (e, b) ∈ srcs ∨ (∃ i, OwnsBuf (g i) e b) ∨ (e, b) ∈ T
  temp : ∀ e b, (e, b) ∈ T → m.buf e b ≠ none ∧ (e, b) ∉ srcs ∧ ∀ i, ¬ OwnsBuf (g i) e b

variable {m : Mem} {srcs : List (Enc × Nat)} {g : Table} {T : List (Enc × Nat)}

/-- the end of a buffer between owners -/
theorem Own.drop {e b} (h : Own m srcs g ((e, b) :: T)) (hT : (e, b) ∉ T) : Own (m.setBuf e b none) srcs g T := by
  have ht := h.temp e b (by simp)
  have ne : ∀ {i e' b'}, OwnsBuf (g i) e' b' → (e', b') ≠ (e, b) := by
    intro i e' b' ho heq; cases heq; exact ht.2.2 i ho
  refine ⟨h.apart, h.bufs, h.objs, ?_, h.liveO, ?_, h.freshS, h.freshO, ?_, ?_⟩
  · intro i e' b' ho; rw [setBuf_ne _ _ (ne ho)]; exact h.live i e' b' ho
  · intro e' b' hb
    by_cases hx : (e', b') = (e, b)
    · cases hx; simp at hb
    · rw [setBuf_ne _ _ hx] at hb; exact h.fresh e' b' hb
  · intro e' b' hb
    by_cases hx : (e', b') = (e, b)
    · cases hx; simp at hb
    · rw [setBuf_ne _ _ hx] at hb
      rcases h.leak e' b' hb with h1 | h1 | h1
      · exact .inl h1
      · exact .inr (.inl h1)
      · rcases List.mem_cons.mp h1 with h1 | h1
        · exact absurd h1 hx
        · exact .inr (.inr h1)
  · intro e' b' hb
    have hx : (e', b') ≠ (e, b) := fun hx => hT (hx ▸ hb)
    rw [setBuf_ne _ _ hx]
    exact h.temp e' b' (List.mem_cons_of_mem _ hb)

/-- a parameter gives its buffer up -/
theorem Own.give {i e o b} (h : Own m srcs g T) (hg : g i = some ⟨e, .string o b⟩) :
    Own m srcs (upd g i none) ((e, b) :: T) ∧ (e, b) ∉ T := by
  have hob : OwnsBuf (g i) e b := ⟨o, hg⟩
  have down : ∀ {k e' b'}, OwnsBuf (upd g i none k) e' b' → k ≠ i ∧ OwnsBuf (g k) e' b' := by
    intro k e' b' ho
    unfold upd at ho; split at ho
    · exact absurd ho ownsBuf_none
    · exact ⟨by assumption, ho⟩
  have downO : ∀ {k o'}, OwnsObj (upd g i none k) o' → OwnsObj (g k) o' := by
    intro k o' ho
    unfold upd at ho; split at ho
    · exact absurd ho ownsObj_none
    · exact ho
  refine ⟨⟨fun k e' b' ho => h.apart k e' b' (down ho).2, fun k l e' b' h1 h2 => h.bufs k l e' b' (down h1).2 (down h2).2,
    fun k l o' h1 h2 => h.objs k l o' (downO h1) (downO h2), fun k e' b' ho => h.live k e' b' (down ho).2,
    fun k o' ho => h.liveO k o' (downO ho), h.fresh, h.freshS, h.freshO, ?_, ?_⟩, fun hT => (h.temp e b hT).2.2 i hob⟩
  · intro e' b' hb
    rcases h.leak e' b' hb with h1 | ⟨k, h1⟩ | h1
    · exact .inl h1
    · by_cases hk : k = i
      · subst hk
        rw [hg, ownsBuf_string] at h1
        exact .inr (.inr (by rw [h1]; simp))
      · exact .inr (.inl ⟨k, by simpa [upd, hk] using h1⟩)
    · exact .inr (.inr (List.mem_cons_of_mem _ h1))
  · intro e' b' hb
    rcases List.mem_cons.mp hb with h1 | h1
    · cases h1
      exact ⟨h.live i e b hob, h.apart i e b hob, fun k hk => (down hk).1 (h.bufs k i e b (down hk).2 hob)⟩
    · obtain ⟨t1, t2, t3⟩ := h.temp e' b' h1
      exact ⟨t1, t2, fun k hk => t3 k (down hk).2⟩

theorem give_obj {i e o b} (h : Own m srcs g T) (hg : g i = some ⟨e, .string o b⟩) : ∀ k, ¬ OwnsObj (upd g i none k) o := by
  intro k ho
  unfold upd at ho; split at ho
  · exact ownsObj_none ho
  · rename_i hk; exact hk (h.objs k i o ho (by rw [hg]; exact ⟨e, b, rfl⟩))

/-- the end of a string object nobody owns -/
theorem Own.endObject {o} (h : Own m srcs g T) (ho : ∀ k, ¬ OwnsObj (g k) o) : Own (m.setObject o false) srcs g T := by
  refine ⟨h.apart, h.bufs, h.objs, h.live, ?_, h.fresh, h.freshS, ?_, h.leak, h.temp⟩
  · intro i o' h1
    have hne : o' ≠ o := fun hx => ho i (hx ▸ h1)
    simp only [Mem.setObject, if_neg hne]; exact h.liveO i o' h1
  · intro o' h1
    simp only [Mem.setObject] at h1
    split at h1
    · cases h1
    · exact h.freshO o' h1

theorem alloc_ne (m : Mem) (e u) {e' b'} (h : b' < m.next) : (m.alloc e u).2.buf e' b' = m.buf e' b' := by
  simp only [Mem.alloc]
  exact setBuf_ne m (some u) (by intro hx; cases hx; omega)

theorem alloc_same (m : Mem) (e u) : (m.alloc e u).2.buf e m.next = some u := by simp [Mem.alloc]

/-- a new buffer between owners -/
theorem Own.alloc (h : Own m srcs g T) (e : Enc) (u) :
    Own (m.alloc e u).2 srcs g ((e, m.next) :: T) ∧ (e, m.next) ∉ T := by
  have hn : ∀ {e' b'}, m.buf e' b' ≠ none → (m.alloc e u).2.buf e' b' = m.buf e' b' := fun hb => alloc_ne m e u (h.fresh _ _ hb)
  have hnone : ∀ e', m.buf e' m.next = none := by
    intro e'
    by_contra hc
    have := h.fresh e' m.next hc
    omega
  refine ⟨⟨h.apart, h.bufs, h.objs, ?_, h.liveO, ?_, ?_, h.freshO, ?_, ?_⟩, ?_⟩
  · intro i e' b' ho; rw [hn (h.live i e' b' ho)]; exact h.live i e' b' ho
  · intro e' b' hb
    show b' < m.next + 1
    by_cases hx : (e', b') = (e, m.next)
    · cases hx; omega
    · have : m.buf e' b' ≠ none := by
        intro hc; apply hb; simp only [Mem.alloc]; rw [← hc]; exact setBuf_ne m _ hx
      have := h.fresh e' b' this; omega
  · intro e' b' hs; have := h.freshS e' b' hs; show b' < m.next + 1; omega
  · intro e' b' hb
    by_cases hx : (e', b') = (e, m.next)
    · exact .inr (.inr (by rw [hx]; simp))
    · have : m.buf e' b' ≠ none := by
        intro hc; apply hb; simp only [Mem.alloc]; rw [← hc]; exact setBuf_ne m _ hx
      rcases h.leak e' b' this with h1 | h1 | h1
      · exact .inl h1
      · exact .inr (.inl h1)
      · exact .inr (.inr (List.mem_cons_of_mem _ h1))
  · intro e' b' hb
    rcases List.mem_cons.mp hb with h1 | h1
    · cases h1
      refine ⟨by rw [alloc_same]; simp, ?_, ?_⟩
      · intro hs; have := h.freshS _ _ hs; omega
      · intro i ho; exact h.live i _ _ ho (hnone e)
    · obtain ⟨t1, t2, t3⟩ := h.temp e' b' h1
      exact ⟨by rw [hn t1]; exact t1, t2, t3⟩
  · intro hT; exact (h.temp _ _ hT).1 (hnone e)

/-- a string between owners is moved -/
theorem Own.move {sso : Enc → Nat} {e b u} (h : Own m srcs g ((e, b) :: T)) (hT : (e, b) ∉ T) (hu : m.buf e b = some u) :
    ∃ b' m', m.moveBuffer sso e b = some (b', m') ∧ m'.buf e b' = some u ∧ Own m' srcs g ((e, b') :: T) ∧ (e, b') ∉ T ∧
      m'.object = m.object ∧ ∀ e' b'', b'' < m.next → (e', b'') ≠ (e, b) → m'.buf e' b'' = m.buf e' b'' := by
  unfold Mem.moveBuffer
  rw [hu, Option.map_some]
  by_cases hs : u.length ≤ sso e
  · rw [if_pos hs]
    obtain ⟨a1, a2⟩ := (h.drop hT).alloc e u
    refine ⟨_, _, rfl, alloc_same _ _ _, a1, a2, rfl, ?_⟩
    intro e' b'' hb hx
    exact (alloc_ne (m.setBuf e b none) e u hb).trans (setBuf_ne m _ hx)
  · rw [if_neg hs]
    exact ⟨b, m, rfl, hu, h, hT, rfl, fun _ _ _ _ => rfl⟩

/-- a parameter takes a buffer and an object -/
theorem Own.take {i e o b} (h : Own m srcs g ((e, b) :: T)) (hT : (e, b) ∉ T) (hg : g i = none) (ho : m.object o = true)
    (hn : ∀ k, ¬ OwnsObj (g k) o) : Own m srcs (upd g i (some ⟨e, .string o b⟩)) T := by
  have ht := h.temp e b (by simp)
  have cs : ∀ {k e' b'}, OwnsBuf (upd g i (some ⟨e, .string o b⟩) k) e' b' → (k = i ∧ (e', b') = (e, b)) ∨ (k ≠ i ∧ OwnsBuf (g k) e' b') := by
    intro k e' b' h1
    unfold upd at h1; split at h1
    · exact .inl ⟨by assumption, ownsBuf_string.mp h1⟩
    · exact .inr ⟨by assumption, h1⟩
  have cso : ∀ {k o'}, OwnsObj (upd g i (some ⟨e, .string o b⟩) k) o' → (k = i ∧ o' = o) ∨ (k ≠ i ∧ OwnsObj (g k) o') := by
    intro k o' h1
    unfold upd at h1; split at h1
    · exact .inl ⟨by assumption, ownsObj_string.mp h1⟩
    · exact .inr ⟨by assumption, h1⟩
  refine ⟨?_, ?_, ?_, ?_, ?_, h.fresh, h.freshS, h.freshO, ?_, ?_⟩
  · intro k e' b' h1
    rcases cs h1 with ⟨_, hx⟩ | ⟨_, h2⟩
    · cases hx; exact ht.2.1
    · exact h.apart k e' b' h2
  · intro k l e' b' h1 h2
    rcases cs h1 with ⟨hk, hx⟩ | ⟨hk, h3⟩ <;> rcases cs h2 with ⟨hl, hy⟩ | ⟨hl, h4⟩
    · rw [hk, hl]
    · cases hx; exact absurd h4 (ht.2.2 l)
    · cases hy; exact absurd h3 (ht.2.2 k)
    · exact h.bufs k l e' b' h3 h4
  · intro k l o' h1 h2
    rcases cso h1 with ⟨hk, hx⟩ | ⟨hk, h3⟩ <;> rcases cso h2 with ⟨hl, hy⟩ | ⟨hl, h4⟩
    · rw [hk, hl]
    · subst hx; exact absurd h4 (hn l)
    · subst hy; exact absurd h3 (hn k)
    · exact h.objs k l o' h3 h4
  · intro k e' b' h1
    rcases cs h1 with ⟨_, hx⟩ | ⟨_, h2⟩
    · cases hx; exact ht.1
    · exact h.live k e' b' h2
  · intro k o' h1
    rcases cso h1 with ⟨_, hx⟩ | ⟨_, h2⟩
    · subst hx; exact ho
    · exact h.liveO k o' h2
  · intro e' b' hb
    rcases h.leak e' b' hb with h1 | ⟨k, h1⟩ | h1
    · exact .inl h1
    · refine .inr (.inl ⟨k, ?_⟩)
      unfold upd; split
      · rename_i hk; subst hk; rw [hg] at h1; exact absurd h1 ownsBuf_none
      · exact h1
    · rcases List.mem_cons.mp h1 with h1 | h1
      · refine .inr (.inl ⟨i, ?_⟩)
        simp only [upd, if_true]; exact ownsBuf_string.mpr h1
      · exact .inr (.inr h1)
  · intro e' b' hb
    obtain ⟨t1, t2, t3⟩ := h.temp e' b' (List.mem_cons_of_mem _ hb)
    refine ⟨t1, t2, fun k hk => ?_⟩
    rcases cs hk with ⟨_, hx⟩ | ⟨_, h2⟩
    · cases hx; exact hT hb
    · exact t3 k h2

/-- a new string object -/
theorem Own.make (h : Own m srcs g T) :
    Own m.make.2 srcs g T ∧ m.make.2.object m.make.1 = true ∧ ∀ k, ¬ OwnsObj (g k) m.make.1 := by
  have hno : m.object m.made ≠ true := fun hc => by have := h.freshO _ hc; omega
  have hno2 : ∀ k, ¬ OwnsObj (g k) m.made := fun k hk => hno (h.liveO k _ hk)
  refine ⟨⟨h.apart, h.bufs, h.objs, h.live, ?_, h.fresh, h.freshS, ?_, h.leak, h.temp⟩, by simp [Mem.make, Mem.setObject], hno2⟩
  · intro i o' h1
    simp only [Mem.make, Mem.setObject]
    split
    · rfl
    · exact h.liveO i o' h1
  · intro o' h1
    show o' < m.made + 1
    simp only [Mem.make, Mem.setObject] at h1
    split at h1
    · omega
    · have := h.freshO o' h1; omega

theorem make_object (m : Mem) {o} (h : o < m.made) : m.make.2.object o = m.object o := by
  simp only [Mem.make, Mem.setObject]; rw [if_neg (by omega)]

/-- `initialize` with a string that is not empty -/
theorem Own.init {sso : Enc → Nat} {i e b u} (h : Own m srcs g ((e, b) :: T)) (hT : (e, b) ∉ T) (hu : m.buf e b = some u)
    (hne : u ≠ []) (hg : g i = none) :
    ∃ o b' m', initString sso m e b = some (some ⟨e, .string o b'⟩, m') ∧ m'.buf e b' = some u ∧ m'.object o = true ∧
      Own m' srcs (upd g i (some ⟨e, .string o b'⟩)) T ∧ (∀ o, m.object o = true → m'.object o = true) ∧
      ∀ e' b'', b'' < m.next → (e', b'') ≠ (e, b) → m'.buf e' b'' = m.buf e' b'' := by
  obtain ⟨b', m', a1, a2, a3, a4, a5, a6⟩ := h.move (sso := sso) hT hu
  obtain ⟨c1, c2, c3⟩ := a3.make
  refine ⟨m'.make.1, b', m'.make.2, ?_, a2, c2, c1.take a4 hg c2 c3, ?_, a6⟩
  · unfold initString
    rw [hu, Option.bind_some, if_neg (by simpa using hne), a1]; rfl
  · intro o ho
    have hlt : o < m'.made := a3.freshO o (by rw [a5]; exact ho)
    rw [make_object m' hlt, a5]; exact ho

/-- the destructor of a value -/
theorem Own.destructor {i v} (h : Own m srcs g T) (hg : g i = some v) :
    ∃ m', destructor m v = some m' ∧ Own m' srcs (upd g i none) T ∧ m'.next = m.next ∧ m'.made = m.made ∧
      (∀ e b, ¬ OwnsBuf (g i) e b → m'.buf e b = m.buf e b) ∧ (∀ o, ¬ OwnsObj (g i) o → m'.object o = m.object o) := by
  obtain ⟨e, st⟩ := v
  cases st with
  | string o b =>
    obtain ⟨a1, a2⟩ := h.give hg
    have a3 := (a1.drop a2).endObject (give_obj h hg)
    have hl := h.live i e b ⟨o, hg⟩
    have ho := h.liveO i o ⟨e, b, hg⟩
    refine ⟨_, ?_, a3, rfl, rfl, ?_, ?_⟩
    · simp only [Model.StringLifetime.destructor, ho, Option.isSome_iff_ne_none.mpr hl, Bool.and_self, if_true]
    · intro e' b' hn
      rw [hg, ownsBuf_string] at hn
      rw [setObject_buf]; exact setBuf_ne m _ hn
    · intro o' hn
      rw [hg, ownsObj_string] at hn
      simp [Mem.setObject, hn]
  | view b off len =>
    have hnb : ∀ e' b', ¬ OwnsBuf (g i) e' b' := by rw [hg]; simp [OwnsBuf]
    have hno : ∀ o, ¬ OwnsObj (g i) o := by rw [hg]; simp [OwnsObj]
    have up : ∀ {k e' b'}, OwnsBuf (upd g i none k) e' b' ↔ OwnsBuf (g k) e' b' := by
      intro k e' b'; unfold upd; split
      · rename_i hk; subst hk; exact ⟨fun x => absurd x ownsBuf_none, fun x => absurd x (hnb _ _)⟩
      · rfl
    have upo : ∀ {k o}, OwnsObj (upd g i none k) o ↔ OwnsObj (g k) o := by
      intro k o; unfold upd; split
      · rename_i hk; subst hk; exact ⟨fun x => absurd x ownsObj_none, fun x => absurd x (hno _)⟩
      · rfl
    refine ⟨m, rfl, ?_, rfl, rfl, fun _ _ _ => rfl, fun _ _ => rfl⟩
    constructor <;> (try simp only [up, upo])
    exacts [h.apart, h.bufs, h.objs, h.live, h.liveO, h.fresh, h.freshS, h.freshO, h.leak, h.temp]

/-- exchanging parameters that own nothing -/
theorem Own.plain {i p} (h : Own m srcs g T) (hg : ∀ e b, ¬ OwnsBuf (g i) e b) (hp : ∀ e b, ¬ OwnsBuf p e b) :
    Own m srcs (upd g i p) T := by
  have hg' : ∀ o, ¬ OwnsObj (g i) o := fun o ⟨e, b, x⟩ => hg e b ⟨o, x⟩
  have hp' : ∀ o, ¬ OwnsObj p o := fun o ⟨e, b, x⟩ => hp e b ⟨o, x⟩
  have up : ∀ {k e' b'}, OwnsBuf (upd g i p k) e' b' ↔ OwnsBuf (g k) e' b' := by
    intro k e' b'; unfold upd; split
    · rename_i hk; subst hk; exact ⟨fun x => absurd x (hp _ _), fun x => absurd x (hg _ _)⟩
    · rfl
  have upo : ∀ {k o}, OwnsObj (upd g i p k) o ↔ OwnsObj (g k) o := by
    intro k o; unfold upd; split
    · rename_i hk; subst hk; exact ⟨fun x => absurd x (hp' _), fun x => absurd x (hg' _)⟩
    · rfl
  constructor <;> (try simp only [up, upo])
  exacts [h.apart, h.bufs, h.objs, h.live, h.liveO, h.fresh, h.freshS, h.freshO, h.leak, h.temp]

/-- writing to a buffer that is owned -/
theorem Own.write {i e o b u} (h : Own m srcs g T) (hg : g i = some ⟨e, .string o b⟩) : Own (m.setBuf e b (some u)) srcs g T := by
  have hl := h.live i e b ⟨o, hg⟩
  have iff : ∀ e' b', (m.setBuf e b (some u)).buf e' b' ≠ none ↔ m.buf e' b' ≠ none := by
    intro e' b'
    by_cases hx : (e', b') = (e, b)
    · cases hx; simp [hl]
    · rw [setBuf_ne _ _ hx]
  refine ⟨h.apart, h.bufs, h.objs, ?_, h.liveO, ?_, h.freshS, h.freshO, ?_, ?_⟩ <;> simp only [iff]
  exacts [h.live, h.fresh, h.leak, h.temp]

theorem upd_upd (g : Table) (i p q) : upd (upd g i p) i q = upd g i q := by
  funext k; simp only [upd]; split <;> rfl
theorem upd_self (g : Table) (i) : upd g i (g i) = g := by
  funext k; simp only [upd]; split
  · rename_i h; rw [h]
  · rfl
theorem upd_at (g : Table) (i p) : upd g i p i = p := by simp [upd]

end Verif.Proofs.StringLifetime
