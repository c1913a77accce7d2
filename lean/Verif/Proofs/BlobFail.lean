import Verif.Props.Blob
import Verif.Model.BlobFail
/-! Lemmas about blobs when the allocator may fail: a blob without memory behaves like an empty blob. -/
namespace Verif.Proofs.BlobFail
open Verif.Spec.Blob Verif.Model.Blob Verif.Proofs.Blob

abbrev FVec := Verif.Spec.BlobFail.Vec
abbrev fresh := Verif.Spec.BlobFail.fresh
abbrev bytesOf := Verif.Spec.BlobFail.bytesOf
abbrev SourceOk := Verif.Spec.BlobFail.SourceOk
abbrev constructF := Verif.Model.BlobFail.construct
abbrev resizeF := Verif.Model.BlobFail.resize
abbrev assignF := Verif.Model.BlobFail.assign

/-- a blob without memory, seen as an empty one -/
def gb (b : Blob) : Blob := ⟨b.alignment, if b.data = none then 0 else b.size, b.data⟩

def ghost (w : World) : World := ⟨w.mem, fun i => (w.blob i).map gb⟩

def vec (s : Nat → Option FVec) : Nat → Option Vec := fun i => (s i).map fun x => ⟨x.bytes.getD [], x.align⟩

/-- the blob as its user sees it -/
def Match (b : Blob) (x : FVec) : Prop :=
  b.alignment = x.align ∧ b.size = x.size ∧
    ((x.bytes = none ∧ b.data = none ∧ x.size ≠ 0) ∨ (∃ l, x.bytes = some l ∧ (b.data = none ↔ x.size = 0)))

structure Rel (w : World) (s : Nat → Option FVec) : Prop where
  dom : ∀ i, w.blob i = none ↔ s i = none
  mtch : ∀ i b x, w.blob i = some b → s i = some x → Match b x
  ghost : R (ghost w) (vec s)

theorem gb_held {b : Blob} (h : b.data = none → b.size = 0) : gb b = b := by
  unfold gb
  by_cases hd : b.data = none
  · have := h hd
    cases b; simp_all
  · cases b; simp_all

theorem ghost_put (m : Mem) (f : Nat → Option Blob) (i : Nat) (b : Option Blob) :
    ghost ⟨m, put f i b⟩ = ⟨m, put (fun k => (f k).map gb) i (b.map gb)⟩ := by
  unfold ghost
  congr 1
  funext k
  by_cases h : k = i <;> simp [put, h]

theorem vec_put (s : Nat → Option FVec) (i : Nat) (x : Option FVec) :
    vec (put s i x) = put (vec s) i (x.map fun x => ⟨x.bytes.getD [], x.align⟩) := by
  funext k
  by_cases h : k = i <;> simp [put, h, vec]

theorem R_align {w : World} {v : Nat → Option Vec} {i : Nat} {l : Bytes} {al : Nat} {b : Blob}
    (h : R w (put v i (some ⟨l, al⟩))) (hb : w.blob i = some b) (l' : Bytes) (hl : ∀ r, Agree l r → Agree l' r) :
    R w (put v i (some ⟨l', b.alignment⟩)) := by
  refine ⟨?_, ?_, h.sep, h.live, h.fresh⟩
  · intro k
    by_cases hk : k = i
    · subst hk; rw [put_same, hb]; simp
    · rw [put_ne _ _ hk, h.dom k, put_ne _ _ hk]
  · intro k c x hc hx
    by_cases hk : k = i
    · subst hk
      rw [put_same] at hx
      obtain rfl := Option.some.inj hx
      obtain ⟨r, h1, h2, _⟩ := h.own k c ⟨l, al⟩ hc (put_same _ _ _)
      rw [hb] at hc
      obtain rfl := Option.some.inj hc
      exact ⟨r, h1, hl r h2, Nat.le_refl _⟩
    · rw [put_ne _ _ hk] at hx
      exact h.own k c x hc (by rw [put_ne _ _ hk]; exact hx)

/-- the relation after an operation on one variable -/
theorem rel_put {w : World} {s : Nat → Option FVec} (h : Rel w s) {i : Nat} {m : Mem} {b : Blob} {x : FVec}
    (hm : Match b x) {l : Bytes} {al : Nat} (hl : ∀ r, Agree l r → Agree (x.bytes.getD []) r)
    (hg : R ⟨m, put (ghost w).blob i (some (gb b))⟩ (put (vec s) i (some ⟨l, al⟩))) :
    Rel ⟨m, put w.blob i (some b)⟩ (put s i (some x)) := by
  refine ⟨?_, ?_, ?_⟩
  · intro k
    by_cases hk : k = i
    · subst hk; simp [put]
    · show put _ _ _ k = none ↔ _
      rw [put_ne _ _ hk, put_ne _ _ hk]; exact h.dom k
  · intro k c y hc hy
    by_cases hk : k = i
    · subst hk
      simp only [put, if_true] at hc hy
      obtain rfl := Option.some.inj hc
      obtain rfl := Option.some.inj hy
      exact hm
    · simp only [put, if_neg hk] at hc hy
      exact h.mtch k c y hc hy
  · rw [ghost_put, vec_put]
    have := R_align hg (b := gb b) (put_same _ _ _) (x.bytes.getD []) hl
    have e : (gb b).alignment = x.align := hm.1
    rw [e] at this
    exact this

/-- a blob without memory changes the size it claims to have -/
theorem rel_lost {w : World} {s : Nat → Option FVec} (h : Rel w s) {i : Nat} {b : Blob} {x : FVec}
    (hb : w.blob i = some b) (hx : s i = some x) (hd : b.data = none) (n : Nat) {y : FVec}
    (hy : y = ⟨n, if n = 0 then some [] else none, x.align⟩) :
    Rel ⟨w.mem, put w.blob i (some ⟨b.alignment, n, none⟩)⟩ (put s i (some y)) := by
  subst hy
  have hm := h.mtch i b x hb hx
  have hgb : gb ⟨b.alignment, n, none⟩ = gb b := by simp [gb, hd]
  have hgi : (ghost w).blob i = some (gb b) := by simp [ghost, hb]
  refine rel_put h (l := []) (al := x.align) ?_ ?_ ?_
  · refine ⟨hm.1, rfl, ?_⟩
    by_cases hn : n = 0
    · exact .inr ⟨[], by simp [hn], by simp [hn]⟩
    · exact .inl ⟨by simp [hn], rfl, hn⟩
  · intro r hr
    by_cases hn : n = 0 <;> simpa [hn] using hr
  · rw [hgb]
    have e : put (ghost w).blob i (some (gb b)) = (ghost w).blob := by
      funext k; by_cases hk : k = i
      · subst hk; rw [put_same, hgi]
      · rw [put_ne _ _ hk]
    have hvi : vec s i = some ⟨x.bytes.getD [], x.align⟩ := by simp [vec, hx]
    have hnil : x.bytes.getD [] = [] := by
      obtain ⟨l, ho, ha, _⟩ := h.ghost.own i _ _ hgi hvi
      have := (own_none ho (by simp [gb, hd])).1
      subst this
      exact List.eq_nil_of_length_eq_zero ha.1
    rw [hnil] at hvi
    have e2 : put (vec s) i (some ⟨[], x.align⟩) = vec s := by
      funext k; by_cases hk : k = i
      · subst hk; rw [put_same, hvi]
      · rw [put_ne _ _ hk]
    rw [e, e2]
    exact h.ghost

theorem rel_same {w : World} {s : Nat → Option FVec} (h : Rel w s) {i : Nat} {b : Blob} {x : FVec}
    (hb : w.blob i = some b) (hx : s i = some x) : Rel ⟨w.mem, put w.blob i (some b)⟩ (put s i (some x)) := by
  have e : put w.blob i (some b) = w.blob := by
    funext k; by_cases hk : k = i
    · subst hk; rw [put_same, hb]
    · rw [put_ne _ _ hk]
  have e2 : put s i (some x) = s := by
    funext k; by_cases hk : k = i
    · subst hk; rw [put_same, hx]
    · rw [put_ne _ _ hk]
  rw [e, e2]; exact h

/-! ### What the operations do when the allocator succeeds -/

theorem allocF_true (m : Mem) (n a : Nat) : Verif.Model.BlobFail.alloc m true n a = (m.alloc n a).map fun x => (some x.1, x.2) := by
  unfold Verif.Model.BlobFail.alloc
  cases m.alloc n a <;> simp

theorem constructF_true (m : Mem) (n : Nat) (p : Ptr) (a : Nat) : constructF m true n p a = construct m n p a := by
  unfold constructF Verif.Model.BlobFail.construct construct
  simp only [allocF_true]
  split
  · cases m.alloc n (actualAlignment n a) with
    | none => rfl
    | some x => rfl
  · rfl

theorem constructF_zero (m : Mem) (ok : Bool) (p : Ptr) (a : Nat) : constructF m ok 0 p a = construct m 0 p a := by
  simp [constructF, Verif.Model.BlobFail.construct, construct]

theorem construct_shape {m m' : Mem} {n : Nat} {p : Ptr} {a : Nat} {b : Blob} (h : construct m n p a = some (b, m')) :
    b.alignment = actualAlignment n a ∧ b.size = n ∧ (b.data = none ↔ n = 0) := by
  unfold construct at h
  simp only at h
  split at h
  · rename_i hn
    split at h
    · simp at h
    · split at h
      · split at h
        · simp at h
        · simp at h; obtain ⟨rfl, _⟩ := h; simp [hn]
      · simp at h; obtain ⟨rfl, _⟩ := h; simp [hn]
  · rename_i hn
    simp at h; obtain ⟨rfl, _⟩ := h
    simp at hn; simp [hn]

theorem resizeF_true (m : Mem) (b : Blob) (n : Nat) (h : b.data = none → b.size = 0) :
    resizeF m true b n = resize m b n := by
  unfold resizeF Verif.Model.BlobFail.resize resize
  simp only [allocF_true]
  split
  · rfl
  · split
    · rename_i h0
      cases hd : b.data with
      | none => exact absurd (h hd) h0
      | some p =>
        simp only [Verif.Model.BlobFail.freeData]
        split
        · rfl
        · cases m.alloc n b.alignment <;> rfl
    · cases m.alloc n b.alignment <;> rfl

theorem resizeF_zero (m : Mem) (ok : Bool) (b : Blob) (h : b.data = none → b.size = 0) :
    resizeF m ok b 0 = resize m b 0 := by
  unfold resizeF Verif.Model.BlobFail.resize resize
  by_cases h1 : b.size = 0
  · rw [if_pos h1, if_pos h1]
  · rw [if_neg h1, if_neg h1, if_pos h1, if_pos h1, if_pos rfl]
    cases hd : b.data with
    | none => exact absurd (h hd) h1
    | some p => rfl

theorem resize_shape {m m' : Mem} {n : Nat} {b b' : Blob} (hb : b.data = none ↔ b.size = 0)
    (h : resize m b n = some (b', m')) :
    b'.alignment = b.alignment ∧ b'.size = n ∧ (b'.data = none ↔ n = 0) := by
  unfold resize at h
  split at h
  · rename_i he; simp at h; obtain ⟨rfl, _⟩ := h; exact ⟨rfl, he, by rw [hb, he]⟩
  · rename_i he
    split at h
    · split at h
      · simp at h
      · split at h
        · rename_i hn
          split at h
          · simp at h
          · simp at h; obtain ⟨rfl, _⟩ := h; simp [hn]
        · rename_i hn
          split at h
          · simp at h
          · split at h
            · simp at h
            · split at h
              · simp at h
              · simp at h; obtain ⟨rfl, _⟩ := h; simp [hn]
    · rename_i h0
      split at h
      · simp at h
      · simp at h h0; obtain ⟨rfl, _⟩ := h
        simp; omega

theorem fill_isData (m : Mem) (b : Blob) (src : Ptr) :
    (if src.isData b.data then some (b, m) else Verif.Model.BlobFail.fill m b src) =
      (match b.data with
      | none => some (b, m)
      | some p =>
        if src.ok && !src.isData b.data then
          match m.copyTo p src b.size with
          | none => none
          | some m => some (b, m)
        else some (b, m)) := by
  unfold Verif.Model.BlobFail.fill
  cases hd : b.data with
  | none => simp
  | some p => cases src.isData (some p) <;> cases src.ok <;> rfl

theorem assignF_true (m : Mem) (b : Blob) (n : Nat) (src : Ptr) (a : Nat) (h : b.data = none → b.size = 0) :
    assignF m true b n src a = assign m b n src a := by
  unfold assignF Verif.Model.BlobFail.assign assign
  simp only [allocF_true, fill_isData, show Verif.Model.BlobFail.resize m true b n = resize m b n from resizeF_true m b n h]
  split
  · cases hr : resize m b n <;> rfl
  · cases destroy m b with
    | none => rfl
    | some m =>
      simp only
      split
      · cases m.alloc n (actualAlignment n a) with
        | none => rfl
        | some x => rfl
      · rfl

theorem assignF_zero (m : Mem) (ok : Bool) (b : Blob) (src : Ptr) (a : Nat) (h : b.data = none → b.size = 0) :
    assignF m ok b 0 src a = assign m b 0 src a := by
  unfold assignF Verif.Model.BlobFail.assign assign
  simp only [fill_isData, show Verif.Model.BlobFail.resize m ok b 0 = resize m b 0 from resizeF_zero m ok b h]
  split
  · cases hr : resize m b 0 <;> rfl
  · cases destroy m b with
    | none => rfl
    | some m => simp

theorem assign_shape {m m' : Mem} {n : Nat} {src : Ptr} {a : Nat} {b b' : Blob} (hb : b.data = none ↔ b.size = 0)
    (h : assign m b n src a = some (b', m')) :
    b'.alignment = (if actualAlignment n a ≤ b.alignment then b.alignment else actualAlignment n a) ∧ b'.size = n ∧
      (b'.data = none ↔ n = 0) := by
  unfold assign at h
  simp only at h
  split at h
  · rename_i hal
    rw [if_pos hal]
    split at h
    · simp at h
    · rename_i c m1 hr
      have hs := resize_shape hb hr
      split at h
      · simp at h; obtain ⟨rfl, _⟩ := h; exact hs
      · split at h
        · split at h
          · simp at h
          · simp at h; obtain ⟨rfl, _⟩ := h; exact hs
        · simp at h; obtain ⟨rfl, _⟩ := h; exact hs
  · rename_i hal
    rw [if_neg hal]
    split at h
    · simp at h
    · split at h
      · rename_i hn
        split at h
        · simp at h
        · split at h
          · split at h
            · simp at h
            · simp at h; obtain ⟨rfl, _⟩ := h; simp [hn]
          · simp at h; obtain ⟨rfl, _⟩ := h; simp [hn]
      · rename_i hn
        simp at h hn; obtain ⟨rfl, _⟩ := h; simp [hn]

end Verif.Proofs.BlobFail
