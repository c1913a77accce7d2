import Verif.Proofs.BlobFail3
/-! C179 (blobs when the allocator fails). -/
namespace Verif.Props.BlobFail
open Verif.Spec.Blob hiding Vec
open Verif.Spec.BlobFail Verif.Model.Blob Verif.Model.BlobFail
open Verif.Proofs.BlobFail (Rel step_rel hazard_none length_eq vec_some ghost_some held_iff gb_held)

theorem init_rel : Rel World.init (fun _ => none) :=
  ⟨fun _ => by simp [World.init], fun _ _ _ h => by simp [World.init] at h,
    ⟨fun _ => by simp [World.init, Verif.Proofs.BlobFail.ghost, Verif.Proofs.BlobFail.vec],
      fun _ _ _ h => by simp [World.init, Verif.Proofs.BlobFail.ghost] at h,
      fun _ _ _ _ _ h => by simp [World.init, Verif.Proofs.BlobFail.ghost] at h,
      fun _ h => by simp [World.init, Verif.Proofs.BlobFail.ghost] at h, fun _ _ => rfl⟩⟩

theorem run_rel {w : World} {v v' : Nat → Option Vec} {l : List (Op × Bool)} (h : Rel w v) (hr : Runs v l v') :
    ∃ w', run w l = some w' ∧ Rel w' v' := by
  induction hr generalizing w with
  | nil v => exact ⟨w, rfl, h⟩
  | cons h1 h2 h3 _ ih =>
    obtain ⟨w1, g1, g2⟩ := step_rel h _ _ h1 h2 h3
    obtain ⟨w', g3, g4⟩ := ih g2
    exact ⟨w', by simp only [run, g1]; exact g3, g4⟩

/-- **C179 (what holds)** In every history of operations on blobs, in which any of the requests for memory may fail, and
    which does not contain an operation that moves the bytes of a non-empty blob to memory of another size while there
    are no such bytes or no such memory: nothing is undefined; every blob claims the size and the alignment which the
    user can predict; it holds memory (operator bool) if and only if it claims some bytes and no allocation for them
    has failed; and then data() has exactly as many bytes as size() says, aligned as alignment() says, and with the
    specified values. -/
theorem C179_history_partial (l : List (Op × Bool)) (v : Nat → Option Vec) (h : Runs (fun _ => none) l v) :
    ∃ w, run World.init l = some w ∧
      (∀ i, w.blob i = none ↔ v i = none) ∧
      (∀ i x, v i = some x → ∃ b, w.blob i = some b ∧ b.size = x.size ∧ b.alignment = x.align ∧
        (∃ k, x.align = 2 ^ k) ∧ 16 ≤ x.align ∧
        (b.data ≠ none ↔ x.size ≠ 0 ∧ x.bytes ≠ none) ∧
        ∀ p, b.data = some p → ∃ spec actual, x.bytes = some spec ∧ w.mem.block p = some ⟨x.align, actual⟩ ∧
          actual.length = x.size ∧ Agree spec actual) := by
  obtain ⟨w, h1, h2⟩ := run_rel init_rel h
  refine ⟨w, h1, h2.dom, ?_⟩
  intro i x hx
  cases hb : w.blob i with
  | none => rw [(h2.dom i).mp hb] at hx; simp at hx
  | some b =>
    have hm := h2.mtch i b x hb hx
    have hap := Verif.Proofs.BlobFail.align_pow h2 hx
    refine ⟨b, rfl, hm.2.1, hm.1, hap.1, hap.2, ?_, ?_⟩
    · rcases hm.2.2 with ⟨l1, l2, l3⟩ | ⟨l, l1, l2⟩
      · simp [l1, l2]
      · rw [l1, ne_eq, l2]; simp
    · intro p hp
      obtain ⟨r, o1, o2, _⟩ := h2.ghost.own i _ _ (ghost_some hb) (vec_some hx)
      rcases hm.2.2 with ⟨l1, l2, l3⟩ | ⟨l, l1, l2⟩
      · rw [l2] at hp; simp at hp
      · have hblk := (Verif.Proofs.Blob.own_data o1 (p := p) hp).1
        have hlen := o1.2.1
        rw [gb_held (held_iff hm (by rw [l1]; simp)).mp] at hblk hlen
        refine ⟨l, r, l1, ?_, by rw [hlen]; exact hm.2.1, ?_⟩
        · rw [← hm.1]; exact hblk
        · simpa [l1] using o2

/-- **C179 (what holds)** In every such history no two blobs share memory and all memory is owned by some blob; so once all
    blobs are destroyed nothing is left, whichever allocations failed. -/
theorem C179_no_leak_partial (l : List (Op × Bool)) (v : Nat → Option Vec) (h : Runs (fun _ => none) l v) :
    ∃ w, run World.init l = some w ∧
      (∀ i j b c p, w.blob i = some b → w.blob j = some c → b.data = some p → c.data = some p → i = j) ∧
      (∀ p, w.mem.block p ≠ none → ∃ i b, w.blob i = some b ∧ b.data = some p) ∧
      ((∀ i, v i = none) → ∀ p, w.mem.block p = none) := by
  obtain ⟨w, h1, h2⟩ := run_rel init_rel h
  have hlive : ∀ p, w.mem.block p ≠ none → ∃ i b, w.blob i = some b ∧ b.data = some p := by
    intro p hp
    obtain ⟨i, b, hb, hd⟩ := h2.ghost.live p hp
    cases hc : w.blob i with
    | none => simp [Verif.Proofs.BlobFail.ghost, hc] at hb
    | some c =>
      rw [ghost_some hc] at hb
      obtain rfl := Option.some.inj hb
      exact ⟨i, c, hc, hd⟩
  refine ⟨w, h1, ?_, hlive, ?_⟩
  · intro i j b c p hb hc hd hd'
    exact h2.ghost.sep i j _ _ p (ghost_some hb) (ghost_some hc) hd hd'
  · intro hv p
    apply Classical.byContradiction
    intro hp
    obtain ⟨i, b, hb, _⟩ := hlive p hp
    rw [(h2.dom i).mpr (hv i)] at hb; simp at hb

/-- **C179 (exactly the hazardous operations go wrong)** After every such history, an operation of a caller who respects
    the rules is undefined if and only if it is hazardous. -/
theorem C179_exact_partial (l : List (Op × Bool)) (v v' : Nat → Option Vec) (h : Runs (fun _ => none) l v) (w : World)
    (hw : run World.init l = some w) (o : Op) (ok : Bool) (rules : Ok v o) (hv : apply v o ok = some v') :
    step w ok o = none ↔ Hazard v o ok := by
  obtain ⟨w', h1, h2⟩ := run_rel init_rel h
  rw [hw] at h1
  obtain rfl := Option.some.inj h1
  constructor
  · intro hn
    apply Classical.byContradiction
    intro hz
    obtain ⟨w', h3, _⟩ := step_rel h2 o ok rules hz hv
    rw [hn] at h3; simp at h3
  · exact hazard_none h2 o ok rules

/-- **C179 is violated (resize)**: after every such history, a resize of a non-empty blob to another size other than zero
    copies to a null pointer if the allocator fails: the old bytes are neither kept nor released. -/
theorem C179_resize_violated (l : List (Op × Bool)) (v : Nat → Option Vec) (h : Runs (fun _ => none) l v) (w : World)
    (hw : run World.init l = some w) (i : Nat) (x : Vec) (hx : v i = some x) (hs : x.size ≠ 0) (n : Nat) (hn : n ≠ 0)
    (hne : n ≠ x.size) : step w false (.resize i n) = none :=
  (C179_exact_partial l v _ h w hw (.resize i n) false trivial (by simp only [apply, hx]; rfl)).mpr
    ⟨x, hx, hs, hn, hne, .inr rfl⟩

/-- **C179 is violated (claimed size)**: if the allocation of a constructor fails, the blob claims `n` bytes although its
    data() is a null pointer; and a later resize to any other size than zero copies from that null pointer, even if
    its own allocation succeeds. -/
theorem C179_claimed_size_violated (n m a : Nat) (src : List (BitVec 8)) (hn : n ≠ 0) (hm : m ≠ 0) (hne : m ≠ n)
    (hl : n ≤ src.length) (ha : AlignOk a) :
    ∃ w b, run World.init [(.construct 0 n (.memory src) a, false)] = some w ∧ w.blob 0 = some b ∧
      b.size = n ∧ b.data = none ∧ step w true (.resize 0 m) = none := by
  have hr : Runs (fun _ => none) [(Op.construct 0 n (.memory src) a, false)]
      (put (fun _ => none) 0 (some (fresh false n (bytesOf (fun _ => none) n (.memory src)) (atLeast n a)))) :=
    .cons ⟨ha, hl⟩ id rfl (.nil _)
  obtain ⟨w, h1, h2, h3⟩ := C179_history_partial _ _ hr
  obtain ⟨b, g1, g2, _, _, _, g6, _⟩ := h3 0 _ (Verif.Proofs.Blob.put_same _ _ _)
  have hb : b.data = none := by
    apply Classical.byContradiction
    intro hne
    exact (g6.mp hne).2 (by simp [fresh, hn])
  refine ⟨w, b, h1, g1, g2, hb, ?_⟩
  exact (C179_exact_partial _ _ _ hr w h1 (.resize 0 m) true trivial (by
    simp only [apply, Verif.Proofs.Blob.put_same]; rfl)).mpr
    ⟨_, Verif.Proofs.Blob.put_same _ _ _, hn, hm, hne, .inl (by simp [fresh, hn])⟩

/-! A blob which lost its memory in a failed construction, is copied, emptied, and grown again. -/

def sample : List (Op × Bool) :=
  [(.construct 0 3 (.memory [1#8, 2#8, 3#8]) 0, false), (.construct 1 2 (.memory [4#8, 5#8]) 0, true), (.copy 2 0, true),
    (.resize 0 0, false), (.copyAssign 0 1, true), (.assign 1 2 (.blob 2 0) 64, false), (.destroy 2, false)]

theorem sample_runs : ∃ v, Runs (fun _ => none) sample v ∧ v 0 = some ⟨2, some [some 4#8, some 5#8], 16⟩ ∧
    v 1 = some ⟨2, none, 64⟩ ∧ v 2 = none := by
  refine ⟨_, .cons ⟨.inl rfl, show 3 ≤ 3 by decide⟩ id rfl <| .cons ⟨.inl rfl, show 2 ≤ 2 by decide⟩ id rfl <|
    .cons trivial id rfl <| .cons trivial ?_ rfl <| .cons trivial ?_ rfl <|
    .cons ⟨.inr ⟨6, rfl⟩, by decide, _, rfl, .inr ⟨_, rfl, by decide⟩⟩ ?_ rfl <| .cons trivial id rfl <| .nil _, ?_⟩
  · rintro ⟨x, _, _, h, _⟩; exact h rfl
  · rintro ⟨x, y, hx, hy, h | h⟩
    · obtain rfl := Option.some.inj hx
      exact h.2.1 (by decide)
    · exact absurd h.1 (by decide)
  · rintro ⟨x, hx, h, _⟩
    obtain rfl := Option.some.inj hx
    exact absurd h (by decide)
  · decide

example : ∃ v w, Runs (fun _ => none) sample v ∧ run World.init sample = some w ∧ v 1 = some ⟨2, none, 64⟩ ∧
    step w false (.resize 0 5) = none ∧ step w true (.resize 1 5) = none ∧ step w true (.resize 0 5) ≠ none := by
  obtain ⟨v, hr, h0, h1, _⟩ := sample_runs
  obtain ⟨w, hw, _⟩ := C179_history_partial _ _ hr
  refine ⟨v, w, hr, hw, h1, ?_, ?_, ?_⟩
  · exact C179_resize_violated _ _ hr w hw 0 _ h0 (by decide) 5 (by decide) (by decide)
  · exact (C179_exact_partial _ _ _ hr w hw (.resize 1 5) true trivial (by simp only [apply, h1]; rfl)).mpr
      ⟨_, h1, by decide, by decide, by decide, .inl rfl⟩
  · intro hn
    obtain ⟨x, hx, _, _, _, h | h⟩ := (C179_exact_partial _ _ _ hr w hw (.resize 0 5) true trivial
      (by simp only [apply, h0]; rfl)).mp hn
    · rw [h0] at hx; obtain rfl := Option.some.inj hx; simp at h
    · simp at h

example := C179_no_leak_partial sample _ sample_runs.choose_spec.1
example := C179_claimed_size_violated 3 5 0 [1#8, 2#8, 3#8] (by decide) (by decide) (by decide) (by decide) (.inl rfl)

end Verif.Props.BlobFail
