import Verif.Proofs.Blob
/-! C43 (blob). -/
namespace Verif.Props
open Verif.Spec.Blob Verif.Model.Blob Verif.Proofs.Blob

/-- the operation does not assign a blob of 2048 bytes or more, whose alignment is below 64, to itself -/
def SafeSelf (v : Nat → Option Vec) : Op → Prop
  | .copyAssign i j => i = j → ∀ x, v i = some x → x.bytes.length < 2048 ∨ 64 ≤ x.align
  | _ => True

theorem blob_step {w : World} {v v' : Nat → Option Vec} (hR : R w v) (o : Op) (hok : o.Ok v) (hself : SafeSelf v o)
    (hv : o.apply v = some v') : ∃ w', w.step o = some w' ∧ R w' v' := by
  have hsome : ∀ {j y}, v j = some y → ∃ c, w.blob j = some c := by
    intro j y h
    cases hb : w.blob j with
    | none => rw [(hR.dom j).mp hb] at h; simp at h
    | some c => exact ⟨c, rfl⟩
  cases o with
  | empty i =>
    simp only [Op.apply] at hv
    split at hv
    · rename_i h0
      obtain rfl := Option.some.inj hv
      have hb := (hR.dom i).mpr h0
      refine ⟨_, by simp only [World.step, hb]; rfl, ?_⟩
      exact R_store hR i none (.inl ⟨hb, rfl⟩) _ _ _ [] (change_refl hR.fresh none)
        ⟨⟨⟨4, rfl⟩, by decide⟩, rfl, .inl ⟨rfl, rfl⟩⟩ (agree_refl _) (Nat.le_refl _)
    · simp at hv
  | construct i n src a =>
    simp only [Op.apply] at hv
    split at hv
    · rename_i h0
      obtain rfl := Option.some.inj hv
      have hb := (hR.dom i).mpr h0
      obtain ⟨p, hp, hp1, hp2, _⟩ := source_spec hR i n src hok.2
      cases hk : p.ok with
      | true =>
        obtain ⟨l, hl, hr, ha⟩ := hp2 hk
        obtain ⟨b, m, h1, h2, h3, h4, h5⟩ := construct_spec hR.fresh n a hok.1 p l hl (fun _ _ => hr)
          (fun _ h => by rw [hk] at h; simp at h)
        refine ⟨_, by simp only [World.step, hb, hp, h1, World.store]; rfl, ?_⟩
        exact R_store hR i none (.inl ⟨hb, rfl⟩) _ _ _ l h5 h4 ha (by show atLeast n a ≤ _; omega)
      | false =>
        obtain ⟨b, m, h1, h2, h3, h4, h5⟩ := construct_spec hR.fresh n a hok.1 p (List.replicate n none) (by simp)
          (fun _ h => by rw [hk] at h; simp at h) (fun _ _ => rfl)
        refine ⟨_, by simp only [World.step, hb, hp, h1, World.store]; rfl, ?_⟩
        exact R_store hR i none (.inl ⟨hb, rfl⟩) _ _ _ _ h5 h4 (by rw [hp1 hk]; exact agree_refl _)
          (by show atLeast n a ≤ _; omega)
    · simp at hv
  | copy i j =>
    simp only [Op.apply] at hv
    split at hv
    · rename_i y h0 hj
      obtain rfl := Option.some.inj hv
      have hb := (hR.dom i).mpr h0
      obtain ⟨c, hc⟩ := hsome hj
      obtain ⟨l, ho, ha, hal⟩ := hR.own j c y hc hj
      have hlen := ho.2.1
      obtain ⟨b, m, h1, h2, h3, h4, h5⟩ := construct_spec hR.fresh c.size c.alignment (.inr ho.1.1) c.ptr l hlen
        (fun hn _ => by
          rcases ho.2.2 with h | ⟨_, p, hp, hblk⟩
          · exact absurd h.1 hn
          · simp only [Blob.ptr, hp, Mem.read, hblk]
            rw [if_pos (by omega)]; simp [← hlen])
        (fun hn h => by
          rcases ho.2.2 with h' | ⟨_, p, hp, _⟩
          · exact absurd h'.1 hn
          · rw [Bool.eq_false_iff, Ne, blob_ptr_ok] at h
            rw [hp] at h; simp at h)
      refine ⟨_, by simp only [World.step, hb, hc, copyConstruct, h1, World.store]; rfl, ?_⟩
      refine R_store hR i none (.inl ⟨hb, rfl⟩) _ _ _ l h5 h4 ha ?_
      show atLeast y.bytes.length y.align ≤ _
      rw [h2, ha.1, hlen]
      unfold atLeast; omega
    · simp at hv
  | copyAligned i j a =>
    simp only [Op.apply] at hv
    split at hv
    · rename_i y h0 hj
      obtain rfl := Option.some.inj hv
      have hb := (hR.dom i).mpr h0
      obtain ⟨c, hc⟩ := hsome hj
      obtain ⟨l, ho, ha, hal⟩ := hR.own j c y hc hj
      have hlen := ho.2.1
      have haok : AlignOk (if a ≠ 0 then a else c.alignment) := by
        split
        · exact hok
        · exact .inr ho.1.1
      obtain ⟨b, m, h1, h2, h3, h4, h5⟩ := construct_spec hR.fresh c.size _ haok c.ptr l hlen
        (fun hn _ => by
          rcases ho.2.2 with h | ⟨_, p, hp, hblk⟩
          · exact absurd h.1 hn
          · simp only [Blob.ptr, hp, Mem.read, hblk]
            rw [if_pos (by omega)]; simp [← hlen])
        (fun hn h => by
          rcases ho.2.2 with h' | ⟨_, p, hp, _⟩
          · exact absurd h'.1 hn
          · rw [Bool.eq_false_iff, Ne, blob_ptr_ok] at h
            rw [hp] at h; simp at h)
      refine ⟨_, by simp only [World.step, hb, hc, copyConstructAligned, h1, World.store]; rfl, ?_⟩
      refine R_store hR i none (.inl ⟨hb, rfl⟩) _ _ _ l h5 h4 ha ?_
      show atLeast y.bytes.length _ ≤ _
      rw [h2, ha.1, hlen]
      unfold atLeast
      by_cases h : a = 0 <;> simp [h] <;> omega
    · simp at hv
  | move i j =>
    simp only [Op.apply] at hv
    split at hv
    · rename_i y h0 hj
      obtain rfl := Option.some.inj hv
      have hb := (hR.dom i).mpr h0
      obtain ⟨c, hc⟩ := hsome hj
      have hij : i ≠ j := by rintro rfl; rw [hb] at hc; simp at hc
      exact ⟨_, by simp only [World.step, hb, hc, moveConstruct], R_move hR hij hb hc hj⟩
    · simp at hv
  | destroy i =>
    simp only [Op.apply] at hv
    split at hv
    · simp at hv
    · rename_i x h0
      obtain rfl := Option.some.inj hv
      obtain ⟨b, hb⟩ := hsome h0
      obtain ⟨m, h1, h2⟩ := R_destroy hR hb
      exact ⟨_, by simp only [World.step, hb, h1], h2⟩
  | assign i n src a =>
    simp only [Op.apply] at hv
    split at hv
    · simp at hv
    · rename_i x h0
      obtain rfl := Option.some.inj hv
      obtain ⟨b, hb⟩ := hsome h0
      obtain ⟨l0, ho, _⟩ := hR.own i b x hb h0
      obtain ⟨p, hp, hp1, hp2, hp3⟩ := source_spec hR i n src hok.2
      cases hk : p.ok with
      | true =>
        obtain ⟨l, hl, hr, ha⟩ := hp2 hk
        obtain ⟨b', m, l', h1, h2, h3, h4, h5, h6⟩ := assign_spec hR.fresh ho n a hok.1 p l (fun _ => hl) (fun _ _ => hr)
          (fun q off e => hp3 q off b e hb)
        refine ⟨_, by simp only [World.step, hb, hp, h1, World.store]; rfl, ?_⟩
        exact R_store hR i b.data (.inr ⟨b, hb, rfl⟩) _ _ _ l' h6 h4 (by rw [h5 hk]; exact ha) h2
      | false =>
        obtain ⟨b', m, l', h1, h2, h3, h4, h5, h6⟩ := assign_spec hR.fresh ho n a hok.1 p []
          (fun h => by rw [hk] at h; simp at h) (fun _ h => by rw [hk] at h; simp at h)
          (fun q off e => hp3 q off b e hb)
        refine ⟨_, by simp only [World.step, hb, hp, h1, World.store]; rfl, ?_⟩
        refine R_store hR i b.data (.inr ⟨b, hb, rfl⟩) _ _ _ l' h6 h4 ?_ h2
        rw [hp1 hk]
        exact agree_none n l' (by rw [h4.2.1, h3])
  | copyAssign i j =>
    simp only [Op.apply] at hv
    split at hv
    · rename_i x y hi hj
      obtain rfl := Option.some.inj hv
      obtain ⟨b, hb⟩ := hsome hi
      obtain ⟨c, hc⟩ := hsome hj
      obtain ⟨l, ho, ha, hal⟩ := hR.own j c y hc hj
      obtain ⟨l0, ho0, _⟩ := hR.own i b x hb hi
      have hlen := ho.2.1
      by_cases hij : i = j
      · subst hij
        rw [hb] at hc; obtain rfl := Option.some.inj hc
        rw [hi] at hj; obtain rfl := Option.some.inj hj
        have h16 := ho.1.2
        have hact : actualAlignment b.size b.alignment ≤ b.alignment := by
          unfold actualAlignment
          rcases hself rfl x hi with h | h
          · rw [ha.1, hlen] at h
            rw [if_pos h]; split <;> omega
          · split <;> split <;> omega
        refine ⟨_, by simp only [World.step, hb, assign_self hact, World.store]; rfl, ?_⟩
        refine R_store hR i b.data (.inr ⟨b, hb, rfl⟩) _ _ _ l (change_refl hR.fresh _) ho ha ?_
        show atLeast x.bytes.length x.align ≤ b.alignment
        rw [ha.1, hlen]
        unfold atLeast
        rcases hself rfl x hi with h | h
        · rw [ha.1, hlen] at h
          rw [if_pos h]; omega
        · split <;> omega
      · have hread : c.size ≠ 0 → c.ptr.ok = true → w.mem.read c.size c.ptr = some l := by
          intro hn _
          rcases ho.2.2 with h | ⟨_, p, hp, hblk⟩
          · exact absurd h.1 hn
          · simp only [Blob.ptr, hp, Mem.read, hblk]
            rw [if_pos (by omega)]; simp [← hlen]
        obtain ⟨b', m, l', h1, h2, h3, h4, h5, h6⟩ := assign_spec hR.fresh ho0 c.size c.alignment (.inr ho.1.1) c.ptr l
          (fun _ => hlen) hread (by
            intro p off e hbd
            unfold Blob.ptr at e
            split at e
            · simp at e
            · rename_i q hq
              injection e with e1 e2
              subst e1
              exact hij (hR.sep i j b c q hb hc hbd hq))
        refine ⟨_, by simp only [World.step, hb, hc, copyAssign, h1, World.store]; rfl, ?_⟩
        refine R_store hR i b.data (.inr ⟨b, hb, rfl⟩) _ _ _ l' h6 h4 ?_ ?_
        · show Agree y.bytes l'
          cases hk : c.ptr.ok with
          | true => rw [h5 hk]; exact ha
          | false =>
            have hd : c.data = none := by
              rw [Bool.eq_false_iff, Ne, blob_ptr_ok] at hk
              exact Classical.byContradiction hk
            have hl := own_none ho hd
            have h40 := h4.2.1
            have hl' : l' = [] := List.eq_nil_of_length_eq_zero (by omega)
            rw [hl', ← hl.1]; exact ha
        · show atLeast y.bytes.length y.align ≤ _
          rw [ha.1, hlen]
          have : atLeast c.size y.align ≤ atLeast c.size c.alignment := by unfold atLeast; omega
          omega
    · simp at hv
  | moveAssign i j =>
    simp only [Op.apply] at hv
    split at hv
    · rename_i x y hi hj
      obtain ⟨b, hb⟩ := hsome hi
      obtain ⟨c, hc⟩ := hsome hj
      split at hv
      · rename_i hij
        obtain rfl := Option.some.inj hv
        refine ⟨w, by simp only [World.step, hb, hc]; rw [if_pos hij], hR⟩
      · rename_i hij
        obtain rfl := Option.some.inj hv
        obtain ⟨m, h1, h2⟩ := R_destroy hR hb
        have hji : j ≠ i := fun e => hij e.symm
        have h3 := R_move (i := i) (j := j) (c := c) (y := y) h2 hij (by simp only [put_same])
          (by simp only [put_ne _ _ hji]; exact hc) (by simp only [put_ne _ _ hji]; exact hj)
        refine ⟨⟨m, put (put w.blob i (some ⟨c.alignment, c.size, c.data⟩)) j (some ⟨16, 0, none⟩)⟩, ?_, ?_⟩
        · simp only [World.step, hb, hc]
          rw [if_neg hij]
          simp only [moveAssign, h1]
        · simp only [put_put] at h3
          exact h3
    · simp at hv
  | resize i n =>
    simp only [Op.apply] at hv
    split at hv
    · simp at hv
    · rename_i x h0
      obtain rfl := Option.some.inj hv
      obtain ⟨b, hb⟩ := hsome h0
      obtain ⟨l, ho, ha, hal⟩ := hR.own i b x hb h0
      obtain ⟨b', m, h1, h2, h3, h4, h5⟩ := resize_spec hR.fresh ho n
      refine ⟨_, by simp only [World.step, hb, h1, World.store]; rfl, ?_⟩
      refine R_store hR i b.data (.inr ⟨b, hb, rfl⟩) _ _ _ _ h5 h4 ?_ (by rw [h2]; exact hal)
      obtain ⟨a1, a2⟩ := ha
      refine ⟨by simp [a1], fun k y hk => ?_⟩
      by_cases hlt : k < (x.bytes.take n).length
      · rw [List.getElem?_append_left hlt] at hk
        have hlt' : k < (l.take n).length := by simp at hlt ⊢; omega
        rw [List.getElem?_append_left hlt']
        have hkn : k < n := by simp at hlt; omega
        rw [List.getElem?_take, if_pos hkn] at hk ⊢
        exact a2 k y hk
      · rw [List.getElem?_append_right (by omega), List.getElem?_replicate] at hk
        split at hk <;> simp at hk

/-- a history of operations on vectors, all of them allowed -/
def History : (Nat → Option Vec) → List Op → (Nat → Option Vec) → Prop
  | v, [], v' => v = v'
  | v, o :: l, v' => o.Ok v ∧ SafeSelf v o ∧ ∃ u, o.apply v = some u ∧ History u l v'

theorem blob_run {w : World} {v v' : Nat → Option Vec} (hR : R w v) (l : List Op) (h : History v l v') :
    ∃ w', w.run l = some w' ∧ R w' v' := by
  induction l generalizing w v with
  | nil => simp only [History] at h; subst h; exact ⟨w, rfl, hR⟩
  | cons o l ih =>
    obtain ⟨h1, h2, u, h3, h4⟩ := h
    obtain ⟨w1, g1, g2⟩ := blob_step hR o h1 h2 h3
    obtain ⟨w', g3, g4⟩ := ih g2 h4
    exact ⟨w', by simp only [World.run, g1]; exact g3, g4⟩

/-- **C43** After every history of operations on any number of blobs (constructing, copying, moving, assigning,
    resizing, destroying): no released memory was touched; every blob has the size of the corresponding vector and
    its bytes wherever these are specified; its memory is aligned to alignment(), which is a power of two and at least
    what was asked for; different blobs do not share memory, and every block still allocated belongs to a blob.
    Missing: assigning a blob of 2048 bytes or more whose alignment is below 64 to itself (see C43_self_assign_violated),
    and assigning from a part of the blob itself. -/
theorem C43_blob_partial (ops : List Op) (v : Nat → Option Vec) (h : History (fun _ => none) ops v) :
    ∃ w, World.init.run ops = some w ∧
      (∀ i, w.blob i = none ↔ v i = none) ∧
      (∀ i x, v i = some x → ∃ b bytes, w.blob i = some b ∧ w.contents i = some bytes ∧
        b.size = x.bytes.length ∧ Agree x.bytes bytes ∧ (b.size = 0 ↔ b.data = none) ∧
        x.align ≤ b.alignment ∧ (∃ k, b.alignment = 2 ^ k) ∧
        ∀ p, b.data = some p → (w.mem.block p).map (·.align) = some b.alignment) ∧
      (∀ i j b c p, w.blob i = some b → w.blob j = some c → b.data = some p → c.data = some p → i = j) ∧
      (∀ p, w.mem.block p ≠ none → ∃ i b, w.blob i = some b ∧ b.data = some p) := by
  have hinit : R World.init (fun _ => none) :=
    ⟨fun _ => by simp [World.init], fun _ _ _ h => by simp [World.init] at h, fun _ _ _ _ _ h => by simp [World.init] at h,
      fun _ h => by simp [World.init] at h, fun _ _ => rfl⟩
  obtain ⟨w, h1, h2⟩ := blob_run hinit ops h
  refine ⟨w, h1, h2.dom, ?_, h2.sep, h2.live⟩
  intro i x hx
  obtain ⟨b, hb⟩ : ∃ b, w.blob i = some b := by
    cases hb : w.blob i with
    | none => rw [(h2.dom i).mp hb] at hx; simp at hx
    | some c => exact ⟨c, rfl⟩
  obtain ⟨l, ho, ha, hal⟩ := h2.own i b x hb hx
  have hcont : w.contents i = some l ∧ (b.size = 0 ↔ b.data = none) ∧
      ∀ p, b.data = some p → (w.mem.block p).map (·.align) = some b.alignment := by
    simp only [World.contents, hb]
    cases hd : b.data with
    | none =>
      have := own_none ho hd
      exact ⟨by simp [this.1], by simp [this.2], fun p hp => by simp at hp⟩
    | some p =>
      have := own_data ho hd
      refine ⟨by simp [this.1], by simp [this.2], fun q hq => ?_⟩
      obtain rfl := Option.some.inj hq
      simp [this.1]
  exact ⟨b, l, hb, hcont.1, by rw [ha.1, ho.2.1], ha, hcont.2.1, hal, ho.1.1, hcont.2.2⟩

/-- a history: a blob made from three bytes, grown, copied, assigned from a part of the other, the other destroyed -/
example : ∃ v, History (fun _ => none)
    [.construct 0 3 (.memory [1#8, 2#8, 3#8]) 0, .resize 0 5, .copyAligned 1 0 32, .assign 1 2 (.blob 0 1) 0, .destroy 0] v ∧
    (v 1).map (·.bytes) = some [some 2#8, some 3#8] ∧ (v 0).isNone := by
  refine ⟨_, ⟨⟨.inl rfl, show 3 ≤ 3 by decide⟩, trivial, _, rfl, trivial, trivial, _, rfl, .inr ⟨5, rfl⟩, trivial, _, rfl,
    ⟨.inl rfl, by decide, _, rfl, by decide⟩, trivial, _, rfl, trivial, trivial, _, rfl, rfl⟩, ?_, ?_⟩
  · decide
  · decide

/-- **C43 is violated**: after any history of operations, assigning a blob of 2048 bytes or more whose alignment is
    below 64 to itself reads memory which has been freed: the assignment frees the blob's memory before copying from it.
    A blob gets there by growing (resize keeps the alignment). -/
theorem C43_self_assign_violated (ops : List Op) (v : Nat → Option Vec) (h : History (fun _ => none) ops v) (w : World)
    (hw : World.init.run ops = some w) (i : Nat) (b : Blob) (hb : w.blob i = some b) (h1 : 2048 ≤ b.size)
    (h2 : b.alignment < 64) : w.step (.copyAssign i i) = none := by
  obtain ⟨w', g1, g2, g3, g4, g5⟩ := C43_blob_partial ops v h
  rw [hw] at g1
  obtain rfl := Option.some.inj g1
  have : v i ≠ none := fun e => by rw [(g2 i).mpr e] at hb; simp at hb
  obtain ⟨x, hx⟩ := Option.ne_none_iff_exists'.mp this
  obtain ⟨c, bytes, f1, f2, f3, f4, f5, f6, f7, f8⟩ := g3 i x hx
  rw [hb] at f1
  obtain rfl := Option.some.inj f1
  have hd : b.data ≠ none := fun e => by have := f5.mpr e; omega
  obtain ⟨p, hp⟩ := Option.ne_none_iff_exists'.mp hd
  have hblk := f8 p hp
  have hpn : w.mem.block p ≠ none := fun e => by rw [e] at hblk; simp at hblk
  obtain ⟨blk, hblk⟩ := Option.ne_none_iff_exists'.mp hpn
  have hact : actualAlignment b.size b.alignment = 64 := by
    unfold actualAlignment; rw [if_neg (by omega), if_neg (by omega)]
  have hfree : destroy w.mem b = some ⟨put w.mem.block p none, w.mem.next⟩ := by
    simp only [destroy, hp, Mem.free, hblk]
  have hs0 : b.size ≠ 0 := by omega
  have : copyAssign w.mem b b = none := by
    unfold copyAssign assign
    simp only [hact]
    rw [if_neg (by omega), hfree]
    simp only [if_pos hs0, Mem.alloc]
    rw [if_neg (by omega)]
    simp only [Blob.ptr, hp, Ptr.ok, Mem.copyTo, Mem.read, if_true]
    by_cases e : p = w.mem.next
    · subst e
      simp only [put_same, beq_self_eq_true, if_true]
      cases hr : (if 0 + b.size ≤ (List.replicate b.size (none : Option (BitVec 8))).length then
        some (((List.replicate b.size (none : Option (BitVec 8))).drop 0).take b.size) else none) <;> rfl
    · rw [put_ne _ _ e, put_same, put_same]
  simp only [World.step, hb, this, World.store]

/-- such a blob is reached by growing -/
example : ∃ v w b, History (fun _ => none) [.construct 0 1 (.memory [7#8]) 0, .resize 0 2048] v ∧
    World.init.run [.construct 0 1 (.memory [7#8]) 0, .resize 0 2048] = some w ∧ w.blob 0 = some b ∧
    2048 ≤ b.size ∧ b.alignment < 64 := by
  have hh : ∃ v, History (fun _ => none) [.construct 0 1 (.memory [7#8]) 0, .resize 0 2048] v :=
    ⟨_, ⟨.inl rfl, show 1 ≤ 1 by decide⟩, trivial, _, rfl, trivial, trivial, _, rfl, rfl⟩
  obtain ⟨v, hv⟩ := hh
  have hk : (World.init.run [.construct 0 1 (.memory [7#8]) 0, .resize 0 2048]).map (·.blob 0) =
      some (some ⟨16, 2048, some 1⟩) := by decide +kernel
  obtain ⟨w, hw, hb⟩ := Option.map_eq_some_iff.mp hk
  exact ⟨v, w, _, hv, hw, hb, by decide, by decide⟩

end Verif.Props
