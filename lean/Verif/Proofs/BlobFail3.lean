import Verif.Proofs.BlobFail2
/-! One step on blobs when the allocator may fail, and what a hazardous step does. -/
namespace Verif.Proofs.BlobFail
open Verif.Spec.Blob Verif.Model.Blob Verif.Proofs.Blob

theorem self_source {w : World} {s : Nat → Option FVec} (h : Rel w s) {i j : Nat} {y : FVec} (hij : j ≠ i)
    (hy : s j = some y) : SourceOk s i y.size (.blob j 0) := by
  refine ⟨hij, y, hy, ?_⟩
  cases hb : y.bytes with
  | none => exact .inl ⟨rfl, rfl⟩
  | some l => exact .inr ⟨l, rfl, by rw [(length_eq h hy hb).1]; omega⟩

theorem ptr_blob {w : World} {j : Nat} {c : Blob} (hc : w.blob j = some c) : w.ptr (.blob j 0) = some c.ptr := by
  simp only [World.ptr, hc, Blob.ptr]
  cases c.data <;> rfl

theorem rel_self {w : World} {s : Nat → Option FVec} (h : Rel w s) {i : Nat} {b : Blob} {x : FVec} (ok : Bool)
    (hb : w.blob i = some b) (hx : s i = some x)
    (hz : ¬ (x.align < atLeast x.size x.align ∧ x.bytes ≠ none ∧ x.size ≠ 0 ∧ ok = true)) :
    ∃ w', w.store i (assignF w.mem ok b b.size b.ptr b.alignment) = some w' ∧
      Rel w' (put s i (some (assignedS ok x x.size (bytesOf s x.size (.blob i 0)) x.align))) := by
  have hm := h.mtch i b x hb hx
  have hap := align_pow h hx
  have haok : AlignOk x.align := .inr hap.1
  have hact := (pow16_actual x.size x.align haok).2
  rw [hm.1, hm.2.1]
  by_cases hal : atLeast x.size x.align ≤ x.align
  · have e : assignedS ok x x.size (bytesOf s x.size (.blob i 0)) x.align = x := by
      unfold assignedS Verif.Spec.BlobFail.assigned
      rw [if_pos hal, if_pos rfl]
      cases hy : x.bytes with
      | none => cases x; simp_all
      | some l =>
        have hl := (length_eq h hx hy).1
        have : bytesOf s x.size (.blob i 0) = l := by
          simp only [bytesOf, Verif.Spec.BlobFail.bytesOf, hx, hy, List.drop_zero]
          rw [← hl, List.take_length]
        rw [this]
        cases x; simp_all
    have hc : assignF w.mem ok b x.size b.ptr x.align = some (b, w.mem) := by
      unfold assignF Verif.Model.BlobFail.assign
      simp only
      rw [if_pos (by rw [hact, hm.1]; exact hal)]
      have : Verif.Model.BlobFail.resize w.mem ok b x.size = some (b, w.mem) := by
        unfold Verif.Model.BlobFail.resize; rw [if_pos hm.2.1]
      rw [this]
      have hd : b.ptr.isData b.data = true := by
        unfold Blob.ptr
        cases b.data <;> simp [Ptr.isData]
      simp only [hd, if_true]
    rw [e, hc]
    exact ⟨_, rfl, rel_same h hb hx⟩
  · have hs0 : x.size ≠ 0 := by
      intro e
      rw [e] at hal
      unfold atLeast at hal
      rw [if_pos (by omega)] at hal
      omega
    cases ok with
    | false => exact assign_fail h hb hx haok hal hs0 _
    | true =>
      have hlost : x.bytes = none := Classical.byContradiction fun hne => hz ⟨by omega, hne, hs0, rfl⟩
      have hd : b.data = none := by
        rcases hm.2.2 with h1 | ⟨l, h1, _⟩
        · exact h1.2.1
        · rw [hlost] at h1; simp at h1
      have hp : b.ptr = .null := by simp [Blob.ptr, hd]
      have e : bytesOf s x.size (.blob i 0) = bytesOf s x.size .null := by
        simp [bytesOf, Verif.Spec.BlobFail.bytesOf, hx, hlost]
      rw [e, hp]
      exact assign_good h (src := .null) hb hx haok trivial rfl (.inr (.inl rfl)) (.inr hal)

theorem rel_two {w : World} {s : Nat → Option FVec} (h : Rel w s) {i j : Nat} {m : Mem} {c d : Blob} {y z : FVec}
    (hc : Match c y) (hd : Match d z)
    (hg : R ⟨m, put (put (ghost w).blob i (some (gb c))) j (some (gb d))⟩
      (put (put (vec s) i (some ⟨y.bytes.getD [], y.align⟩)) j (some ⟨z.bytes.getD [], z.align⟩))) :
    Rel ⟨m, put (put w.blob i (some c)) j (some d)⟩ (put (put s i (some y)) j (some z)) := by
  refine ⟨?_, ?_, ?_⟩
  · intro k
    show put (put _ _ _) _ _ k = none ↔ _
    unfold put
    by_cases hj : k = j
    · simp [hj]
    · by_cases hi : k = i
      · subst hi; simp [hj]
      · simp only [hi, hj, if_false]; exact h.dom k
  · intro k b x hb hx
    simp only [put] at hb hx
    by_cases hj : k = j
    · simp only [hj, if_true] at hb hx
      obtain rfl := Option.some.inj hb
      obtain rfl := Option.some.inj hx
      exact hd
    · by_cases hi : k = i
      · rw [if_neg hj, if_pos hi] at hb hx
        obtain rfl := Option.some.inj hb
        obtain rfl := Option.some.inj hx
        exact hc
      · rw [if_neg hj, if_neg hi] at hb hx
        exact h.mtch k b x hb hx
  · rw [ghost_put, vec_put, vec_put]
    have : (fun k => (put w.blob i (some c) k).map gb) = put (ghost w).blob i (some (gb c)) := by
      funext k
      by_cases hk : k = i <;> simp [put, hk, ghost]
    rw [this]
    exact hg

theorem match_empty : Match emptyBlob ⟨0, some [], 16⟩ := ⟨rfl, rfl, .inr ⟨[], rfl, by simp [emptyBlob]⟩⟩

theorem step_rel {w : World} {s s' : Nat → Option FVec} (h : Rel w s) (o : Op) (ok : Bool)
    (hok : Verif.Spec.BlobFail.Ok s o) (hz : ¬ Verif.Spec.BlobFail.Hazard s o ok)
    (hs : Verif.Spec.BlobFail.apply s o ok = some s') :
    ∃ w', Verif.Model.BlobFail.step w ok o = some w' ∧ Rel w' s' := by
  have hsome : ∀ {j y}, s j = some y → ∃ c, w.blob j = some c := by
    intro j y hj
    cases hb : w.blob j with
    | none => rw [(h.dom j).mp hb] at hj; simp at hj
    | some c => exact ⟨c, rfl⟩
  cases o with
  | empty i =>
    simp only [Verif.Spec.BlobFail.apply] at hs
    split at hs
    · rename_i hi
      obtain rfl := Option.some.inj hs
      have hb := (h.dom i).mpr hi
      obtain ⟨g, hg1, hg2⟩ := Verif.Props.blob_step h.ghost (.empty i) trivial trivial
        (by simp only [Op.apply, vec_none hi]; rfl)
      simp only [World.step, ghost_none hb] at hg1
      obtain rfl := Option.some.inj hg1
      refine ⟨_, by simp only [Verif.Model.BlobFail.step, World.step, hb]; rfl, ?_⟩
      exact rel_put h match_empty (l := []) (al := 16) (fun r hr => hr) hg2
    · simp at hs
  | construct i n src a =>
    simp only [Verif.Spec.BlobFail.apply] at hs
    split at hs
    · rename_i hi
      obtain rfl := Option.some.inj hs
      have hb := (h.dom i).mpr hi
      obtain ⟨p, hp, _⟩ := ptr_ghost h hok.2
      simp only [Verif.Model.BlobFail.step, hb, hp]
      exact construct_rel h ok hi hok.1 hok.2 hp
    · simp at hs
  | copy i j =>
    simp only [Verif.Spec.BlobFail.apply] at hs
    split at hs
    · rename_i y hi hj
      obtain rfl := Option.some.inj hs
      have hb := (h.dom i).mpr hi
      obtain ⟨c, hc⟩ := hsome hj
      have hm := h.mtch j c y hc hj
      have hij : j ≠ i := by rintro rfl; rw [hi] at hj; simp at hj
      simp only [Verif.Model.BlobFail.step, hb, hc, Verif.Model.BlobFail.copyConstruct]
      rw [hm.1, hm.2.1]
      exact construct_rel h ok hi (.inr (align_pow h hj).1) (self_source h hij hj) (ptr_blob hc)
    · simp at hs
  | copyAligned i j a =>
    simp only [Verif.Spec.BlobFail.apply] at hs
    split at hs
    · rename_i y hi hj
      obtain rfl := Option.some.inj hs
      have hb := (h.dom i).mpr hi
      obtain ⟨c, hc⟩ := hsome hj
      have hm := h.mtch j c y hc hj
      have hij : j ≠ i := by rintro rfl; rw [hi] at hj; simp at hj
      simp only [Verif.Model.BlobFail.step, hb, hc, Verif.Model.BlobFail.copyConstructAligned]
      rw [hm.1, hm.2.1]
      have e : (if a ≠ 0 then a else y.align) = (if a = 0 then y.align else a) := by
        by_cases h0 : a = 0 <;> simp [h0]
      rw [e]
      refine construct_rel h ok hi ?_ (self_source h hij hj) (ptr_blob hc)
      split
      · exact .inr (align_pow h hj).1
      · exact hok
    · simp at hs
  | move i j =>
    simp only [Verif.Spec.BlobFail.apply] at hs
    split at hs
    · rename_i y hi hj
      obtain rfl := Option.some.inj hs
      have hb := (h.dom i).mpr hi
      obtain ⟨c, hc⟩ := hsome hj
      have hm := h.mtch j c y hc hj
      obtain ⟨g, hg1, hg2⟩ := Verif.Props.blob_step h.ghost (.move i j) trivial trivial
        (by simp only [Op.apply, vec_none hi, vec_some hj]; rfl)
      simp only [World.step, ghost_none hb, ghost_some hc, moveConstruct] at hg1
      obtain rfl := Option.some.inj hg1
      refine ⟨_, by simp only [Verif.Model.BlobFail.step, World.step, hb, hc, moveConstruct]; rfl, ?_⟩
      exact rel_two h hm match_empty hg2
    · simp at hs
  | destroy i =>
    simp only [Verif.Spec.BlobFail.apply] at hs
    split at hs
    · simp at hs
    · rename_i x hi
      obtain rfl := Option.some.inj hs
      obtain ⟨b, hb⟩ := hsome hi
      obtain ⟨g, hg1, hg2⟩ := Verif.Props.blob_step h.ghost (.destroy i) trivial trivial
        (by simp only [Op.apply, vec_some hi]; rfl)
      simp only [World.step, ghost_some hb] at hg1
      have hde : destroy (ghost w).mem (gb b) = destroy w.mem b := rfl
      rw [hde] at hg1
      cases hd : destroy w.mem b with
      | none => rw [hd] at hg1; simp at hg1
      | some m =>
        rw [hd] at hg1
        obtain rfl := Option.some.inj hg1
        refine ⟨_, by simp only [Verif.Model.BlobFail.step, World.step, hb, hd]; rfl, ?_, ?_, ?_⟩
        · intro k
          show put _ _ _ k = none ↔ _
          unfold put
          by_cases hk : k = i
          · simp [hk]
          · simp only [hk, if_false]; exact h.dom k
        · intro k c x hc hx
          simp only [put] at hc hx
          by_cases hk : k = i
          · simp [hk] at hc
          · rw [if_neg hk] at hc hx; exact h.mtch k c x hc hx
        · rw [ghost_put, vec_put]; exact hg2
  | assign i n src a =>
    simp only [Verif.Spec.BlobFail.apply] at hs
    split at hs
    · simp at hs
    · rename_i x hi
      obtain rfl := Option.some.inj hs
      obtain ⟨b, hb⟩ := hsome hi
      obtain ⟨p, hp, _⟩ := ptr_ghost h hok.2
      simp only [Verif.Model.BlobFail.step, hb, hp]
      exact assign_rel h ok hb hi hok.1 hok.2 hp (fun hbad => hz ⟨x, hi, hbad⟩)
  | copyAssign i j =>
    simp only [Verif.Spec.BlobFail.apply] at hs
    split at hs
    · rename_i x y hi hj
      obtain rfl := Option.some.inj hs
      obtain ⟨b, hb⟩ := hsome hi
      obtain ⟨c, hc⟩ := hsome hj
      simp only [Verif.Model.BlobFail.step, hb, hc, Verif.Model.BlobFail.copyAssign]
      by_cases hij : j = i
      · subst hij
        rw [hb] at hc; obtain rfl := Option.some.inj hc
        rw [hi] at hj; obtain rfl := Option.some.inj hj
        exact rel_self h ok hb hi (fun hbad => hz ⟨x, x, hi, hi, .inr ⟨rfl, hbad⟩⟩)
      · have hm := h.mtch j c y hc hj
        rw [hm.1, hm.2.1]
        exact assign_rel h ok hb hi (.inr (align_pow h hj).1) (self_source h hij hj) (ptr_blob hc)
          (fun hbad => hz ⟨x, y, hi, hj, .inl hbad⟩)
    · simp at hs
  | moveAssign i j =>
    simp only [Verif.Spec.BlobFail.apply] at hs
    split at hs
    · rename_i x y hi hj
      obtain ⟨b, hb⟩ := hsome hi
      obtain ⟨c, hc⟩ := hsome hj
      have hm := h.mtch j c y hc hj
      by_cases hij : i = j
      · rw [if_pos hij] at hs
        obtain rfl := Option.some.inj hs
        exact ⟨w, by simp only [Verif.Model.BlobFail.step, World.step, hb, hc]; rw [if_pos hij], h⟩
      · rw [if_neg hij] at hs
        obtain rfl := Option.some.inj hs
        obtain ⟨g, hg1, hg2⟩ := Verif.Props.blob_step h.ghost (.moveAssign i j) trivial trivial
          (by simp only [Op.apply, vec_some hi, vec_some hj]; rw [if_neg hij])
        simp only [World.step, ghost_some hb, ghost_some hc, moveAssign] at hg1
        rw [if_neg hij] at hg1
        have hde : destroy (ghost w).mem (gb b) = destroy w.mem b := rfl
        rw [hde] at hg1
        cases hd : destroy w.mem b with
        | none => rw [hd] at hg1; simp at hg1
        | some m =>
          rw [hd] at hg1
          obtain rfl := Option.some.inj hg1
          refine ⟨⟨m, put (put w.blob i (some c)) j (some emptyBlob)⟩, ?_, rel_two h hm match_empty hg2⟩
          simp only [Verif.Model.BlobFail.step, World.step, hb, hc, moveAssign, hd]
          rw [if_neg hij]; rfl
    · simp at hs
  | resize i n =>
    simp only [Verif.Spec.BlobFail.apply] at hs
    split at hs
    · simp at hs
    · rename_i x hi
      obtain rfl := Option.some.inj hs
      obtain ⟨b, hb⟩ := hsome hi
      simp only [Verif.Model.BlobFail.step, hb]
      exact resize_rel h ok hb hi (fun hbad => hz ⟨x, hi, hbad⟩)

/-! ### Hazards -/

theorem resize_bad {w : World} {s : Nat → Option FVec} (h : Rel w s) {i n : Nat} {b : Blob} {x : FVec} {ok : Bool}
    (hb : w.blob i = some b) (hx : s i = some x) (hz : BadMove x n ok) :
    Verif.Model.BlobFail.resize w.mem ok b n = none := by
  have hm := h.mtch i b x hb hx
  obtain ⟨h1, h2, h3, h4⟩ := hz
  unfold Verif.Model.BlobFail.resize
  rw [if_neg (by rw [hm.2.1]; exact fun e => h3 e.symm), if_pos (by rw [hm.2.1]; exact h1), if_neg h2]
  have hdata : ok = true → b.data = none := by
    intro hok
    rcases h4 with h4 | h4
    · rcases hm.2.2 with h5 | ⟨l, h5, _⟩
      · exact h5.2.1
      · rw [h4] at h5; simp at h5
    · rw [hok] at h4; simp at h4
  cases ok with
  | true =>
    rw [allocF_true, hdata rfl]
    cases w.mem.alloc n b.alignment <;> rfl
  | false =>
    unfold Verif.Model.BlobFail.alloc
    cases w.mem.alloc n b.alignment <;> rfl

theorem hazard_none {w : World} {s : Nat → Option FVec} (h : Rel w s) (o : Op) (ok : Bool)
    (hok : Verif.Spec.BlobFail.Ok s o) (hz : Verif.Spec.BlobFail.Hazard s o ok) :
    Verif.Model.BlobFail.step w ok o = none := by
  have hsome : ∀ {j y}, s j = some y → ∃ c, w.blob j = some c := by
    intro j y hj
    cases hb : w.blob j with
    | none => rw [(h.dom j).mp hb] at hj; simp at hj
    | some c => exact ⟨c, rfl⟩
  cases o with
  | resize i n =>
    obtain ⟨x, hx, hz⟩ := hz
    obtain ⟨b, hb⟩ := hsome hx
    simp only [Verif.Model.BlobFail.step, hb, resize_bad h hb hx hz]; rfl
  | assign i n src a =>
    obtain ⟨x, hx, hal, hz⟩ := hz
    obtain ⟨b, hb⟩ := hsome hx
    have hm := h.mtch i b x hb hx
    simp only [Verif.Model.BlobFail.step, hb]
    cases w.ptr src with
    | none => rfl
    | some p =>
      simp only [Verif.Model.BlobFail.assign]
      rw [if_pos (by rw [(pow16_actual n a hok.1).2, hm.1]; exact hal), resize_bad h hb hx hz]; rfl
  | copyAssign i j =>
    obtain ⟨x, y, hx, hy, hz⟩ := hz
    obtain ⟨b, hb⟩ := hsome hx
    obtain ⟨c, hc⟩ := hsome hy
    have hm := h.mtch i b x hb hx
    have hmc := h.mtch j c y hc hy
    simp only [Verif.Model.BlobFail.step, hb, hc, Verif.Model.BlobFail.copyAssign, Verif.Model.BlobFail.assign]
    rcases hz with ⟨hal, hz⟩ | ⟨rfl, hal, hne, hs0, rfl⟩
    · rw [hmc.1, hmc.2.1,
        if_pos (by rw [(pow16_actual y.size y.align (.inr (align_pow h hy).1)).2, hm.1]; exact hal),
        resize_bad h hb hx hz]; rfl
    · rw [hb] at hc; obtain rfl := Option.some.inj hc
      rw [hm.1, hm.2.1, if_neg (by rw [(pow16_actual x.size x.align (.inr (align_pow h hx).1)).2]; omega)]
      have hd : b.data ≠ none := fun e => hs0 (by rw [← hm.2.1]; exact (held_iff hm hne).mp e)
      obtain ⟨p, hp⟩ := Option.ne_none_iff_exists'.mp hd
      simp only [destroy, hp]
      cases hf : w.mem.free p with
      | none => rfl
      | some m =>
        simp only
        rw [if_pos hs0, allocF_true]
        have hmp : m.block p = none ∧ p ≠ m.next := by
          obtain ⟨r, h1, _⟩ := h.ghost.own i _ _ (ghost_some hb) (vec_some hx)
          have hlt := own_lt h.ghost.fresh h1 (p := p) hp
          unfold Mem.free at hf
          split at hf
          · simp at hf
          · obtain rfl := Option.some.inj hf
            exact ⟨put_same _ _ _, Nat.ne_of_lt hlt⟩
        have hal : m.alloc x.size (actualAlignment x.size x.align) = some (m.next,
            ⟨put m.block m.next (some ⟨max (actualAlignment x.size x.align) 16, List.replicate x.size none⟩), m.next + 1⟩) := by
          unfold Mem.alloc
          rw [if_neg (by have := actual_pos x.size x.align; omega)]
        rw [hal]
        simp only [Option.map_some, Verif.Model.BlobFail.fill, Blob.ptr, hp, Ptr.ok, if_true]
        have hread : ∀ (k : Nat) (q : Mem), q.block = put m.block m.next (some ⟨max (actualAlignment x.size x.align) 16, List.replicate x.size none⟩) →
            q.read k (.block p 0) = none := by
          intro k q hq
          simp only [Mem.read, hq, put_ne _ _ hmp.2, hmp.1]
        simp only [Mem.copyTo, hread _ ⟨put m.block m.next (some ⟨max (actualAlignment x.size x.align) 16, List.replicate x.size none⟩), m.next + 1⟩ rfl,
          put_same]
        rfl
  | _ => exact absurd hz id

end Verif.Proofs.BlobFail
