import Verif.Proofs.BlobFail
/-! Each operation keeps the relation between blobs and vectors which may have lost their memory. -/
namespace Verif.Proofs.BlobFail
open Verif.Spec.Blob Verif.Model.Blob Verif.Proofs.Blob

abbrev assignedS := Verif.Spec.BlobFail.assigned
abbrev resizedS := Verif.Spec.BlobFail.resized
abbrev BadMove := Verif.Spec.BlobFail.BadMove

/-- the source, seen with blobs without memory as empty ones -/
def srcG (s : Nat → Option FVec) : Source → Source
  | .blob j off => match s j with
    | none => .blob j off
    | some x => if x.bytes = none then .null else .blob j off
  | src => src

theorem ptr_ghost {w : World} {s : Nat → Option FVec} (h : Rel w s) {i n : Nat} {src : Source}
    (hs : SourceOk s i n src) : ∃ p, w.ptr src = some p ∧ (ghost w).ptr (srcG s src) = some p ∧
      (srcG s src).Ok (vec s) i n ∧ (srcG s src).bytes (vec s) n = bytesOf s n src := by
  cases src with
  | null => exact ⟨.null, rfl, rfl, trivial, rfl⟩
  | memory l => exact ⟨.memory l, rfl, rfl, hs, rfl⟩
  | blob j off =>
    obtain ⟨hj, x, hx, hl⟩ := hs
    cases hb : w.blob j with
    | none => rw [(h.dom j).mp hb] at hx; simp at hx
    | some b =>
      have hm := h.mtch j b x hb hx
      have hgj : (ghost w).blob j = some (gb b) := by simp [ghost, hb]
      rcases hl with ⟨h0, rfl⟩ | ⟨l, hl, hlen⟩
      · have hd : b.data = none := by
          rcases hm.2.2 with h1 | ⟨l, h1, _⟩
          · exact h1.2.1
          · rw [h0] at h1; simp at h1
        refine ⟨.null, by simp [World.ptr, hb, hd], ?_, ?_, ?_⟩
        · simp [srcG, hx, h0, World.ptr]
        · simp [srcG, hx, h0, Source.Ok]
        · simp [srcG, hx, h0, Source.bytes, bytesOf, Verif.Spec.BlobFail.bytesOf]
      · have hg : srcG s (.blob j off) = .blob j off := by simp [srcG, hx, hl]
        rw [hg]
        refine ⟨match b.data with
          | none => .null
          | some p => .block p off, ?_, ?_, ?_, ?_⟩
        · simp only [World.ptr, hb]; cases b.data <;> rfl
        · simp only [World.ptr, hgj, gb]; cases b.data <;> rfl
        · exact ⟨hj, ⟨l, x.align⟩, by simp [vec, hx, hl], hlen⟩
        · simp [Source.bytes, vec, hx, hl, bytesOf, Verif.Spec.BlobFail.bytesOf]

theorem vec_none {s : Nat → Option FVec} {i : Nat} (h : s i = none) : vec s i = none := by simp [vec, h]
theorem vec_some {s : Nat → Option FVec} {i : Nat} {x : FVec} (h : s i = some x) :
    vec s i = some ⟨x.bytes.getD [], x.align⟩ := by simp [vec, h]

theorem ghost_none {w : World} {i : Nat} (h : w.blob i = none) : (ghost w).blob i = none := by simp [ghost, h]
theorem ghost_some {w : World} {i : Nat} {b : Blob} (h : w.blob i = some b) : (ghost w).blob i = some (gb b) := by
  simp [ghost, h]

theorem actual_pos (n a : Nat) : actualAlignment n a ≠ 0 := by
  unfold actualAlignment
  split <;> split <;> omega

theorem actual_zero (n a : Nat) (ha : AlignOk a) : actualAlignment 0 (atLeast n a) = atLeast n a := by
  have := (pow16_actual n a ha)
  have h16 := this.1.2
  rw [this.2] at h16
  unfold actualAlignment
  rw [if_pos (by omega)]
  split <;> omega

theorem atLeast_ok (n a : Nat) (ha : AlignOk a) : AlignOk (atLeast n a) := by
  have := pow16_actual n a ha
  rw [this.2] at this
  exact .inr this.1.1

theorem allocF_false (m : Mem) (n a : Nat) (hn : n ≠ 0) (ha : a ≠ 0) :
    Verif.Model.BlobFail.alloc m false n a = some (none, m) := by
  simp [Verif.Model.BlobFail.alloc, Mem.alloc, hn, ha]

theorem construct_rel {w : World} {s : Nat → Option FVec} (h : Rel w s) {i n a : Nat} {src : Source} {p : Ptr}
    (ok : Bool) (hi : s i = none) (ha : AlignOk a) (hs : SourceOk s i n src) (hp : w.ptr src = some p) :
    ∃ w', w.store i (constructF w.mem ok n p a) = some w' ∧
      Rel w' (put s i (some (fresh ok n (bytesOf s n src) (atLeast n a)))) := by
  obtain ⟨p', hp', hg, hsok, hbytes⟩ := ptr_ghost h hs
  rw [hp] at hp'; obtain rfl := Option.some.inj hp'
  have hb := (h.dom i).mpr hi
  have hact := (pow16_actual n a ha).2
  by_cases hk : n = 0 ∨ ok = true
  · have hc : constructF w.mem ok n p a = construct w.mem n p a := by
      rcases hk with rfl | rfl
      · exact constructF_zero _ _ _ _
      · exact constructF_true _ _ _ _
    rw [hc]
    obtain ⟨g, hg1, hg2⟩ := Verif.Props.blob_step h.ghost (.construct i n (srcG s src) a) ⟨ha, hsok⟩ trivial
      (by simp only [Op.apply, vec_none hi]; rfl)
    simp only [World.step, ghost_none hb, hg] at hg1
    have hmem : (ghost w).mem = w.mem := rfl
    rw [hmem] at hg1
    cases hcon : construct w.mem n p a with
    | none => rw [hcon] at hg1; simp [World.store] at hg1
    | some r =>
      obtain ⟨b, m⟩ := r
      rw [hcon] at hg1
      simp only [World.store] at hg1 ⊢
      obtain rfl := Option.some.inj hg1
      obtain ⟨e1, e2, e3⟩ := construct_shape hcon
      refine ⟨_, rfl, rel_put h (x := fresh ok n (bytesOf s n src) (atLeast n a)) ?_ ?_ ?_ (l := bytesOf s n src) (al := atLeast n a)⟩
      · refine ⟨by rw [e1, hact]; rfl, e2, .inr ⟨bytesOf s n src, ?_, e3⟩⟩
        simp only [fresh, Verif.Spec.BlobFail.fresh]
        rw [if_pos hk]
      · intro r hr
        simp only [fresh, Verif.Spec.BlobFail.fresh]
        rw [if_pos hk]; exact hr
      · rw [gb_held (fun hd => by rw [e2]; exact e3.mp hd), ← hbytes]
        exact hg2
  · have hn : n ≠ 0 := fun e => hk (.inl e)
    have hok : ok = false := by cases ok with
      | true => exact absurd (.inr rfl) hk
      | false => rfl
    subst hok
    have hc : constructF w.mem false n p a = some (⟨actualAlignment n a, n, none⟩, w.mem) := by
      unfold constructF Verif.Model.BlobFail.construct
      simp only [allocF_false _ _ _ hn (actual_pos n a)]
      rw [if_pos hn]; rfl
    rw [hc]
    obtain ⟨g, hg1, hg2⟩ := Verif.Props.blob_step h.ghost (.construct i 0 .null (atLeast n a))
      ⟨atLeast_ok n a ha, trivial⟩ trivial (by simp only [Op.apply, vec_none hi]; rfl)
    simp only [World.step, ghost_none hb, World.ptr, construct, ne_eq, not_true, if_false, World.store] at hg1
    obtain rfl := Option.some.inj hg1
    refine ⟨_, rfl, rel_put h (x := fresh false n (bytesOf s n src) (atLeast n a)) ?_ ?_ ?_ (l := []) (al := atLeast 0 (atLeast n a))⟩
    · refine ⟨hact, rfl, .inl ⟨?_, rfl, hn⟩⟩
      simp [fresh, Verif.Spec.BlobFail.fresh, hn]
    · intro r hr
      simpa [fresh, Verif.Spec.BlobFail.fresh, hn] using hr
    · have e : gb ⟨actualAlignment n a, n, none⟩ = ⟨actualAlignment 0 (atLeast n a), 0, none⟩ := by
        rw [actual_zero n a ha]; simp [gb, hact]
      rw [e]
      exact hg2

theorem held_iff {b : Blob} {x : FVec} (hm : Match b x) (hx : x.bytes ≠ none) : b.data = none ↔ b.size = 0 := by
  rcases hm.2.2 with h1 | ⟨l, h1, h2⟩
  · exact absurd h1.1 hx
  · rw [hm.2.1]; exact h2

theorem gb_iff (b : Blob) (h : b.data = none ∨ (b.data = none ↔ b.size = 0)) : (gb b).data = none ↔ (gb b).size = 0 := by
  unfold gb
  simp only
  rcases h with h | h
  · simp [h]
  · by_cases hd : b.data = none
    · simp [hd]
    · simp [hd, ← h]

/-- the assignment is that of the blob seen as an empty one -/
theorem assign_ghost {m : Mem} {ok : Bool} {b : Blob} {n : Nat} {p : Ptr} {a : Nat}
    (h1 : n = 0 ∨ ok = true ∨ (actualAlignment n a ≤ b.alignment ∧ n = b.size))
    (h2 : (b.data = none → b.size = 0) ∨ ¬ actualAlignment n a ≤ b.alignment) :
    assignF m ok b n p a = assign m (gb b) n p a := by
  by_cases hal : actualAlignment n a ≤ b.alignment
  · have hd : b.data = none → b.size = 0 := by
      rcases h2 with h2 | h2
      · exact h2
      · exact absurd hal h2
    rw [gb_held hd]
    rcases h1 with rfl | rfl | ⟨_, h3⟩
    · exact assignF_zero _ _ _ _ _ hd
    · exact assignF_true _ _ _ _ _ hd
    · rw [← assignF_true _ _ _ _ _ hd]
      unfold assignF Verif.Model.BlobFail.assign
      simp only
      rw [if_pos hal, if_pos hal]
      have : ∀ k, Verif.Model.BlobFail.resize m k b n = some (b, m) := by
        intro k; unfold Verif.Model.BlobFail.resize; rw [if_pos h3.symm]
      rw [this, this]
  · unfold assignF Verif.Model.BlobFail.assign assign
    simp only
    have hal' : ¬ actualAlignment n a ≤ (gb b).alignment := hal
    rw [if_neg hal, if_neg hal']
    have hde : destroy m (gb b) = destroy m b := rfl
    rw [hde]
    cases destroy m b with
    | none => rfl
    | some m' =>
      simp only
      by_cases hn : n = 0
      · rw [if_neg (by simp [hn]), if_neg (by simp [hn])]
      · rw [if_pos hn, if_pos hn]
        have hok : ok = true := by
          rcases h1 with h1 | h1 | h1
          · exact absurd h1 hn
          · exact h1
          · exact absurd h1.1 hal
        subst hok
        rw [allocF_true]
        cases m'.alloc n (actualAlignment n a) <;> rfl

/-- a reallocation which fails -/
theorem assign_fail {w : World} {s : Nat → Option FVec} (h : Rel w s) {i n a : Nat} {b : Blob} {x : FVec} {p : Ptr}
    (hb : w.blob i = some b) (hx : s i = some x) (ha : AlignOk a) (hal : ¬ atLeast n a ≤ x.align) (hn : n ≠ 0)
    (l : Bytes) : ∃ w', w.store i (assignF w.mem false b n p a) = some w' ∧
      Rel w' (put s i (some (assignedS false x n l a))) := by
  have hm := h.mtch i b x hb hx
  have hact := (pow16_actual n a ha).2
  have e : assignedS false x n l a = ⟨n, none, atLeast n a⟩ := by
    simp [assignedS, Verif.Spec.BlobFail.assigned, hal, Verif.Spec.BlobFail.fresh, hn]
  rw [e]
  obtain ⟨g, hg1, hg2⟩ := Verif.Props.blob_step h.ghost (.assign i 0 .null (atLeast n a))
    ⟨atLeast_ok n a ha, trivial⟩ trivial (by simp only [Op.apply, vec_some hx]; rfl)
  simp only [World.step, ghost_some hb, World.ptr, assign] at hg1
  have hz := actual_zero n a ha
  have hna : ¬ actualAlignment 0 (atLeast n a) ≤ (gb b).alignment := by
    rw [hz]; show ¬ _ ≤ b.alignment; rw [hm.1]; exact hal
  rw [if_neg hna] at hg1
  have hde : destroy (ghost w).mem (gb b) = destroy w.mem b := rfl
  rw [hde] at hg1
  cases hd : destroy w.mem b with
  | none => rw [hd] at hg1; simp [World.store] at hg1
  | some m =>
    rw [hd] at hg1
    simp only [ne_eq, not_true, if_false, World.store] at hg1
    obtain rfl := Option.some.inj hg1
    have hc : assignF w.mem false b n p a = some (⟨atLeast n a, n, none⟩, m) := by
      unfold assignF Verif.Model.BlobFail.assign
      simp only
      rw [if_neg (by rw [hact, hm.1]; exact hal), hd]
      simp only
      rw [if_pos hn, allocF_false _ _ _ hn (actual_pos n a)]
      simp [Verif.Model.BlobFail.fill, hact]
    rw [hc]
    refine ⟨_, rfl, rel_put h (l := []) (al := atLeast 0 (atLeast n a)) ?_ (fun r hr => hr) ?_⟩
    · exact ⟨rfl, rfl, .inl ⟨rfl, rfl, hn⟩⟩
    · have e : gb ⟨atLeast n a, n, none⟩ = ⟨actualAlignment 0 (atLeast n a), 0, none⟩ := by
        rw [hz]; simp [gb]
      rw [e]
      exact hg2

/-- an assignment in which no allocation fails -/
theorem assign_good {w : World} {s : Nat → Option FVec} (h : Rel w s) {i n a : Nat} {src : Source} {p : Ptr}
    {b : Blob} {x : FVec} {ok : Bool} (hb : w.blob i = some b) (hx : s i = some x) (ha : AlignOk a)
    (hs : SourceOk s i n src) (hp : w.ptr src = some p)
    (h1 : n = 0 ∨ ok = true ∨ (atLeast n a ≤ x.align ∧ n = x.size))
    (h2 : x.bytes ≠ none ∨ ¬ atLeast n a ≤ x.align) :
    ∃ w', w.store i (assignF w.mem ok b n p a) = some w' ∧
      Rel w' (put s i (some (assignedS ok x n (bytesOf s n src) a))) := by
  have hm := h.mtch i b x hb hx
  have hact := (pow16_actual n a ha).2
  obtain ⟨p', hp', hg, hsok, hbytes⟩ := ptr_ghost h hs
  rw [hp] at hp'; obtain rfl := Option.some.inj hp'
  have e : assignedS ok x n (bytesOf s n src) a =
      ⟨n, some (bytesOf s n src), if atLeast n a ≤ x.align then x.align else atLeast n a⟩ := by
    unfold assignedS Verif.Spec.BlobFail.assigned
    by_cases hal : atLeast n a ≤ x.align
    · rw [if_pos hal, if_pos hal]
      by_cases hn : n = x.size
      · rw [if_pos hn]
        rcases h2 with h2 | h2
        · obtain ⟨l, hl⟩ := Option.ne_none_iff_exists'.mp h2
          rw [hl, hn]; rfl
        · exact absurd hal h2
      · rw [if_neg hn]
        have : n = 0 ∨ ok = true := by
          rcases h1 with h | h | h
          · exact .inl h
          · exact .inr h
          · exact absurd h.2 hn
        unfold Verif.Spec.BlobFail.fresh; rw [if_pos this]
    · rw [if_neg hal, if_neg hal]
      have : n = 0 ∨ ok = true := by
        rcases h1 with h | h | h
        · exact .inl h
        · exact .inr h
        · exact absurd h.1 hal
      unfold Verif.Spec.BlobFail.fresh; rw [if_pos this]
  rw [e, assign_ghost (by rw [hact, hm.1, hm.2.1]; exact h1) (by
    rw [hact, hm.1]
    rcases h2 with h2 | h2
    · exact .inl (held_iff hm h2).mp
    · exact .inr h2)]
  obtain ⟨g, hg1, hg2⟩ := Verif.Props.blob_step h.ghost (.assign i n (srcG s src) a) ⟨ha, hsok⟩ trivial
    (by simp only [Op.apply, vec_some hx]; rfl)
  simp only [World.step, ghost_some hb, hg] at hg1
  have hmem : (ghost w).mem = w.mem := rfl
  rw [hmem] at hg1
  cases hcon : assign w.mem (gb b) n p a with
  | none => rw [hcon] at hg1; simp [World.store] at hg1
  | some r =>
    obtain ⟨b', m⟩ := r
    rw [hcon] at hg1
    simp only [World.store] at hg1 ⊢
    obtain rfl := Option.some.inj hg1
    have hgi : (gb b).data = none ↔ (gb b).size = 0 := by
      apply gb_iff
      rcases hm.2.2 with h3 | ⟨l, h3, h4⟩
      · exact .inl h3.2.1
      · exact .inr (by rw [hm.2.1]; exact h4)
    obtain ⟨e1, e2, e3⟩ := assign_shape hgi hcon
    refine ⟨_, rfl, rel_put h ?_ (fun r hr => hr) ?_ (l := bytesOf s n src) (al := atLeast n a)⟩
    · refine ⟨?_, e2, .inr ⟨_, rfl, e3⟩⟩
      rw [e1, hact, show (gb b).alignment = x.align from hm.1]
    · rw [gb_held (fun hd => by rw [e2]; exact e3.mp hd), ← hbytes]
      exact hg2

theorem isData_none (b : Blob) (m : Mem) (p : Ptr) (hd : b.data = none) :
    (if p.isData b.data then some (b, m) else Verif.Model.BlobFail.fill m b p) = some (b, m) := by
  rw [fill_isData, hd]

theorem bytesOf_zero {w : World} {s : Nat → Option FVec} (h : Rel w s) {i : Nat} {src : Source} (hs : SourceOk s i 0 src) :
    bytesOf s 0 src = [] := by
  obtain ⟨p, _, _, h1, h2⟩ := ptr_ghost h hs
  rw [← h2]
  generalize srcG s src = q
  cases q with
  | null => rfl
  | memory l => simp [Source.bytes]
  | blob j off => simp only [Source.bytes]; split <;> simp

theorem assign_rel {w : World} {s : Nat → Option FVec} (h : Rel w s) {i n a : Nat} {src : Source} {p : Ptr}
    {b : Blob} {x : FVec} (ok : Bool) (hb : w.blob i = some b) (hx : s i = some x) (ha : AlignOk a)
    (hs : SourceOk s i n src) (hp : w.ptr src = some p) (hz : ¬ (atLeast n a ≤ x.align ∧ BadMove x n ok)) :
    ∃ w', w.store i (assignF w.mem ok b n p a) = some w' ∧
      Rel w' (put s i (some (assignedS ok x n (bytesOf s n src) a))) := by
  have hm := h.mtch i b x hb hx
  have hact := (pow16_actual n a ha).2
  by_cases hal : atLeast n a ≤ x.align
  · have hbad : ¬ BadMove x n ok := fun e => hz ⟨hal, e⟩
    have hal' : actualAlignment n a ≤ b.alignment := by rw [hact, hm.1]; exact hal
    rcases hm.2.2 with ⟨l1, l2, l3⟩ | ⟨l, l1, l2⟩
    · -- without memory
      by_cases hn : n = x.size
      · have e : assignedS ok x n (bytesOf s n src) a = x := by
          unfold assignedS Verif.Spec.BlobFail.assigned
          rw [if_pos hal, if_pos hn, l1]
          cases x; simp_all
        have hc : assignF w.mem ok b n p a = some (b, w.mem) := by
          unfold assignF Verif.Model.BlobFail.assign
          simp only
          rw [if_pos hal']
          have : Verif.Model.BlobFail.resize w.mem ok b n = some (b, w.mem) := by
            unfold Verif.Model.BlobFail.resize; rw [if_pos (by rw [hm.2.1, hn])]
          rw [this]
          exact isData_none b w.mem p l2
        rw [e, hc]
        exact ⟨_, rfl, rel_same h hb hx⟩
      · by_cases hn0 : n = 0
        · subst hn0
          have e : assignedS ok x 0 (bytesOf s 0 src) a = ⟨0, some [], x.align⟩ := by
            unfold assignedS Verif.Spec.BlobFail.assigned
            rw [if_pos hal, if_neg hn, bytesOf_zero h hs]
            simp [Verif.Spec.BlobFail.fresh]
          have hc : assignF w.mem ok b 0 p a = some (⟨b.alignment, 0, none⟩, w.mem) := by
            unfold assignF Verif.Model.BlobFail.assign
            simp only
            rw [if_pos hal']
            have : Verif.Model.BlobFail.resize w.mem ok b 0 = some (⟨b.alignment, 0, none⟩, w.mem) := by
              unfold Verif.Model.BlobFail.resize
              rw [if_neg (by rw [hm.2.1]; exact l3), if_pos (by rw [hm.2.1]; exact l3), if_pos rfl, l2]
              rfl
            rw [this]
            exact isData_none _ w.mem p rfl
          rw [e, hc]
          exact ⟨_, rfl, rel_lost h hb hx l2 0 (by simp)⟩
        · exact absurd ⟨l3, hn0, hn, .inl l1⟩ hbad
    · -- with memory
      by_cases hk : n = 0 ∨ ok = true ∨ (atLeast n a ≤ x.align ∧ n = x.size)
      · exact assign_good h hb hx ha hs hp hk (.inl (by rw [l1]; simp))
      · have hn0 : n ≠ 0 := fun e => hk (.inl e)
        have hok : ok = false := by cases ok with
          | true => exact absurd (.inr (.inl rfl)) hk
          | false => rfl
        have hn : n ≠ x.size := fun e => hk (.inr (.inr ⟨hal, e⟩))
        subst hok
        have hs0 : x.size = 0 := Classical.byContradiction fun hne => hbad ⟨hne, hn0, hn, .inr rfl⟩
        have hd := l2.mpr hs0
        have hbs : b.size = 0 := by rw [hm.2.1]; exact hs0
        have e : assignedS false x n (bytesOf s n src) a = ⟨n, none, x.align⟩ := by
          unfold assignedS Verif.Spec.BlobFail.assigned
          rw [if_pos hal, if_neg hn]
          simp [Verif.Spec.BlobFail.fresh, hn0]
        have hal0 : b.alignment ≠ 0 := by
          have := actual_pos n a; omega
        have hc : assignF w.mem false b n p a = some (⟨b.alignment, n, none⟩, w.mem) := by
          unfold assignF Verif.Model.BlobFail.assign
          simp only
          rw [if_pos hal']
          have : Verif.Model.BlobFail.resize w.mem false b n = some (⟨b.alignment, n, none⟩, w.mem) := by
            unfold Verif.Model.BlobFail.resize
            rw [if_neg (by rw [hbs]; exact fun e => hn0 e.symm), if_neg (by simp [hbs]), allocF_false _ _ _ hn0 hal0]
          rw [this]
          exact isData_none _ w.mem p rfl
        rw [e, hc]
        exact ⟨_, rfl, rel_lost h hb hx hd n (by simp [hn0])⟩
  · by_cases hk : n = 0 ∨ ok = true
    · exact assign_good h hb hx ha hs hp (hk.imp_right .inl) (.inr hal)
    · have hok : ok = false := by cases ok with
        | true => exact absurd (.inr rfl) hk
        | false => rfl
      subst hok
      exact assign_fail h hb hx ha hal (fun e => hk (.inl e)) _

theorem length_eq {w : World} {s : Nat → Option FVec} (h : Rel w s) {i : Nat} {x : FVec} (hx : s i = some x)
    {l : Bytes} (hl : x.bytes = some l) : l.length = x.size ∧ (∃ k, x.align = 2 ^ k) ∧ 16 ≤ x.align := by
  cases hb : w.blob i with
  | none => rw [(h.dom i).mp hb] at hx; simp at hx
  | some b =>
    have hm := h.mtch i b x hb hx
    obtain ⟨r, h1, h2, _⟩ := h.ghost.own i _ _ (ghost_some hb) (vec_some hx)
    have e := h2.1
    simp only [hl, Option.getD_some] at e
    rw [e, h1.2.1, ← hm.1]
    refine ⟨?_, h1.1⟩
    have := held_iff hm (by rw [hl]; simp)
    rw [gb_held this.mp]; exact hm.2.1

theorem align_pow {w : World} {s : Nat → Option FVec} (h : Rel w s) {i : Nat} {x : FVec} (hx : s i = some x) :
    (∃ k, x.align = 2 ^ k) ∧ 16 ≤ x.align := by
  cases hb : w.blob i with
  | none => rw [(h.dom i).mp hb] at hx; simp at hx
  | some b =>
    have hm := h.mtch i b x hb hx
    obtain ⟨r, h1, _⟩ := h.ghost.own i _ _ (ghost_some hb) (vec_some hx)
    rw [← hm.1]; exact h1.1

theorem resize_rel {w : World} {s : Nat → Option FVec} (h : Rel w s) {i n : Nat} {b : Blob} {x : FVec} (ok : Bool)
    (hb : w.blob i = some b) (hx : s i = some x) (hz : ¬ BadMove x n ok) :
    ∃ w', w.store i (resizeF w.mem ok b n) = some w' ∧ Rel w' (put s i (some (resizedS ok x n))) := by
  have hm := h.mtch i b x hb hx
  have hap := align_pow h hx
  by_cases hn : n = x.size
  · have e : resizedS ok x n = x := by
      unfold resizedS Verif.Spec.BlobFail.resized; rw [if_pos hn]
    have hc : resizeF w.mem ok b n = some (b, w.mem) := by
      unfold resizeF Verif.Model.BlobFail.resize; rw [if_pos (by rw [hm.2.1, hn])]
    rw [e, hc]
    exact ⟨_, rfl, rel_same h hb hx⟩
  · rcases hm.2.2 with ⟨l1, l2, l3⟩ | ⟨l, l1, l2⟩
    · by_cases hn0 : n = 0
      · subst hn0
        have e : resizedS ok x 0 = ⟨0, some [], x.align⟩ := by
          unfold resizedS Verif.Spec.BlobFail.resized
          rw [if_neg hn]
          simp [Verif.Spec.BlobFail.fresh]
        have hc : resizeF w.mem ok b 0 = some (⟨b.alignment, 0, none⟩, w.mem) := by
          unfold resizeF Verif.Model.BlobFail.resize
          rw [if_neg (by rw [hm.2.1]; exact l3), if_pos (by rw [hm.2.1]; exact l3), if_pos rfl, l2]
          rfl
        rw [e, hc]
        exact ⟨_, rfl, rel_lost h hb hx l2 0 (by simp)⟩
      · exact absurd ⟨l3, hn0, hn, .inl l1⟩ hz
    · have hlen := (length_eq h hx l1).1
      have hiff := held_iff hm (by rw [l1]; simp)
      by_cases hk : n = 0 ∨ ok = true
      · have hc : resizeF w.mem ok b n = resize w.mem b n := by
          rcases hk with rfl | rfl
          · exact resizeF_zero _ _ _ hiff.mp
          · exact resizeF_true _ _ _ hiff.mp
        have e : resizedS ok x n = ⟨n, some (l.take n ++ List.replicate (n - l.length) none), x.align⟩ := by
          unfold resizedS Verif.Spec.BlobFail.resized
          rw [if_neg hn]
          unfold Verif.Spec.BlobFail.fresh
          rw [if_pos hk, l1, hlen]; rfl
        rw [e, hc]
        obtain ⟨g, hg1, hg2⟩ := Verif.Props.blob_step h.ghost (.resize i n) trivial trivial
          (by simp only [Op.apply, vec_some hx]; rfl)
        simp only [World.step, ghost_some hb, gb_held hiff.mp] at hg1
        have hmem : (ghost w).mem = w.mem := rfl
        rw [hmem] at hg1
        cases hcon : resize w.mem b n with
        | none => rw [hcon] at hg1; simp [World.store] at hg1
        | some r =>
          obtain ⟨b', m⟩ := r
          rw [hcon] at hg1
          simp only [World.store] at hg1 ⊢
          obtain rfl := Option.some.inj hg1
          obtain ⟨e1, e2, e3⟩ := resize_shape hiff hcon
          refine ⟨_, rfl, rel_put h (l := l.take n ++ List.replicate (n - l.length) none) (al := x.align) ?_ (fun r hr => hr) ?_⟩
          · exact ⟨by rw [e1]; exact hm.1, e2, .inr ⟨_, rfl, e3⟩⟩
          · rw [gb_held (fun hd => by rw [e2]; exact e3.mp hd)]
            simp only [l1, Option.getD_some] at hg2
            exact hg2
      · have hn0 : n ≠ 0 := fun e => hk (.inl e)
        have hok : ok = false := by cases ok with
          | true => exact absurd (.inr rfl) hk
          | false => rfl
        subst hok
        have hs0 : x.size = 0 := Classical.byContradiction fun hne => hz ⟨hne, hn0, hn, .inr rfl⟩
        have hd := l2.mpr hs0
        have hbs : b.size = 0 := by rw [hm.2.1]; exact hs0
        have e : resizedS false x n = ⟨n, none, x.align⟩ := by
          unfold resizedS Verif.Spec.BlobFail.resized
          rw [if_neg hn]
          simp [Verif.Spec.BlobFail.fresh, hn0]
        have hal0 : b.alignment ≠ 0 := by rw [hm.1]; omega
        have hc : resizeF w.mem false b n = some (⟨b.alignment, n, none⟩, w.mem) := by
          unfold resizeF Verif.Model.BlobFail.resize
          rw [if_neg (by rw [hbs]; exact fun e => hn0 e.symm), if_neg (by simp [hbs]), allocF_false _ _ _ hn0 hal0]
        rw [e, hc]
        exact ⟨_, rfl, rel_lost h hb hx hd n (by simp [hn0])⟩

end Verif.Proofs.BlobFail
