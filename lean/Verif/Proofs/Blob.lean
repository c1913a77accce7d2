import Verif.Model.Blob
/-! Lemmas about blobs: each operation refines the operation on vectors. -/
namespace Verif.Proofs.Blob
open Verif.Spec.Blob Verif.Model.Blob

/-- a power of two of at least 16 -/
def Pow16 (a : Nat) : Prop := (∃ k, a = 2 ^ k) ∧ 16 ≤ a

/-- blob `b` is well-formed in memory `m` and its bytes are `l` -/
def Own (m : Mem) (b : Blob) (l : Bytes) : Prop :=
  Pow16 b.alignment ∧ l.length = b.size ∧
    ((b.size = 0 ∧ b.data = none) ∨
      (b.size ≠ 0 ∧ ∃ p, b.data = some p ∧ m.block p = some ⟨b.alignment, l⟩))

/-- nothing is allocated from `next` on -/
def Fresh (m : Mem) : Prop := ∀ p, m.next ≤ p → m.block p = none

/-- the memory changes only in the block owned before and after -/
structure Change (m : Mem) (old : Option Nat) (m' : Mem) (new : Option Nat) : Prop where
  next : m.next ≤ m'.next
  fresh : Fresh m'
  frame : ∀ p, old ≠ some p → new ≠ some p → m'.block p = m.block p
  gone : new ≠ old → ∀ p, old = some p → m'.block p = none
  isNew : new ≠ old → ∀ p, new = some p → m.next ≤ p

structure R (w : World) (v : Nat → Option Vec) : Prop where
  dom : ∀ i, w.blob i = none ↔ v i = none
  own : ∀ i b x, w.blob i = some b → v i = some x → ∃ l, Own w.mem b l ∧ Agree x.bytes l ∧ x.align ≤ b.alignment
  sep : ∀ i j b c p, w.blob i = some b → w.blob j = some c → b.data = some p → c.data = some p → i = j
  live : ∀ p, w.mem.block p ≠ none → ∃ i b, w.blob i = some b ∧ b.data = some p
  fresh : Fresh w.mem

theorem put_same {α : Type} (v : Nat → Option α) (i : Nat) (x : Option α) : put v i x i = x := by simp [put]
theorem put_ne {α : Type} (v : Nat → Option α) {i k : Nat} (x : Option α) (h : k ≠ i) : put v i x k = v k := by
  simp [put, h]

theorem agree_refl (l : Bytes) : Agree l l := ⟨rfl, fun _ _ h => h⟩

theorem agree_none (n : Nat) (l : Bytes) (h : l.length = n) : Agree (List.replicate n none) l := by
  refine ⟨by simp [h], fun i b hb => ?_⟩
  rw [List.getElem?_replicate] at hb
  split at hb <;> simp at hb

theorem agree_sub {s a : Bytes} (h : Agree s a) (off n : Nat) : Agree ((s.drop off).take n) ((a.drop off).take n) := by
  obtain ⟨h1, h2⟩ := h
  refine ⟨by simp [h1], fun i b hb => ?_⟩
  rw [List.getElem?_take, List.getElem?_drop] at *
  split at hb
  · rename_i hi; rw [if_pos hi]; exact h2 _ _ hb
  · simp at hb

theorem own_data {m : Mem} {b : Blob} {l : Bytes} (h : Own m b l) {p : Nat} (hp : b.data = some p) :
    m.block p = some ⟨b.alignment, l⟩ ∧ b.size ≠ 0 := by
  obtain ⟨_, _, h | ⟨h0, q, h1, h2⟩⟩ := h
  · rw [h.2] at hp; simp at hp
  · rw [h1] at hp; obtain rfl := Option.some.inj hp; exact ⟨h2, h0⟩

theorem own_none {m : Mem} {b : Blob} {l : Bytes} (h : Own m b l) (hp : b.data = none) : l = [] ∧ b.size = 0 := by
  obtain ⟨_, h2, h | ⟨h0, q, h1, _⟩⟩ := h
  · exact ⟨List.eq_nil_of_length_eq_zero (by omega), h.1⟩
  · rw [h1] at hp; simp at hp

/-- the relation after an operation on one variable -/
theorem R_store {w : World} {v : Nat → Option Vec} (hR : R w v) (i : Nat) (old : Option Nat)
    (hold : (w.blob i = none ∧ old = none) ∨ ∃ b, w.blob i = some b ∧ b.data = old) (m : Mem) (b' : Blob) (x : Vec)
    (l : Bytes) (hc : Change w.mem old m b'.data) (ho : Own m b' l) (ha : Agree x.bytes l)
    (hal : x.align ≤ b'.alignment) : R ⟨m, put w.blob i (some b')⟩ (put v i (some x)) := by
  have hfr : ∀ j c p, j ≠ i → w.blob j = some c → c.data = some p → old ≠ some p ∧ b'.data ≠ some p := by
    intro j c p hj hcj hcp
    have hne : old ≠ some p := by
      intro e
      rcases hold with ⟨_, h2⟩ | ⟨b, h1, h2⟩
      · rw [h2] at e; simp at e
      · exact hj (hR.sep j i c b p hcj h1 hcp (by rw [h2, e]))
    refine ⟨hne, fun e => ?_⟩
    have hlt : w.mem.next ≤ p := hc.isNew (by rw [e]; exact fun h => hne h.symm) p e
    have : w.mem.block p = none := hR.fresh p hlt
    cases hv : v j with
    | none => rw [(hR.dom j).mpr hv] at hcj; simp at hcj
    | some y =>
      obtain ⟨l, h1, _⟩ := hR.own j c y hcj hv
      rw [(own_data h1 hcp).1] at this
      simp at this
  refine ⟨?_, ?_, ?_, ?_, hc.fresh⟩
  · intro k
    by_cases e : k = i
    · subst e; simp only [put_same]; simp
    · simp only [put_ne _ _ e]; exact hR.dom k
  · intro k c y h1 h2
    by_cases e : k = i
    · subst e
      simp only [put_same] at h1 h2
      obtain rfl := Option.some.inj h1
      obtain rfl := Option.some.inj h2
      exact ⟨l, ho, ha, hal⟩
    · simp only [put_ne _ _ e] at h1 h2
      obtain ⟨l', g1, g2, g3⟩ := hR.own k c y h1 h2
      refine ⟨l', ?_, g2, g3⟩
      obtain ⟨o1, o2, o3⟩ := g1
      refine ⟨o1, o2, ?_⟩
      rcases o3 with o3 | ⟨o3, p, o4, o5⟩
      · exact .inl o3
      · refine .inr ⟨o3, p, o4, ?_⟩
        obtain ⟨f1, f2⟩ := hfr k c p e h1 o4
        rw [hc.frame p f1 f2]; exact o5
  · intro j k c d p h1 h2 h3 h4
    by_cases e1 : j = i <;> by_cases e2 : k = i
    · rw [e1, e2]
    · subst e1
      simp only [put_same, put_ne _ _ e2] at h1 h2
      obtain rfl := Option.some.inj h1
      exact absurd h3 (hfr k d p e2 h2 h4).2
    · subst e2
      simp only [put_same, put_ne _ _ e1] at h1 h2
      obtain rfl := Option.some.inj h2
      exact absurd h4 (hfr j c p e1 h1 h3).2
    · simp only [put_ne _ _ e1, put_ne _ _ e2] at h1 h2
      exact hR.sep j k c d p h1 h2 h3 h4
  · intro p hp
    by_cases e : b'.data = some p
    · exact ⟨i, b', by simp only [put_same], e⟩
    · have hop : old ≠ some p := by
        intro h; exact hp (hc.gone (by rw [h]; exact e) p h)
      rw [show (World.mem ⟨m, put w.blob i (some b')⟩) = m from rfl, hc.frame p hop e] at hp
      obtain ⟨j, c, h1, h2⟩ := hR.live p hp
      have hj : j ≠ i := by
        rintro rfl
        rcases hold with ⟨h3, _⟩ | ⟨b, h3, h4⟩
        · rw [h3] at h1; simp at h1
        · rw [h3] at h1; obtain rfl := Option.some.inj h1; exact hop (by rw [← h4, h2])
      exact ⟨j, c, by simp only [put_ne _ _ hj]; exact h1, h2⟩

theorem change_refl {m : Mem} (h : Fresh m) (o : Option Nat) : Change m o m o :=
  ⟨Nat.le_refl _, h, fun _ _ _ => rfl, fun h => absurd rfl h, fun h => absurd rfl h⟩

/-! ### Allocation -/

theorem pow16_actual (n a : Nat) (ha : AlignOk a) : Pow16 (actualAlignment n a) ∧ actualAlignment n a = atLeast n a := by
  constructor
  · unfold actualAlignment
    rcases ha with rfl | ⟨k, rfl⟩
    · split
      · exact ⟨⟨4, rfl⟩, by decide⟩
      · exact ⟨⟨6, rfl⟩, by decide⟩
    · split
      · split
        · exact ⟨⟨k, rfl⟩, by omega⟩
        · exact ⟨⟨4, rfl⟩, by decide⟩
      · split
        · exact ⟨⟨k, rfl⟩, by omega⟩
        · exact ⟨⟨6, rfl⟩, by decide⟩
  · unfold actualAlignment atLeast
    split <;> split <;> omega

theorem alloc_spec {m : Mem} (hf : Fresh m) (n a : Nat) (hn : n ≠ 0) (ha : Pow16 a) :
    ∃ m', m.alloc n a = some (m.next, m') ∧ Change m none m' (some m.next) ∧
      m'.block m.next = some ⟨a, List.replicate n none⟩ := by
  have h16 := ha.2
  refine ⟨⟨put m.block m.next (some ⟨a, List.replicate n none⟩), m.next + 1⟩, ?_, ?_, put_same _ _ _⟩
  · unfold Mem.alloc
    rw [if_neg (by omega), Nat.max_eq_left h16]
  · refine ⟨Nat.le_succ _, ?_, ?_, ?_, ?_⟩
    · intro p hp
      have : p ≠ m.next := by
        have : m.next + 1 ≤ p := hp
        omega
      show put _ _ _ p = none
      rw [put_ne _ _ this]; exact hf p (by have : m.next + 1 ≤ p := hp; omega)
    · intro p _ h; exact put_ne _ _ (fun e => h (by rw [e]))
    · intro _ p h; simp at h
    · intro _ p h; obtain rfl := Option.some.inj h; exact Nat.le_refl _

theorem free_spec {m : Mem} (hf : Fresh m) (p : Nat) (h : m.block p ≠ none) :
    ∃ m', m.free p = some m' ∧ Change m (some p) m' none := by
  cases hb : m.block p with
  | none => exact absurd hb h
  | some b =>
    refine ⟨{ m with block := put m.block p none }, by simp only [Mem.free, hb], ?_⟩
    refine ⟨Nat.le_refl _, ?_, ?_, ?_, ?_⟩
    · intro q hq
      show put _ _ _ q = none
      by_cases e : q = p
      · subst e; exact put_same _ _ _
      · rw [put_ne _ _ e]; exact hf q hq
    · intro q h _; exact put_ne _ _ (fun e => h (by rw [e]))
    · intro _ q h; obtain rfl := Option.some.inj h; exact put_same _ _ _
    · intro _ q h; simp at h

/-- the same block may change under the relation `Change` -/
theorem copyTo_spec {m : Mem} (d : Nat) (src : Ptr) (n a : Nat) (old l : Bytes) (hb : m.block d = some ⟨a, old⟩)
    (hr : m.read n src = some l) (hs : ∀ off, src ≠ .block d off) (hn : n ≤ old.length) :
    m.copyTo d src n = some { m with block := put m.block d (some ⟨a, l ++ old.drop n⟩) } := by
  unfold Mem.copyTo
  simp only [hb, hr]
  rw [if_neg, if_pos hn]
  cases src with
  | null => simp
  | memory l => simp
  | block p off => simp only [beq_iff_eq]; exact fun e => hs off (by rw [e])

theorem read_length {m : Mem} {n : Nat} {src : Ptr} {l : Bytes} (h : m.read n src = some l) : l.length = n := by
  unfold Mem.read at h
  split at h
  · simp at h
  · split at h
    · obtain rfl := Option.some.inj h; simp; omega
    · simp at h
  · split at h
    · simp at h
    · split at h
      · obtain rfl := Option.some.inj h; simp; omega
      · simp at h

/-- a read is not affected by an allocation -/
theorem read_change {m m' : Mem} {n : Nat} {src : Ptr} {l : Bytes} (h : m.read n src = some l) (o q : Option Nat)
    (hc : Change m o m' q) (hs : ∀ p off, src = .block p off → o ≠ some p ∧ q ≠ some p) :
    m'.read n src = some l := by
  cases src with
  | null => exact h
  | memory l => exact h
  | block p off =>
    unfold Mem.read at h ⊢
    obtain ⟨h1, h2⟩ := hs p off rfl
    simp only [hc.frame p h1 h2]; exact h

theorem read_lt {m : Mem} (hf : Fresh m) {n : Nat} {p off : Nat} {l : Bytes} (h : m.read n (.block p off) = some l) :
    p < m.next := by
  apply Classical.byContradiction
  intro hge
  simp [Mem.read, hf p (by omega)] at h

/-- allocating a block and filling it -/
theorem fill_spec {m : Mem} (hf : Fresh m) (n a : Nat) (hn : n ≠ 0) (ha : Pow16 a) (src : Ptr) (l : Bytes)
    (hr : src.ok = true → m.read n src = some l) (hnull : src.ok = false → l = List.replicate n none) :
    ∃ m' m'', m.alloc n a = some (m.next, m') ∧
      (if src.ok then m'.copyTo m.next src n = some m'' else m'' = m') ∧
      Change m none m'' (some m.next) ∧ m''.block m.next = some ⟨a, l⟩ ∧ l.length = n := by
  obtain ⟨m', h1, h2, h3⟩ := alloc_spec hf n a hn ha
  cases hok : src.ok with
  | false =>
    exact ⟨m', m', h1, by simp, h2, by rw [hnull hok]; exact h3, by rw [hnull hok]; simp⟩
  | true =>
    have hrl := hr hok
    have hlen := read_length hrl
    have hne : ∀ off, src ≠ .block m.next off := by
      intro off e; subst e; have := read_lt hf hrl; omega
    have hr' := read_change hrl _ _ h2 (fun p off e => ⟨by simp, fun e2 => by
      obtain rfl := Option.some.inj e2; exact hne off e⟩)
    have hcp := copyTo_spec m.next src n a _ l h3 hr' hne (by simp)
    refine ⟨m', _, h1, by rw [if_pos rfl]; exact hcp, ?_, ?_, hlen⟩
    · obtain ⟨c1, c2, c3, c4, c5⟩ := h2
      refine ⟨c1, ?_, ?_, ?_, c5⟩
      · intro p hp
        show put _ _ _ p = none
        have hpn : p ≠ m.next := by
          rintro rfl
          have := c2 m.next hp
          rw [this] at h3; simp at h3
        rw [put_ne _ _ hpn]; exact c2 p hp
      · intro p h h'
        show put _ _ _ p = _
        rw [put_ne _ _ (fun e => h' (by rw [e]))]; exact c3 p h h'
      · intro _ p h; simp at h
    · show put _ _ _ _ = _
      rw [put_same]
      simp

theorem construct_spec {m : Mem} (hf : Fresh m) (n a : Nat) (ha : AlignOk a) (src : Ptr) (l : Bytes)
    (hl : l.length = n) (hr : n ≠ 0 → src.ok = true → m.read n src = some l)
    (hnull : n ≠ 0 → src.ok = false → l = List.replicate n none) :
    ∃ b m', construct m n src a = some (b, m') ∧ b.alignment = atLeast n a ∧ b.size = n ∧ Own m' b l ∧
      Change m none m' b.data := by
  obtain ⟨hp, he⟩ := pow16_actual n a ha
  unfold construct
  simp only
  by_cases hn : n = 0
  · rw [if_neg (by simp [hn])]
    exact ⟨_, _, rfl, he, rfl, ⟨hp, hl, .inl ⟨hn, rfl⟩⟩, change_refl hf none⟩
  · rw [if_pos hn]
    obtain ⟨m', m'', h1, h2, h3, h4, _⟩ := fill_spec hf n _ hn hp src l (hr hn) (hnull hn)
    rw [h1]
    simp only
    cases hok : src.ok with
    | true =>
      rw [hok] at h2
      rw [if_pos rfl, h2]
      exact ⟨_, _, rfl, he, rfl, ⟨hp, hl, .inr ⟨hn, _, rfl, h4⟩⟩, h3⟩
    | false =>
      rw [hok] at h2
      simp only [Bool.false_eq_true, if_false] at h2 ⊢
      subst h2
      exact ⟨_, _, rfl, he, rfl, ⟨hp, hl, .inr ⟨hn, _, rfl, h4⟩⟩, h3⟩

theorem destroy_spec {m : Mem} (hf : Fresh m) {b : Blob} {l : Bytes} (ho : Own m b l) :
    ∃ m', destroy m b = some m' ∧ Change m b.data m' none := by
  unfold destroy
  cases hd : b.data with
  | none => exact ⟨m, rfl, change_refl hf none⟩
  | some p => exact free_spec hf p (by rw [(own_data ho hd).1]; simp)

theorem change_trans_none {m m' m'' : Mem} {o q : Option Nat} (hlt : ∀ p, o = some p → p < m.next)
    (h1 : Change m o m' none) (h2 : Change m' none m'' q) : Change m o m'' q := by
  refine ⟨Nat.le_trans h1.next h2.next, h2.fresh, ?_, ?_, ?_⟩
  · intro p hp hq
    rw [h2.frame p (by simp) hq, h1.frame p hp (by simp)]
  · intro hne p hp
    rw [h2.frame p (by simp) (by rw [← hp]; exact hne)]
    exact h1.gone (by rw [hp]; simp) p hp
  · intro hne p hp
    have := h2.isNew (by rw [hp]; simp) p hp
    exact Nat.le_trans h1.next this

theorem own_lt {m : Mem} (hf : Fresh m) {b : Blob} {l : Bytes} (ho : Own m b l) {p : Nat} (hp : b.data = some p) :
    p < m.next := by
  apply Classical.byContradiction
  intro hge
  have := (own_data ho hp).1
  rw [hf p (by omega)] at this; simp at this

theorem resize_spec {m : Mem} (hf : Fresh m) {b : Blob} {l : Bytes} (ho : Own m b l) (n : Nat) :
    ∃ b' m', resize m b n = some (b', m') ∧ b'.alignment = b.alignment ∧ b'.size = n ∧
      Own m' b' (l.take n ++ List.replicate (n - l.length) none) ∧ Change m b.data m' b'.data := by
  have hlen := ho.2.1
  have hpow := ho.1
  unfold resize
  by_cases he : b.size = n
  · rw [if_pos he]
    have : l.take n ++ List.replicate (n - l.length) none = l := by
      rw [← he, ← hlen]; simp
    rw [this]
    exact ⟨b, m, rfl, rfl, he, ho, change_refl hf _⟩
  · rw [if_neg he]
    by_cases h0 : b.size = 0
    · rw [if_neg (by simp [h0])]
      have hd : b.data = none := by
        rcases ho.2.2 with h | ⟨h, _⟩
        · exact h.2
        · exact absurd h0 h
      have hl0 := (own_none ho hd).1
      obtain ⟨m', h1, h2, h3⟩ := alloc_spec hf n b.alignment (by omega) hpow
      rw [h1]
      refine ⟨_, _, rfl, rfl, rfl, ⟨hpow, ?_, .inr ⟨by show n ≠ 0; omega, _, rfl, ?_⟩⟩, ?_⟩
      · simp [hl0]
      · rw [h3, hl0]; simp
      · rw [hd]; exact h2
    · rw [if_pos h0]
      obtain ⟨p, hp, hblk⟩ : ∃ p, b.data = some p ∧ m.block p = some ⟨b.alignment, l⟩ := by
        rcases ho.2.2 with h | ⟨_, h⟩
        · exact absurd h.1 h0
        · exact h
      rw [hp]
      simp only
      by_cases hn : n = 0
      · subst hn
        rw [if_pos rfl]
        obtain ⟨m', h1, h2⟩ := free_spec hf p (by rw [hblk]; simp)
        rw [h1]
        exact ⟨_, _, rfl, rfl, rfl, ⟨hpow, by simp, .inl ⟨rfl, rfl⟩⟩, h2⟩
      · rw [if_neg hn]
        obtain ⟨m', h1, h2, h3⟩ := alloc_spec hf n b.alignment hn hpow
        have hplt := own_lt hf ho hp
        have hpne : p ≠ m.next := by omega
        have hblk' : m'.block p = some ⟨b.alignment, l⟩ := by
          rw [h2.frame p (by simp) (by simpa using fun e : m.next = p => hpne e.symm)]; exact hblk
        have hrd : m'.read (min n b.size) (.block p 0) = some (l.take (min n b.size)) := by
          simp only [Mem.read, hblk']
          rw [if_pos (by omega)]; simp
        have hcp := copyTo_spec m.next (.block p 0) (min n b.size) b.alignment _ _ h3 hrd
          (by intro off e; injection e with e1 e2; exact hpne e1) (by simp; omega)
        rw [h1]
        simp only [hcp]
        have hfree : ∃ m3, Mem.free { m' with block := put m'.block m.next (some ⟨b.alignment,
            l.take (min n b.size) ++ (List.replicate n none).drop (min n b.size)⟩) } p = some m3 ∧
            m3.next = m'.next ∧ m3.block = put (put m'.block m.next (some ⟨b.alignment,
              l.take (min n b.size) ++ (List.replicate n none).drop (min n b.size)⟩)) p none := by
          refine ⟨⟨put (put m'.block m.next (some ⟨b.alignment,
              l.take (min n b.size) ++ (List.replicate n none).drop (min n b.size)⟩)) p none, m'.next⟩, ?_, rfl, rfl⟩
          unfold Mem.free
          simp only [put_ne _ _ hpne, hblk']
        obtain ⟨m3, g1, g2, g3⟩ := hfree
        rw [g1]
        have hbytes : l.take (min n b.size) ++ (List.replicate n none).drop (min n b.size) =
            l.take n ++ List.replicate (n - l.length) none := by
          rw [List.drop_replicate, ← hlen]
          congr 1
          · rw [← List.take_take]; simp
          · congr 1; omega
        refine ⟨_, _, rfl, rfl, rfl, ⟨hpow, ?_, .inr ⟨hn, _, rfl, ?_⟩⟩, ?_⟩
        · show _ = n
          simp; omega
        · rw [g3, put_ne _ _ (fun e => hpne e.symm), put_same, hbytes]
        · obtain ⟨c1, c2, c3, c4, c5⟩ := h2
          refine ⟨by rw [g2]; exact c1, ?_, ?_, ?_, ?_⟩
          · intro q hq
            rw [g2] at hq
            rw [g3]
            by_cases e : q = p
            · subst e; exact put_same _ _ _
            · rw [put_ne _ _ e]
              have : q ≠ m.next := by
                rintro rfl
                have := c2 _ hq
                rw [this] at h3; simp at h3
              rw [put_ne _ _ this]; exact c2 q hq
          · intro q hq1 hq2
            rw [g3, put_ne _ _ (fun e => hq1 (by rw [e])), put_ne _ _ (fun e => hq2 (by rw [e]))]
            exact c3 q (by simp) hq2
          · intro _ q hq
            obtain rfl := Option.some.inj hq
            rw [g3]; exact put_same _ _ _
          · intro _ q hq
            obtain rfl := Option.some.inj hq
            exact Nat.le_refl _

/-- assigning from a source which is not in the blob itself -/
theorem assign_spec {m : Mem} (hf : Fresh m) {b : Blob} {old : Bytes} (ho : Own m b old) (n a : Nat) (ha : AlignOk a)
    (src : Ptr) (l : Bytes) (hl : src.ok = true → l.length = n) (hr : n ≠ 0 → src.ok = true → m.read n src = some l)
    (hsrc : ∀ p off, src = .block p off → b.data ≠ some p) :
    ∃ b' m' l', assign m b n src a = some (b', m') ∧ atLeast n a ≤ b'.alignment ∧ b'.size = n ∧ Own m' b' l' ∧
      (src.ok = true → l' = l) ∧ Change m b.data m' b'.data := by
  obtain ⟨hpow, heq⟩ := pow16_actual n a ha
  unfold assign
  simp only
  by_cases hle : actualAlignment n a ≤ b.alignment
  · rw [if_pos hle]
    obtain ⟨b1, m1, h1, h2, h3, h4, h5⟩ := resize_spec hf ho n
    rw [h1]
    simp only
    cases hd : b1.data with
    | none =>
      have hn := own_none h4 hd
      refine ⟨_, _, _, rfl, by omega, h3, h4, ?_, h5⟩
      intro hok
      have := hl hok
      rw [hn.1]
      exact (List.eq_nil_of_length_eq_zero (by omega)).symm
    | some q =>
      obtain ⟨hq1, hq2⟩ := own_data h4 hd
      by_cases hok : src.ok = true
      · have hrl := hr (by omega) hok
        have hne : ∀ p off, src = .block p off → b1.data ≠ some p := by
          intro p off e hbd
          subst e
          have hlt := read_lt hf hrl
          by_cases hsame : b1.data = b.data
          · exact hsrc p off rfl (by rw [← hsame]; exact hbd)
          · have := h5.isNew hsame p hbd
            omega
        have hid : src.isData (some q) = false := by
          cases src with
          | null => rfl
          | memory l => rfl
          | block p off =>
            cases off with
            | zero =>
              have := hne p 0 rfl
              rw [hd] at this
              simp only [Ptr.isData, beq_eq_false_iff_ne]
              intro e; exact this (by rw [e])
            | succ k => rfl
        rw [hid, hok]
        simp only [Bool.not_false, Bool.and_true, if_true]
        have hr1 := read_change hrl _ _ h5 (fun p off e => ⟨hsrc p off e, hne p off e⟩)
        have hlen := read_length hrl
        have hcp := copyTo_spec q src n b1.alignment _ l hq1 hr1
          (fun off e => hne q off e hd) (by simp; omega)
        rw [h3, hcp]
        refine ⟨_, _, l, rfl, by omega, h3, ⟨by rw [h2]; exact ho.1, by omega, .inr ⟨hq2, q, hd, ?_⟩⟩, fun _ => rfl, ?_⟩
        · show put _ _ _ _ = _
          rw [put_same]
          congr 2
          have : (old.take n ++ List.replicate (n - old.length) (none : Option (BitVec 8))).drop n = [] := by
            apply List.drop_eq_nil_of_le; simp; omega
          rw [this, List.append_nil]
        · obtain ⟨c1, c2, c3, c4, c5⟩ := h5
          rw [hd] at c3 c4 c5 ⊢
          refine ⟨c1, ?_, ?_, ?_, c5⟩
          · intro p hp
            show put _ _ _ p = none
            have : p ≠ q := by
              rintro rfl
              have := c2 _ hp
              rw [this] at hq1; simp at hq1
            rw [put_ne _ _ this]; exact c2 p hp
          · intro p hp1 hp2
            show put _ _ _ p = _
            rw [put_ne _ _ (fun e => hp2 (by rw [e]))]; exact c3 p hp1 hp2
          · intro hne' p hp
            show put _ _ _ p = none
            rw [put_ne _ _ (fun e => hne' (by rw [hp, e]))]; exact c4 hne' p hp
      · have hok' : src.ok = false := by simpa using hok
        rw [hok']
        simp only [Bool.false_and, Bool.false_eq_true, if_false]
        exact ⟨_, _, _, rfl, by omega, h3, h4, fun h => absurd h (by simp), by rw [hd] at h5 ⊢; exact h5⟩
  · rw [if_neg hle]
    obtain ⟨m1, h1, h2⟩ := destroy_spec hf ho
    rw [h1]
    simp only
    by_cases hn : n = 0
    · rw [if_neg (by simp [hn])]
      exact ⟨_, _, [], rfl, by show atLeast n a ≤ actualAlignment n a; omega, rfl, ⟨hpow, by simp [hn], .inl ⟨hn, rfl⟩⟩,
        fun hok => (List.eq_nil_of_length_eq_zero (by rw [hl hok, hn])).symm, h2⟩
    · rw [if_pos hn]
      have hr1 : src.ok = true → m1.read n src = some (if src.ok then l else List.replicate n none) := by
        intro hok
        rw [if_pos hok]
        exact read_change (hr hn hok) _ _ h2 (fun p off e => ⟨hsrc p off e, by simp⟩)
      obtain ⟨m2, m3, g1, g2, g3, g4, g5⟩ := fill_spec h2.fresh n _ hn hpow src
        (if src.ok then l else List.replicate n none) hr1 (fun h => by simp [h])
      have hlt : ∀ p, b.data = some p → p < m.next := fun p hp => own_lt hf ho hp
      have hchg := change_trans_none hlt h2 g3
      rw [g1]
      simp only
      cases hok : src.ok with
      | true =>
        rw [hok] at g2 g4 g5
        simp only [if_true] at g2 g4 g5 ⊢
        rw [g2]
        exact ⟨_, _, l, rfl, by show atLeast n a ≤ actualAlignment n a; omega, rfl, ⟨hpow, g5, .inr ⟨hn, _, rfl, g4⟩⟩,
          fun _ => rfl, hchg⟩
      | false =>
        rw [hok] at g2 g4 g5
        simp only [Bool.false_eq_true, if_false] at g2 g4 g5 ⊢
        subst g2
        exact ⟨_, _, _, rfl, by show atLeast n a ≤ actualAlignment n a; omega, rfl, ⟨hpow, g5, .inr ⟨hn, _, rfl, g4⟩⟩,
          fun h => absurd h (by simp), hchg⟩

/-- assigning a blob to itself is harmless unless its alignment has to change -/
theorem assign_self {m : Mem} {b : Blob} (h : actualAlignment b.size b.alignment ≤ b.alignment) :
    copyAssign m b b = some (b, m) := by
  unfold copyAssign assign
  simp only
  rw [if_pos h]
  unfold resize
  rw [if_pos rfl]
  simp only
  cases hd : b.data with
  | none => rfl
  | some p =>
    have : b.ptr = .block p 0 := by unfold Blob.ptr; rw [hd]
    rw [this]
    simp [Ptr.isData]

end Verif.Proofs.Blob

namespace Verif.Proofs.Blob
open Verif.Spec.Blob Verif.Model.Blob

theorem put_put {α : Type} (v : Nat → Option α) (i : Nat) (x y : Option α) : put (put v i x) i y = put v i y := by
  funext k; simp only [put]; split <;> rfl

theorem R_destroy {w : World} {v : Nat → Option Vec} (hR : R w v) {i : Nat} {b : Blob} (hb : w.blob i = some b) :
    ∃ m, destroy w.mem b = some m ∧ R ⟨m, put w.blob i none⟩ (put v i none) := by
  obtain ⟨x, hx⟩ : ∃ x, v i = some x := by
    cases hv : v i with
    | none => rw [(hR.dom i).mpr hv] at hb; simp at hb
    | some x => exact ⟨x, rfl⟩
  obtain ⟨l, ho, _⟩ := hR.own i b x hb hx
  obtain ⟨m, h1, h2⟩ := destroy_spec hR.fresh ho
  refine ⟨m, h1, ?_, ?_, ?_, ?_, h2.fresh⟩
  · intro k
    by_cases e : k = i
    · subst e; simp [put_same]
    · simp only [put_ne _ _ e]; exact hR.dom k
  · intro k c y hc hy
    have e : k ≠ i := by rintro rfl; simp [put_same] at hc
    simp only [put_ne _ _ e] at hc hy
    obtain ⟨l', ⟨o1, o2, o3⟩, g2, g3⟩ := hR.own k c y hc hy
    refine ⟨l', ⟨o1, o2, ?_⟩, g2, g3⟩
    rcases o3 with o3 | ⟨o3, p, o4, o5⟩
    · exact .inl o3
    · refine .inr ⟨o3, p, o4, ?_⟩
      rw [h2.frame p (fun h => e (hR.sep k i c b p hc hb o4 h)) (by simp)]; exact o5
  · intro j k c d p hc hd
    have e1 : j ≠ i := by rintro rfl; simp [put_same] at hc
    have e2 : k ≠ i := by rintro rfl; simp [put_same] at hd
    simp only [put_ne _ _ e1, put_ne _ _ e2] at hc hd
    exact hR.sep j k c d p hc hd
  · intro p hp
    have hne : b.data ≠ some p := fun h => hp (h2.gone (by rw [h]; simp) p h)
    rw [show (World.mem ⟨m, put w.blob i none⟩) = m from rfl, h2.frame p hne (by simp)] at hp
    obtain ⟨j, c, h3, h4⟩ := hR.live p hp
    have hj : j ≠ i := by rintro rfl; rw [hb] at h3; obtain rfl := Option.some.inj h3; exact hne h4
    exact ⟨j, c, by simp only [put_ne _ _ hj]; exact h3, h4⟩

theorem R_move {w : World} {v : Nat → Option Vec} (hR : R w v) {i j : Nat} {c : Blob} {y : Vec} (hij : i ≠ j)
    (hi : w.blob i = none) (hj : w.blob j = some c) (hv : v j = some y) :
    R ⟨w.mem, put (put w.blob i (some ⟨c.alignment, c.size, c.data⟩)) j (some ⟨16, 0, none⟩)⟩
      (put (put v i (some y)) j (some ⟨[], 16⟩)) := by
  have hc : (⟨c.alignment, c.size, c.data⟩ : Blob) = c := rfl
  rw [hc]
  -- every variable of the new world with data is `i` (which has the data of `j`) or an old one
  have key : ∀ k d p, put (put w.blob i (some c)) j (some ⟨16, 0, none⟩) k = some d → d.data = some p →
      (k = i ∧ d = c) ∨ (k ≠ i ∧ k ≠ j ∧ w.blob k = some d) := by
    intro k d p h1 h2
    by_cases e1 : k = j
    · subst e1; rw [put_same] at h1; obtain rfl := Option.some.inj h1; simp at h2
    · rw [put_ne _ _ e1] at h1
      by_cases e2 : k = i
      · subst e2; rw [put_same] at h1; exact .inl ⟨rfl, (Option.some.inj h1).symm⟩
      · rw [put_ne _ _ e2] at h1; exact .inr ⟨e2, e1, h1⟩
  refine ⟨?_, ?_, ?_, ?_, hR.fresh⟩
  · intro k
    by_cases e1 : k = j
    · subst e1; simp [put_same]
    · simp only [put_ne _ _ e1]
      by_cases e2 : k = i
      · subst e2; simp [put_same]
      · simp only [put_ne _ _ e2]; exact hR.dom k
  · intro k d z h1 h2
    simp only at h1
    by_cases e1 : k = j
    · subst e1
      rw [put_same] at h1 h2
      obtain rfl := Option.some.inj h1
      obtain rfl := Option.some.inj h2
      exact ⟨[], ⟨⟨⟨4, rfl⟩, Nat.le_refl _⟩, rfl, .inl ⟨rfl, rfl⟩⟩, agree_refl _, Nat.le_refl _⟩
    · rw [put_ne _ _ e1] at h1 h2
      by_cases e2 : k = i
      · subst e2
        rw [put_same] at h1 h2
        obtain rfl := Option.some.inj h1
        obtain rfl := Option.some.inj h2
        exact hR.own j c y hj hv
      · rw [put_ne _ _ e2] at h1 h2
        exact hR.own k d z h1 h2
  · intro k n d e p h1 h2 h3 h4
    rcases key k d p h1 h3 with ⟨a1, a2⟩ | ⟨a1, a2, a3⟩ <;> rcases key n e p h2 h4 with ⟨b1, b2⟩ | ⟨b1, b2, b3⟩
    · rw [a1, b1]
    · rw [a2] at h3
      exact absurd (hR.sep n j e c p b3 hj h4 h3) b2
    · rw [b2] at h4
      exact absurd (hR.sep k j d c p a3 hj h3 h4) a2
    · exact hR.sep k n d e p a3 b3 h3 h4
  · intro p hp
    obtain ⟨k, d, h1, h2⟩ := hR.live p hp
    by_cases e : k = j
    · subst e
      rw [hj] at h1; obtain rfl := Option.some.inj h1
      exact ⟨i, c, by simp only [put_ne _ _ hij, put_same], h2⟩
    · have e2 : k ≠ i := by rintro rfl; rw [hi] at h1; simp at h1
      exact ⟨k, d, by simp only [put_ne _ _ e, put_ne _ _ e2]; exact h1, h2⟩

/-- what a source argument refers to -/
theorem source_spec {w : World} {v : Nat → Option Vec} (hR : R w v) (i n : Nat) (src : Source) (hs : src.Ok v i n) :
    ∃ p, w.ptr src = some p ∧ (p.ok = false → src.bytes v n = List.replicate n none) ∧
      (p.ok = true → ∃ l, l.length = n ∧ w.mem.read n p = some l ∧ Agree (src.bytes v n) l) ∧
      (∀ q off b, p = .block q off → w.blob i = some b → b.data ≠ some q) := by
  cases src with
  | null => exact ⟨.null, rfl, fun _ => rfl, fun h => absurd h (by simp [Ptr.ok]), fun _ _ _ h => by simp at h⟩
  | memory l =>
    have hs : n ≤ l.length := hs
    refine ⟨.memory l, rfl, fun h => absurd h (by simp [Ptr.ok]), fun _ => ⟨(l.take n).map some, by simp; omega, ?_, ?_⟩,
      fun _ _ _ h => by simp at h⟩
    · simp only [Mem.read]; rw [if_pos hs]
    · exact agree_refl _
  | blob j off =>
    obtain ⟨hji, x, hx, hlen⟩ := hs
    obtain ⟨b, hb⟩ : ∃ b, w.blob j = some b := by
      cases hv : w.blob j with
      | none => rw [(hR.dom j).mp hv] at hx; simp at hx
      | some b => exact ⟨b, rfl⟩
    obtain ⟨l, ho, ha, _⟩ := hR.own j b x hb hx
    cases hd : b.data with
    | none =>
      have hl := (own_none ho hd).1
      have hl0 := ha.1
      rw [hl] at hl0
      have hn : n = 0 := by simp at hl0; rw [hl0] at hlen; simp at hlen; omega
      refine ⟨.null, by simp only [World.ptr, hb, hd], fun _ => ?_, fun h => absurd h (by simp [Ptr.ok]),
        fun _ _ _ h => by simp at h⟩
      subst hn
      simp only [Source.bytes, hx, List.take_zero, List.replicate_zero]
    | some p =>
      obtain ⟨hblk, _⟩ := own_data ho hd
      refine ⟨.block p off, by simp only [World.ptr, hb, hd], fun h => absurd h (by simp [Ptr.ok]),
        fun _ => ⟨(l.drop off).take n, ?_, ?_, ?_⟩, ?_⟩
      · have := ha.1; simp; omega
      · simp only [Mem.read, hblk]
        have := ha.1
        rw [if_pos (by omega)]
      · simp only [Source.bytes, hx]
        exact agree_sub ha off n
      · intro q o c he hc hcd
        injection he with h1 h2
        subst h1
        exact hji (hR.sep j i b c p hb hc hd hcd)

theorem blob_ptr_ok (b : Blob) : b.ptr.ok = true ↔ b.data ≠ none := by
  unfold Blob.ptr
  cases b.data <;> simp [Ptr.ok]

end Verif.Proofs.Blob
