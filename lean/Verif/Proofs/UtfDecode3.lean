import Verif.Proofs.UtfDecode2

/-! Traversal of arbitrary byte strings. -/
namespace Verif.Proofs
open Verif.Spec Verif.Model

/-- decoder state and the units of the current, incomplete group belong together -/
def GroupInv (d : Utf8Decoder) (pre : List (BitVec 8)) : Prop :=
  (d.state = 0 ∧ pre = []) ∨ (pre ≠ [] ∧ Pending d pre)

theorem GroupInv.step {d : Utf8Decoder} {pre : List (BitVec 8)} (h : GroupInv d pre) (u : BitVec 8) :
    (d.feed u).state = 12 ∨
    ((d.feed u).state = 0 ∧ IsScalar (d.feed u).codepoint.toNat ∧ utf8 (d.feed u).codepoint.toNat = pre ++ [u]) ∨
    Pending (d.feed u) (pre ++ [u]) := by
  rcases h with ⟨h0, rfl⟩ | ⟨_, hp⟩
  · rcases start_step h0 u with h | ⟨h1, h2, h3, h4⟩ | h
    · exact Or.inl h
    · right; left; rw [h2]; exact ⟨h1, h3, by simpa using h4⟩
    · right; right; simpa using h
  · exact pending_step hp u

theorem Pending.not_value {d : Utf8Decoder} {pre} (h : Pending d pre) : d.hasValue = false ∧ d.error = false := by
  obtain ⟨k, lo, hi, t, hk, _⟩ := h
  exact pend_not hk

theorem Pending.length {d : Utf8Decoder} {pre} (h : Pending d pre) : pre.length ≤ 3 := by
  obtain ⟨k, lo, hi, t, hk, hl, _⟩ := h
  obtain ⟨_, _, _, _, h⟩ := pend_bounds hk
  omega

theorem pend_lo {s k lo hi t : Nat} (h : pend s = some (k, lo, hi, t)) : lo ≤ hi := by
  unfold pend at h
  split at h <;> simp only [Option.some.injEq, Prod.mk.injEq, reduceCtorEq] at h
  all_goals obtain ⟨rfl, rfl, rfl, rfl⟩ := h
  all_goals decide

theorem Pending.truncated {d : Utf8Decoder} {pre} (h : Pending d pre) : Truncated8 pre := by
  obtain ⟨k, lo, hi, t, hk, hl, hc, hall⟩ := h
  obtain ⟨b1, b2, _, _, hkt⟩ := pend_bounds hk
  have hlo := pend_lo hk
  have key : ∃ c, c / 64 ^ k = d.codepoint.toNat ∧ 0x80 + c / 64 ^ (k - 1) % 64 = lo := by
    rcases hkt with ⟨rfl, rfl⟩ | ⟨rfl, rfl⟩ | ⟨rfl, rfl⟩
    · exact ⟨d.codepoint.toNat * 64 + (lo - 0x80), by simp; omega, by simp; omega⟩
    · exact ⟨d.codepoint.toNat * 4096 + (lo - 0x80) * 64, by simp; omega, by simp; omega⟩
    · exact ⟨d.codepoint.toNat * 262144 + (lo - 0x80) * 4096, by simp; omega, by simp; omega⟩
  obtain ⟨c, hc1, hc2⟩ := key
  obtain ⟨hs, hu⟩ := hall c hc1 (by omega) (by omega)
  refine ⟨c, hs, ⟨_, hu.symm⟩, ?_⟩
  rw [hu]
  intro he
  have := congrArg List.length he
  rw [List.length_append] at this
  have h2 : 0 < (if k = 1 then [cont c] else if k = 2 then [cont (c / 64), cont c]
      else [cont (c / 4096), cont (c / 64), cont c]).length := by
    split
    · simp
    · split <;> simp
  omega

theorem tiles_rawL (raw : BitVec 8 → BitVec 32) (a m : Nat) (us : List (BitVec 8)) (rs : List Report)
    (h : Tiles (a + us.length) rs m) : Tiles a (rawL raw a us ++ rs) m := by
  induction us generalizing a with
  | nil => simpa [rawL] using h
  | cons u us ih =>
    simp only [rawL, List.cons_append, Tiles]
    refine ⟨trivial, by omega, ih (a + 1) ?_⟩
    rw [List.length_cons] at h
    rw [show a + 1 + us.length = a + (us.length + 1) by omega]
    exact h

theorem truthful_rawL (raw : BitVec 8 → BitVec 32) (str front us rest : List (BitVec 8))
    (hs : str = front ++ us ++ rest) : ∀ r ∈ rawL raw front.length us, Truthful8 raw str r := by
  induction us generalizing front with
  | nil => simp [rawL]
  | cons u us ih =>
    intro r hr
    simp only [rawL, List.mem_cons] at hr
    rcases hr with rfl | hr
    · right
      refine ⟨rfl, u, ?_, rfl⟩
      simp [hs]
    · have := ih (front ++ [u]) (by rw [hs]; simp) r
      simp only [List.length_append, List.length_singleton] at this
      exact this hr

theorem state_err {d : Utf8Decoder} (h : d.state = 12) : utf8Ops.hasValue d = false ∧ utf8Ops.error d = true := by
  constructor
  · show d.hasValue = false; simp [Utf8Decoder.hasValue, h]
  · show d.error = true; simp [Utf8Decoder.error, h]

theorem state_ok {d : Utf8Decoder} (h : d.state = 0) : utf8Ops.hasValue d = true := by
  show d.hasValue = true; simp [Utf8Decoder.hasValue, h]

theorem fwdL_arbitrary (raw : BitVec 8 → BitVec 32) (str front pre rest : List (BitVec 8))
    (hs : str = front ++ pre ++ rest) (d : Utf8Decoder) (hd : GroupInv d pre) :
    ∃ m, Tiles front.length (fwdL utf8Ops raw rest d front.length pre) m ∧ m ≤ str.length ∧
      str.length ≤ m + 3 ∧ Truncated8 (str.drop m) ∧
      ∀ r ∈ fwdL utf8Ops raw rest d front.length pre, Truthful8 raw str r := by
  induction rest generalizing front pre d with
  | nil =>
    refine ⟨front.length, rfl, by rw [hs]; simp, ?_, ?_, by simp [fwdL]⟩
    · rcases hd with ⟨_, rfl⟩ | ⟨_, hp⟩
      · rw [hs]; simp
      · have := hp.length
        rw [hs]; simp; omega
    · have : str.drop front.length = pre := by rw [hs]; simp
      rw [this]
      rcases hd with ⟨_, rfl⟩ | ⟨_, hp⟩
      · exact ⟨0, by decide, by simp, (utf8_ne_nil 0).symm⟩
      · exact hp.truncated
  | cons u us ih =>
    rw [fwdL]
    rcases hd.step u with h | ⟨h, hsc, henc⟩ | h
    · obtain ⟨h1, h2⟩ := state_err (d := d.feed u) h
      have h1' : utf8Ops.hasValue (utf8Ops.feed d u) = false := h1
      have h2' : utf8Ops.error (utf8Ops.feed d u) = true := h2
      simp only [h1', h2']
      rw [if_neg (by simp), if_pos trivial]
      obtain ⟨m, t1, t2, t3, t4, t5⟩ := ih (front ++ pre ++ [u]) [] (by rw [hs]; simp)
        (utf8Ops.clearError (utf8Ops.feed d u)) (Or.inl ⟨rfl, rfl⟩)
      simp only [List.length_append, List.length_singleton] at t1 t5 ⊢
      refine ⟨m, ?_, t2, t3, t4, ?_⟩
      · apply tiles_rawL
        simp only [List.length_append, List.length_singleton]
        rw [← Nat.add_assoc]; exact t1
      · intro r hr
        rcases List.mem_append.1 hr with hr | hr
        · exact truthful_rawL raw str front (pre ++ [u]) us (by rw [hs]; simp) r hr
        · rw [← Nat.add_assoc] at hr; exact t5 r hr
    · have h1' : utf8Ops.hasValue (utf8Ops.feed d u) = true := state_ok (d := d.feed u) h
      simp only [h1']
      rw [if_pos trivial]
      obtain ⟨m, t1, t2, t3, t4, t5⟩ := ih (front ++ pre ++ [u]) [] (by rw [hs]; simp)
        (utf8Ops.feed d u) (Or.inl ⟨h, rfl⟩)
      simp only [List.length_append, List.length_singleton] at t1 t5 ⊢
      refine ⟨m, ⟨rfl, by show 0 < pre.length + 1; omega, ?_⟩, t2, t3, t4, ?_⟩
      · rw [← Nat.add_assoc]; exact t1
      · intro r hr
        rcases List.mem_cons.1 hr with rfl | hr
        · left
          refine ⟨hsc, ?_⟩
          show List.take (pre.length + 1) (List.drop front.length str) = utf8 (d.feed u).codepoint.toNat
          rw [henc, hs]
          have : front ++ pre ++ u :: us = front ++ ((pre ++ [u]) ++ us) := by simp
          rw [this, List.drop_left]
          exact List.take_left' (by simp)
        · rw [← Nat.add_assoc] at hr; exact t5 r hr
    · obtain ⟨h1, h2⟩ := h.not_value
      have h1' : utf8Ops.hasValue (utf8Ops.feed d u) = false := h1
      have h2' : utf8Ops.error (utf8Ops.feed d u) = false := h2
      simp only [h1', h2']
      rw [if_neg (by simp), if_neg (by simp)]
      exact ih front (pre ++ [u]) (by rw [hs]; simp) (utf8Ops.feed d u) (Or.inr ⟨by simp, h⟩)

/-! ### reverse, arbitrary input -/

/-- the decoder between two groups: clean, or left waiting by a truncated group -/
def Resting (d : Utf8Decoder) : Prop := d.state = 0 ∨ ∃ p, pend d.state = some p

theorem boundary_not_cont : ∀ n < 256, isBoundary8 (BitVec.ofNat 8 n) = true → n < 0x80 ∨ 0xBF < n := by
  decide +kernel

theorem nonboundary_cont : ∀ n < 256, isBoundary8 (BitVec.ofNat 8 n) = false → 0x80 ≤ n ∧ n ≤ 0xBF := by
  decide +kernel

theorem ofNat_toNat8 (u : BitVec 8) : BitVec.ofNat 8 u.toNat = u := by simp

/-- a boundary unit always upsets a waiting decoder -/
theorem pend_boundary {d : Utf8Decoder} {p} (h : pend d.state = some p) {u : BitVec 8} (hu : isBoundary8 u = true) :
    (d.feed u).state = 12 := by
  obtain ⟨k, lo, hi, t⟩ := p
  have hb := pend_bounds h
  have := boundary_not_cont u.toNat u.isLt (by rw [ofNat_toNat8]; exact hu)
  rw [feed_state, nx_pend h, if_neg (by omega)]

/-- a continuation unit always upsets a clean decoder -/
theorem start_cont {d : Utf8Decoder} (h : d.state = 0) {u : BitVec 8} (hu : isBoundary8 u = false) :
    (d.feed u).state = 12 := by
  have := nonboundary_cont u.toNat u.isLt (by rw [ofNat_toNat8]; exact hu)
  rw [feed_state, h, nx_lead]
  unfold lead
  rw [if_neg (by omega), if_pos (by omega)]

theorem feedL_cons (d : Utf8Decoder) (u : BitVec 8) (us : List (BitVec 8)) :
    feedL utf8Ops (u :: us) d = if (d.feed u).error then d.feed u else feedL utf8Ops us (d.feed u) := rfl

theorem feedL_err {d : Utf8Decoder} {u : BitVec 8} (us : List (BitVec 8)) (h : (d.feed u).state = 12) :
    (feedL utf8Ops (u :: us) d).state = 12 := by
  rw [feedL_cons, if_pos (by simp [Utf8Decoder.error, h])]; exact h

theorem feedL_noerr {d : Utf8Decoder} {u : BitVec 8} (us : List (BitVec 8)) (h : (d.feed u).state ≠ 12) :
    feedL utf8Ops (u :: us) d = feedL utf8Ops us (d.feed u) := by
  rw [feedL_cons, if_neg (by simp [Utf8Decoder.error, h])]

/-- outcomes of completing a pending group with continuation units -/
theorem feedL_pending (us : List (BitVec 8)) (hus : ∀ x ∈ us, isBoundary8 x = false) (pre : List (BitVec 8))
    (d : Utf8Decoder) (h : Pending d pre) :
    (feedL utf8Ops us d).state = 12 ∨
    ((feedL utf8Ops us d).state = 0 ∧ IsScalar (feedL utf8Ops us d).codepoint.toNat ∧
      utf8 (feedL utf8Ops us d).codepoint.toNat = pre ++ us) ∨
    Pending (feedL utf8Ops us d) (pre ++ us) := by
  induction us generalizing pre d with
  | nil => right; right; simpa [feedL] using h
  | cons u us ih =>
    rcases pending_step h u with h1 | ⟨h1, h2, h3⟩ | h1
    · exact Or.inl (feedL_err us h1)
    · rw [feedL_noerr us (by rw [h1]; decide)]
      cases us with
      | nil => right; left; exact ⟨h1, h2, h3⟩
      | cons v vs => left; exact feedL_err vs (start_cont h1 (hus v (by simp)))
    · have hne : (d.feed u).state ≠ 12 := by
        obtain ⟨k, lo, hi, t, hk, _⟩ := h1
        exact (pend_bounds hk).2.2.2.1
      rw [feedL_noerr us hne]
      have := ih (fun x hx => hus x (by simp [hx])) (pre ++ [u]) (d.feed u) h1
      simpa using this

/-- too many continuation units always upset a waiting decoder -/
theorem feedL_many (us : List (BitVec 8)) (hus : ∀ x ∈ us, isBoundary8 x = false) (d : Utf8Decoder) {k lo hi t : Nat}
    (h : pend d.state = some (k, lo, hi, t)) (hl : k < us.length) : (feedL utf8Ops us d).state = 12 := by
  induction us generalizing d k lo hi t with
  | nil => simp at hl
  | cons u us ih =>
    obtain ⟨_, _, _, _, hkt⟩ := pend_bounds h
    by_cases hb : lo ≤ u.toNat ∧ u.toNat ≤ hi
    · have hst : (d.feed u).state = t := by rw [feed_state, nx_pend h, if_pos hb]
      rcases hkt with ⟨rfl, rfl⟩ | ⟨rfl, rfl⟩ | ⟨rfl, rfl⟩
      · rw [feedL_noerr us (by rw [hst]; decide)]
        cases us with
        | nil => simp at hl
        | cons v vs => exact feedL_err vs (start_cont hst (hus v (by simp)))
      · rw [feedL_noerr us (by rw [hst]; decide)]
        exact ih (fun x hx => hus x (by simp [hx])) (d.feed u) (k := 1) (by rw [hst]; rfl) (by simp at hl; omega)
      · rw [feedL_noerr us (by rw [hst]; decide)]
        exact ih (fun x hx => hus x (by simp [hx])) (d.feed u) (k := 2) (by rw [hst]; rfl) (by simp at hl; omega)
    · exact feedL_err us (by rw [feed_state, nx_pend h, if_neg hb])

/-- outcomes of feeding one group of the reverse traversal -/
theorem feedL_group (u : BitVec 8) (suf : List (BitVec 8)) (hsuf : ∀ x ∈ suf, isBoundary8 x = false)
    (hu : isBoundary8 u = true ∨ suf.length = 3) (d : Utf8Decoder) (hd : Resting d) :
    (feedL utf8Ops (u :: suf) d).state = 12 ∨
    ((feedL utf8Ops (u :: suf) d).state = 0 ∧ IsScalar (feedL utf8Ops (u :: suf) d).codepoint.toNat ∧
      utf8 (feedL utf8Ops (u :: suf) d).codepoint.toNat = u :: suf) ∨
    (∃ p, pend (feedL utf8Ops (u :: suf) d).state = some p) := by
  rcases hd with h0 | ⟨⟨k, lo, hi, t⟩, hp⟩
  · rcases start_step h0 u with h | ⟨h1, h2, h3, h4⟩ | h
    · exact Or.inl (feedL_err suf h)
    · rw [feedL_noerr suf (by rw [h1]; decide)]
      cases suf with
      | nil => right; left; refine ⟨h1, ?_, ?_⟩ <;> simp only [feedL, h2] <;> assumption
      | cons v vs => left; exact feedL_err vs (start_cont h1 (hsuf v (by simp)))
    · have hst : (d.feed u).state ≠ 12 := by
        obtain ⟨k, lo, hi, t, hk, _⟩ := h
        exact (pend_bounds hk).2.2.2.1
      rw [feedL_noerr suf hst]
      rcases feedL_pending suf hsuf [u] (d.feed u) h with h | h | ⟨k, lo, hi, t, hk, _⟩
      · exact Or.inl h
      · exact Or.inr (Or.inl h)
      · exact Or.inr (Or.inr ⟨_, hk⟩)
  · left
    by_cases hub : isBoundary8 u = true
    · exact feedL_err suf (pend_boundary hp hub)
    · have hlen : suf.length = 3 := by rcases hu with h | h; exact absurd h hub; exact h
      refine feedL_many (u :: suf) ?_ d hp ?_
      · intro x hx
        rcases List.mem_cons.1 hx with rfl | hx
        · simpa using hub
        · exact hsuf x hx
      · have := (pend_bounds hp).2.2.2.2
        simp; omega

theorem Descends.lower {lo hi hi' : Nat} (h : hi ≤ hi') {rs : List Report} (hd : Descends lo hi rs) :
    Descends lo hi' rs := by
  cases rs with
  | nil => exact Nat.le_trans hd h
  | cons r rs => exact ⟨hd.1, by have := hd.2.1; omega, hd.2.2⟩

theorem descends_rawL (raw : BitVec 8 → BitVec 32) (lo a : Nat) (us : List (BitVec 8)) (rs : List Report)
    (h : Descends lo a rs) : Descends lo (a + us.length) ((rawL raw a us).reverse ++ rs) := by
  induction us using snoc_induction with
  | nil => simpa [rawL] using h
  | snoc us u ih =>
    rw [rawL_append, List.reverse_append]
    simp only [rawL, List.reverse_cons, List.reverse_nil, List.nil_append, List.cons_append,
      Descends, List.length_append, List.length_singleton]
    exact ⟨by omega, by omega, ih⟩

theorem revL_arbitrary (raw : BitVec 8 → BitVec 32) (str front rr suf rest : List (BitVec 8))
    (hs : str = front ++ rr.reverse ++ suf ++ rest) (d : Utf8Decoder) (hd : Resting d)
    (hsuf : ∀ x ∈ suf, isBoundary8 x = false) (hl : suf.length ≤ 3) :
    Descends front.length (front.length + rr.length + suf.length)
      (revL utf8Ops raw isBoundary8 4 front.length rr d suf) ∧
    ∀ r ∈ revL utf8Ops raw isBoundary8 4 front.length rr d suf, Truthful8 raw str r := by
  induction rr generalizing suf rest d with
  | nil => simp only [revL, Descends]; exact ⟨by omega, by simp⟩
  | cons u rr ih =>
    have hs' : str = (front ++ rr.reverse) ++ (u :: suf) ++ rest := by rw [hs]; simp
    have hlen : (front ++ rr.reverse).length = front.length + rr.length := by simp
    rw [revL]
    split
    · next hc =>
      have hu : isBoundary8 u = true ∨ suf.length = 3 := by
        simp only [List.length_cons, Bool.or_eq_true, beq_iff_eq] at hc
        rcases hc with h | h
        · right; omega
        · exact Or.inl h
      have ih' := fun d hd => ih [] (u :: suf ++ rest) (by rw [hs]; simp) d hd (by simp) (by simp)
      simp only [List.length_nil, Nat.add_zero] at ih'
      rcases feedL_group u suf hsuf hu d hd with h | ⟨h, hsc, henc⟩ | ⟨p, h⟩
      · obtain ⟨h1, h2⟩ := state_err h
        simp only [h1, h2]
        rw [if_neg (by simp), if_pos trivial]
        obtain ⟨i1, i2⟩ := ih' (utf8Ops.clearError (feedL utf8Ops (u :: suf) d)) (Or.inl rfl)
        refine ⟨?_, ?_⟩
        · have := descends_rawL raw front.length (front.length + rr.length) (u :: suf) _ i1
          simp only [List.length_cons] at this ⊢
          rw [show front.length + (rr.length + 1) + suf.length = front.length + rr.length + (suf.length + 1) by omega]
          exact this
        · intro r hr
          rcases List.mem_append.1 hr with hr | hr
          · have := truthful_rawL raw str (front ++ rr.reverse) (u :: suf) rest hs' r
            rw [hlen] at this
            exact this (by simpa using hr)
          · exact i2 r hr
      · simp only [state_ok h, if_true]
        obtain ⟨i1, i2⟩ := ih' (feedL utf8Ops (u :: suf) d) (Or.inl h)
        refine ⟨⟨by simp, by simp only [List.length_cons]; omega, i1⟩, ?_⟩
        intro r hr
        rcases List.mem_cons.1 hr with rfl | hr
        · left
          have hval : ∀ d : Utf8Decoder, utf8Ops.value d = d.codepoint := fun _ => rfl
          simp only [hval]
          refine ⟨hsc, ?_⟩
          show List.take (u :: suf).length (List.drop (front.length + rr.length) str) =
            utf8 (feedL utf8Ops (u :: suf) d).codepoint.toNat
          rw [henc, hs', ← hlen, List.append_assoc, List.drop_left]
          exact List.take_left' rfl
        · exact i2 r hr
      · obtain ⟨h1, h2⟩ := pend_not h
        have h1' : utf8Ops.hasValue (feedL utf8Ops (u :: suf) d) = false := h1
        have h2' : utf8Ops.error (feedL utf8Ops (u :: suf) d) = false := h2
        simp only [h1', h2']
        rw [if_neg (by simp), if_neg (by simp)]
        obtain ⟨i1, i2⟩ := ih' (feedL utf8Ops (u :: suf) d) (Or.inr ⟨p, h⟩)
        exact ⟨Descends.lower (by simp only [List.length_cons]; omega) i1, i2⟩
    · next hc =>
      simp only [List.length_cons, Bool.or_eq_true, beq_iff_eq, not_or] at hc
      obtain ⟨i1, i2⟩ := ih (u :: suf) rest (by rw [hs]; simp) d hd (by
        intro x hx
        rcases List.mem_cons.1 hx with rfl | hx
        · simpa using hc.2
        · exact hsuf x hx) (by simp only [List.length_cons]; omega)
      refine ⟨?_, i2⟩
      simp only [List.length_cons] at i1 ⊢
      rw [show front.length + (rr.length + 1) + suf.length = front.length + rr.length + (suf.length + 1) by omega]
      exact i1

end Verif.Proofs
