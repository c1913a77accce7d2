import Verif.Proofs.Util
import Verif.Spec.Unicode
import Verif.Model.Utf8Decoder

/-! Helper lemmas about the UTF-8 decoder's table and the encoding form. -/
namespace Verif.Proofs
open Verif.Spec Verif.Model Verif.Model.Utf8Decoder

/-- byte class, read off the first half of the table -/
def cls (n : Nat) : Nat :=
  if n < 0x80 then 0 else if n < 0x90 then 1 else if n < 0xA0 then 9 else if n < 0xC0 then 7
  else if n < 0xC2 then 8 else if n < 0xE0 then 2 else if n = 0xE0 then 10 else if n = 0xED then 4
  else if n < 0xF0 then 3 else if n = 0xF0 then 11 else if n < 0xF4 then 6 else if n = 0xF4 then 5 else 8

/-- the second half of the table -/
def transTable : List Nat := [
  0, 12, 24, 36, 60, 96, 84, 12, 12, 12, 48, 72,
  12, 12, 12, 12, 12, 12, 12, 12, 12, 12, 12, 12,
  12, 0, 12, 12, 12, 12, 12, 0, 12, 0, 12, 12,
  12, 24, 12, 12, 12, 12, 12, 24, 12, 24, 12, 12,
  12, 12, 12, 12, 12, 12, 12, 24, 12, 12, 12, 12,
  12, 24, 12, 12, 12, 12, 12, 12, 12, 24, 12, 12,
  12, 12, 12, 12, 12, 12, 12, 36, 12, 36, 12, 12,
  12, 36, 12, 12, 12, 12, 12, 36, 12, 36, 12, 12,
  12, 36, 12, 12, 12, 12, 12, 12, 12, 12, 12, 12]

theorem tbl_split : stateTable = (List.range 256).map cls ++ transTable := by
  decide +kernel

theorem table_cls (b : BitVec 8) : stateTable.getD b.toNat 1000 = cls b.toNat := by
  have hb : b.toNat < 256 := b.isLt
  rw [tbl_split, List.getD_eq_getElem?_getD, List.getElem?_append_left (by simpa using hb)]
  simp [hb]

theorem table_trans (i : Nat) : stateTable.getD (256 + i) 1000 = transTable.getD i 1000 := by
  rw [tbl_split, List.getD_eq_getElem?_getD, List.getD_eq_getElem?_getD, List.getElem?_append_right (by simp)]
  simp

/-- table-driven next state -/
def nx (s : Nat) (b : BitVec 8) : Nat := transTable.getD (s + cls b.toNat) 1000

theorem feed_state (d : Utf8Decoder) (b : BitVec 8) : (d.feed b).state = nx d.state b := by
  simp only [feed, nx, table_cls]
  rw [show d.state + 256 + cls b.toNat = 256 + (d.state + cls b.toNat) by omega, table_trans]

/-- lead byte summary: next state and payload -/
def lead (n : Nat) : Nat × Nat :=
  if n < 0x80 then (0, n)
  else if n < 0xC2 then (12, 0)
  else if n < 0xE0 then (24, n % 32)
  else if n = 0xE0 then (48, 0)
  else if n = 0xED then (60, 13)
  else if n < 0xF0 then (36, n % 16)
  else if n = 0xF0 then (72, 0)
  else if n < 0xF4 then (84, n % 8)
  else if n = 0xF4 then (96, 4)
  else (12, 0)

/-- the non-accepting, non-error states: remaining units, range of the next unit, next state -/
def pend : Nat → Option (Nat × Nat × Nat × Nat)
  | 24 => some (1, 0x80, 0xBF, 0)
  | 36 => some (2, 0x80, 0xBF, 24)
  | 48 => some (2, 0xA0, 0xBF, 24)
  | 60 => some (2, 0x80, 0x9F, 24)
  | 72 => some (3, 0x90, 0xBF, 36)
  | 84 => some (3, 0x80, 0xBF, 36)
  | 96 => some (3, 0x80, 0x8F, 36)
  | _ => none

theorem trans_lead : ∀ c < 12, transTable.getD (0 + c) 1000 =
    [0, 12, 24, 36, 60, 96, 84, 12, 12, 12, 48, 72].getD c 1000 := by decide +kernel
theorem trans_err : ∀ c < 12, transTable.getD (12 + c) 1000 = 12 := by decide +kernel
theorem trans_24 : ∀ c < 12, transTable.getD (24 + c) 1000 = if c = 1 ∨ c = 7 ∨ c = 9 then 0 else 12 := by
  decide +kernel
theorem trans_36 : ∀ c < 12, transTable.getD (36 + c) 1000 = if c = 1 ∨ c = 7 ∨ c = 9 then 24 else 12 := by
  decide +kernel
theorem trans_48 : ∀ c < 12, transTable.getD (48 + c) 1000 = if c = 7 then 24 else 12 := by decide +kernel
theorem trans_60 : ∀ c < 12, transTable.getD (60 + c) 1000 = if c = 1 ∨ c = 9 then 24 else 12 := by
  decide +kernel
theorem trans_72 : ∀ c < 12, transTable.getD (72 + c) 1000 = if c = 7 ∨ c = 9 then 36 else 12 := by
  decide +kernel
theorem trans_84 : ∀ c < 12, transTable.getD (84 + c) 1000 = if c = 1 ∨ c = 7 ∨ c = 9 then 36 else 12 := by
  decide +kernel
theorem trans_96 : ∀ c < 12, transTable.getD (96 + c) 1000 = if c = 1 then 36 else 12 := by decide +kernel

theorem cls_lt (n : Nat) : cls n < 12 := by
  unfold cls; grind (splits := 20)

theorem lead_fin : ∀ n < 256, [0, 12, 24, 36, 60, 96, 84, 12, 12, 12, 48, 72].getD (cls n) 1000 = (lead n).1 := by
  decide +kernel

theorem nx_lead (b : BitVec 8) : nx 0 b = (lead b.toNat).1 := by
  rw [nx, trans_lead _ (cls_lt _)]
  exact lead_fin _ b.isLt

theorem nx_err (b : BitVec 8) : nx 12 b = 12 := trans_err _ (cls_lt _)

theorem cls_cont : ∀ n < 256, (cls n = 1 ∨ cls n = 7 ∨ cls n = 9) ↔ (0x80 ≤ n ∧ n ≤ 0xBF) := by decide +kernel
theorem cls_a0 : ∀ n < 256, cls n = 7 ↔ (0xA0 ≤ n ∧ n ≤ 0xBF) := by decide +kernel
theorem cls_9f : ∀ n < 256, (cls n = 1 ∨ cls n = 9) ↔ (0x80 ≤ n ∧ n ≤ 0x9F) := by decide +kernel
theorem cls_90 : ∀ n < 256, (cls n = 7 ∨ cls n = 9) ↔ (0x90 ≤ n ∧ n ≤ 0xBF) := by decide +kernel
theorem cls_8f : ∀ n < 256, cls n = 1 ↔ (0x80 ≤ n ∧ n ≤ 0x8F) := by decide +kernel

theorem nx_pend {s k lo hi t : Nat} (h : pend s = some (k, lo, hi, t)) (b : BitVec 8) :
    nx s b = if lo ≤ b.toNat ∧ b.toNat ≤ hi then t else 12 := by
  have hb : b.toNat < 256 := b.isLt
  unfold pend at h
  split at h <;> simp only [Option.some.injEq, Prod.mk.injEq, reduceCtorEq] at h
  all_goals obtain ⟨rfl, rfl, rfl, rfl⟩ := h
  · rw [nx, trans_24 _ (cls_lt _)]; simp only [cls_cont _ hb]
  · rw [nx, trans_36 _ (cls_lt _)]; simp only [cls_cont _ hb]
  · rw [nx, trans_48 _ (cls_lt _)]; simp only [cls_a0 _ hb]
  · rw [nx, trans_60 _ (cls_lt _)]; simp only [cls_9f _ hb]
  · rw [nx, trans_72 _ (cls_lt _)]; simp only [cls_90 _ hb]
  · rw [nx, trans_84 _ (cls_lt _)]; simp only [cls_cont _ hb]
  · rw [nx, trans_96 _ (cls_lt _)]; simp only [cls_8f _ hb]

theorem low6_fin : ∀ n < 256, n % 2 ^ 32 &&& 63 = n % 64 := by decide +kernel

theorem leadval_fin : ∀ n < 256, (lead n).1 ≠ 12 → (255 >>> cls n) &&& n = (lead n).2 := by decide +kernel

theorem cp_lead (d : Utf8Decoder) (hd : d.state = 0) (b : BitVec 8) (hb : (lead b.toNat).1 ≠ 12) :
    (d.feed b).codepoint.toNat = (lead b.toNat).2 := by
  have hlt := b.isLt
  simp only [feed, hasValue, hd, table_cls, beq_self_eq_true, if_true]
  rw [BitVec.toNat_and, BitVec.toNat_ushiftRight]
  simp only [BitVec.toNat_setWidth, BitVec.toNat_ofNat]
  rw [Nat.mod_eq_of_lt (a := b.toNat) (by omega)]
  exact leadval_fin _ hlt hb

theorem cp_cont (d : Utf8Decoder) (hd : d.state ≠ 0) (b : BitVec 8) (hc : d.codepoint.toNat < 2 ^ 26) :
    (d.feed b).codepoint.toNat = d.codepoint.toNat * 64 + b.toNat % 64 := by
  have hv : d.hasValue = false := by simp [hasValue, hd]
  simp only [feed, hv]
  have h1 : (BitVec.zeroExtend 32 b &&& 63#32).toNat = b.toNat % 64 := by
    rw [BitVec.toNat_and]
    simp only [BitVec.toNat_setWidth, BitVec.toNat_ofNat]
    exact low6_fin _ b.isLt
  have h2 : (d.codepoint <<< 6).toNat = d.codepoint.toNat * 64 := by
    rw [BitVec.toNat_shiftLeft, Nat.shiftLeft_eq]
    exact Nat.mod_eq_of_lt (by omega)
  have hlt : b.toNat % 64 < 2 ^ 6 := Nat.mod_lt _ (by decide)
  have := Nat.shiftLeft_add_eq_or_of_lt hlt d.codepoint.toNat
  rw [Nat.shiftLeft_eq] at this
  simp only [Bool.false_eq_true, if_false, BitVec.toNat_or, h1, h2]
  rw [Nat.or_comm]
  exact this.symm

/-! ### Encodings drive the decoder -/

theorem toNat_cont (n : Nat) : (cont n).toNat = 0x80 + n % 64 := by
  unfold cont; rw [BitVec.toNat_ofNat]; omega

theorem toNat_ofNat8 {n : Nat} (h : n < 256) : (BitVec.ofNat 8 n).toNat = n := by
  rw [BitVec.toNat_ofNat]; omega

/-- one continuation step from a pending state -/
theorem feed_pend {d : Utf8Decoder} {k lo hi t : Nat} (h : pend d.state = some (k, lo, hi, t))
    (hc : d.codepoint.toNat < 2 ^ 26) {b : BitVec 8} (h1 : lo ≤ b.toNat) (h2 : b.toNat ≤ hi) :
    (d.feed b).state = t ∧ (d.feed b).codepoint.toNat = d.codepoint.toNat * 64 + b.toNat % 64 := by
  have hs : d.state ≠ 0 := by rintro h0; rw [h0] at h; simp [pend] at h
  refine ⟨?_, cp_cont d hs b hc⟩
  rw [feed_state, nx_pend h, if_pos ⟨h1, h2⟩]

theorem feed_lead {d : Utf8Decoder} (hd : d.state = 0) {b : BitVec 8} {s v : Nat}
    (h : lead b.toNat = (s, v)) (hs : s ≠ 12) :
    (d.feed b).state = s ∧ (d.feed b).codepoint.toNat = v := by
  constructor
  · rw [feed_state, hd, nx_lead, h]
  · rw [cp_lead d hd b (by rw [h]; exact hs), h]

/-- Running the decoder over the encoding of one scalar value. -/
theorem feed_utf8 {d : Utf8Decoder} (hd : d.state = 0) {c : Nat} (hc : IsScalar c) :
    ((d.feedAll (utf8 c)).state = 0 ∧ (d.feedAll (utf8 c)).codepoint.toNat = c) ∧
    ∀ n, 0 < n → n < (utf8 c).length → ∃ p, pend (d.feedAll ((utf8 c).take n)).state = some p := by
  unfold IsScalar at hc
  unfold utf8
  split
  · -- one unit
    have hl : lead (BitVec.ofNat 8 c).toNat = (0, c) := by
      rw [toNat_ofNat8 (by omega)]; unfold lead; rw [if_pos (by omega)]
    have := feed_lead hd hl (by decide)
    refine ⟨this, ?_⟩
    intro n h1 h2; simp at h2; omega
  split
  · -- two units
    have hn : (BitVec.ofNat 8 (0xC0 + c / 64)).toNat = 0xC0 + c / 64 := toNat_ofNat8 (by omega)
    have hl : lead (BitVec.ofNat 8 (0xC0 + c / 64)).toNat = (24, c / 64) := by
      rw [hn]; unfold lead
      rw [if_neg (by omega), if_neg (by omega), if_pos (by omega)]
      congr 1; omega
    obtain ⟨s1, v1⟩ := feed_lead hd hl (by decide)
    have hc2 := toNat_cont c
    obtain ⟨s2, v2⟩ := feed_pend (d := d.feed _) (b := cont c) (by rw [s1]; rfl) (by omega) (by omega) (by omega)
    refine ⟨⟨s2, ?_⟩, ?_⟩
    · show (Utf8Decoder.feed _ _).codepoint.toNat = c
      rw [v2, v1, hc2]; omega
    · intro n h1 h2
      simp at h2
      have : n = 1 := by omega
      subst this
      exact ⟨_, by show pend (d.feed _).state = _; rw [s1]; rfl⟩
  split
  · -- three units
    have hn : (BitVec.ofNat 8 (0xE0 + c / 4096)).toNat = 0xE0 + c / 4096 := toNat_ofNat8 (by omega)
    have hl : ∃ s lo hi, lead (BitVec.ofNat 8 (0xE0 + c / 4096)).toNat = (s, c / 4096) ∧ s ≠ 12 ∧
        pend s = some (2, lo, hi, 24) ∧ lo ≤ 0x80 + c / 64 % 64 ∧ 0x80 + c / 64 % 64 ≤ hi := by
      rw [hn]; unfold lead
      rw [if_neg (by omega), if_neg (by omega), if_neg (by omega)]
      by_cases h1 : c / 4096 = 0
      · rw [if_pos (by omega)]
        exact ⟨48, 0xA0, 0xBF, by rw [h1], by decide, rfl, by omega, by omega⟩
      rw [if_neg (by omega)]
      by_cases h2 : c / 4096 = 13
      · rw [if_pos (by omega)]
        exact ⟨60, 0x80, 0x9F, by rw [h2], by decide, rfl, by omega, by omega⟩
      rw [if_neg (by omega), if_pos (by omega)]
      exact ⟨36, 0x80, 0xBF, by congr 1; omega, by decide, rfl, by omega, by omega⟩
    obtain ⟨s, lo, hi, hl, hs, hp, hlo, hhi⟩ := hl
    obtain ⟨s1, v1⟩ := feed_lead hd hl hs
    have hc2 := toNat_cont (c / 64)
    have hc3 := toNat_cont c
    obtain ⟨s2, v2⟩ := feed_pend (d := d.feed _) (b := cont (c / 64)) (by rw [s1]; exact hp) (by omega)
      (by omega) (by omega)
    obtain ⟨s3, v3⟩ := feed_pend (d := (d.feed _).feed _) (b := cont c) (by rw [s2]; rfl) (by omega)
      (by omega) (by omega)
    refine ⟨⟨s3, ?_⟩, ?_⟩
    · show (Utf8Decoder.feed _ _).codepoint.toNat = c
      rw [v3, v2, v1, hc2, hc3]; omega
    · intro n h1 h2
      simp at h2
      have : n = 1 ∨ n = 2 := by omega
      rcases this with rfl | rfl
      · exact ⟨_, by show pend (d.feed _).state = _; rw [s1]; exact hp⟩
      · exact ⟨_, by show pend ((d.feed _).feed _).state = _; rw [s2]; rfl⟩
  · -- four units
    have hn : (BitVec.ofNat 8 (0xF0 + c / 262144)).toNat = 0xF0 + c / 262144 := toNat_ofNat8 (by omega)
    have hl : ∃ s lo hi, lead (BitVec.ofNat 8 (0xF0 + c / 262144)).toNat = (s, c / 262144) ∧ s ≠ 12 ∧
        pend s = some (3, lo, hi, 36) ∧ lo ≤ 0x80 + c / 4096 % 64 ∧ 0x80 + c / 4096 % 64 ≤ hi := by
      rw [hn]; unfold lead
      rw [if_neg (by omega), if_neg (by omega), if_neg (by omega), if_neg (by omega), if_neg (by omega),
        if_neg (by omega)]
      by_cases h1 : c / 262144 = 0
      · rw [if_pos (by omega)]
        exact ⟨72, 0x90, 0xBF, by rw [h1], by decide, rfl, by omega, by omega⟩
      rw [if_neg (by omega)]
      by_cases h2 : c / 262144 = 4
      · rw [if_neg (by omega), if_pos (by omega)]
        exact ⟨96, 0x80, 0x8F, by rw [h2], by decide, rfl, by omega, by omega⟩
      rw [if_pos (by omega)]
      exact ⟨84, 0x80, 0xBF, by congr 1; omega, by decide, rfl, by omega, by omega⟩
    obtain ⟨s, lo, hi, hl, hs, hp, hlo, hhi⟩ := hl
    obtain ⟨s1, v1⟩ := feed_lead hd hl hs
    have hc2 := toNat_cont (c / 4096)
    have hc3 := toNat_cont (c / 64)
    have hc4 := toNat_cont c
    obtain ⟨s2, v2⟩ := feed_pend (d := d.feed _) (b := cont (c / 4096)) (by rw [s1]; exact hp) (by omega)
      (by omega) (by omega)
    obtain ⟨s3, v3⟩ := feed_pend (d := (d.feed _).feed _) (b := cont (c / 64)) (by rw [s2]; rfl) (by omega)
      (by omega) (by omega)
    obtain ⟨s4, v4⟩ := feed_pend (d := ((d.feed _).feed _).feed _) (b := cont c) (by rw [s3]; rfl) (by omega)
      (by omega) (by omega)
    refine ⟨⟨s4, ?_⟩, ?_⟩
    · show (Utf8Decoder.feed _ _).codepoint.toNat = c
      rw [v4, v3, v2, v1, hc2, hc3, hc4]; omega
    · intro n h1 h2
      simp at h2
      have : n = 1 ∨ n = 2 ∨ n = 3 := by omega
      rcases this with rfl | rfl | rfl
      · exact ⟨_, by show pend (d.feed _).state = _; rw [s1]; exact hp⟩
      · exact ⟨_, by show pend ((d.feed _).feed _).state = _; rw [s2]; rfl⟩
      · exact ⟨_, by show pend (((d.feed _).feed _).feed _).state = _; rw [s3]; rfl⟩

theorem hasValue_iff (d : Utf8Decoder) : d.hasValue = true ↔ d.state = 0 := by simp [Utf8Decoder.hasValue]
theorem error_iff (d : Utf8Decoder) : d.error = true ↔ d.state = 12 := by simp [Utf8Decoder.error]

/-! ### Only encodings are accepted -/

/-- `d`, having consumed the incomplete unit sequence `pre`, will accept exactly the completions of `pre`. -/
def Pending (d : Utf8Decoder) (pre : List (BitVec 8)) : Prop :=
  ∃ k lo hi t, pend d.state = some (k, lo, hi, t) ∧ pre.length + k ≤ 4 ∧ d.codepoint.toNat < 64 ^ pre.length ∧
    ∀ c, c / 64 ^ k = d.codepoint.toNat → lo ≤ 0x80 + c / 64 ^ (k - 1) % 64 → 0x80 + c / 64 ^ (k - 1) % 64 ≤ hi →
      IsScalar c ∧ utf8 c = pre ++ (if k = 1 then [cont c] else if k = 2 then [cont (c / 64), cont c]
        else [cont (c / 4096), cont (c / 64), cont c])

theorem eq_cont {b : BitVec 8} (h1 : 0x80 ≤ b.toNat) (h2 : b.toNat ≤ 0xBF) {n : Nat} (h : n % 64 = b.toNat % 64) :
    b = cont n := by
  apply BitVec.eq_of_toNat_eq; rw [toNat_cont]; omega

theorem ofNat8_of_toNat {b : BitVec 8} {n : Nat} (h : b.toNat = n) : b = BitVec.ofNat 8 n := by
  apply BitVec.eq_of_toNat_eq; rw [BitVec.toNat_ofNat]; omega

theorem utf8_1 {c : Nat} (h : c < 0x80) : utf8 c = [BitVec.ofNat 8 c] := by
  unfold utf8; rw [if_pos h]
theorem utf8_2 {c : Nat} (h : 0x80 ≤ c) (h' : c < 0x800) : utf8 c = [BitVec.ofNat 8 (0xC0 + c / 64), cont c] := by
  unfold utf8; rw [if_neg (by omega), if_pos h']
theorem utf8_3 {c : Nat} (h : 0x800 ≤ c) (h' : c < 0x10000) :
    utf8 c = [BitVec.ofNat 8 (0xE0 + c / 4096), cont (c / 64), cont c] := by
  unfold utf8; rw [if_neg (by omega), if_neg (by omega), if_pos h']
theorem utf8_4 {c : Nat} (h : 0x10000 ≤ c) :
    utf8 c = [BitVec.ofNat 8 (0xF0 + c / 262144), cont (c / 4096), cont (c / 64), cont c] := by
  unfold utf8; rw [if_neg (by omega), if_neg (by omega), if_neg (by omega)]

/-- The possible outcomes of the first unit. -/
theorem start_step {d : Utf8Decoder} (hd : d.state = 0) (b : BitVec 8) :
    (d.feed b).state = 12 ∨
    ((d.feed b).state = 0 ∧ (d.feed b).codepoint.toNat = b.toNat ∧ IsScalar b.toNat ∧ utf8 b.toNat = [b]) ∨
    Pending (d.feed b) [b] := by
  have hlt := b.isLt
  by_cases h80 : b.toNat < 0x80
  · right; left
    have hl : lead b.toNat = (0, b.toNat) := by unfold lead; rw [if_pos h80]
    obtain ⟨s, v⟩ := feed_lead hd hl (by decide)
    refine ⟨s, v, Or.inl (by omega), ?_⟩
    rw [utf8_1 h80, BitVec.ofNat_toNat]; simp
  by_cases hC2 : b.toNat < 0xC2
  · left
    rw [feed_state, hd, nx_lead]; unfold lead; rw [if_neg h80, if_pos hC2]
  by_cases hE0 : b.toNat < 0xE0
  · right; right
    have hl : lead b.toNat = (24, b.toNat % 32) := by unfold lead; rw [if_neg h80, if_neg hC2, if_pos hE0]
    obtain ⟨s, v⟩ := feed_lead hd hl (by decide)
    refine ⟨1, 0x80, 0xBF, 0, by rw [s]; rfl, by simp, by rw [v]; simp; omega, ?_⟩
    intro c hc _ _
    rw [v] at hc
    have hc' : c / 64 = b.toNat % 32 := by simpa using hc
    refine ⟨Or.inl (by omega), ?_⟩
    rw [utf8_2 (by omega) (by omega), ← ofNat8_of_toNat (b := b) (by omega)]
    rfl
  by_cases hF0 : b.toNat < 0xF0
  · right; right
    by_cases e0 : b.toNat = 0xE0
    · have hl : lead b.toNat = (48, 0) := by
        unfold lead; rw [if_neg h80, if_neg hC2, if_neg hE0, if_pos e0]
      obtain ⟨s, v⟩ := feed_lead hd hl (by decide)
      refine ⟨2, 0xA0, 0xBF, 24, by rw [s]; rfl, by simp, by rw [v]; simp, ?_⟩
      intro c hc h1 h2
      rw [v] at hc
      have hc' : c / 4096 = 0 := by simpa using hc
      simp only [Nat.reduceSub, Nat.pow_one] at h1 h2
      refine ⟨Or.inl (by omega), ?_⟩
      rw [utf8_3 (by omega) (by omega), ← ofNat8_of_toNat (b := b) (by omega)]
      rfl
    by_cases ed : b.toNat = 0xED
    · have hl : lead b.toNat = (60, 13) := by
        unfold lead; rw [if_neg h80, if_neg hC2, if_neg hE0, if_neg e0, if_pos ed]
      obtain ⟨s, v⟩ := feed_lead hd hl (by decide)
      refine ⟨2, 0x80, 0x9F, 24, by rw [s]; rfl, by simp, by rw [v]; simp, ?_⟩
      intro c hc h1 h2
      rw [v] at hc
      have hc' : c / 4096 = 13 := by simpa using hc
      simp only [Nat.reduceSub, Nat.pow_one] at h1 h2
      refine ⟨Or.inl (by omega), ?_⟩
      rw [utf8_3 (by omega) (by omega), ← ofNat8_of_toNat (b := b) (by omega)]
      rfl
    · have hl : lead b.toNat = (36, b.toNat % 16) := by
        unfold lead; rw [if_neg h80, if_neg hC2, if_neg hE0, if_neg e0, if_neg ed, if_pos hF0]
      obtain ⟨s, v⟩ := feed_lead hd hl (by decide)
      refine ⟨2, 0x80, 0xBF, 24, by rw [s]; rfl, by simp, by rw [v]; simp; omega, ?_⟩
      intro c hc h1 h2
      rw [v] at hc
      have hc' : c / 4096 = b.toNat % 16 := by simpa using hc
      refine ⟨by unfold IsScalar; omega, ?_⟩
      rw [utf8_3 (by omega) (by omega), ← ofNat8_of_toNat (b := b) (by omega)]
      rfl
  by_cases hF5 : b.toNat < 0xF5
  · right; right
    by_cases f0 : b.toNat = 0xF0
    · have hl : lead b.toNat = (72, 0) := by
        unfold lead
        rw [if_neg h80, if_neg hC2, if_neg hE0, if_neg (by omega), if_neg (by omega), if_neg hF0, if_pos f0]
      obtain ⟨s, v⟩ := feed_lead hd hl (by decide)
      refine ⟨3, 0x90, 0xBF, 36, by rw [s]; rfl, by simp, by rw [v]; simp, ?_⟩
      intro c hc h1 h2
      rw [v] at hc
      have hc' : c / 262144 = 0 := by simpa using hc
      simp only [Nat.reduceSub, Nat.reducePow] at h1 h2
      refine ⟨by unfold IsScalar; omega, ?_⟩
      rw [utf8_4 (by omega), ← ofNat8_of_toNat (b := b) (by omega)]
      rfl
    by_cases f4 : b.toNat = 0xF4
    · have hl : lead b.toNat = (96, 4) := by
        unfold lead
        rw [if_neg h80, if_neg hC2, if_neg hE0, if_neg (by omega), if_neg (by omega), if_neg hF0, if_neg f0,
          if_neg (by omega), if_pos f4]
      obtain ⟨s, v⟩ := feed_lead hd hl (by decide)
      refine ⟨3, 0x80, 0x8F, 36, by rw [s]; rfl, by simp, by rw [v]; simp, ?_⟩
      intro c hc h1 h2
      rw [v] at hc
      have hc' : c / 262144 = 4 := by simpa using hc
      simp only [Nat.reduceSub, Nat.reducePow] at h1 h2
      refine ⟨by unfold IsScalar; omega, ?_⟩
      rw [utf8_4 (by omega), ← ofNat8_of_toNat (b := b) (by omega)]
      rfl
    · have hl : lead b.toNat = (84, b.toNat % 8) := by
        unfold lead
        rw [if_neg h80, if_neg hC2, if_neg hE0, if_neg (by omega), if_neg (by omega), if_neg hF0, if_neg f0,
          if_pos (by omega)]
      obtain ⟨s, v⟩ := feed_lead hd hl (by decide)
      refine ⟨3, 0x80, 0xBF, 36, by rw [s]; rfl, by simp, by rw [v]; simp; omega, ?_⟩
      intro c hc h1 h2
      rw [v] at hc
      have hc' : c / 262144 = b.toNat % 8 := by simpa using hc
      refine ⟨by unfold IsScalar; omega, ?_⟩
      rw [utf8_4 (by omega), ← ofNat8_of_toNat (b := b) (by omega)]
      rfl
  · left
    rw [feed_state, hd, nx_lead]; unfold lead
    rw [if_neg h80, if_neg hC2, if_neg hE0, if_neg (by omega), if_neg (by omega), if_neg hF0, if_neg (by omega),
      if_neg (by omega), if_neg (by omega)]

theorem pend_bounds {s k lo hi t : Nat} (h : pend s = some (k, lo, hi, t)) :
    0x80 ≤ lo ∧ hi ≤ 0xBF ∧ s ≠ 0 ∧ s ≠ 12 ∧
      ((k = 1 ∧ t = 0) ∨ (k = 2 ∧ t = 24) ∨ (k = 3 ∧ t = 36)) := by
  unfold pend at h
  split at h <;> simp only [Option.some.injEq, Prod.mk.injEq, reduceCtorEq] at h
  all_goals obtain ⟨rfl, rfl, rfl, rfl⟩ := h
  all_goals simp

/-- The possible outcomes of a further unit. -/
theorem pending_step {d : Utf8Decoder} {pre : List (BitVec 8)} (hp : Pending d pre) (b : BitVec 8) :
    (d.feed b).state = 12 ∨
    ((d.feed b).state = 0 ∧ IsScalar (d.feed b).codepoint.toNat ∧
      utf8 (d.feed b).codepoint.toNat = pre ++ [b]) ∨
    Pending (d.feed b) (pre ++ [b]) := by
  obtain ⟨k, lo, hi, t, hk, hlen, hcp, hall⟩ := hp
  obtain ⟨b1, b2, b3, b4, hkt⟩ := pend_bounds hk
  by_cases hb : lo ≤ b.toNat ∧ b.toNat ≤ hi
  · right
    have hcp26 : d.codepoint.toNat < 2 ^ 26 := by
      have : 64 ^ pre.length ≤ 64 ^ 3 := Nat.pow_le_pow_right (by decide) (by omega)
      omega
    obtain ⟨s, v⟩ := feed_pend hk hcp26 hb.1 hb.2
    rcases hkt with ⟨rfl, rfl⟩ | ⟨rfl, rfl⟩ | ⟨rfl, rfl⟩
    · left
      have := hall (d.codepoint.toNat * 64 + b.toNat % 64) (by simp; omega) (by simp; omega) (by simp; omega)
      rw [v]
      refine ⟨s, this.1, ?_⟩
      rw [this.2, if_pos rfl, ← eq_cont (b := b) (by omega) (by omega) (by omega)]
    · right
      refine ⟨1, 0x80, 0xBF, 0, by rw [s]; rfl, by simp; omega, ?_, ?_⟩
      · rw [v, List.length_append, List.length_singleton, Nat.pow_succ]; omega
      · intro c hc h1 h2
        rw [v] at hc
        have hc' : c / 64 = d.codepoint.toNat * 64 + b.toNat % 64 := by simpa using hc
        have := hall c (by simp; omega) (by simp; omega) (by simp; omega)
        refine ⟨this.1, ?_⟩
        rw [this.2, if_neg (by decide), if_pos rfl, if_pos rfl,
          ← eq_cont (b := b) (n := c / 64) (by omega) (by omega) (by omega)]
        simp
    · right
      refine ⟨2, 0x80, 0xBF, 24, by rw [s]; rfl, by simp; omega, ?_, ?_⟩
      · rw [v, List.length_append, List.length_singleton, Nat.pow_succ]; omega
      · intro c hc h1 h2
        rw [v] at hc
        have hc' : c / 4096 = d.codepoint.toNat * 64 + b.toNat % 64 := by simpa using hc
        have := hall c (by simp; omega) (by simp; omega) (by simp; omega)
        refine ⟨this.1, ?_⟩
        rw [this.2, if_neg (by decide), if_neg (by decide), if_neg (by decide), if_pos rfl,
          ← eq_cont (b := b) (n := c / 4096) (by omega) (by omega) (by omega)]
        simp
  · left
    rw [feed_state, nx_pend hk, if_neg hb]

theorem feed_error {d : Utf8Decoder} (h : d.state = 12) (b : BitVec 8) : (d.feed b).state = 12 := by
  rw [feed_state, h, nx_err]

theorem feedAll_append (d : Utf8Decoder) (xs ys : List (BitVec 8)) :
    d.feedAll (xs ++ ys) = (d.feedAll xs).feedAll ys := by simp [feedAll]

theorem feedAll_error {d : Utf8Decoder} (h : d.state = 12) (bs : List (BitVec 8)) : (d.feedAll bs).state = 12 := by
  induction bs generalizing d with
  | nil => exact h
  | cons b bs ih =>
    have e : d.feedAll (b :: bs) = (d.feed b).feedAll bs := by unfold feedAll; rw [List.foldl_cons]
    rw [e]; exact ih (feed_error h b)

theorem utf8s_append (xs ys : List Nat) : utf8s (xs ++ ys) = utf8s xs ++ utf8s ys := by simp [utf8s]
theorem utf8s_singleton (c : Nat) : utf8s [c] = utf8 c := by simp [utf8s]

/-- What the decoder knows after consuming an arbitrary byte string from its initial state. -/
theorem feedAll_inv (bs : List (BitVec 8)) :
    let d := ({} : Utf8Decoder).feedAll bs
    d.state = 12 ∨
    (d.state = 0 ∧ ∃ cs, (∀ c ∈ cs, IsScalar c) ∧ bs = utf8s cs ∧ (cs ≠ [] → cs.getLast? = some d.codepoint.toNat)) ∨
    (∃ cs pre, (∀ c ∈ cs, IsScalar c) ∧ bs = utf8s cs ++ pre ∧ pre ≠ [] ∧ Pending d pre) := by
  induction bs using snoc_induction with
  | nil => right; left; exact ⟨rfl, [], by simp, rfl, by simp⟩
  | snoc bs b ih =>
    have e : ({} : Utf8Decoder).feedAll (bs ++ [b]) = (({} : Utf8Decoder).feedAll bs).feed b := by
      rw [feedAll_append]; rfl
    simp only [e]
    rcases ih with h | ⟨h, cs, hcs, hbs, _⟩ | ⟨cs, pre, hcs, hbs, hpre, hp⟩
    · exact Or.inl (feed_error h b)
    · rcases start_step h b with h1 | ⟨h1, h2, h3, h4⟩ | h1
      · exact Or.inl h1
      · right; left
        refine ⟨h1, cs ++ [b.toNat], ?_, ?_, ?_⟩
        · intro c hc; rcases List.mem_append.1 hc with hc | hc
          · exact hcs c hc
          · rw [List.mem_singleton.1 hc]; exact h3
        · rw [utf8s_append, utf8s_singleton, h4, hbs]
        · intro _; rw [h2]; simp
      · right; right
        exact ⟨cs, [b], hcs, by rw [hbs], by simp, h1⟩
    · rcases pending_step hp b with h1 | ⟨h1, h2, h3⟩ | h1
      · exact Or.inl h1
      · right; left
        refine ⟨h1, cs ++ [((({} : Utf8Decoder).feedAll bs).feed b).codepoint.toNat], ?_, ?_, ?_⟩
        · intro c hc; rcases List.mem_append.1 hc with hc | hc
          · exact hcs c hc
          · rw [List.mem_singleton.1 hc]; exact h2
        · rw [utf8s_append, utf8s_singleton, h3, hbs]; simp
        · intro _; simp
      · right; right
        exact ⟨cs, pre ++ [b], hcs, by rw [hbs]; simp, by simp, h1⟩

end Verif.Proofs
