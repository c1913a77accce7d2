import Verif.Model.Half
/-! Lemmas about half: the fields of the results. -/
namespace Verif.Proofs.Half
open Verif.Spec.Half Verif.Model.Half

/-! ## fields of a word -/

theorem and_mask_toNat {w : Nat} (x m : BitVec w) (lo n : Nat) (hm : ∀ i < w, m.getLsbD i = (decide (lo ≤ i) && decide (i < lo + n)))
    (h : lo + n ≤ w) : ((x &&& m) >>> lo).toNat = x.toNat / 2 ^ lo % 2 ^ n := by
  apply Nat.eq_of_testBit_eq
  intro i
  rw [BitVec.testBit_toNat, BitVec.getLsbD_ushiftRight, BitVec.getLsbD_and, Nat.testBit_mod_two_pow, Nat.testBit_div_two_pow,
    BitVec.testBit_toNat, Nat.add_comm i lo]
  by_cases hi : lo + i < w
  · rw [hm _ hi]
    by_cases h2 : i < n
    · simp [h2]
    · simp [h2]
  · have : ¬ i < n := by omega
    simp [this, BitVec.getLsbD_of_ge _ _ (show w ≤ lo + i by omega)]

theorem exp32_toNat (x : BitVec 32) : ((x &&& 0x7F800000#32) >>> 23).toNat = x.toNat / 2 ^ 23 % 2 ^ 8 :=
  and_mask_toNat x _ 23 8 (by decide) (by decide)

theorem frac32_toNat (x : BitVec 32) : (x &&& 0x007FFFFF#32).toNat = x.toNat % 2 ^ 23 := by
  have := and_mask_toNat x 0x007FFFFF#32 0 23 (by decide) (by decide)
  simpa using this

theorem exp16_toNat (x : BitVec 16) : ((x &&& 0x7C00#16) >>> 10).toNat = x.toNat / 2 ^ 10 % 2 ^ 5 :=
  and_mask_toNat x _ 10 5 (by decide) (by decide)

theorem frac16_toNat (x : BitVec 16) : (x &&& 0x03FF#16).toNat = x.toNat % 2 ^ 10 := by
  have := and_mask_toNat x 0x03FF#16 0 10 (by decide) (by decide)
  simpa using this

/-- the sign bit and the rest -/
theorem half_fields (n : Nat) (h : n < 2 ^ 16) :
    n = n / 2 ^ 15 % 2 * 2 ^ 15 + n / 2 ^ 10 % 2 ^ 5 * 2 ^ 10 + n % 2 ^ 10 := by omega

/-- the fields of what f32_to_u16 puts together -/
theorem fields16 (s : Bool) (E F : BitVec 16) (hF : F.toNat < 2 ^ 10) (r : BitVec 16)
    (hr : r = (if s then 0x8000#16 else 0#16) ||| (E <<< 10) ||| F) :
    r.toNat % 2 ^ 10 = F.toNat ∧ r.toNat / 2 ^ 10 % 2 ^ 5 = E.toNat % 2 ^ 5 ∧
    decide (r.toNat / 2 ^ 15 % 2 = 1) = (s || decide (E.toNat / 2 ^ 5 % 2 = 1)) := by
  have hs : ∀ i, (if s then 0x8000#16 else 0#16).getLsbD i = (s && decide (i = 15)) := by
    intro i
    cases s
    · simp
    · simp only [if_true, Bool.true_and]
      by_cases hi : i < 16
      · have : ∀ i < 16, (0x8000#16).getLsbD i = decide (i = 15) := by decide
        exact this i hi
      · rw [BitVec.getLsbD_of_ge _ _ (by omega)]
        simp; omega
  have hb : ∀ i, r.toNat.testBit i = ((s && decide (i = 15)) || (decide (i < 16) && decide (10 ≤ i) && E.toNat.testBit (i - 10)) ||
      F.toNat.testBit i) := by
    intro i
    rw [BitVec.testBit_toNat, hr, BitVec.getLsbD_or, BitVec.getLsbD_or, hs, BitVec.getLsbD_shiftLeft, BitVec.testBit_toNat,
      BitVec.testBit_toNat]
    by_cases h10 : i < 10
    · simp [h10, show ¬ 10 ≤ i by omega]
    · simp [h10, show 10 ≤ i by omega]
  have hF' : ∀ i, 10 ≤ i → F.toNat.testBit i = false := fun i hi =>
    Nat.testBit_lt_two_pow (Nat.lt_of_lt_of_le hF (Nat.pow_le_pow_right (by decide) hi))
  refine ⟨?_, ?_, ?_⟩
  · apply Nat.eq_of_testBit_eq
    intro i
    rw [Nat.testBit_mod_two_pow, hb]
    by_cases hi : i < 10
    · simp [hi, show ¬ 10 ≤ i by omega, show i ≠ 15 by omega]
    · simp [hi, hF' i (by omega)]
  · apply Nat.eq_of_testBit_eq
    intro i
    rw [Nat.testBit_mod_two_pow, Nat.testBit_div_two_pow, hb, Nat.testBit_mod_two_pow]
    by_cases hi : i < 5
    · rw [hF' _ (by omega)]
      simp [hi, show i + 10 < 16 by omega, show i + 10 ≠ 15 by omega]
    · simp [hi]
  · have : ∀ m k : Nat, decide (m / 2 ^ k % 2 = 1) = m.testBit k := by
      intro m k
      rw [Nat.testBit_eq_decide_div_mod_eq]
    rw [this, this, hb, hF' _ (by decide)]
    simp

/-- the same for the 32-bit word -/
theorem fields32 (s : Bool) (E F : BitVec 32) (hE : E.toNat < 2 ^ 8) (hF : F.toNat < 2 ^ 10) (r : BitVec 32)
    (hr : r = (if s then 0x80000000#32 else 0#32) ||| (E <<< 23) ||| (F <<< 13)) :
    r.toNat % 2 ^ 23 = F.toNat * 2 ^ 13 ∧ r.toNat / 2 ^ 23 % 2 ^ 8 = E.toNat ∧
    decide (r.toNat / 2 ^ 31 % 2 = 1) = s := by
  have hs : ∀ i, (if s then 0x80000000#32 else 0#32).getLsbD i = (s && decide (i = 31)) := by
    intro i
    cases s
    · simp
    · simp only [if_true, Bool.true_and]
      by_cases hi : i < 32
      · have : ∀ i < 32, (0x80000000#32).getLsbD i = decide (i = 31) := by decide
        exact this i hi
      · rw [BitVec.getLsbD_of_ge _ _ (by omega)]
        simp; omega
  have hb : ∀ i, r.toNat.testBit i = ((s && decide (i = 31)) || (decide (i < 32) && decide (23 ≤ i) && E.toNat.testBit (i - 23)) ||
      (decide (i < 32) && decide (13 ≤ i) && F.toNat.testBit (i - 13))) := by
    intro i
    rw [BitVec.testBit_toNat, hr, BitVec.getLsbD_or, BitVec.getLsbD_or, hs, BitVec.getLsbD_shiftLeft, BitVec.getLsbD_shiftLeft,
      BitVec.testBit_toNat, BitVec.testBit_toNat]
    by_cases h1 : i < 13
    · simp [h1, show i < 23 by omega, show ¬ 13 ≤ i by omega, show ¬ 23 ≤ i by omega]
    · by_cases h2 : i < 23
      · simp [h1, h2, show 13 ≤ i by omega, show ¬ 23 ≤ i by omega]
      · simp [h1, h2, show 13 ≤ i by omega, show 23 ≤ i by omega]
  have hF' : ∀ i, 10 ≤ i → F.toNat.testBit i = false := fun i hi =>
    Nat.testBit_lt_two_pow (Nat.lt_of_lt_of_le hF (Nat.pow_le_pow_right (by decide) hi))
  have hE' : ∀ i, 8 ≤ i → E.toNat.testBit i = false := fun i hi =>
    Nat.testBit_lt_two_pow (Nat.lt_of_lt_of_le hE (Nat.pow_le_pow_right (by decide) hi))
  refine ⟨?_, ?_, ?_⟩
  · apply Nat.eq_of_testBit_eq
    intro i
    rw [Nat.testBit_mod_two_pow, hb, Nat.testBit_mul_two_pow]
    by_cases hi : i < 23
    · simp [hi, show ¬ 23 ≤ i by omega, show i ≠ 31 by omega, show i < 32 by omega]
    · rw [hF' (i - 13) (by omega)]; simp [hi]
  · apply Nat.eq_of_testBit_eq
    intro i
    rw [Nat.testBit_mod_two_pow, Nat.testBit_div_two_pow, hb]
    by_cases hi : i < 8
    · rw [hF' _ (by omega)]
      simp [hi, show i + 23 < 32 by omega]
      intro _ h; omega
    · rw [hE' i (by omega)]; simp [hi]
  · have : ∀ m k : Nat, decide (m / 2 ^ k % 2 = 1) = m.testBit k := by
      intro m k
      rw [Nat.testBit_eq_decide_div_mod_eq]
    rw [this, hb, hF' _ (by decide), hE' _ (by decide)]
    simp

/-! ## f32_to_u16 by fields -/

/-- the exponent the code computes, before it is shifted into place -/
def expOf (e : Nat) : Nat := if e = 255 then 31 else if e = 0 then 0 else (e + 65424) % 65536

/-- the fraction the code computes -/
def fracOf (e f : Nat) : Nat :=
  if e = 255 ∧ f ≠ 0 ∧ f / 2 ^ 13 = 0 then 512
  else if e = 0 ∨ (expOf e = 31 ∧ e ≠ 255) then 0
  else if expOf e = 0 ∧ e ≠ 0 then 256 + f / 2 ^ 15
  else f / 2 ^ 13

theorem expOf_spec : ∀ e : BitVec 8,
    ((e - 127#8).signExtend 16 + 15#16).toNat = (e.toNat + 65424) % 65536 ∨ e = 255#8 := by decide +kernel

theorem ofNat_inj {w : Nat} (x : BitVec w) (n : Nat) (hn : n < 2 ^ w) : x = BitVec.ofNat w n ↔ x.toNat = n := by
  constructor
  · intro h; rw [h, BitVec.toNat_ofNat]; exact Nat.mod_eq_of_lt hn
  · intro h; apply BitVec.eq_of_toNat_eq; rw [h, BitVec.toNat_ofNat]; exact (Nat.mod_eq_of_lt hn).symm

theorem or_256 : ∀ n : Nat, n < 256 → 256 ||| n = 256 + n := by decide +kernel

theorem f32_fields (x : BitVec 32) (e f : Nat) (s : Bool) (he : e = x.toNat / 2 ^ 23 % 2 ^ 8) (hf : f = x.toNat % 2 ^ 23)
    (hs : s = decide (x.toNat / 2 ^ 31 % 2 = 1)) :
    (f32ToU16 x).toNat % 2 ^ 10 = fracOf e f ∧ (f32ToU16 x).toNat / 2 ^ 10 % 2 ^ 5 = expOf e % 2 ^ 5 ∧
    decide ((f32ToU16 x).toNat / 2 ^ 15 % 2 = 1) = (s || decide (expOf e / 2 ^ 5 % 2 = 1)) := by
  have hx := x.isLt
  have he' : ((x &&& 0x7F800000#32) >>> 23).toNat = e := by rw [exp32_toNat, he]
  have hf' : (x &&& 0x007FFFFF#32).toNat = f := by rw [frac32_toNat, hf]
  have hs' : ((x &&& 0x80000000#32) >>> 16).setWidth 16 = (if s then 0x8000#16 else 0#16) := by
    apply BitVec.eq_of_getLsbD_eq
    intro i hi
    rw [BitVec.getLsbD_setWidth, BitVec.getLsbD_ushiftRight, BitVec.getLsbD_and]
    have h1 : ∀ i < 16, (0x80000000#32).getLsbD (16 + i) = decide (i = 15) := by decide
    have h2 : ∀ i < 16, (0x8000#16).getLsbD i = decide (i = 15) := by decide
    rw [h1 i hi]
    by_cases h15 : i = 15
    · subst h15
      have : s = x.getLsbD 31 := by rw [hs, ← BitVec.testBit_toNat, Nat.testBit_eq_decide_div_mod_eq]
      rw [show 16 + 15 = 31 by rfl, ← this]
      cases s <;> simp
    · cases s
      · simp [h15]
      · simp only [if_true]; rw [h2 i hi]; simp [h15]
  have hle : e < 256 := by rw [he]; exact Nat.mod_lt _ (by decide)
  have hfl : f < 2 ^ 23 := by rw [hf]; exact Nat.mod_lt _ (by decide)
  -- the raw exponent
  generalize hE32 : (x &&& 0x7F800000#32) >>> 23 = E32 at he'
  generalize hF32 : x &&& 0x007FFFFF#32 = F32 at hf'
  have hc255 : E32 = 0xFF#32 ↔ e = 255 := by rw [← he']; exact ofNat_inj E32 255 (by decide)
  have hc0 : E32 = 0#32 ↔ e = 0 := by rw [← he']; exact ofNat_inj E32 0 (by decide)
  have hcf : F32 = 0#32 ↔ f = 0 := by rw [← hf']; exact ofNat_inj F32 0 (by decide)
  -- the exponent after clamping
  have hexp : (if E32 = 0xFF#32 then 0x1F#16 else if E32 = 0#32 then 0#16
      else (E32.setWidth 8 - 127#8).signExtend 16 + 15#16).toNat = expOf e := by
    unfold expOf
    by_cases h1 : e = 255
    · rw [if_pos (hc255.mpr h1), if_pos h1]; rfl
    · rw [if_neg (fun h => h1 (hc255.mp h)), if_neg h1]
      by_cases h2 : e = 0
      · rw [if_pos (hc0.mpr h2), if_pos h2]; rfl
      · rw [if_neg (fun h => h2 (hc0.mp h)), if_neg h2]
        have h8 : (E32.setWidth 8).toNat = e := by
          rw [BitVec.toNat_setWidth, he']; exact Nat.mod_eq_of_lt hle
        rcases expOf_spec (E32.setWidth 8) with h | h
        · rw [h, h8]
        · rw [h] at h8; simp at h8; omega
  generalize hEE : (if E32 = 0xFF#32 then 0x1F#16 else if E32 = 0#32 then 0#16
      else (E32.setWidth 8 - 127#8).signExtend 16 + 15#16) = EE at hexp
  -- the fraction
  have hfr : ((F32 >>> 13).setWidth 16 : BitVec 16).toNat = f / 2 ^ 13 := by
    rw [BitVec.toNat_setWidth, BitVec.toNat_ushiftRight, hf', Nat.shiftRight_eq_div_pow]
    exact Nat.mod_eq_of_lt (by omega)
  generalize hFR : ((F32 >>> 13).setWidth 16 : BitVec 16) = FR at hfr
  have hE31 : EE = 0x1F#16 ↔ expOf e = 31 := by rw [← hexp]; exact ofNat_inj EE 31 (by decide)
  have hE0 : EE = 0#16 ↔ expOf e = 0 := by rw [← hexp]; exact ofNat_inj EE 0 (by decide)
  have hFR0 : FR = 0#16 ↔ f / 2 ^ 13 = 0 := by rw [← hfr]; exact ofNat_inj FR 0 (by decide)
  have hfrac : (if E32 = 0xFF#32 ∧ F32 ≠ 0#32 ∧ FR = 0#16 then 0x0200#16
      else if E32 = 0#32 ∨ (EE = 0x1F#16 ∧ E32 ≠ 0xFF#32) then 0#16
      else if EE = 0#16 ∧ E32 ≠ 0#32 then 0x0100#16 ||| (FR >>> 2) else FR).toNat = fracOf e f := by
    unfold fracOf
    have c1 : (E32 = 0xFF#32 ∧ F32 ≠ 0#32 ∧ FR = 0#16) ↔ (e = 255 ∧ f ≠ 0 ∧ f / 2 ^ 13 = 0) :=
      and_congr hc255 (and_congr (not_congr hcf) hFR0)
    have c2 : (E32 = 0#32 ∨ (EE = 0x1F#16 ∧ E32 ≠ 0xFF#32)) ↔ (e = 0 ∨ expOf e = 31 ∧ e ≠ 255) :=
      or_congr hc0 (and_congr hE31 (not_congr hc255))
    have c3 : (EE = 0#16 ∧ E32 ≠ 0#32) ↔ (expOf e = 0 ∧ e ≠ 0) := and_congr hE0 (not_congr hc0)
    by_cases h1 : e = 255 ∧ f ≠ 0 ∧ f / 2 ^ 13 = 0
    · rw [if_pos (c1.mpr h1), if_pos h1]; rfl
    · rw [if_neg (fun h => h1 (c1.mp h)), if_neg h1]
      by_cases h2 : e = 0 ∨ expOf e = 31 ∧ e ≠ 255
      · rw [if_pos (c2.mpr h2), if_pos h2]; rfl
      · rw [if_neg (fun h => h2 (c2.mp h)), if_neg h2]
        by_cases h3 : expOf e = 0 ∧ e ≠ 0
        · rw [if_pos (c3.mpr h3), if_pos h3, BitVec.toNat_or, BitVec.toNat_ushiftRight, hfr, Nat.shiftRight_eq_div_pow,
            Nat.div_div_eq_div_mul]
          rw [show (256#16).toNat = 256 by rfl, show 2 ^ 13 * 2 ^ 2 = 2 ^ 15 by rfl]
          exact or_256 _ (by omega)
        · rw [if_neg (fun h => h3 (c3.mp h)), if_neg h3]; exact hfr
  have hlt : fracOf e f < 2 ^ 10 := by
    unfold fracOf
    split
    · decide
    · split
      · decide
      · split <;> omega
  have hres : f32ToU16 x = (if s then 0x8000#16 else 0#16) ||| (EE <<< 10) |||
      (if E32 = 0xFF#32 ∧ F32 ≠ 0#32 ∧ FR = 0#16 then 0x0200#16
      else if E32 = 0#32 ∨ (EE = 0x1F#16 ∧ E32 ≠ 0xFF#32) then 0#16
      else if EE = 0#16 ∧ E32 ≠ 0#32 then 0x0100#16 ||| (FR >>> 2) else FR) := by
    unfold f32ToU16
    simp only [hs', hE32, hF32, hEE, hFR]
  obtain ⟨a, b, d⟩ := fields16 s EE _ (by rw [hfrac]; exact hlt) _ hres
  rw [hfrac] at a
  rw [hexp] at b d
  exact ⟨a, b, d⟩

/-! ## u16_to_f32 by fields -/

/-- the subnormal loop -/
def denormOk (f : Nat) : Bool :=
  match denormLoop 32 0 (BitVec.ofNat 32 f) with
  | some (o, g) => decide (0 < o) && decide (o ≤ 10) && decide (1024 ≤ g.toNat) && decide (g.toNat < 2048) &&
      decide (g.toNat = f * 2 ^ o)
  | none => false

theorem denorm_all : ∀ f : Fin 1024, f.val ≠ 0 → denormOk f.val = true := by decide +kernel

theorem denorm_spec (f : Fin 1024) (h : f.val ≠ 0) : ∃ o g : Nat, 0 < o ∧ o ≤ 10 ∧ g < 1024 ∧
    denormLoop 32 0 (BitVec.ofNat 32 f.val) = some (o, BitVec.ofNat 32 (1024 + g)) ∧ 1024 + g = f.val * 2 ^ o := by
  have := denorm_all f h
  unfold denormOk at this
  split at this
  · rename_i o g hl
    simp only [Bool.and_eq_true, decide_eq_true_eq] at this
    obtain ⟨⟨⟨⟨a, b⟩, c⟩, d⟩, e⟩ := this
    refine ⟨o, g.toNat - 1024, a, b, by omega, ?_, by omega⟩
    rw [hl, show 1024 + (g.toNat - 1024) = g.toNat by omega]; simp
  · simp at this

theorem and_3ff : ∀ g : Fin 1024, (BitVec.ofNat 32 (1024 + g.val) &&& 0x03FF#32).toNat = g.val := by decide +kernel

theorem u16_fields (v : BitVec 16) (e f : Nat) (s : Bool) (he : e = v.toNat / 2 ^ 10 % 2 ^ 5) (hf : f = v.toNat % 2 ^ 10)
    (hs : s = decide (v.toNat / 2 ^ 15 % 2 = 1)) :
    ∃ x, u16ToF32 v = some x ∧ decide (x.toNat / 2 ^ 31 % 2 = 1) = s ∧
      (e = 31 → x.toNat / 2 ^ 23 % 2 ^ 8 = 255 ∧ x.toNat % 2 ^ 23 = f * 2 ^ 13) ∧
      (e ≠ 31 → e ≠ 0 → x.toNat / 2 ^ 23 % 2 ^ 8 = e + 112 ∧ x.toNat % 2 ^ 23 = f * 2 ^ 13) ∧
      (e = 0 → f = 0 → x.toNat / 2 ^ 23 % 2 ^ 8 = 0 ∧ x.toNat % 2 ^ 23 = 0) ∧
      (e = 0 → f ≠ 0 → ∃ o g, 0 < o ∧ o ≤ 10 ∧ g < 1024 ∧ 1024 + g = f * 2 ^ o ∧
        x.toNat / 2 ^ 23 % 2 ^ 8 = 113 - o ∧ x.toNat % 2 ^ 23 = g * 2 ^ 13) := by
  have he' : ((v &&& 0x7C00#16) >>> 10).toNat = e := by rw [exp16_toNat, he]
  have hf' : (v &&& 0x03FF#16).toNat = f := by rw [frac16_toNat, hf]
  have hel : e < 32 := by rw [he]; exact Nat.mod_lt _ (by decide)
  have hfl : f < 1024 := by rw [hf]; exact Nat.mod_lt _ (by decide)
  have hs' : (v &&& 0x8000#16).setWidth 32 <<< 16 = (if s then 0x80000000#32 else 0#32) := by
    apply BitVec.eq_of_getLsbD_eq
    intro i hi
    rw [BitVec.getLsbD_shiftLeft, BitVec.getLsbD_setWidth, BitVec.getLsbD_and]
    have h1 : ∀ i < 32, 16 ≤ i → (0x8000#16).getLsbD (i - 16) = decide (i = 31) := by decide
    have h2 : ∀ i < 32, (0x80000000#32).getLsbD i = decide (i = 31) := by decide
    by_cases h16 : i < 16
    · have : (if s then 0x80000000#32 else 0#32).getLsbD i = false := by
        cases s
        · simp
        · simp only [if_true]; rw [h2 i hi]; simp; omega
      rw [this]; simp [h16]
    · rw [h1 i hi (by omega)]
      by_cases h31 : i = 31
      · subst h31
        have : s = v.getLsbD 15 := by rw [hs, ← BitVec.testBit_toNat, Nat.testBit_eq_decide_div_mod_eq]
        rw [show 31 - 16 = 15 by rfl, ← this]
        cases s <;> simp
      · cases s
        · simp [h31]
        · simp only [if_true]; rw [h2 i hi]; simp [h31]
  generalize hE : (v &&& 0x7C00#16) >>> 10 = E at he'
  generalize hF : v &&& 0x03FF#16 = F at hf'
  have hc0 : E = 0#16 ↔ e = 0 := by rw [← he']; exact ofNat_inj E 0 (by decide)
  have hc31 : E = 31#16 ↔ e = 31 := by rw [← he']; exact ofNat_inj E 31 (by decide)
  have hcf : F = 0#16 ↔ f = 0 := by rw [← hf']; exact ofNat_inj F 0 (by decide)
  have hFw : (F.setWidth 32).toNat = f := by rw [BitVec.toNat_setWidth, hf']; exact Nat.mod_eq_of_lt (by omega)
  have hEw : (E.setWidth 32 + 112#32).toNat = e + 112 := by
    rw [BitVec.toNat_add, BitVec.toNat_setWidth, he']
    rw [Nat.mod_eq_of_lt (show e < 2 ^ 32 by omega)]
    exact Nat.mod_eq_of_lt (by show e + 112 < _; omega)
  unfold u16ToF32
  simp only [hs', hE, hF]
  by_cases h0 : e = 0
  · by_cases hf0 : f = 0
    · rw [if_neg (fun h => h.2 (hcf.mpr hf0)), if_pos ⟨hc0.mpr h0, hcf.mpr hf0⟩]
      obtain ⟨a, b, d⟩ := fields32 s 0#32 (F.setWidth 32) (by decide) (by rw [hFw]; exact hfl) _ rfl
      refine ⟨_, rfl, d, by omega, by omega, fun _ _ => ⟨b, by rw [a, hFw, hf0]⟩, by omega⟩
    · rw [if_pos ⟨hc0.mpr h0, fun h => hf0 (hcf.mp h)⟩]
      obtain ⟨o, g, ho, ho2, hgl, hl, hg⟩ := denorm_spec ⟨f, hfl⟩ hf0
      have hFe : F.setWidth 32 = BitVec.ofNat 32 f := (ofNat_inj _ _ (by omega)).mpr hFw
      simp only at hl hg
      rw [hFe, hl]
      have h3ff := and_3ff ⟨g, hgl⟩
      simp only at h3ff
      have hEo : (113#32 - BitVec.ofNat 32 o).toNat = 113 - o := by
        rw [BitVec.toNat_sub, BitVec.toNat_ofNat, Nat.mod_eq_of_lt (show o < 2 ^ 32 by omega)]
        rw [show (113#32).toNat = 113 by rfl]; omega
      obtain ⟨a, b, d⟩ := fields32 s (113#32 - BitVec.ofNat 32 o) (BitVec.ofNat 32 (1024 + g) &&& 0x03FF#32)
        (by rw [hEo]; omega) (by rw [h3ff]; exact hgl) _ rfl
      refine ⟨_, rfl, d, by omega, by omega, by omega, fun _ _ => ⟨o, g, ho, ho2, hgl, hg, ?_, ?_⟩⟩
      · rw [b, hEo]
      · rw [a, h3ff]
  · rw [if_neg (fun h => h0 (hc0.mp h.1)), if_neg (fun h => h0 (hc0.mp h.1))]
    by_cases h31 : e = 31
    · have key : ∀ x, x = ((if s then 0x80000000#32 else 0#32) ||| 0xFF#32 <<< 23 ||| F.setWidth 32 <<< 13) →
          ∃ y, some x = some y ∧ decide (y.toNat / 2 ^ 31 % 2 = 1) = s ∧
            (e = 31 → y.toNat / 2 ^ 23 % 2 ^ 8 = 255 ∧ y.toNat % 2 ^ 23 = f * 2 ^ 13) ∧
            (e ≠ 31 → e ≠ 0 → y.toNat / 2 ^ 23 % 2 ^ 8 = e + 112 ∧ y.toNat % 2 ^ 23 = f * 2 ^ 13) ∧
            (e = 0 → f = 0 → y.toNat / 2 ^ 23 % 2 ^ 8 = 0 ∧ y.toNat % 2 ^ 23 = 0) ∧
            (e = 0 → f ≠ 0 → ∃ o g, 0 < o ∧ o ≤ 10 ∧ g < 1024 ∧ 1024 + g = f * 2 ^ o ∧
              y.toNat / 2 ^ 23 % 2 ^ 8 = 113 - o ∧ y.toNat % 2 ^ 23 = g * 2 ^ 13) := by
        intro x hx
        obtain ⟨a, b, d⟩ := fields32 s 0xFF#32 (F.setWidth 32) (by decide) (by rw [hFw]; exact hfl) _ hx
        exact ⟨x, rfl, d, fun _ => ⟨b, by rw [a, hFw]⟩, by omega, by omega, by omega⟩
      by_cases hf0 : f = 0
      · rw [if_pos ⟨hc31.mpr h31, hcf.mpr hf0⟩]; exact key _ rfl
      · rw [if_neg (fun h => hf0 (hcf.mp h.2)), if_pos ⟨hc31.mpr h31, fun h => hf0 (hcf.mp h)⟩]; exact key _ rfl
    · rw [if_neg (fun h => h31 (hc31.mp h.1)), if_neg (fun h => h31 (hc31.mp h.1))]
      obtain ⟨a, b, d⟩ := fields32 s (E.setWidth 32 + 112#32) (F.setWidth 32) (by rw [hEw]; omega) (by rw [hFw]; exact hfl) _ rfl
      exact ⟨_, rfl, d, by omega, fun _ _ => ⟨by rw [b, hEw], by rw [a, hFw]⟩, by omega, by omega⟩

theorem and_low15 (v : BitVec 16) : (v &&& 0x7FFF#16).toNat = v.toNat % 2 ^ 15 := by
  rw [BitVec.toNat_and]; exact Nat.and_two_pow_sub_one_eq_mod v.toNat 15

theorem and_low10 (v : BitVec 16) : (v &&& 0b0000001111111111#16).toNat = v.toNat % 2 ^ 10 := by
  rw [BitVec.toNat_and]; exact Nat.and_two_pow_sub_one_eq_mod v.toNat 10

theorem and_exp (v : BitVec 16) : (v &&& 0b0111110000000000#16) = 0b0111110000000000#16 ↔ v.toNat / 2 ^ 10 % 2 ^ 5 = 31 := by
  have h : (v &&& 0b0111110000000000#16).toNat = v.toNat / 2 ^ 10 % 2 ^ 5 * 2 ^ 10 := by
    rw [BitVec.toNat_and]
    apply Nat.eq_of_testBit_eq
    intro i
    rw [Nat.testBit_and, Nat.mul_comm, Nat.testBit_two_pow_mul, Nat.testBit_mod_two_pow, Nat.testBit_div_two_pow]
    have hm : (0b0111110000000000#16).toNat.testBit i = (decide (10 ≤ i) && decide (i < 15)) := by
      by_cases hi : i < 16
      · have : ∀ i < 16, (0b0111110000000000#16).toNat.testBit i = (decide (10 ≤ i) && decide (i < 15)) := by decide
        exact this i hi
      · rw [Nat.testBit_lt_two_pow (Nat.lt_of_lt_of_le (by decide : _ < 2 ^ 16) (Nat.pow_le_pow_right (by decide) (by omega)))]
        simp; omega
    rw [hm]
    by_cases h1 : 10 ≤ i
    · by_cases h2 : i < 15
      · simp [h1, h2, show i - 10 < 5 by omega, show i - 10 + 10 = i by omega]
      · simp [h1, h2, show ¬ i - 10 < 5 by omega]
    · simp [h1]
  rw [← BitVec.toNat_inj, h]
  simp only [BitVec.toNat_ofNat]
  omega

/-- the fields of a half whose sign is flipped -/
theorem xor_fields (v : BitVec 16) : (v ^^^ 0x8000#16).toNat % 2 ^ 15 = v.toNat % 2 ^ 15 ∧
    decide ((v ^^^ 0x8000#16).toNat / 2 ^ 15 % 2 = 1) = !decide (v.toNat / 2 ^ 15 % 2 = 1) := by
  have this : ∀ m k : Nat, decide (m / 2 ^ k % 2 = 1) = m.testBit k := by
    intro m k
    rw [Nat.testBit_eq_decide_div_mod_eq]
  constructor
  · apply Nat.eq_of_testBit_eq
    intro i
    rw [Nat.testBit_mod_two_pow, Nat.testBit_mod_two_pow, BitVec.testBit_toNat, BitVec.testBit_toNat, BitVec.getLsbD_xor]
    by_cases hi : i < 15
    · have : ∀ i < 15, (0x8000#16).getLsbD i = false := by decide
      rw [this i hi]; simp
    · simp [hi]
  · rw [this, this, BitVec.testBit_toNat, BitVec.testBit_toNat, BitVec.getLsbD_xor]
    simp

end Verif.Proofs.Half
