import Verif.Proofs.Half
/-! C52 (conversions between half and float), C53 (sign and classification), C74 (comparison). -/
namespace Verif.Props
open Verif.Spec.Half Verif.Model.Half Verif.Proofs.Half

private theorem decode_def (ebits fbits n e f : Nat) (s : Bool) (he : n / 2 ^ fbits % 2 ^ ebits = e) (hf : n % 2 ^ fbits = f)
    (hs : decide (n / 2 ^ (ebits + fbits) % 2 = 1) = s) :
    decode ebits fbits n = if e = 2 ^ ebits - 1 then if f = 0 then .inf s else .nan
      else if e = 0 then .fin s f else .fin s ((2 ^ fbits + f) * 2 ^ (e - 1)) := by
  unfold decode; simp only [he, hf, hs]

theorem half_def (v : BitVec 16) (e f : Nat) (s : Bool) (he : v.toNat / 2 ^ 10 % 2 ^ 5 = e) (hf : v.toNat % 2 ^ 10 = f)
    (hs : decide (v.toNat / 2 ^ 15 % 2 = 1) = s) :
    half v = if e = 31 then if f = 0 then .inf s else .nan else if e = 0 then .fin s f else .fin s ((1024 + f) * 2 ^ (e - 1)) :=
  decode_def 5 10 v.toNat e f s he hf hs

theorem single_def (v : BitVec 32) (e f : Nat) (s : Bool) (he : v.toNat / 2 ^ 23 % 2 ^ 8 = e) (hf : v.toNat % 2 ^ 23 = f)
    (hs : decide (v.toNat / 2 ^ 31 % 2 = 1) = s) :
    single v = if e = 255 then if f = 0 then .inf s else .nan else if e = 0 then .fin s f else .fin s ((2 ^ 23 + f) * 2 ^ (e - 1)) :=
  decode_def 8 23 v.toNat e f s he hf hs

private theorem scale (f B : Nat) : (2 ^ 23 + f * 2 ^ 13) * B = (1024 + f) * (2 ^ 13 * B) := by
  rw [← Nat.mul_assoc, Nat.add_mul 1024]

/-- **C52** converting a half to float gives exactly the number of the half, for all halves -/
theorem C52_exact (v : BitVec 16) : ∃ x, u16ToF32 v = some x ∧ single x = (half v).toSingleUnits := by
  obtain ⟨x, hx, hs, h31, hn, hz, hd⟩ := u16_fields v _ _ _ rfl rfl rfl
  refine ⟨x, hx, ?_⟩
  rw [half_def v _ _ _ rfl rfl rfl]
  generalize hev : v.toNat / 2 ^ 10 % 2 ^ 5 = e at *
  generalize hfv : v.toNat % 2 ^ 10 = f at *
  generalize decide (v.toNat / 2 ^ 15 % 2 = 1) = s at *
  have hel : e < 32 := by rw [← hev]; exact Nat.mod_lt _ (by decide)
  by_cases h1 : e = 31
  · obtain ⟨a, b⟩ := h31 h1
    rw [single_def x _ _ _ a b hs]
    simp only [if_pos h1, if_true]
    by_cases h0 : f = 0
    · simp [h0, Value.toSingleUnits]
    · rw [if_neg h0, if_neg (by omega)]; rfl
  · rw [if_neg h1]
    by_cases h0 : e = 0
    · rw [if_pos h0]
      by_cases hf0 : f = 0
      · obtain ⟨a, b⟩ := hz h0 hf0
        rw [single_def x _ _ _ a b hs]
        simp [hf0, Value.toSingleUnits]
      · obtain ⟨o, g, ho, ho2, hg, he, a, b⟩ := hd h0 hf0
        rw [single_def x _ _ _ a b hs, if_neg (by omega), if_neg (by omega)]
        simp only [Value.toSingleUnits, Value.fin.injEq]
        have h2 : 2 ^ 13 * 2 ^ (113 - o - 1) * 2 ^ o = 2 ^ 125 := by
          rw [← Nat.pow_add, ← Nat.pow_add]; congr 1; omega
        refine ⟨trivial, ?_⟩
        rw [← h2, scale g, he]
        generalize 2 ^ o = A
        generalize 2 ^ 13 * 2 ^ (113 - o - 1) = B
        rw [Nat.mul_assoc, Nat.mul_comm A B]
    · obtain ⟨a, b⟩ := hn h1 h0
      rw [if_neg h0, single_def x _ _ _ a b hs, if_neg (by omega), if_neg (by omega)]
      simp only [Value.toSingleUnits, Value.fin.injEq]
      have h3 : 2 ^ (e - 1) * 2 ^ 125 = 2 ^ 13 * 2 ^ (e + 112 - 1) := by
        rw [← Nat.pow_add, ← Nat.pow_add]; congr 1; omega
      refine ⟨trivial, ?_⟩
      rw [scale f, Nat.mul_assoc, h3]

/-- the smallest positive half is 2^-24, that is 2^125 units of a float -/
example : (u16ToF32 0x0001#16).map single = some (.fin false (2 ^ 125)) ∧ half 0x0001#16 = .fin false 1 := by decide +kernel

/-- **C52** converting to float and back gives the same bits, for every half that is not subnormal (NaNs included) -/
theorem C52_round_trip_partial (v : BitVec 16) (hsub : ¬ (v.toNat / 2 ^ 10 % 2 ^ 5 = 0 ∧ v.toNat % 2 ^ 10 ≠ 0)) :
    ∃ x, u16ToF32 v = some x ∧ f32ToU16 x = v := by
  obtain ⟨x, hx, hs, h31, hn, hz, hd⟩ := u16_fields v _ _ _ rfl rfl rfl
  refine ⟨x, hx, ?_⟩
  obtain ⟨r1, r2, r3⟩ := f32_fields x _ _ _ rfl rfl rfl
  have hv := half_fields v.toNat v.isLt
  have hr := half_fields (f32ToU16 x).toNat (f32ToU16 x).isLt
  have hsign : decide ((f32ToU16 x).toNat / 2 ^ 15 % 2 = 1) = decide (v.toNat / 2 ^ 15 % 2 = 1) →
      (f32ToU16 x).toNat / 2 ^ 15 % 2 = v.toNat / 2 ^ 15 % 2 := by
    intro h
    have := decide_eq_decide.mp h
    omega
  apply BitVec.eq_of_toNat_eq
  generalize hev : v.toNat / 2 ^ 10 % 2 ^ 5 = e at *
  generalize hfv : v.toNat % 2 ^ 10 = f at *
  have hel : e < 32 := by rw [← hev]; exact Nat.mod_lt _ (by decide)
  have hfl : f < 1024 := by rw [← hfv]; exact Nat.mod_lt _ (by decide)
  rw [hs] at r3
  by_cases h1 : e = 31
  · obtain ⟨a, b⟩ := h31 h1
    rw [a, b] at r1
    rw [a] at r2 r3
    have hfr : fracOf 255 (f * 2 ^ 13) = f := by
      unfold fracOf
      rw [show f * 2 ^ 13 / 2 ^ 13 = f by omega]
      rw [if_neg (by omega), if_neg (by decide), if_neg (by decide)]
    have he : expOf 255 = 31 := by decide
    rw [hfr] at r1
    rw [he] at r2 r3
    have := hsign (by rw [r3]; simp)
    omega
  · by_cases h0 : e = 0
    · have hf0 : f = 0 := by omega
      obtain ⟨a, b⟩ := hz h0 hf0
      rw [a, b] at r1
      rw [a] at r2 r3
      have hfr : fracOf 0 0 = 0 := by decide
      have he : expOf 0 = 0 := by decide
      rw [hfr] at r1
      rw [he] at r2 r3
      have := hsign (by rw [r3]; simp)
      omega
    · obtain ⟨a, b⟩ := hn h1 h0
      rw [a, b] at r1
      rw [a] at r2 r3
      have he : expOf (e + 112) = e := by
        unfold expOf; rw [if_neg (by omega), if_neg (by omega)]; omega
      have hfr : fracOf (e + 112) (f * 2 ^ 13) = f := by
        unfold fracOf
        rw [he, show f * 2 ^ 13 / 2 ^ 13 = f by omega]
        rw [if_neg (by omega), if_neg (by omega), if_neg (by omega)]
      rw [hfr] at r1
      rw [he] at r2 r3
      have hz2 : decide (e / 2 ^ 5 % 2 = 1) = false := by simp; omega
      rw [hz2] at r3
      have := hsign (by rw [r3]; simp)
      omega

example : ¬ ((0x7e01#16).toNat / 2 ^ 10 % 2 ^ 5 = 0 ∧ (0x7e01#16).toNat % 2 ^ 10 ≠ 0) ∧
    (u16ToF32 0xbc01#16).map f32ToU16 = some 0xbc01#16 := by decide +kernel

/-- **C52 is violated**: no subnormal half survives the conversion to float and back -/
theorem C52_subnormal_violated (v : BitVec 16) (hsub : v.toNat / 2 ^ 10 % 2 ^ 5 = 0 ∧ v.toNat % 2 ^ 10 ≠ 0) :
    ∃ x, u16ToF32 v = some x ∧ half (f32ToU16 x) ≠ half v := by
  obtain ⟨x, hx, hs, h31, hn, hz, hd⟩ := u16_fields v _ _ _ rfl rfl rfl
  refine ⟨x, hx, ?_⟩
  obtain ⟨r1, r2, r3⟩ := f32_fields x _ _ _ rfl rfl rfl
  rw [half_def v _ _ _ rfl rfl rfl, half_def (f32ToU16 x) _ _ _ r2 r1 r3]
  generalize hev : v.toNat / 2 ^ 10 % 2 ^ 5 = e at *
  generalize hfv : v.toNat % 2 ^ 10 = f at *
  obtain ⟨o, g, ho, ho2, hg, he, a, b⟩ := hd hsub.1 hsub.2
  have hfl : f < 1024 := by rw [← hfv]; exact Nat.mod_lt _ (by decide)
  rw [if_neg (show ¬ e = 31 by omega), if_pos hsub.1, a, b]
  by_cases h1 : o = 1
  · subst h1
    have e1 : expOf (113 - 1) = 0 := by decide
    rw [e1]
    have e2 : fracOf (113 - 1) (g * 2 ^ 13) = 256 + g / 4 := by
      unfold fracOf
      rw [e1, if_neg (by omega), if_neg (by omega), if_pos (by omega)]; omega
    rw [e2]
    simp
    intro _; omega
  · have key : ∀ o : Fin 11, 1 < o.val → expOf (113 - o.val) % 2 ^ 5 = 33 - o.val := by decide
    have := key ⟨o, by omega⟩ (by show 1 < o; omega)
    simp only at this
    rw [this]
    by_cases h2 : o = 2
    · subst h2
      simp only [show 33 - 2 = 31 by rfl, if_true]
      split <;> simp
    · rw [if_neg (by omega), if_neg (by omega)]
      intro hc
      simp only [Value.fin.injEq] at hc
      have h3 := hc.2
      have h4 : 1024 * 1 ≤ (1024 + fracOf (113 - o) (g * 2 ^ 13)) * 2 ^ (33 - o - 1) :=
        Nat.mul_le_mul (by omega) (Nat.two_pow_pos _)
      omega

example : (0x0001#16).toNat / 2 ^ 10 % 2 ^ 5 = 0 ∧ (0x0001#16).toNat % 2 ^ 10 ≠ 0 ∧
    (u16ToF32 0x0001#16).map f32ToU16 = some 0xdc00#16 := by decide +kernel

private theorem single_range {x : BitVec 32} {s : Bool} {m : Nat} (h : single x = .fin s m) {a b : Nat} (ha : 23 ≤ a)
    (hlo : 2 ^ a ≤ m) (hhi : m < 2 ^ b) :
    ∃ e f, x.toNat / 2 ^ 23 % 2 ^ 8 = e ∧ x.toNat % 2 ^ 23 = f ∧ decide (x.toNat / 2 ^ 31 % 2 = 1) = s ∧ 0 < e ∧ e < 255 ∧
      m = (2 ^ 23 + f) * 2 ^ (e - 1) ∧ f < 2 ^ 23 ∧ a ≤ e + 22 ∧ e + 22 < b := by
  have hfl : x.toNat % 2 ^ 23 < 2 ^ 23 := Nat.mod_lt _ (by decide)
  have hel : x.toNat / 2 ^ 23 % 2 ^ 8 < 2 ^ 8 := Nat.mod_lt _ (by decide)
  rw [single_def x _ _ _ rfl rfl rfl] at h
  generalize x.toNat / 2 ^ 23 % 2 ^ 8 = e at *
  generalize x.toNat % 2 ^ 23 = f at *
  by_cases h1 : e = 255
  · rw [if_pos h1] at h
    split at h <;> simp at h
  rw [if_neg h1] at h
  have hp : 2 ^ 23 ≤ 2 ^ a := Nat.pow_le_pow_right (by decide) ha
  by_cases h0 : e = 0
  · rw [if_pos h0] at h
    simp only [Value.fin.injEq] at h
    omega
  rw [if_neg h0] at h
  simp only [Value.fin.injEq] at h
  have hm := h.2
  have l1 : 2 ^ 23 * 2 ^ (e - 1) ≤ m := by rw [← hm]; exact Nat.mul_le_mul_right _ (by omega)
  have l2 : m < 2 ^ 24 * 2 ^ (e - 1) := by
    rw [← hm]; exact Nat.mul_lt_mul_of_pos_right (by omega) (Nat.two_pow_pos _)
  rw [← Nat.pow_add] at l1 l2
  have k1 : a < 24 + (e - 1) := (Nat.pow_lt_pow_iff_right (by decide : 1 < 2)).mp (by omega)
  have k2 : 23 + (e - 1) < b := (Nat.pow_lt_pow_iff_right (by decide : 1 < 2)).mp (by omega)
  exact ⟨e, f, rfl, rfl, h.1, by omega, by omega, hm.symm, hfl, by omega, by omega⟩

/-- a half magnitude is a fraction of 11 bits times a power of two -/
private theorem half_mag {b : BitVec 16} {s : Bool} {k : Nat} (h : half b = .fin s k) :
    ∃ c q, k = c * 2 ^ q ∧ c < 2048 ∧ (q ≠ 0 → 1024 ≤ c) ∧ q ≤ 29 := by
  have hfl : b.toNat % 2 ^ 10 < 2 ^ 10 := Nat.mod_lt _ (by decide)
  have hel : b.toNat / 2 ^ 10 % 2 ^ 5 < 2 ^ 5 := Nat.mod_lt _ (by decide)
  rw [half_def b _ _ _ rfl rfl rfl] at h
  generalize b.toNat / 2 ^ 10 % 2 ^ 5 = e at *
  generalize b.toNat % 2 ^ 10 = f at *
  by_cases h1 : e = 31
  · rw [if_pos h1] at h; split at h <;> simp at h
  rw [if_neg h1] at h
  by_cases h0 : e = 0
  · rw [if_pos h0] at h
    simp only [Value.fin.injEq] at h
    exact ⟨f, 0, by rw [← h.2]; simp, by omega, by omega, by omega⟩
  · rw [if_neg h0] at h
    simp only [Value.fin.injEq] at h
    exact ⟨1024 + f, e - 1, h.2.symm, by omega, by omega, by omega⟩

/-- **C52** a float of magnitude from 2^-14 (2^135 units) to 2^16 (2^165 units) is converted to the largest half not
    larger in magnitude, with the same sign -/
theorem C52_truncates_partial (x : BitVec 32) (s : Bool) (m : Nat) (h : single x = .fin s m) (hlo : 2 ^ 135 ≤ m)
    (hhi : m < 2 ^ 165) :
    ∃ n, half (f32ToU16 x) = .fin s n ∧ n * 2 ^ 125 ≤ m ∧
      ∀ b s' k, half b = .fin s' k → k * 2 ^ 125 ≤ m → k ≤ n := by
  obtain ⟨e, f, he, hf, hs, h0, h255, hm, hfl, l1, l2⟩ := single_range h (by decide) hlo hhi
  obtain ⟨r1, r2, r3⟩ := f32_fields x e f s he.symm hf.symm hs.symm
  have e1 : expOf e = e - 112 := by
    unfold expOf; rw [if_neg (by omega), if_neg (by omega)]; omega
  have f1 : fracOf e f = f / 2 ^ 13 := by
    unfold fracOf; rw [e1, if_neg (by omega), if_neg (by omega), if_neg (by omega)]
  rw [f1] at r1
  rw [e1] at r2 r3
  have e3 : (e - 112) % 2 ^ 5 = e - 112 := by omega
  have e4 : decide ((e - 112) / 2 ^ 5 % 2 = 1) = false := by simp; omega
  rw [e3] at r2
  rw [e4, Bool.or_false] at r3
  rw [half_def _ _ _ _ r2 r1 r3, if_neg (by omega), if_neg (by omega)]
  have hpw2 : 2 ^ (e - 112 - 1) * 2 ^ 125 = 2 ^ 13 * 2 ^ (e - 1) := by
    rw [← Nat.pow_add, ← Nat.pow_add]; congr 1; omega
  have hdec : f = f / 2 ^ 13 * 2 ^ 13 + f % 2 ^ 13 := by omega
  have hrl : f % 2 ^ 13 < 2 ^ 13 := Nat.mod_lt _ (by decide)
  generalize hF : f / 2 ^ 13 = F at *
  generalize hR : f % 2 ^ 13 = R at *
  have hFl : F < 1024 := by omega
  have hup : m < (1024 + F + 1) * 2 ^ (e - 112 - 1) * 2 ^ 125 := by
    rw [Nat.mul_assoc, hpw2, ← Nat.mul_assoc, hm]
    exact Nat.mul_lt_mul_of_pos_right (by omega) (Nat.two_pow_pos _)
  refine ⟨_, rfl, ?_, ?_⟩
  · rw [Nat.mul_assoc, hpw2, ← Nat.mul_assoc, hm]
    exact Nat.mul_le_mul_right _ (by omega)
  · intro b s' k hk hkm
    obtain ⟨c, q, hc, hcl, hcn, _⟩ := half_mag hk
    have hlt : k < (1024 + F + 1) * 2 ^ (e - 112 - 1) :=
      Nat.lt_of_mul_lt_mul_right (Nat.lt_of_le_of_lt hkm hup)
    rcases Nat.lt_or_ge q (e - 112 - 1) with hq | hq
    · have h1 : k < 2048 * 2 ^ q := by rw [hc]; exact Nat.mul_lt_mul_of_pos_right hcl (Nat.two_pow_pos _)
      have h2 : 2048 * 2 ^ q ≤ 1024 * 2 ^ (e - 112 - 1) := by
        rw [show 2048 = 1024 * 2 ^ 1 by rfl, Nat.mul_assoc, ← Nat.pow_add]
        exact Nat.mul_le_mul_left _ (Nat.pow_le_pow_right (by decide) (by omega))
      have h3 : 1024 * 2 ^ (e - 112 - 1) ≤ (1024 + F) * 2 ^ (e - 112 - 1) := Nat.mul_le_mul_right _ (by omega)
      omega
    · obtain ⟨d, rfl⟩ : ∃ d, q = e - 112 - 1 + d := ⟨q - (e - 112 - 1), by omega⟩
      rw [hc, Nat.pow_add, Nat.mul_comm (2 ^ (e - 112 - 1)) (2 ^ d), ← Nat.mul_assoc] at hlt ⊢
      have := Nat.lt_of_mul_lt_mul_right hlt
      exact Nat.mul_le_mul_right _ (by omega)

/-- 3.1415927 is converted to 3.140625 -/
example : single 0x40490fdb#32 = .fin false (0xc90fdb * 2 ^ 127) ∧ f32ToU16 0x40490fdb#32 = 0x4248#16 ∧
    half 0x4248#16 = .fin false (0x648 * 2 ^ 15) := by decide +kernel

/-- **C52** NaN, the infinities, zeros and subnormal floats, and the floats from 2^16 to 2^17 are converted correctly -/
theorem C52_special_partial (x : BitVec 32) :
    (single x = .nan → half (f32ToU16 x) = .nan) ∧
    (∀ s, single x = .inf s → half (f32ToU16 x) = .inf s) ∧
    (∀ s m, single x = .fin s m → m < 2 ^ 23 → half (f32ToU16 x) = .fin s 0) ∧
    (∀ s m, single x = .fin s m → 2 ^ 165 ≤ m → m < 2 ^ 166 → half (f32ToU16 x) = .inf s) := by
  obtain ⟨r1, r2, r3⟩ := f32_fields x _ _ _ rfl rfl rfl
  have hfl : x.toNat % 2 ^ 23 < 2 ^ 23 := Nat.mod_lt _ (by decide)
  have hrange := @single_range x
  have hdef := single_def x _ _ _ rfl rfl rfl
  have hh := half_def (f32ToU16 x) _ _ _ r2 r1 r3
  generalize x.toNat / 2 ^ 23 % 2 ^ 8 = e at *
  generalize x.toNat % 2 ^ 23 = f at *
  generalize decide (x.toNat / 2 ^ 31 % 2 = 1) = sg at *
  rw [hh]
  have e255 : expOf 255 = 31 := by decide
  have e0 : expOf 0 = 0 := by decide
  refine ⟨?_, ?_, ?_, ?_⟩
  · intro h
    rw [hdef] at h
    by_cases h1 : e = 255
    · rw [if_pos h1] at h
      subst h1
      by_cases hf0 : f = 0
      · simp [hf0] at h
      · rw [e255]
        have : fracOf 255 f ≠ 0 := by
          unfold fracOf
          by_cases hz : f / 2 ^ 13 = 0
          · rw [if_pos ⟨rfl, hf0, hz⟩]; decide
          · rw [if_neg (by simp [hz]), if_neg (by simp), if_neg (by simp [e255])]; exact hz
        simp [this]
    · rw [if_neg h1] at h; split at h <;> simp at h
  · intro s h
    rw [hdef] at h
    by_cases h1 : e = 255
    · rw [if_pos h1] at h
      subst h1
      by_cases hf0 : f = 0
      · subst hf0
        simp at h
        have : fracOf 255 0 = 0 := by decide
        rw [e255, this]; simp [h]
      · simp [hf0] at h
    · rw [if_neg h1] at h; split at h <;> simp at h
  · intro s m h hm
    rw [hdef] at h
    by_cases h1 : e = 255
    · rw [if_pos h1] at h; split at h <;> simp at h
    rw [if_neg h1] at h
    by_cases h0 : e = 0
    · subst h0
      simp at h
      have : fracOf 0 f = 0 := by unfold fracOf; simp
      rw [e0, this]; simp [h.1]
    · rw [if_neg h0] at h
      simp only [Value.fin.injEq] at h
      have : 2 ^ 23 * 1 ≤ (2 ^ 23 + f) * 2 ^ (e - 1) := Nat.mul_le_mul (by omega) (Nat.two_pow_pos _)
      omega
  · intro s m h hlo hhi
    obtain ⟨e', f', he, hf, hs, _, _, _, _, l1, l2⟩ := hrange h (by decide) hlo hhi
    subst he hs
    have h143 : e = 143 := by omega
    subst h143
    have e1 : expOf 143 = 31 := by decide
    have f1 : fracOf 143 f = 0 := by unfold fracOf; rw [e1]; simp
    rw [e1, f1]; simp

example : single 0x7f800001#32 = .nan ∧ single 0xff800000#32 = .inf true ∧ single 0x80000003#32 = .fin true 3 ∧
    single 0x47800001#32 = .fin false ((2 ^ 23 + 1) * 2 ^ 142) := by decide +kernel

/-- **C52 is violated**: whenever the nearest half is above a float (in magnitude), it is not what the conversion gives -/
theorem C52_nearest_violated (x : BitVec 32) (s : Bool) (m : Nat) (h : single x = .fin s m) (hlo : 2 ^ 135 ≤ m)
    (hhi : m < 2 ^ 165) (b : BitVec 16) (k : Nat) (_hb : half b = .fin s k) (habove : m < k * 2 ^ 125)
    (hnearest : ∀ b' k', half b' = .fin s k' → k' * 2 ^ 125 ≤ m → k * 2 ^ 125 - m < m - k' * 2 ^ 125) :
    ∃ n, half (f32ToU16 x) = .fin s n ∧ n < k ∧ k * 2 ^ 125 - m < m - n * 2 ^ 125 := by
  obtain ⟨n, hn, hle, _⟩ := C52_truncates_partial x s m h hlo hhi
  exact ⟨n, hn, Nat.lt_of_mul_lt_mul_right (Nat.lt_of_le_of_lt hle habove), hnearest _ n hn hle⟩

/-- 1.0009765f, just below the half 1.0009766 is converted to 1 -/
example : single 0x3f801fff#32 = .fin false (0x801fff * 2 ^ 126) ∧ half 0x3c01#16 = .fin false (1025 * 2 ^ 14) ∧
    0x801fff * 2 ^ 126 < 1025 * 2 ^ 14 * 2 ^ 125 ∧ half (f32ToU16 0x3f801fff#32) = .fin false (1024 * 2 ^ 14) := by decide +kernel

/-- **C52 is violated**: floats from 2^17 on are converted to finite halves (apart from three ranges of exponents), although
    they are larger than every half; half of them with the wrong sign -/
theorem C52_large_violated (x : BitVec 32) (s : Bool) (m : Nat) (h : single x = .fin s m) (hlo : 2 ^ 166 ≤ m)
    (hexp : x.toNat / 2 ^ 23 % 2 ^ 8 % 32 ≠ 15) :
    (∃ s' n, half (f32ToU16 x) = .fin s' n ∧ (x.toNat / 2 ^ 23 % 2 ^ 8 / 32 % 2 = 0 → x.toNat / 2 ^ 23 % 2 ^ 8 % 32 ≥ 16 → s' = true)) ∧
    ∀ b s' k, half b = .fin s' k → k * 2 ^ 125 < m := by
  obtain ⟨r1, r2, r3⟩ := f32_fields x _ _ _ rfl rfl rfl
  have hdef := single_def x _ _ _ rfl rfl rfl
  have hh := half_def (f32ToU16 x) _ _ _ r2 r1 r3
  have hfl : x.toNat % 2 ^ 23 < 2 ^ 23 := Nat.mod_lt _ (by decide)
  have hel : x.toNat / 2 ^ 23 % 2 ^ 8 < 2 ^ 8 := Nat.mod_lt _ (by decide)
  generalize x.toNat / 2 ^ 23 % 2 ^ 8 = e at *
  generalize x.toNat % 2 ^ 23 = f at *
  generalize decide (x.toNat / 2 ^ 31 % 2 = 1) = sg at *
  constructor
  · rw [hdef] at h
    by_cases h1 : e = 255
    · rw [if_pos h1] at h; split at h <;> simp at h
    rw [if_neg h1] at h
    have he144 : 144 ≤ e := by
      by_cases h0 : e = 0
      · rw [if_pos h0] at h
        simp only [Value.fin.injEq] at h
        have : 2 ^ 23 < 2 ^ 166 := by decide
        omega
      · rw [if_neg h0] at h
        simp only [Value.fin.injEq] at h
        have l2 : m < 2 ^ 24 * 2 ^ (e - 1) := by
          rw [← h.2]; exact Nat.mul_lt_mul_of_pos_right (by omega) (Nat.two_pow_pos _)
        rw [← Nat.pow_add] at l2
        have k1 : 166 < 24 + (e - 1) := (Nat.pow_lt_pow_iff_right (by decide : 1 < 2)).mp (by omega)
        omega
    rw [hh]
    have e1 : expOf e = e - 112 := by
      unfold expOf; rw [if_neg h1, if_neg (by omega)]; omega
    rw [e1, if_neg (by omega)]
    have hsg : e / 32 % 2 = 0 → e % 32 ≥ 16 → (sg || decide ((e - 112) / 2 ^ 5 % 2 = 1)) = true := by
      intro h2 h3
      have : (e - 112) / 2 ^ 5 % 2 = 1 := by omega
      simp [this]
    by_cases h2 : (e - 112) % 2 ^ 5 = 0
    · rw [if_pos h2]
      exact ⟨_, _, rfl, hsg⟩
    · rw [if_neg h2]
      exact ⟨_, _, rfl, hsg⟩
  · intro b s' k hk
    obtain ⟨c, q, hc, hcl, _, hq⟩ := half_mag hk
    have h1 : k < 2048 * 2 ^ 29 := by
      rw [hc]
      exact Nat.lt_of_lt_of_le (Nat.mul_lt_mul_of_pos_right hcl (Nat.two_pow_pos _))
        (Nat.mul_le_mul_left _ (Nat.pow_le_pow_right (by decide) hq))
    have h2 : k * 2 ^ 125 < 2048 * 2 ^ 29 * 2 ^ 125 := Nat.mul_lt_mul_of_pos_right h1 (Nat.two_pow_pos _)
    have h3 : 2048 * 2 ^ 29 * 2 ^ 125 ≤ 2 ^ 166 := by decide
    omega

/-- 131072 = 2^17 becomes -0 -/
example : single 0x48000000#32 = .fin false (2 ^ 166) ∧ f32ToU16 0x48000000#32 = 0x8000#16 ∧
    (0x48000000#32).toNat / 2 ^ 23 % 2 ^ 8 % 32 ≠ 15 := by decide +kernel

/-- **C52 is violated**: positive floats below 2^-14 are converted to something at most half as large, or, below 2^-15 (apart
    from three ranges of exponents), to something larger than 2^-14, infinity or NaN -/
theorem C52_small_violated (x : BitVec 32) (s : Bool) (m : Nat) (h : single x = .fin s m) (hlo : 2 ^ 23 ≤ m) (hhi : m < 2 ^ 135) :
    (2 ^ 134 ≤ m → ∃ n, half (f32ToU16 x) = .fin s n ∧ 2 * (n * 2 ^ 125) ≤ m) ∧
    (m < 2 ^ 134 → x.toNat / 2 ^ 23 % 2 ^ 8 % 32 ≠ 16 → ∀ s' n, half (f32ToU16 x) = .fin s' n → 2 * m < n * 2 ^ 125) := by
  obtain ⟨e, f, he, hf, hs, h0, h255, hm, hfl, l1, l2⟩ := single_range h (by decide) hlo hhi
  obtain ⟨r1, r2, r3⟩ := f32_fields x e f s he.symm hf.symm hs.symm
  constructor
  · intro h134
    have he112 : e = 112 := by
      have l3 : m < 2 ^ 24 * 2 ^ (e - 1) := by
        rw [hm]; exact Nat.mul_lt_mul_of_pos_right (by omega) (Nat.two_pow_pos _)
      rw [← Nat.pow_add] at l3
      have k1 : 134 < 24 + (e - 1) := (Nat.pow_lt_pow_iff_right (by decide : 1 < 2)).mp (by omega)
      omega
    subst he112
    have e1 : expOf 112 = 0 := by decide
    have f1 : fracOf 112 f = 256 + f / 2 ^ 15 := by
      unfold fracOf; rw [e1, if_neg (by omega), if_neg (by omega), if_pos (by omega)]
    rw [f1] at r1
    rw [e1] at r2 r3
    simp only [Nat.zero_mod, Nat.zero_div] at r2 r3
    rw [half_def _ _ _ _ r2 r1 r3]
    refine ⟨256 + f / 2 ^ 15, by simp, ?_⟩
    rw [hm, show 2 ^ 125 = 2 ^ 14 * 2 ^ 111 by decide, show 112 - 1 = 111 by rfl, ← Nat.mul_assoc, ← Nat.mul_assoc]
    exact Nat.mul_le_mul_right _ (by omega)
  · intro h134 h16 s' n hn
    have he111 : e ≤ 111 := by
      have l3 : 2 ^ 23 * 2 ^ (e - 1) ≤ m := by rw [hm]; exact Nat.mul_le_mul_right _ (by omega)
      rw [← Nat.pow_add] at l3
      have k1 : 23 + (e - 1) < 134 := (Nat.pow_lt_pow_iff_right (by decide : 1 < 2)).mp (by omega)
      omega
    rw [he] at h16
    have e1 : expOf e % 2 ^ 5 = (e + 16) % 32 := by
      unfold expOf; rw [if_neg (by omega), if_neg (by omega)]; omega
    rw [e1] at r2
    rw [half_def _ _ _ _ r2 r1 r3] at hn
    by_cases h31 : (e + 16) % 32 = 31
    · rw [if_pos h31] at hn; split at hn <;> simp at hn
    rw [if_neg h31, if_neg (by omega)] at hn
    simp only [Value.fin.injEq] at hn
    have h4 : 1024 * 1 ≤ n := by rw [← hn.2]; exact Nat.mul_le_mul (by omega) (Nat.two_pow_pos _)
    have h5 : 1024 * 2 ^ 125 ≤ n * 2 ^ 125 := Nat.mul_le_mul_right _ (by omega)
    have h6 : 2 * 2 ^ 134 ≤ 1024 * 2 ^ 125 := by decide
    omega

/-- 2^-16 becomes minus infinity, 2^-20 becomes -2^13 (0xec00) -/
example : single 0x37800000#32 = .fin false (2 ^ 133) ∧ half (f32ToU16 0x37800000#32) = .inf true ∧
    (0x37800000#32).toNat / 2 ^ 23 % 2 ^ 8 % 32 ≠ 16 ∧ f32ToU16 0x35800000#32 = 0xec00#16 := by decide +kernel

/-- the same number with the other sign -/
def flip : Value → Value
  | .nan => .nan
  | .inf s => .inf !s
  | .fin s m => .fin (!s) m

/-- the number without its sign -/
def magnitude : Value → Value
  | .nan => .nan
  | .inf _ => .inf false
  | .fin _ m => .fin false m

/-- **C53** negation changes the sign of the number and nothing else, and only the top bit of the representation -/
theorem C53_neg (v : BitVec 16) :
    half (neg v) = flip (half v) ∧ neg (neg v) = v ∧
    (∀ i, i < 15 → (neg v).getLsbD i = v.getLsbD i) ∧ (neg v).getLsbD 15 = !v.getLsbD 15 := by
  have hb : neg v = v ^^^ 0x8000#16 := rfl
  have ⟨x1, x2⟩ := xor_fields v
  refine ⟨?_, ?_, ?_, ?_⟩
  · rw [hb, half_def (v ^^^ 0x8000#16) (v.toNat / 2 ^ 10 % 2 ^ 5) (v.toNat % 2 ^ 10) _ (by omega) (by omega) x2,
      half_def v _ _ _ rfl rfl rfl]
    split
    · split <;> rfl
    · split <;> rfl
  · show v ^^^ 0x8000#16 ^^^ 0x8000#16 = v
    rw [BitVec.xor_assoc, BitVec.xor_self, BitVec.xor_zero]
  · intro i hi
    rw [hb, BitVec.getLsbD_xor]
    have : ∀ i, i < 15 → (0x8000#16).getLsbD i = false := by decide
    rw [this i hi]; simp
  · rw [hb, BitVec.getLsbD_xor]; simp

example : neg 0x3c00#16 = 0xbc00#16 ∧ half 0x3c00#16 = .fin false (2 ^ 24) ∧ neg 0#16 = 0x8000#16 := by decide +kernel

/-- **C53** the absolute value drops the sign, and leaves a NaN as it is -/
theorem C53_abs (v : BitVec 16) :
    half (Model.Half.abs v) = magnitude (half v) ∧ (half v = .nan → Model.Half.abs v = v) ∧
    (half v ≠ .nan → (Model.Half.abs v).toNat = v.toNat % 2 ^ 15) := by
  unfold Model.Half.abs
  have hl := and_low10 v
  have hd := half_def v _ _ _ rfl rfl rfl
  by_cases hc : (v &&& 0b0111110000000000#16) = 0b0111110000000000#16 ∧ (v &&& 0b0000001111111111#16) ≠ 0#16
  · rw [if_pos hc]
    have h1 := (and_exp v).mp hc.1
    have h2 : v.toNat % 2 ^ 10 ≠ 0 := by
      intro h
      apply hc.2
      apply BitVec.eq_of_toNat_eq
      rw [hl, h]; rfl
    rw [if_pos h1, if_neg h2] at hd
    exact ⟨by rw [hd]; rfl, fun _ => rfl, fun h => absurd hd h⟩
  · rw [if_neg hc]
    have ha := and_low15 v
    have hn : half v ≠ .nan := by
      rw [hd]
      split
      · rename_i h1
        split
        · simp
        · rename_i h2
          exact absurd ⟨(and_exp v).mpr h1, fun h => h2 (by rw [← hl, h]; rfl)⟩ hc
      · split <;> simp
    refine ⟨?_, fun h => absurd h hn, fun _ => ha⟩
    rw [half_def (v &&& 0b0111111111111111#16) (v.toNat / 2 ^ 10 % 2 ^ 5) (v.toNat % 2 ^ 10) false (by rw [ha]; omega)
      (by rw [ha]; omega) (by rw [ha]; simp), hd]
    split
    · split <;> rfl
    · split <;> rfl

example : Model.Half.abs 0xfc00#16 = 0x7c00#16 ∧ Model.Half.abs 0xfc01#16 = 0xfc01#16 ∧ half 0xfc01#16 = .nan := by decide +kernel

/-- **C53** the test for infinity or NaN, and the conversions from and to bool, agree with the number -/
theorem C53_classify (v : BitVec 16) :
    (infinityOrNan v = true ↔ half v = .nan ∨ ∃ s, half v = .inf s) ∧
    (toBool v = true ↔ ∀ s, half v ≠ .fin s 0) ∧
    (∀ b, half (ofBool b) = .fin false (if b then 2 ^ 24 else 0)) := by
  have k3 : ∀ b, half (ofBool b) = .fin false (if b then 2 ^ 24 else 0) := by decide +kernel
  have hd := half_def v _ _ _ rfl rfl rfl
  refine ⟨?_, ?_, k3⟩
  · unfold infinityOrNan
    rw [decide_eq_true_iff, and_exp, hd]
    split
    · rename_i h1
      split <;> simp [h1]
    · rename_i h1
      split <;> simp [h1]
  · unfold Model.Half.toBool
    rw [decide_eq_true_iff, hd]
    have hz : v &&& 0x7FFF#16 = 0#16 ↔ v.toNat % 2 ^ 15 = 0 := by
      rw [← BitVec.toNat_inj, and_low15]; rfl
    rw [Ne, hz]
    split
    · rename_i h1
      split
      · simp; omega
      · simp; omega
    · split
      · rename_i h1
        simp
        omega
      · rename_i h1 h2
        have : 0 < (1024 + v.toNat % 2 ^ 10) * 2 ^ (v.toNat / 2 ^ 10 % 2 ^ 5 - 1) :=
          Nat.mul_pos (by omega) (Nat.two_pow_pos _)
        constructor
        · intro _ s h
          simp only [Value.fin.injEq] at h
          omega
        · intro _ h
          omega

example : infinityOrNan 0x7c00#16 = true ∧ infinityOrNan 0x7bff#16 = false ∧ toBool 0x8000#16 = false ∧ toBool 1#16 = true := by
  decide +kernel

/-- **C74** the comparison operators (which compare the floats) order any two halves by their numbers; NaN is unordered -/
theorem C74_compare (a b : BitVec 16) : Model.Half.compare a b = some ((half a).cmp (half b)) := by
  obtain ⟨x, hx, ex⟩ := C52_exact a
  obtain ⟨y, hy, ey⟩ := C52_exact b
  unfold Model.Half.compare
  rw [hx, hy]
  simp only [Option.bind_some, Option.map_some, Option.some.injEq, ex, ey]
  generalize half a = p
  generalize half b = q
  have hs : ∀ (t : Bool) (m : Nat), (if t then -((m * 2 ^ 125 : Nat) : Int) else ((m * 2 ^ 125 : Nat) : Int)) =
      (if t then -(m : Int) else m) * 2 ^ 125 := by
    intro t m
    cases t <;> simp [Int.neg_mul]
  have hc : ∀ i j : Int, Ord.compare (i * 2 ^ 125) (j * 2 ^ 125) = Ord.compare i j := by
    intro i j
    rw [Int.compare_eq_ite_lt, Int.compare_eq_ite_lt]
    have l : i * 2 ^ 125 < j * 2 ^ 125 ↔ i < j := Int.mul_lt_mul_right (by decide)
    have g : j * 2 ^ 125 < i * 2 ^ 125 ↔ j < i := Int.mul_lt_mul_right (by decide)
    simp only [l, g]
  rcases p with _ | s | ⟨s, m⟩ <;> rcases q with _ | t | ⟨t, n⟩
  case fin.fin =>
    simp only [Value.toSingleUnits, Value.cmp]
    rw [hs, hs, hc]
  all_goals (first | rfl | (cases s <;> rfl) | (cases t <;> rfl) | (cases s <;> cases t <;> rfl))

example : (half 0x8000#16).cmp (half 0#16) = some .eq ∧ (half 0xbc00#16).cmp (half 0x0001#16) = some .lt ∧
    (half 0x7c01#16).cmp (half 0#16) = none ∧ (half 0x7c00#16).cmp (half 0x7bff#16) = some .gt := by decide +kernel

end Verif.Props
