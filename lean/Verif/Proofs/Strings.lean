import Verif.Model.Strings
import Verif.Proofs.Utf8
import Verif.Proofs.Endian

/-! Encoders, transcoding, trimming. -/
namespace Verif.Proofs
open Verif.Spec Verif.Model

/-! ### Encoders -/

theorem or_add (a b k : Nat) (hb : b < 2 ^ k) (ha : a % 2 ^ k = 0) : a ||| b = a + b := by
  obtain ⟨q, rfl⟩ : ∃ q, a = 2 ^ k * q := ⟨a / 2 ^ k, (Nat.mul_div_cancel' (Nat.dvd_of_mod_eq_zero ha)).symm⟩
  rw [Nat.two_pow_add_eq_or_of_lt hb]

theorem and63 (n : Nat) : n &&& 0x3F = n % 64 := Nat.and_two_pow_sub_one_eq_mod n 6

theorem byte_cont (cp : BitVec 32) (k : Nat) :
    (((cp >>> k) &&& 0x3F#32) ||| 0x80#32).setWidth 8 = cont (cp.toNat / 2 ^ k) := by
  apply BitVec.eq_of_toNat_eq
  simp only [BitVec.toNat_setWidth, BitVec.toNat_or, BitVec.toNat_and, BitVec.toNat_ushiftRight, BitVec.toNat_ofNat,
    cont, Nat.shiftRight_eq_div_pow]
  have e : (cp.toNat / 2 ^ k &&& 63 % 2 ^ 32) ||| 128 % 2 ^ 32 = 128 + cp.toNat / 2 ^ k % 64 := by
    rw [show 63 % 2 ^ 32 = 0x3F from rfl, and63, Nat.or_comm]
    exact or_add 128 _ 6 (Nat.mod_lt _ (by decide)) (by decide)
  rw [e]

theorem byte_cont0 (cp : BitVec 32) : ((cp &&& 0x3F#32) ||| 0x80#32).setWidth 8 = cont cp.toNat := by
  have := byte_cont cp 0
  simpa using this

theorem byte_lead (cp : BitVec 32) (k l m : Nat) (hk : cp.toNat / 2 ^ k < 2 ^ l) (hm : m < 256) (hml : m % 2 ^ l = 0) :
    ((cp >>> k) ||| BitVec.ofNat 32 m).setWidth 8 = BitVec.ofNat 8 (m + cp.toNat / 2 ^ k) := by
  apply BitVec.eq_of_toNat_eq
  simp only [BitVec.toNat_setWidth, BitVec.toNat_or, BitVec.toNat_ushiftRight, BitVec.toNat_ofNat,
    Nat.shiftRight_eq_div_pow]
  rw [Nat.mod_eq_of_lt (show m < 2 ^ 32 by omega), Nat.or_comm, or_add m _ l hk hml]

/-- `utf8 c` padded with zeros -/
theorem encode8_eq (cp : BitVec 32) (h : cp.toNat ≤ 0x10FFFF) :
    encode8 cp = utf8 cp.toNat ++ List.replicate (4 - (utf8 cp.toNat).length) 0 := by
  have c0 := byte_cont0 cp
  have c6 := byte_cont cp 6
  have c12 := byte_cont cp 12
  unfold encode8
  simp only [BitVec.le_def, BitVec.toNat_ofNat, Nat.reduceMod, Nat.reducePow, if_pos h]
  split
  · rename_i h1
    rw [utf8_1 (by omega)]
    have e : cp.setWidth 8 = BitVec.ofNat 8 cp.toNat := by
      apply BitVec.eq_of_toNat_eq
      simp [BitVec.toNat_setWidth]
    rw [e]
    rfl
  · split
    · rw [utf8_2 (by omega) (by omega), byte_lead cp 6 5 0xC0 (by omega) (by decide) (by decide), c0]
      rfl
    · split
      · rw [utf8_3 (by omega) (by omega), byte_lead cp 12 4 0xE0 (by omega) (by decide) (by decide), c6, c0]
        rfl
      · rw [utf8_4 (by omega), byte_lead cp 18 3 0xF0 (by omega) (by decide) (by decide), c12, c6, c0]
        rfl

theorem cont_toNat (n : Nat) : (cont n).toNat = 0x80 + n % 64 := by
  simp only [cont, BitVec.toNat_ofNat]; omega

theorem utf8_ne_zero {c : Nat} (h0 : c ≠ 0) (hc : c ≤ 0x10FFFF) : ∀ u ∈ utf8 c, u ≠ 0 := by
  have hcont : ∀ n, cont n ≠ 0 := by
    intro n h
    have := congrArg BitVec.toNat h
    rw [cont_toNat] at this
    simp at this
  have hof : ∀ n, 0 < n → n < 256 → BitVec.ofNat 8 n ≠ 0 := by
    intro n h1 h2 h
    have := congrArg BitVec.toNat h
    simp only [BitVec.toNat_ofNat] at this
    rw [Nat.mod_eq_of_lt h2] at this
    simp at this; omega
  intro u hu
  unfold utf8 at hu
  split at hu
  · simp at hu; subst hu; exact hof _ (by omega) (by omega)
  · split at hu
    · simp at hu; rcases hu with rfl | rfl
      · exact hof _ (by omega) (by omega)
      · exact hcont _
    · split at hu
      · simp at hu; rcases hu with rfl | rfl | rfl
        · exact hof _ (by omega) (by omega)
        · exact hcont _
        · exact hcont _
      · simp at hu; rcases hu with rfl | rfl | rfl | rfl
        · exact hof _ (by omega) (by omega)
        · exact hcont _
        · exact hcont _
        · exact hcont _

theorem unitsView_pad {w : Nat} (l : List (BitVec w)) (k : Nat) (hl : ∀ u ∈ l, u ≠ 0) :
    unitsView (l ++ List.replicate k 0) = l := by
  cases k with
  | zero =>
    simp only [List.replicate, List.append_nil, unitsView]
    rw [if_pos]
    intro h
    exact hl 0 (List.mem_of_getLast? h) rfl
  | succ k =>
    unfold unitsView
    rw [if_neg]
    · rw [List.takeWhile_append_of_pos (by simpa using hl)]
      simp [List.replicate_succ]
    · simp [List.getLast?_append, List.getLast?_replicate]

theorem utf8_length {c : Nat} : (utf8 c).length ≤ 4 := by
  unfold utf8; split; · simp
  split; · simp
  split <;> simp

theorem enc8_eq (cp : BitVec 32) (h0 : cp ≠ 0#32) (h : cp.toNat ≤ 0x10FFFF) : enc8 cp = utf8 cp.toNat := by
  have hne : cp.toNat ≠ 0 := by
    intro hh; apply h0; exact BitVec.eq_of_toNat_eq (by simpa using hh)
  unfold enc8
  rw [encode8_eq cp h, unitsView_pad _ _ (utf8_ne_zero hne h)]

theorem encode16_eq (cp : BitVec 32) (h : cp.toNat ≤ 0x10FFFF) :
    encode16 cp = utf16 cp.toNat ++ List.replicate (2 - (utf16 cp.toNat).length) 0 := by
  unfold encode16
  simp only [BitVec.lt_def, BitVec.toNat_ofNat, Nat.reduceMod, Nat.reducePow]
  split
  · rename_i h1
    unfold utf16
    rw [if_pos h1]
    have e : cp.setWidth 16 = BitVec.ofNat 16 cp.toNat := by
      apply BitVec.eq_of_toNat_eq
      simp [BitVec.toNat_setWidth]
    rw [e]
    rfl
  · rename_i h1
    unfold utf16
    rw [if_neg h1]
    have hs : (cp - 0x10000#32).toNat = cp.toNat - 0x10000 := by
      rw [BitVec.toNat_sub]; simp only [BitVec.toNat_ofNat]; omega
    generalize cp - 0x10000#32 = d at hs
    rw [← hs]
    have hd : d.toNat < 0x100000 := by omega
    have e1 : (0xD800#32 ||| (d >>> 10)).setWidth 16 = BitVec.ofNat 16 (0xD800 + d.toNat / 0x400) := by
      apply BitVec.eq_of_toNat_eq
      simp only [BitVec.toNat_setWidth, BitVec.toNat_or, BitVec.toNat_ushiftRight, BitVec.toNat_ofNat,
        Nat.shiftRight_eq_div_pow]
      rw [show 55296 % 2 ^ 32 = 55296 from rfl, or_add 55296 _ 10 (by omega) (by decide)]
    have e2 : (0xDC00#32 ||| (d &&& 0x3FF#32)).setWidth 16 = BitVec.ofNat 16 (0xDC00 + d.toNat % 0x400) := by
      apply BitVec.eq_of_toNat_eq
      simp only [BitVec.toNat_setWidth, BitVec.toNat_or, BitVec.toNat_and, BitVec.toNat_ofNat]
      rw [show 1023 % 2 ^ 32 = 2 ^ 10 - 1 from rfl, Nat.and_two_pow_sub_one_eq_mod,
        show 56320 % 2 ^ 32 = 56320 from rfl, or_add 56320 _ 10 (Nat.mod_lt _ (by decide)) (by decide)]
      rfl
    rw [e1, e2]
    rfl

theorem utf16_ne_zero {c : Nat} (h0 : c ≠ 0) (hc : c ≤ 0x10FFFF) : ∀ u ∈ utf16 c, u ≠ 0 := by
  have hof : ∀ n, 0 < n → n < 65536 → BitVec.ofNat 16 n ≠ 0 := by
    intro n h1 h2 h
    have := congrArg BitVec.toNat h
    simp only [BitVec.toNat_ofNat] at this
    rw [Nat.mod_eq_of_lt h2] at this
    simp at this; omega
  intro u hu
  unfold utf16 at hu
  split at hu
  · simp at hu; subst hu; exact hof _ (by omega) (by omega)
  · simp at hu; rcases hu with rfl | rfl
    · exact hof _ (by omega) (by omega)
    · exact hof _ (by omega) (by omega)

theorem enc16_eq (cp : BitVec 32) (h0 : cp ≠ 0#32) (h : cp.toNat ≤ 0x10FFFF) : enc16 cp = utf16 cp.toNat := by
  have hne : cp.toNat ≠ 0 := by
    intro hh; apply h0; exact BitVec.eq_of_toNat_eq (by simpa using hh)
  unfold enc16
  rw [encode16_eq cp h, unitsView_pad _ _ (utf16_ne_zero hne h)]

/-! ### utf_find -/

theorem find_cut (pred : BitVec 32 → Option Bool) (rs : List Report) (h : ∀ r ∈ rs, pred r.cp ≠ none) (seen : List Report) :
    let l := cut (fun seen => (seen.getLast?).all fun r => pred r.cp == some false) seen rs
    (l.any (fun r => pred r.cp == none) = false) ∧
    (l.getLast?).filter (fun r => pred r.cp == some true) = rs.find? fun r => pred r.cp == some true := by
  induction rs generalizing seen with
  | nil => simp [cut]
  | cons r rs ih =>
    simp only [cut, List.getLast?_append, List.getLast?_singleton, Option.some_or, Option.all_some]
    have ih := ih (fun x hx => h x (by simp [hx])) (seen ++ [r])
    simp only at ih
    have hr := h r (by simp)
    cases hp : pred r.cp with
    | none => exact absurd hp hr
    | some b =>
      cases b with
      | true => simp [hp]
      | false =>
        simp only [beq_self_eq_true, if_true, List.any_cons, hp]
        refine ⟨by simpa using ih.1, ?_⟩
        rw [List.find?_cons_of_neg (by simp [hp]), ← ih.2]
        cases hc : cut (fun seen => (seen.getLast?).all fun r => pred r.cp == some false) (seen ++ [r]) rs with
        | nil => simp [hp, Option.filter]
        | cons x xs => simp [List.getLast?_cons_cons]

theorem utfFind_eq {υ : Type} {decode : List υ → Bool → Callback → Option (List Report)} {str : List υ} {rev : Bool}
    {rs : List Report} (hne : str ≠ []) (hd : ∀ cb, decode str rev cb = some (cut cb [] rs))
    {pred : BitVec 32 → Option Bool} (hp : ∀ r ∈ rs, pred r.cp ≠ none) :
    utfFind decode str rev pred = some (rs.find? fun r => pred r.cp == some true) := by
  unfold utfFind
  rw [if_neg (by simpa using hne), hd]
  obtain ⟨h1, h2⟩ := find_cut pred rs hp []
  simp only [Option.bind_some]
  rw [h1, h2]
  rfl

theorem reports8_cp {s : Nat} {cs : List Nat} : ∀ r ∈ reports8 s cs, ∃ c ∈ cs, r.cp = BitVec.ofNat 32 c := by
  induction cs generalizing s with
  | nil => simp [reports8]
  | cons c cs ih =>
    intro r hr
    simp only [reports8, List.mem_cons] at hr
    rcases hr with rfl | hr
    · exact ⟨c, by simp, rfl⟩
    · obtain ⟨c', h1, h2⟩ := ih r hr; exact ⟨c', by simp [h1], h2⟩

theorem utf8_length_pos (c : Nat) : 0 < (utf8 c).length := by
  unfold utf8; split; · simp
  split; · simp
  split <;> simp

theorem utf8s_cons (c : Nat) (cs : List Nat) : utf8s (c :: cs) = utf8 c ++ utf8s cs := by
  simp [utf8s]

theorem utf8s_ne_nil {cs : List Nat} (h : cs ≠ []) : utf8s cs ≠ [] := by
  cases cs with
  | nil => exact absurd rfl h
  | cons c cs =>
    rw [utf8s_cons]
    intro h
    have h1 := congrArg List.length h
    have h2 := utf8_length_pos c
    rw [List.length_append, List.length_nil] at h1; omega

/-- first hit of a search over the reports of `pre ++ a :: post`, where nothing in `pre` matches -/
theorem find_reports8 {p : BitVec 32 → Bool} (pre : List Nat) (a : Nat) (post : List Nat) (s : Nat)
    (hpre : ∀ c ∈ pre, p (BitVec.ofNat 32 c) = false) (ha : p (BitVec.ofNat 32 a) = true) :
    (reports8 s (pre ++ a :: post)).find? (fun r => p r.cp) =
      some ⟨BitVec.ofNat 32 a, s + (utf8s pre).length, (utf8 a).length⟩ := by
  induction pre generalizing s with
  | nil => simp [reports8, ha, utf8s]
  | cons c cs ih =>
    simp only [List.cons_append, reports8]
    rw [List.find?_cons_of_neg (by simp [hpre c]), ih _ (fun x hx => hpre x (by simp [hx]))]
    simp only [utf8s_cons, List.length_append]
    congr 2; omega

theorem find_reports8_rev {p : BitVec 32 → Bool} (pre : List Nat) (a : Nat) (post : List Nat) (s : Nat)
    (hpost : ∀ c ∈ post, p (BitVec.ofNat 32 c) = false) (ha : p (BitVec.ofNat 32 a) = true) :
    (reports8 s (pre ++ a :: post)).reverse.find? (fun r => p r.cp) =
      some ⟨BitVec.ofNat 32 a, s + (utf8s pre).length, (utf8 a).length⟩ := by
  rw [reports8_append, List.reverse_append, reports8, List.reverse_cons, List.find?_append, List.find?_append]
  have h1 : List.find? (fun r => p r.cp) (reports8 (s + (utf8s pre).length + (utf8 a).length) post).reverse = none := by
    rw [List.find?_eq_none]
    intro r hr
    obtain ⟨c, hc, e⟩ := reports8_cp r (List.mem_reverse.1 hr)
    rw [e, hpost c hc]; simp
  rw [h1]
  simp [ha]

theorem find_reports8_none {p : BitVec 32 → Bool} (cs : List Nat) (s : Nat)
    (h : ∀ c ∈ cs, p (BitVec.ofNat 32 c) = false) :
    (reports8 s cs).find? (fun r => p r.cp) = none ∧ (reports8 s cs).reverse.find? (fun r => p r.cp) = none := by
  have key : ∀ r ∈ reports8 s cs, ¬ p r.cp = true := by
    intro r hr
    obtain ⟨c, hc, e⟩ := reports8_cp r hr
    rw [e, h c hc]; simp
  constructor
  · rw [List.find?_eq_none]; exact key
  · rw [List.find?_eq_none]; intro r hr; exact key r (List.mem_reverse.1 hr)


/-! ### splitting a list at its first / last non-matching element -/

theorem split_left (ws : Nat → Bool) (cs : List Nat) :
    (∀ c ∈ cs, ws c = true) ∧ cs.dropWhile ws = [] ∨
    ∃ pre a post, cs = pre ++ a :: post ∧ (∀ c ∈ pre, ws c = true) ∧ ws a = false ∧ cs.dropWhile ws = a :: post := by
  induction cs with
  | nil => left; simp
  | cons c cs ih =>
    cases h : ws c with
    | false => right; exact ⟨[], c, cs, rfl, by simp, h, by simp [h]⟩
    | true =>
      rcases ih with ⟨h1, h2⟩ | ⟨pre, a, post, rfl, h1, h2, h3⟩
      · left; constructor
        · simpa [h] using h1
        · simpa [h] using h2
      · right; exact ⟨c :: pre, a, post, rfl, by simpa [h] using h1, h2, by simpa [h] using h3⟩

theorem split_right (ws : Nat → Bool) (cs : List Nat) :
    (∀ c ∈ cs, ws c = true) ∧ (cs.reverse.dropWhile ws).reverse = [] ∨
    ∃ pre a post, cs = pre ++ a :: post ∧ (∀ c ∈ post, ws c = true) ∧ ws a = false ∧
      (cs.reverse.dropWhile ws).reverse = pre ++ [a] := by
  rcases split_left ws cs.reverse with ⟨h1, h2⟩ | ⟨pre, a, post, h0, h1, h2, h3⟩
  · left; exact ⟨by simpa using h1, by simp [h2]⟩
  · right
    refine ⟨post.reverse, a, pre.reverse, ?_, by simpa using h1, h2, by simp [h3]⟩
    have := congrArg List.reverse h0
    simpa using this

theorem utf8s_mid (pre mid post : List Nat) :
    ((utf8s (pre ++ mid ++ post)).drop (utf8s pre).length).take (utf8s mid).length = utf8s mid := by
  rw [utf8s_append, utf8s_append, List.append_assoc, List.drop_left, List.take_left]

theorem utf8s_length_sublist {l1 l2 : List Nat} (h : l1.Sublist l2) : (utf8s l1).length ≤ (utf8s l2).length := by
  induction h with
  | slnil => exact Nat.le_refl _
  | cons a _ ih => rw [utf8s_cons, List.length_append]; omega
  | cons_cons a _ ih => rw [utf8s_cons, utf8s_cons, List.length_append, List.length_append]; omega

end Verif.Proofs
