import Verif.Proofs.Strings
import Verif.Proofs.Endian
import Verif.Spec.Trim
import Mathlib.Data.List.Induction
/-! Text in encodings with one code unit per code point: UTF-32, and UTF-16 without surrogates. -/
namespace Verif.Proofs
open Verif.Spec Verif.Model

/-- the code units of a text, one per code point -/
def unitsOf (w : Nat) (cs : List Nat) : List (BitVec w) := cs.map (BitVec.ofNat w)

theorem unitReports_append {w : Nat} (s : Nat) (xs ys : List (BitVec w)) :
    unitReports s (xs ++ ys) = unitReports s xs ++ unitReports (s + xs.length) ys := by
  induction xs generalizing s with
  | nil => rfl
  | cons x xs ih =>
    simp only [List.cons_append, unitReports, ih, List.length_cons]
    congr 3; omega

theorem unitReports_cp {w : Nat} {s : Nat} {cs : List Nat} (hw : w ≤ 32) (hcs : ∀ c ∈ cs, c < 2 ^ w) :
    ∀ r ∈ unitReports s (unitsOf w cs), ∃ c ∈ cs, r.cp = BitVec.ofNat 32 c := by
  induction cs generalizing s with
  | nil => simp [unitReports, unitsOf]
  | cons c cs ih =>
    intro r hr
    simp only [unitReports, unitsOf, List.map_cons, List.mem_cons] at hr
    rcases hr with rfl | hr
    · refine ⟨c, by simp, ?_⟩
      have := hcs c (by simp)
      apply BitVec.eq_of_toNat_eq
      have h32 : 2 ^ w ≤ 2 ^ 32 := Nat.pow_le_pow_right (by decide) hw
      simp only [BitVec.toNat_setWidth, BitVec.toNat_ofNat]
      rw [Nat.mod_eq_of_lt this]
    · obtain ⟨c', h1, h2⟩ := ih (fun x hx => hcs x (by simp [hx])) r hr; exact ⟨c', by simp [h1], h2⟩

theorem unit_cp {w c : Nat} (h : c < 2 ^ w) : (BitVec.ofNat w c).setWidth 32 = BitVec.ofNat 32 c := by
  apply BitVec.eq_of_toNat_eq
  simp only [BitVec.toNat_setWidth, BitVec.toNat_ofNat]
  rw [Nat.mod_eq_of_lt h]

theorem find_units {w : Nat} {p : BitVec 32 → Bool} (pre : List Nat) (a : Nat) (post : List Nat) (s : Nat)
    (hw : ∀ c ∈ pre ++ a :: post, c < 2 ^ w)
    (hpre : ∀ c ∈ pre, p (BitVec.ofNat 32 c) = false) (ha : p (BitVec.ofNat 32 a) = true) :
    (unitReports s (unitsOf w (pre ++ a :: post))).find? (fun r => p r.cp) = some ⟨BitVec.ofNat 32 a, s + pre.length, 1⟩ := by
  induction pre generalizing s with
  | nil => simp [unitReports, unitsOf, unit_cp (hw a (by simp)), ha]
  | cons c cs ih =>
    simp only [List.cons_append, unitReports, unitsOf, List.map_cons]
    rw [List.find?_cons_of_neg (by simp [unit_cp (hw c (by simp)), hpre c])]
    have := ih (s + 1) (fun x hx => hw x (by simp at hx ⊢; right; exact hx)) (fun x hx => hpre x (by simp [hx]))
    simp only [unitsOf] at this
    rw [this]
    simp only [List.length_cons]
    congr 2; omega

theorem find_units_rev {w : Nat} {p : BitVec 32 → Bool} (hw32 : w ≤ 32) (pre : List Nat) (a : Nat) (post : List Nat) (s : Nat)
    (hw : ∀ c ∈ pre ++ a :: post, c < 2 ^ w)
    (hpost : ∀ c ∈ post, p (BitVec.ofNat 32 c) = false) (ha : p (BitVec.ofNat 32 a) = true) :
    (unitReports s (unitsOf w (pre ++ a :: post))).reverse.find? (fun r => p r.cp) =
      some ⟨BitVec.ofNat 32 a, s + pre.length, 1⟩ := by
  have e : unitsOf w (pre ++ a :: post) = unitsOf w pre ++ (BitVec.ofNat w a :: unitsOf w post) := by simp [unitsOf]
  rw [e, unitReports_append, List.reverse_append, unitReports, List.reverse_cons, List.find?_append, List.find?_append]
  have h1 : List.find? (fun r => p r.cp) (unitReports (s + (unitsOf w pre).length + 1) (unitsOf w post)).reverse = none := by
    rw [List.find?_eq_none]
    intro r hr
    obtain ⟨c, hc, e⟩ := unitReports_cp hw32 (fun x hx => hw x (by simp [hx])) r (List.mem_reverse.1 hr)
    rw [e, hpost c hc]; simp
  rw [h1]
  simp [ha, unit_cp (hw a (by simp)), unitsOf]

theorem find_units_none {w : Nat} {p : BitVec 32 → Bool} (hw32 : w ≤ 32) (cs : List Nat) (s : Nat) (hw : ∀ c ∈ cs, c < 2 ^ w)
    (h : ∀ c ∈ cs, p (BitVec.ofNat 32 c) = false) :
    (unitReports s (unitsOf w cs)).find? (fun r => p r.cp) = none := by
  rw [List.find?_eq_none]
  intro r hr
  obtain ⟨c, hc, e⟩ := unitReports_cp hw32 hw r hr
  rw [e, h c hc]; simp

theorem trim_units {w : Nat} (hw32 : w ≤ 32) (decode : List (BitVec w) → Bool → Callback → Option (List Report))
    (pred : BitVec 32 → Option Bool) (cs : List Nat) (hw : ∀ c ∈ cs, c < 2 ^ w)
    (hf : ∀ cb, decode (unitsOf w cs) false cb = some (cut cb [] (unitReports 0 (unitsOf w cs))))
    (hr : ∀ cb, decode (unitsOf w cs) true cb = some (cut cb [] (unitReports 0 (unitsOf w cs)).reverse))
    (hp : ∀ c ∈ cs, pred (BitVec.ofNat 32 c) = some (!isWs c)) (hlen : cs.length < 2 ^ 64) :
    predicatedTrim decode pred (unitsOf w cs) = some (unitsOf w (trimmed cs)) := by
  by_cases hne : cs = []
  · subst hne; rfl
  have hune : unitsOf w cs ≠ [] := by simpa [unitsOf] using hne
  have hdef : ∀ r ∈ unitReports 0 (unitsOf w cs), pred r.cp ≠ none := by
    intro r hr
    obtain ⟨c, hc, e⟩ := unitReports_cp hw32 hw r hr
    rw [e, hp c hc]; simp
  have f1 := utfFind_eq hune hf hdef
  have f2 := utfFind_eq hune hr (fun r h => hdef r (List.mem_reverse.1 h))
  have hhit : ∀ c ∈ cs, (pred (BitVec.ofNat 32 c) == some true) = !isWs c := by
    intro c hc
    rw [hp c hc]
    cases isWs c <;> rfl
  unfold predicatedTrim
  rw [if_neg (by simpa using hune), f1, Option.bind_some]
  unfold trimmed trimmedLeft trimmedRight
  rcases split_left isWs cs with ⟨h1, h2⟩ | ⟨pre, a, post, hc1, h1, h2, h3⟩
  · have := find_units_none (p := fun x => pred x == some true) hw32 cs 0 hw (fun c hc => by rw [hhit c hc, h1 c hc]; rfl)
    rw [this, h2]
    rfl
  · have hfirst := find_units (p := fun x => pred x == some true) pre a post 0 (by rw [← hc1]; exact hw)
      (fun c hc => by rw [hhit c (by simp [hc1, hc]), h1 c hc]; rfl)
      (by rw [hhit a (by simp [hc1]), h2]; rfl)
    rw [← hc1] at hfirst
    rw [hfirst]
    simp only [f2]
    rw [h3]
    rcases split_right isWs (a :: post) with ⟨g1, _⟩ | ⟨pre', b, post', hc2, g1, g2, g3⟩
    · have := g1 a (by simp); rw [h2] at this; cases this
    · have hcs2 : cs = (pre ++ pre') ++ b :: post' := by rw [hc1, hc2]; simp
      have hlast := find_units_rev (p := fun x => pred x == some true) hw32 (pre ++ pre') b post' 0 (by rw [← hcs2]; exact hw)
        (fun c hc => by rw [hhit c (by simp [hcs2, hc]), g1 c hc]; rfl)
        (by rw [hhit b (by simp [hcs2]), g2]; rfl)
      rw [← hcs2] at hlast
      rw [hlast, g3]
      simp only [Option.bind_some, Nat.zero_add, substr]
      have hl : cs.length = pre.length + pre'.length + 1 + post'.length := by rw [hcs2]; simp; omega
      have hul : (unitsOf w cs).length = cs.length := by simp [unitsOf]
      rw [if_pos (by omega)]
      have hl3 : ((pre ++ pre').length + 1 + (2 ^ 64 - pre.length)) % 2 ^ 64 = (pre' ++ [b]).length := by
        simp only [List.length_append, List.length_cons, List.length_nil]
        omega
      rw [hl3]
      congr 1
      have e : unitsOf w cs = unitsOf w pre ++ (unitsOf w (pre' ++ [b]) ++ unitsOf w post') := by
        rw [hcs2]; simp [unitsOf]
      have hp1 : pre.length = (unitsOf w pre).length := by simp [unitsOf]
      have hp2 : (pre' ++ [b]).length = (unitsOf w (pre' ++ [b])).length := by simp [unitsOf]
      rw [e, hp1, hp2, List.drop_left, List.take_left]

theorem trimLeft_units {w : Nat} (hw32 : w ≤ 32) (decode : List (BitVec w) → Bool → Callback → Option (List Report))
    (pred : BitVec 32 → Option Bool) (cs : List Nat) (hw : ∀ c ∈ cs, c < 2 ^ w)
    (hf : ∀ cb, decode (unitsOf w cs) false cb = some (cut cb [] (unitReports 0 (unitsOf w cs))))
    (hp : ∀ c ∈ cs, pred (BitVec.ofNat 32 c) = some (!isWs c)) :
    predicatedTrimLeft decode pred (unitsOf w cs) = some (unitsOf w (trimmedLeft cs)) := by
  by_cases hne : cs = []
  · subst hne; rfl
  have hune : unitsOf w cs ≠ [] := by simpa [unitsOf] using hne
  have hdef : ∀ r ∈ unitReports 0 (unitsOf w cs), pred r.cp ≠ none := by
    intro r hr
    obtain ⟨c, hc, e⟩ := unitReports_cp hw32 hw r hr
    rw [e, hp c hc]; simp
  have f1 := utfFind_eq hune hf hdef
  have hhit : ∀ c ∈ cs, (pred (BitVec.ofNat 32 c) == some true) = !isWs c := by
    intro c hc
    rw [hp c hc]
    cases isWs c <;> rfl
  unfold predicatedTrimLeft trimmedLeft
  rw [if_neg (by simpa using hune), f1, Option.bind_some]
  rcases split_left isWs cs with ⟨h1, h2⟩ | ⟨pre, a, post, hc1, h1, h2, h3⟩
  · have := find_units_none (p := fun x => pred x == some true) hw32 cs 0 hw (fun c hc => by rw [hhit c hc, h1 c hc]; rfl)
    rw [this, h2]
    rfl
  · have hfirst := find_units (p := fun x => pred x == some true) pre a post 0 (by rw [← hc1]; exact hw)
      (fun c hc => by rw [hhit c (by simp [hc1, hc]), h1 c hc]; rfl)
      (by rw [hhit a (by simp [hc1]), h2]; rfl)
    rw [← hc1] at hfirst
    rw [hfirst, h3]
    simp only [substr, Nat.zero_add]
    have e : unitsOf w cs = unitsOf w pre ++ unitsOf w (a :: post) := by rw [hc1]; simp [unitsOf]
    have hp1 : pre.length = (unitsOf w pre).length := by simp [unitsOf]
    rw [if_pos (by rw [e, List.length_append, hp1]; omega)]
    rw [List.take_of_length_le (by rw [List.length_drop]; omega), e, hp1, List.drop_left]

theorem trimRight_units {w : Nat} (hw32 : w ≤ 32) (decode : List (BitVec w) → Bool → Callback → Option (List Report))
    (pred : BitVec 32 → Option Bool) (cs : List Nat) (hw : ∀ c ∈ cs, c < 2 ^ w)
    (hr : ∀ cb, decode (unitsOf w cs) true cb = some (cut cb [] (unitReports 0 (unitsOf w cs)).reverse))
    (hp : ∀ c ∈ cs, pred (BitVec.ofNat 32 c) = some (!isWs c)) :
    predicatedTrimRight decode pred (unitsOf w cs) = some (unitsOf w (trimmedRight cs)) := by
  by_cases hne : cs = []
  · subst hne; rfl
  have hune : unitsOf w cs ≠ [] := by simpa [unitsOf] using hne
  have hdef : ∀ r ∈ (unitReports 0 (unitsOf w cs)).reverse, pred r.cp ≠ none := by
    intro r hr
    obtain ⟨c, hc, e⟩ := unitReports_cp hw32 hw r (List.mem_reverse.1 hr)
    rw [e, hp c hc]; simp
  have f2 := utfFind_eq hune hr hdef
  have hhit : ∀ c ∈ cs, (pred (BitVec.ofNat 32 c) == some true) = !isWs c := by
    intro c hc
    rw [hp c hc]
    cases isWs c <;> rfl
  unfold predicatedTrimRight trimmedRight
  rw [if_neg (by simpa using hune), f2, Option.bind_some]
  rcases split_right isWs cs with ⟨h1, h2⟩ | ⟨pre, a, post, hc1, h1, h2, h3⟩
  · have : List.find? (fun r => pred r.cp == some true) (unitReports 0 (unitsOf w cs)).reverse = none := by
      rw [List.find?_eq_none]
      intro r hr
      obtain ⟨c, hc, e⟩ := unitReports_cp hw32 hw r (List.mem_reverse.1 hr)
      rw [e, hhit c hc, h1 c hc]; simp
    rw [this, h2]
    rfl
  · have hlast := find_units_rev (p := fun x => pred x == some true) hw32 pre a post 0 (by rw [← hc1]; exact hw)
      (fun c hc => by rw [hhit c (by simp [hc1, hc]), h1 c hc]; rfl)
      (by rw [hhit a (by simp [hc1]), h2]; rfl)
    rw [← hc1] at hlast
    rw [hlast, h3]
    simp only [substr, Nat.zero_le, if_true, List.drop_zero, Nat.zero_add]
    have e : unitsOf w cs = unitsOf w (pre ++ [a]) ++ unitsOf w post := by rw [hc1]; simp [unitsOf]
    have hp1 : pre.length + 1 = (unitsOf w (pre ++ [a])).length := by simp [unitsOf]
    rw [e, hp1, List.take_left]

/-- reverse traversal of UTF-16 without surrogates -/
theorem revL_bmp (us : List (BitVec 16)) (hs : ∀ u ∈ us, u.toNat < 0xD800 ∨ 0xE000 ≤ u.toNat) (d : Utf16Decoder)
    (hd : d.state = .initial ∨ d.state = .hasCodepoint) (start : Nat) :
    revL utf16Ops (·.zeroExtend 32) isBoundary16 2 start us.reverse d [] = (unitReports start us).reverse := by
  induction us using List.reverseRecOn generalizing d with
  | nil => rfl
  | append_singleton us u ih =>
    have hu := hs u (by simp)
    have hb : Utf16Decoder.unitClass u = .basicMultilingual := by
      unfold Utf16Decoder.unitClass
      rw [if_neg, if_neg]
      · simp only [BitVec.le_def, BitVec.toNat_ofNat]; omega
      · simp only [BitVec.le_def, BitVec.toNat_ofNat]; omega
    have hf : utf16Ops.feed d u = { codepoint := u.zeroExtend 32, state := .hasCodepoint } := by
      show d.feed u = _
      rcases hd with hd | hd <;> simp only [Utf16Decoder.feed, hb, hd]
    have hbd : isBoundary16 u = true := by
      unfold isBoundary16
      simp only [Bool.or_eq_true, decide_eq_true_eq, BitVec.le_def, ge_iff_le, BitVec.toNat_ofNat]
      omega
    rw [List.reverse_append, List.reverse_singleton, List.singleton_append, unitReports_append, List.reverse_append]
    rw [revL]
    simp only [hbd, Bool.or_true, if_true, feedL, hf]
    have he : utf16Ops.error { codepoint := u.zeroExtend 32, state := .hasCodepoint } = false := rfl
    have hv : utf16Ops.hasValue { codepoint := u.zeroExtend 32, state := .hasCodepoint } = true := rfl
    simp only [he, hv, if_true, Bool.false_eq_true, if_false]
    rw [ih (fun x hx => hs x (by simp [hx])) _ (Or.inr rfl)]
    simp only [unitReports, List.reverse_cons, List.reverse_nil, List.nil_append, List.length_reverse, List.singleton_append,
      List.length_cons, List.length_nil]
    rfl

theorem trimmed_subset {cs : List Nat} : ∀ c ∈ trimmed cs, c ∈ cs := by
  intro c hc
  unfold trimmed trimmedLeft trimmedRight at hc
  have h1 := List.mem_reverse.1 hc
  have h2 := List.mem_reverse.1 ((List.dropWhile_suffix _).subset h1)
  exact (List.dropWhile_suffix _).subset h2

theorem trimmed_sublist (cs : List Nat) : (trimmed cs).Sublist cs := by
  unfold trimmed trimmedLeft trimmedRight
  refine List.Sublist.trans ?_ (List.dropWhile_sublist isWs)
  have := (List.dropWhile_sublist (l := (List.dropWhile isWs cs).reverse) isWs).reverse
  simpa using this

theorem trimmed_idem (cs : List Nat) : trimmed (trimmed cs) = trimmed cs := by
  unfold trimmed
  have hlft : trimmedLeft (trimmedRight (trimmedLeft cs)) = trimmedRight (trimmedLeft cs) := by
    unfold trimmedLeft trimmedRight
    rcases split_left isWs cs with ⟨_, h⟩ | ⟨pre, a, post, _, _, h2, h⟩
    · rw [h]; rfl
    · rw [h]
      rcases split_right isWs (a :: post) with ⟨_, h'⟩ | ⟨pre', b, post', hc2, _, g2, h'⟩
      · rw [h']; rfl
      · rw [h']
        cases pre' with
        | nil => simp [g2]
        | cons x xs =>
          simp only [List.cons_append, List.cons.injEq] at hc2
          rw [← hc2.1]
          simp [h2]
  rw [hlft]
  unfold trimmedRight
  rw [List.reverse_reverse]
  congr 1
  rcases split_left isWs (trimmedLeft cs).reverse with ⟨_, h⟩ | ⟨pre, a, post, _, _, h2, h⟩
  · rw [h]; rfl
  · rw [h]; simp [h2]

end Verif.Proofs
