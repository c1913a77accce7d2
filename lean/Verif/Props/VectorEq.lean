import Verif.Proofs.VectorEq
import Mathlib.Data.List.Forall2

/-! # C138: exact equality of vectors and quaternions -/

namespace Verif.Props.VectorEq

open Verif.Spec.CInt Verif.Spec.Parts Verif.Model.VectorStore Verif.Model.VectorEq Verif.Proofs.VectorStore Verif.Proofs.VectorEq

/-- The components of two vectors are, one by one, the same numbers. -/
def SameParts {n : ℕ} (v w : Store Num n) : Prop := List.Forall₂ Num.Same (parts v) (parts w)

/-- The components of a vector are values of a type. -/
def Of (k : Kind) {n : ℕ} (v : Store Num n) : Prop := ∀ x ∈ parts v, k.Has x

theorem sameParts_iff {n : ℕ} (v w : Store Num n) : SameParts v w ↔ ∀ p ∈ (parts v).zip (parts w), p.1.Same p.2 := by
  unfold SameParts
  rw [List.forall₂_iff_zip]
  constructor
  · rintro ⟨_, h⟩ ⟨x, y⟩ hp; exact h hp
  · intro h
    exact ⟨by rw [parts_length, parts_length], fun hp => h _ hp⟩

/-- Vectors of the same type are equal exactly if their components are. -/
theorem C138_same (k : Kind) {n : ℕ} (v w : Store Num n) : equal k k v w = true ↔ SameParts v w := by
  unfold equal
  rw [all_iff, sameParts_iff]
  simp only [sameAs, if_pos, same_iff]

example : equal (.float 24) (.float 24) (.three (.fin 1) (.inf true) (.fin 0)) (.three (.fin 1) (.inf true) (.fin 0)) = true ∧
    equal (.float 24) (.float 24) (.one .nan) (.one .nan) = false := by
  decide

/-- Vectors of different types whose components are the same numbers are equal, whatever the types. -/
theorem C138_equal_numbers (a b : Kind) {n : ℕ} (v w : Store Num n) (h : SameParts v w) : equal a b v w = true := by
  unfold equal
  rw [all_iff]
  intro p hp
  have := (sameParts_iff v w).1 h p hp
  unfold sameAs
  split_ifs
  · rwa [same_iff]
  · rw [same_iff]; exact cast_same _ this

example : equal (.int ⟨8, true⟩) (.float 24) (.two (.fin (-3)) (.fin 100)) (.two (.fin (-3)) (.fin 100)) = true :=
  C138_equal_numbers _ _ _ _ (by simp [SameParts, parts, Num.Same])

theorem exact_of (a b k : Kind) (hk : match k with | .int t => 0 < t.bits | .float p => 1 ≤ p) (he : a ≠ b → equalityType a b = k)
    {n : ℕ} (v w : Store Num n) (hv : Of k v) (hw : Of k w) : equal a b v w = true ↔ SameParts v w := by
  by_cases hab : a = b
  · subst hab; exact C138_same a v w
  · unfold equal
    rw [all_iff, sameParts_iff]
    refine forall₂_congr fun p hp => ?_
    obtain ⟨h1, h2⟩ := List.of_mem_zip (a := p.1) (b := p.2) hp
    unfold sameAs
    rw [if_neg hab, he hab, same_iff, cast_has hk (hv _ h1), cast_has hk (hw _ h2)]

/-- Vectors of floating-point types, the same or different, are equal exactly if their components are. -/
theorem C138_floats (p q : ℕ) (hp : 1 ≤ p) {n : ℕ} (v w : Store Num n) (hv : Of (.float p) v) (hw : Of (.float q) w) :
    equal (.float p) (.float q) v w = true ↔ SameParts v w := by
  refine exact_of _ _ (.float (max p q)) (by simp; omega) ?_ v w (fun x hx => float_mono (le_max_left _ _) (hv x hx))
    (fun x hx => float_mono (le_max_right _ _) (hw x hx))
  intro h
  unfold equalityType highestRanked
  simp [h, isSigned, isFloat]

/-- Half a unit more or less of a `float` shows in a `double`. -/
example : equal (.float 24) (.float 53) (.one (.fin 1)) (.one (.fin (1 + 2 ^ (-30 : ℤ)))) = false := by
  have h := C138_floats 24 53 (by norm_num) (.one (.fin 1)) (.one (.fin (1 + 2 ^ (-30 : ℤ))))
    (by rintro x hx; simp [parts] at hx; subst hx; exact ⟨1, 0, by norm_num, by norm_num⟩)
    (by rintro x hx; simp [parts] at hx; subst hx; exact ⟨2 ^ 30 + 1, -30, by norm_num, by norm_num⟩)
  rw [← Bool.not_eq_true, h]
  simp only [SameParts, parts, Num.Same, List.forall₂_cons]
  norm_num

/-- The signed type of two, as wide as arithmetic makes it, is wider than the unsigned type. -/
def SignedWider (s t : Ty) : Prop := (s.signed = true → t.bits < max 32 s.bits) ∧ (t.signed = true → s.bits < max 32 t.bits)

theorem lo_nonpos (t : Ty) : t.lo ≤ 0 := by
  unfold Ty.lo
  have := Proofs.CInt.two_pow_pos (t.bits - 1)
  split <;> omega

theorem arith_signed (s t : Ty) (h : s.signed = true ∨ t.signed = true) (hw : s.signed = t.signed ∨ SignedWider s t) :
    (Model.CInt.arith s t).signed = true := by
  obtain ⟨sb, ss⟩ := s
  obtain ⟨tb, ts⟩ := t
  unfold SignedWider at hw
  unfold Model.CInt.arith Model.CInt.promote
  by_cases h1 : sb < 32 <;> by_cases h2 : tb < 32 <;> cases ss <;> cases ts <;> simp [h1, h2] at h hw ⊢ <;>
    (try split_ifs) <;> simp_all <;> omega

theorem rank_ints (s t : Ty) (hs : 0 < s.bits) (ht : 0 < t.bits) (hne : s ≠ t) : ∃ u : Ty, equalityType (.int s) (.int t) = .int u ∧ 0 < u.bits ∧
    (s.hi ≤ u.hi ∧ t.hi ≤ u.hi) ∧ (s.signed = t.signed ∨ SignedWider s t → u.lo ≤ s.lo ∧ u.lo ≤ t.lo) := by
  have e : equalityType (.int s) (.int t) = highestRanked (.int s) (.int t) := by
    have : promoteSmall (highestRanked (.int s) (.int t)) = highestRanked (.int s) (.int t) := by
      unfold highestRanked
      split_ifs
      · rfl
      · simp only [promoteSmall]
        split_ifs <;> rfl
    unfold equalityType
    rw [this, ite_self]
  rw [e]
  unfold highestRanked
  rw [if_neg (by simpa using hne)]
  dsimp only
  obtain ⟨sb, ss⟩ := s
  obtain ⟨tb, ts⟩ := t
  split_ifs with h1 h2 h3
  · simp at h1
    rcases h1 with ⟨⟨rfl, rfl⟩, rfl, rfl⟩ | ⟨⟨rfl, rfl⟩, rfl, rfl⟩ <;> exact ⟨_, rfl, by decide, by decide, fun _ => by decide⟩
  · simp at h2
    rcases h2 with ⟨⟨rfl, rfl⟩, rfl, rfl⟩ | ⟨⟨rfl, rfl⟩, rfl, rfl⟩ <;> exact ⟨_, rfl, by decide, by decide, fun _ => by decide⟩
  · simp at h3
    rcases h3 with ⟨⟨rfl, rfl⟩, rfl, rfl⟩ | ⟨⟨rfl, rfl⟩, rfl, rfl⟩ <;> exact ⟨_, rfl, by decide, by decide, fun _ => by decide⟩
  · refine ⟨_, rfl, ?_⟩
    have ec : Model.CInt.arith ⟨sb, ss⟩ ⟨tb, ts⟩ = Model.CInt.common ⟨sb, ss⟩ ⟨tb, ts⟩ := by
      unfold Model.CInt.common; rw [if_neg hne]
    refine ⟨by rw [ec]; exact Proofs.CInt.common_bits hs ht, by rw [ec]; exact Proofs.CInt.common_hi hs ht, fun hw => ?_⟩
    by_cases hss : ss = true ∨ ts = true
    · have := arith_signed _ _ hss hw
      rw [ec] at this ⊢
      exact Proofs.CInt.common_lo hs ht this
    · simp at hss
      obtain ⟨rfl, rfl⟩ := hss
      have := lo_nonpos (Model.CInt.arith ⟨sb, false⟩ ⟨tb, false⟩)
      exact ⟨this, this⟩

/-- Vectors of integer types are equal exactly if their components are, provided the types are both signed or both unsigned, or the
signed one is the wider, or no component is negative. -/
theorem C138_integers_partial (s t : Ty) (hs : 0 < s.bits) (ht : 0 < t.bits) {n : ℕ} (v w : Store Num n) (hv : Of (.int s) v) (hw : Of (.int t) w)
    (h : s.signed = t.signed ∨ SignedWider s t ∨ ∀ q : ℚ, .fin q ∈ parts v ++ parts w → 0 ≤ q) :
    equal (.int s) (.int t) v w = true ↔ SameParts v w := by
  by_cases hne : s = t
  · subst hne; exact C138_same _ v w
  · obtain ⟨u, e, hu, ⟨h1, h2⟩, hl⟩ := rank_ints s t hs ht hne
    have up : ∀ (r : Ty), r.hi ≤ u.hi → (s.signed = t.signed ∨ SignedWider s t → u.lo ≤ r.lo) → ∀ x : Num, x ∈ parts v ++ parts w →
        (Kind.int r).Has x → (Kind.int u).Has x := by
      intro r hr hlo x hx hxr
      cases x with
      | fin q =>
        obtain ⟨i, hi, rfl⟩ := hxr
        refine ⟨i, ?_, rfl⟩
        rcases h with h | h | h
        · exact ⟨(hlo (Or.inl h)).trans hi.1, hi.2.trans hr⟩
        · exact ⟨(hlo (Or.inr h)).trans hi.1, hi.2.trans hr⟩
        · exact Proofs.CInt.has_nonneg (by exact_mod_cast h _ hx) (hi.2.trans hr)
      | inf => exact hxr
      | nan => exact hxr
    exact exact_of _ _ (.int u) hu (fun _ => e) v w
      (fun x hx => up s h1 (fun a => (hl a).1) x (List.mem_append_left _ hx) (hv x hx))
      (fun x hx => up t h2 (fun a => (hl a).2) x (List.mem_append_right _ hx) (hw x hx))

/-- A byte and a `short` of the other signedness; and `int` and `unsigned` without negative numbers. -/
example : equal (.int ⟨8, true⟩) (.int ⟨16, false⟩) (.one (.fin (-1))) (.one (.fin 65535)) = false ∧
    equal (.int ⟨32, true⟩) (.int ⟨32, false⟩) (.two (.fin 5) (.fin 6)) (.two (.fin 5) (.fin 7)) = false := by
  constructor
  · have h := C138_integers_partial ⟨8, true⟩ ⟨16, false⟩ (by decide) (by decide) (.one (.fin (-1))) (.one (.fin 65535))
      (by rintro x hx; simp [parts] at hx; subst hx; exact ⟨-1, by decide, by norm_num⟩)
      (by rintro x hx; simp [parts] at hx; subst hx; exact ⟨65535, by decide, by norm_num⟩) (by right; left; simp [SignedWider])
    rw [← Bool.not_eq_true, h]
    simp only [SameParts, parts, Num.Same, List.forall₂_cons]
    norm_num
  · have h := C138_integers_partial ⟨32, true⟩ ⟨32, false⟩ (by decide) (by decide) (.two (.fin 5) (.fin 6)) (.two (.fin 5) (.fin 7))
      (by rintro x hx; simp [parts] at hx; rcases hx with rfl | rfl; exacts [⟨5, by decide, by norm_num⟩, ⟨6, by decide, by norm_num⟩])
      (by rintro x hx; simp [parts] at hx; rcases hx with rfl | rfl; exacts [⟨5, by decide, by norm_num⟩, ⟨7, by decide, by norm_num⟩])
      (by
        right; right
        intro q hq
        simp [parts] at hq
        rcases hq with rfl | rfl | rfl | rfl <;> norm_num)
    rw [← Bool.not_eq_true, h]
    simp only [SameParts, parts, Num.Same, List.forall₂_cons]
    norm_num

/-- "Exactly equal" fails if a signed type meets an unsigned type as wide: a vector of `int` with `-1` equals a vector of `unsigned`
with `4294967295`. -/
theorem C138_signs_violated : ∃ v w : Store Num 1, Of (.int ⟨32, true⟩) v ∧ Of (.int ⟨32, false⟩) w ∧
    equal (.int ⟨32, true⟩) (.int ⟨32, false⟩) v w = true ∧ ¬SameParts v w := by
  refine ⟨.one (.fin (-1)), .one (.fin 4294967295), ?_, ?_, by decide +kernel, ?_⟩
  · rintro x hx; simp [parts] at hx; subst hx; exact ⟨-1, by decide, by norm_num⟩
  · rintro x hx; simp [parts] at hx; subst hx; exact ⟨4294967295, by decide, by norm_num⟩
  · simp only [SameParts, parts, Num.Same, List.forall₂_cons]
    norm_num

theorem int_as_float {t : Ty} {p : ℕ} {x : Num} (h : (Kind.int t).Has x) (hb : ∀ q : ℚ, x = .fin q → |q| ≤ 2 ^ p) : (Kind.float p).Has x := by
  cases x with
  | fin q =>
    obtain ⟨i, _, rfl⟩ := h
    refine ⟨i, 0, ?_, by simp⟩
    exact_mod_cast hb _ rfl
  | inf => exact h.elim
  | nan => exact h.elim

/-- A vector of an integer type and one of a floating-point type (at least as precise as `float`, or `half`, which is promoted) are
equal exactly if their components are, provided the integers are not larger than the significant bits can count. -/
theorem C138_int_float_partial (t : Ty) (p : ℕ) (hp : 11 ≤ p) {n : ℕ} (v w : Store Num n) (hv : Of (.int t) v) (hw : Of (.float p) w)
    (h : ∀ q : ℚ, .fin q ∈ parts v → |q| ≤ 2 ^ (if p = 11 then 24 else p)) :
    equal (.int t) (.float p) v w = true ↔ SameParts v w := by
  have e : equalityType (.int t) (.float p) = .float (if p = 11 then 24 else p) := by
    unfold equalityType highestRanked
    simp only [isSigned, isFloat, promoteSmall]
    rw [if_pos (by simp)]
    by_cases h11 : p = 11
    · simp [h11]
    · have : ¬p ≤ 11 := by omega
      simp [this, h11]
  refine exact_of _ _ (.float (if p = 11 then 24 else p)) (by dsimp only; split_ifs <;> omega) (fun _ => e) v w
    (fun x hx => int_as_float (hv x hx) (fun q hq => h q (by rw [← hq]; exact hx))) (fun x hx => float_mono ?_ (hw x hx))
  split_ifs <;> omega

example : equal (.int ⟨64, true⟩) (.float 53) (.one (.fin (2 ^ 53))) (.one (.fin (2 ^ 53 - 1))) = false := by
  have h := C138_int_float_partial ⟨64, true⟩ 53 (by norm_num) (.one (.fin (2 ^ 53))) (.one (.fin (2 ^ 53 - 1)))
    (by rintro x hx; simp [parts] at hx; subst hx; exact ⟨2 ^ 53, by decide, by norm_num⟩)
    (by rintro x hx; simp [parts] at hx; subst hx; exact ⟨2 ^ 53 - 1, 0, by norm_num, by norm_num⟩)
    (by intro q hq; simp [parts] at hq; subst hq; norm_num)
  rw [← Bool.not_eq_true, h]
  simp only [SameParts, parts, Num.Same, List.forall₂_cons]
  norm_num

/-- Beyond that "exactly equal" fails: a vector of `int` with `16777217` equals a vector of `float` with `16777216`. -/
theorem C138_large_violated : ∃ v w : Store Num 1, Of (.int ⟨32, true⟩) v ∧ Of (.float 24) w ∧
    equal (.int ⟨32, true⟩) (.float 24) v w = true ∧ ¬SameParts v w := by
  refine ⟨.one (.fin 16777217), .one (.fin 16777216), ?_, ?_, ?_, ?_⟩
  · rintro x hx; simp [parts] at hx; subst hx; exact ⟨16777217, by decide, by norm_num⟩
  · rintro x hx; simp [parts] at hx; subst hx; exact ⟨16777216, 0, by norm_num, by norm_num⟩
  · have r1 : Spec.Float.rnd 24 16777217 = 16777216 := by
      rw [Proofs.Float.rnd_eval 24 16777217 24 (by norm_num) (by norm_num)]
      norm_num [Spec.Float.roundEven]
    have r2 : Spec.Float.rnd 24 16777216 = 16777216 := by
      have := Proofs.Float.rnd_exact 24 (by norm_num) 16777216 0 (by norm_num)
      simpa using this
    have e : equalityType (.int ⟨32, true⟩) (.float 24) = .float 24 := by decide
    simp only [equal, all, sameAs, e, convertTo, r1, r2]
    rfl
  · simp only [SameParts, parts, Num.Same, List.forall₂_cons]
    norm_num

/-- The order of the two vectors does not matter. -/
theorem C138_symmetric (a b : Kind) {n : ℕ} (v w : Store Num n) : equal a b v w = equal b a w v := by
  unfold equal
  rw [all_parts, all_parts, zipWith_comm' _ _ (sameAs_comm a b)]

/-- `!=` says the opposite of `==`. -/
theorem C138_not_equal (a b : Kind) {n : ℕ} (v w : Store Num n) : notEqual a b v w = true ↔ ¬equal a b v w = true := by
  simp [notEqual]

/-- `zero` holds if every component is zero, and `infinity_or_nan` of a floating-point vector if some component is. -/
theorem C138_zero {n : ℕ} (v : Store Num n) :
    (zero v = true ↔ ∀ x ∈ parts v, x = .fin 0) ∧
    ∀ k, Of k v → (infinityOrNan k v = true ↔ ∃ x ∈ parts v, (∃ s, x = .inf s) ∨ x = .nan) := by
  constructor
  · unfold zero
    rw [all_iff]
    constructor
    · intro h x hx
      obtain ⟨i, hi, rfl⟩ := List.mem_iff_getElem.1 hx
      have := h ((parts v)[i], (parts v)[i]) (by rw [List.mem_iff_getElem]; exact ⟨i, by simpa using hi, by simp⟩)
      generalize (parts v)[i] = y at this ⊢
      cases y <;> simp_all [same]
    · intro h p hp
      rw [h p.1 (List.of_mem_zip (a := p.1) (b := p.2) hp).1]
      simp [same]
  · intro k hk
    unfold infinityOrNan
    cases k with
    | int t =>
      simp only [isFloat, Bool.false_eq_true, if_false, false_iff]
      rintro ⟨x, hx, h⟩
      have := hk x hx
      rcases h with ⟨s, rfl⟩ | rfl <;> exact this
    | float p =>
      simp only [isFloat, if_true]
      rw [any_parts, List.any_eq_true]
      refine exists_congr fun x => and_congr_right fun _ => ?_
      cases x <;> simp

example : zero (.two (.fin 0) (.fin 0)) = true ∧ zero (.two (.fin 0) .nan) = false ∧ infinityOrNan (.float 24) (.two (.fin 0) .nan) = true := by
  decide

/-- Quaternions of floating-point types, the same or different, are equal exactly if their scalars and vectors are. -/
theorem C138_quaternions (p q : ℕ) (hp : 1 ≤ p) (a b : Quaternion) (ha : (Kind.float p).Has a.s ∧ Of (.float p) a.v)
    (hb : (Kind.float q).Has b.s ∧ Of (.float q) b.v) :
    quaternionEqual (.float p) (.float q) a b = true ↔ a.s.Same b.s ∧ SameParts a.v b.v := by
  have hv := C138_floats p q hp a.v b.v ha.2 hb.2
  have hs := C138_floats p q hp (.one a.s) (.one b.s) (by rintro x hx; simp [parts] at hx; subst hx; exact ha.1)
    (by rintro x hx; simp [parts] at hx; subst hx; exact hb.1)
  have hs' : sameAs (.float p) (.float q) a.s b.s = true ↔ a.s.Same b.s := by
    simpa [equal, all, SameParts, parts] using hs
  unfold quaternionEqual
  rw [← hv, ← hs']
  unfold sameAs
  split_ifs with h1 h2
  · simp
  · simp_all
  · simp_all

example : quaternionEqual (.float 24) (.float 53) ⟨.fin 1, .three (.fin 0) (.fin 0) (.fin 0)⟩ ⟨.fin 1, .three (.fin 0) (.fin 0) (.fin 0)⟩ = true := by
  refine (C138_quaternions 24 53 (by norm_num) ⟨.fin 1, .three (.fin 0) (.fin 0) (.fin 0)⟩ ⟨.fin 1, .three (.fin 0) (.fin 0) (.fin 0)⟩
    ⟨?_, ?_⟩ ⟨?_, ?_⟩).2 ⟨rfl, by simp [SameParts, parts, Num.Same]⟩
  · exact ⟨1, 0, by norm_num, by norm_num⟩
  · rintro x hx
    simp [parts] at hx
    subst hx
    exact ⟨0, 0, by norm_num, by norm_num⟩
  · exact ⟨1, 0, by norm_num, by norm_num⟩
  · rintro x hx
    simp [parts] at hx
    subst hx
    exact ⟨0, 0, by norm_num, by norm_num⟩

end Verif.Props.VectorEq
