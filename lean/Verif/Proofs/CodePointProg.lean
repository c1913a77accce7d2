import Verif.Model.CodePointProg
import Verif.Spec.Ucd

/-! Interval evaluation of code point predicates: if a predicate can be evaluated on a whole interval at once the
result holds for every element. -/
namespace Verif.Proofs.CodePoint
open Verif.Model.CodePoint Verif.Spec

def expI (lo hi : Nat) : Exp → Option (Nat × Nat)
  | .c => some (lo, hi)
  | .sub bits e k => (expI lo hi e).bind fun r =>
      if Nat.ble k r.1 && Nat.blt r.2 (2 ^ bits) then some (r.1 - k, r.2 - k) else none
  | .add bits e k => (expI lo hi e).bind fun r =>
      if Nat.blt (r.2 + k) (2 ^ bits) then some (r.1 + k, r.2 + k) else none
  | .div e k => (expI lo hi e).map fun r => (r.1 / k, r.2 / k)
  | .mod e k => (expI lo hi e).bind fun r =>
      if Nat.beq (r.1 / k) (r.2 / k) then some (r.1 % k, r.2 % k) else none

theorem expI_sound {lo hi c : Nat} (h1 : lo ≤ c) (h2 : c ≤ hi) :
    ∀ {e : Exp} {a b : Nat}, expI lo hi e = some (a, b) → a ≤ e.eval c ∧ e.eval c ≤ b
  | .c, a, b, h => by
    simp only [expI, Option.some.injEq, Prod.mk.injEq] at h
    simp only [Exp.eval]; omega
  | .sub bits e k, a, b, h => by
    simp only [expI] at h
    cases he : expI lo hi e with
    | none => simp [he] at h
    | some r =>
      obtain ⟨x, y⟩ := r
      obtain ⟨i1, i2⟩ := expI_sound h1 h2 he
      simp only [he, Option.bind_some] at h
      split at h
      · rename_i hc
        simp only [Bool.and_eq_true, Nat.ble_eq, Nat.blt_eq] at hc
        simp only [Option.some.injEq, Prod.mk.injEq] at h
        simp only [Exp.eval]
        have : (e.eval c + 2 ^ bits - k) % 2 ^ bits = e.eval c - k := by
          rw [show e.eval c + 2 ^ bits - k = (e.eval c - k) + 2 ^ bits by omega, Nat.add_mod_right,
            Nat.mod_eq_of_lt (by omega)]
        rw [this]; omega
      · simp at h
  | .add bits e k, a, b, h => by
    simp only [expI] at h
    cases he : expI lo hi e with
    | none => simp [he] at h
    | some r =>
      obtain ⟨x, y⟩ := r
      obtain ⟨i1, i2⟩ := expI_sound h1 h2 he
      simp only [he, Option.bind_some] at h
      split at h
      · rename_i hc
        simp only [Nat.blt_eq] at hc
        simp only [Option.some.injEq, Prod.mk.injEq] at h
        simp only [Exp.eval]
        rw [Nat.mod_eq_of_lt (by omega)]; omega
      · simp at h
  | .div e k, a, b, h => by
    simp only [expI] at h
    cases he : expI lo hi e with
    | none => simp [he] at h
    | some r =>
      obtain ⟨x, y⟩ := r
      obtain ⟨i1, i2⟩ := expI_sound h1 h2 he
      simp only [he, Option.map_some, Option.some.injEq, Prod.mk.injEq] at h
      simp only [Exp.eval]
      exact ⟨h.1 ▸ Nat.div_le_div_right i1, h.2 ▸ Nat.div_le_div_right i2⟩
  | .mod e k, a, b, h => by
    simp only [expI] at h
    cases he : expI lo hi e with
    | none => simp [he] at h
    | some r =>
      obtain ⟨x, y⟩ := r
      obtain ⟨i1, i2⟩ := expI_sound h1 h2 he
      simp only [he, Option.bind_some] at h
      split at h
      · rename_i hc
        simp only [Nat.beq_eq] at hc
        simp only [Option.some.injEq, Prod.mk.injEq] at h
        simp only [Exp.eval]
        have d1 := Nat.div_le_div_right (c := k) i1
        have d2 := Nat.div_le_div_right (c := k) i2
        have e1 := Nat.div_add_mod x k
        have e2 := Nat.div_add_mod y k
        have e3 := Nat.div_add_mod (e.eval c) k
        have q1 : e.eval c / k = x / k := by omega
        rw [q1] at e3; rw [← hc] at e2
        omega
      · simp at h

/-- bits `a..b` of `m` are all equal to the result -/
def bitsI (m a b : Nat) : Option Bool :=
  let x := (m >>> a) % 2 ^ (b + 1 - a)
  if Nat.beq x 0 then some false else if Nat.beq x (2 ^ (b + 1 - a) - 1) then some true else none

theorem bitsI_sound {m a b i : Nat} {v : Bool} (h : bitsI m a b = some v) (h1 : a ≤ i) (h2 : i ≤ b) :
    m.testBit i = v := by
  have hb : ((m >>> a) % 2 ^ (b + 1 - a)).testBit (i - a) = m.testBit i := by
    rw [Nat.testBit_mod_two_pow, Nat.testBit_shiftRight, show a + (i - a) = i by omega]
    simp; omega
  rw [← hb]
  unfold bitsI at h
  simp only at h
  split at h
  · rename_i hc
    rw [Nat.eq_of_beq_eq_true hc]; simp at h; simp [← h]
  · split at h
    · rename_i hc
      rw [Nat.eq_of_beq_eq_true hc, Nat.testBit_two_pow_sub_one]
      simp at h; subst h; simp; omega
    · simp at h

def cmpI (r : Nat × Nat) (k : Nat) : Option Bool :=
  if Nat.blt k r.1 || Nat.blt r.2 k then some false
  else if Nat.beq r.1 k && Nat.beq r.2 k then some true else none

theorem cmpI_sound {r : Nat × Nat} {k x : Nat} {v : Bool} (h : cmpI r k = some v) (h1 : r.1 ≤ x) (h2 : x ≤ r.2) :
    (x == k) = v := by
  unfold cmpI at h
  split at h
  · rename_i hc
    simp only [Bool.or_eq_true, Nat.blt_eq] at hc
    simp at h; subst h; simp; omega
  · split at h
    · rename_i hc
      simp only [Bool.and_eq_true, Nat.beq_eq] at hc
      simp at h; subst h; simp; omega
    · simp at h

/-- outer `none`: cannot tell; inner `none`: undefined behaviour -/
def condI (lo hi : Nat) : Cond → Option (Option Bool)
  | .lit b => some (some b)
  | .lt k => if Nat.blt hi k then some (some true) else if Nat.ble k lo then some (some false) else none
  | .le k => if Nat.ble hi k then some (some true) else if Nat.blt k lo then some (some false) else none
  | .gt k => if Nat.blt k lo then some (some true) else if Nat.ble hi k then some (some false) else none
  | .ge k => if Nat.ble k lo then some (some true) else if Nat.blt hi k then some (some false) else none
  | .eq k => (cmpI (lo, hi) k).map some
  | .ne k => (cmpI (lo, hi) k).map fun b => some (!b)
  | .eqE e k => (expI lo hi e).bind fun r => (cmpI r k).map some
  | .neE e k => (expI lo hi e).bind fun r => (cmpI r k).map fun b => some (!b)
  | .and a b => match condI lo hi a with
    | none => none
    | some none => some none
    | some (some false) => some (some false)
    | some (some true) => condI lo hi b
  | .or a b => match condI lo hi a with
    | none => none
    | some none => some none
    | some (some true) => some (some true)
    | some (some false) => condI lo hi b
  | .bit w e mask => (expI lo hi e).bind fun r =>
      if Nat.ble w r.1 then some none
      else if Nat.blt r.2 w then (bitsI mask r.1 r.2).map some else none
  | .tbl t i s => (expI lo hi i).bind fun r =>
      (expI lo hi s).bind fun q =>
        if Nat.beq r.1 r.2 && Nat.blt q.2 64 then
          match t[r.1]? with
          | some word => (bitsI word q.1 q.2).map some
          | none => some none
        else none

theorem condI_sound {lo hi c : Nat} (h1 : lo ≤ c) (h2 : c ≤ hi) :
    ∀ {q : Cond} {v : Option Bool}, condI lo hi q = some v → q.eval c = v
  | .lit b, v, h => by simpa [condI, Cond.eval] using h
  | .lt k, v, h => by
    simp only [condI] at h
    split at h
    · rename_i hc; rw [Nat.blt_eq] at hc; simp at h; subst h; simp [Cond.eval]; omega
    · split at h
      · rename_i hc; rw [Nat.ble_eq] at hc; simp at h; subst h; simp [Cond.eval]; omega
      · simp at h
  | .le k, v, h => by
    simp only [condI] at h
    split at h
    · rename_i hc; rw [Nat.ble_eq] at hc; simp at h; subst h; simp [Cond.eval]; omega
    · split at h
      · rename_i hc; rw [Nat.blt_eq] at hc; simp at h; subst h; simp [Cond.eval]; omega
      · simp at h
  | .gt k, v, h => by
    simp only [condI] at h
    split at h
    · rename_i hc; rw [Nat.blt_eq] at hc; simp at h; subst h; simp [Cond.eval]; omega
    · split at h
      · rename_i hc; rw [Nat.ble_eq] at hc; simp at h; subst h; simp [Cond.eval]; omega
      · simp at h
  | .ge k, v, h => by
    simp only [condI] at h
    split at h
    · rename_i hc; rw [Nat.ble_eq] at hc; simp at h; subst h; simp [Cond.eval]; omega
    · split at h
      · rename_i hc; rw [Nat.blt_eq] at hc; simp at h; subst h; simp [Cond.eval]; omega
      · simp at h
  | .eq k, v, h => by
    simp only [condI, Option.map_eq_some_iff] at h
    obtain ⟨b, hb, rfl⟩ := h
    simp only [Cond.eval, cmpI_sound hb h1 h2]
  | .ne k, v, h => by
    simp only [condI, Option.map_eq_some_iff] at h
    obtain ⟨b, hb, rfl⟩ := h
    simp only [Cond.eval, bne, cmpI_sound hb h1 h2]
  | .eqE e k, v, h => by
    simp only [condI, Option.bind_eq_some_iff, Option.map_eq_some_iff] at h
    obtain ⟨r, hr, b, hb, rfl⟩ := h
    obtain ⟨i1, i2⟩ := expI_sound h1 h2 hr
    simp only [Cond.eval, cmpI_sound hb i1 i2]
  | .neE e k, v, h => by
    simp only [condI, Option.bind_eq_some_iff, Option.map_eq_some_iff] at h
    obtain ⟨r, hr, b, hb, rfl⟩ := h
    obtain ⟨i1, i2⟩ := expI_sound h1 h2 hr
    simp only [Cond.eval, bne, cmpI_sound hb i1 i2]
  | .and a b, v, h => by
    simp only [condI] at h
    split at h
    · simp at h
    · rename_i ha; simp at h; subst h; simp [Cond.eval, condI_sound h1 h2 ha]
    · rename_i ha; simp at h; subst h; simp [Cond.eval, condI_sound h1 h2 ha]
    · rename_i ha; simp [Cond.eval, condI_sound h1 h2 ha, condI_sound h1 h2 h]
  | .or a b, v, h => by
    simp only [condI] at h
    split at h
    · simp at h
    · rename_i ha; simp at h; subst h; simp [Cond.eval, condI_sound h1 h2 ha]
    · rename_i ha; simp at h; subst h; simp [Cond.eval, condI_sound h1 h2 ha]
    · rename_i ha; simp [Cond.eval, condI_sound h1 h2 ha, condI_sound h1 h2 h]
  | .bit w e mask, v, h => by
    simp only [condI, Option.bind_eq_some_iff] at h
    obtain ⟨r, hr, h⟩ := h
    obtain ⟨i1, i2⟩ := expI_sound h1 h2 hr
    simp only [Cond.eval]
    split at h
    · rename_i hc; rw [Nat.ble_eq] at hc; simp at h; subst h; rw [if_neg (by omega)]
    · split at h
      · rename_i hc; rw [Nat.blt_eq] at hc
        simp only [Option.map_eq_some_iff] at h
        obtain ⟨b, hb, rfl⟩ := h
        rw [if_pos (by omega), bitsI_sound hb i1 i2]
      · simp at h
  | .tbl t i s, v, h => by
    simp only [condI, Option.bind_eq_some_iff] at h
    obtain ⟨r, hr, q, hq, h⟩ := h
    obtain ⟨i1, i2⟩ := expI_sound h1 h2 hr
    obtain ⟨j1, j2⟩ := expI_sound h1 h2 hq
    simp only [Cond.eval]
    split at h
    · rename_i hc
      simp only [Bool.and_eq_true, Nat.beq_eq, Nat.blt_eq] at hc
      rw [if_pos (by omega), show i.eval c = r.1 by omega]
      split at h
      · rename_i word hw
        simp only [Option.map_eq_some_iff] at h
        obtain ⟨b, hb, rfl⟩ := h
        simp [hw, bitsI_sound hb j1 j2]
      · rename_i hw
        simp at h; subst h; simp [hw]
    · simp at h

def progI (lo hi : Nat) : Prog → Option (Option Bool)
  | .ret q => condI lo hi q
  | .retIf q b rest => match condI lo hi q with
    | none => none
    | some none => some none
    | some (some true) => some (some b)
    | some (some false) => progI lo hi rest
  | .assume q rest => match condI lo hi q with
    | none => none
    | some none => some none
    | some (some true) => progI lo hi rest
    | some (some false) => some none
  | .caseOf e k p q => match (expI lo hi e).bind fun r => cmpI r k with
    | none => none
    | some true => progI lo hi p
    | some false => progI lo hi q
  | .unreachable => some none

theorem progI_sound {lo hi c : Nat} (h1 : lo ≤ c) (h2 : c ≤ hi) :
    ∀ {p : Prog} {v : Option Bool}, progI lo hi p = some v → p.eval c = v
  | .ret q, v, h => condI_sound h1 h2 h
  | .retIf q b rest, v, h => by
    simp only [progI] at h
    split at h
    · simp at h
    · rename_i ha; simp at h; subst h; simp [Prog.eval, condI_sound h1 h2 ha]
    · rename_i ha; simp at h; subst h; simp [Prog.eval, condI_sound h1 h2 ha]
    · rename_i ha; simp [Prog.eval, condI_sound h1 h2 ha, progI_sound h1 h2 h]
  | .assume q rest, v, h => by
    simp only [progI] at h
    split at h
    · simp at h
    · rename_i ha; simp at h; subst h; simp [Prog.eval, condI_sound h1 h2 ha]
    · rename_i ha; simp [Prog.eval, condI_sound h1 h2 ha, progI_sound h1 h2 h]
    · rename_i ha; simp at h; subst h; simp [Prog.eval, condI_sound h1 h2 ha]
  | .caseOf e k p q, v, h => by
    simp only [progI] at h
    split at h
    · simp at h
    · rename_i ha
      simp only [Option.bind_eq_some_iff] at ha
      obtain ⟨r, hr, ha⟩ := ha
      obtain ⟨i1, i2⟩ := expI_sound h1 h2 hr
      simp [Prog.eval, cmpI_sound ha i1 i2, progI_sound h1 h2 h]
    · rename_i ha
      simp only [Option.bind_eq_some_iff] at ha
      obtain ⟨r, hr, ha⟩ := ha
      obtain ⟨i1, i2⟩ := expI_sound h1 h2 hr
      simp [Prog.eval, cmpI_sound ha i1 i2, progI_sound h1 h2 h]
  | .unreachable, v, h => by simpa [progI, Prog.eval] using h

/-- Evaluate `p` on consecutive intervals starting at `lo` and ending at the given last elements. -/
def blocks (p : Prog) : (lo : Nat) → List Nat → Option (List (Nat × Nat × Option Bool))
  | _, [] => some []
  | lo, hi :: rest =>
    if Nat.ble lo hi then
      match progI lo hi p with
      | none => none
      | some v => match blocks p (hi + 1) rest with
        | none => none
        | some l => some ((lo, hi, v) :: l)
    else none

/-- one past the last interval -/
def endOf : Nat → List Nat → Nat
  | lo, [] => lo
  | _, hi :: rest => endOf (hi + 1) rest

theorem blocks_sound {p : Prog} : ∀ {ends : List Nat} {lo : Nat} {bs}, blocks p lo ends = some bs →
    (∀ b ∈ bs, b.1 ≤ b.2.1 ∧ ∀ c, b.1 ≤ c → c ≤ b.2.1 → p.eval c = b.2.2) ∧
    (∀ c, lo ≤ c → c < endOf lo ends → ∃ b ∈ bs, b.1 ≤ c ∧ c ≤ b.2.1)
  | [], lo, bs, h => by
    simp only [blocks, Option.some.injEq] at h; subst h
    refine ⟨by simp, ?_⟩
    intro c h1 h2
    simp only [endOf] at h2
    omega
  | hi :: rest, lo, bs, h => by
    simp only [blocks] at h
    split at h
    · rename_i hle
      rw [Nat.ble_eq] at hle
      split at h
      · simp at h
      · rename_i v hv
        split at h
        · simp at h
        · rename_i l hl
          simp only [Option.some.injEq] at h; subst h
          obtain ⟨ih1, ih2⟩ := blocks_sound hl
          constructor
          · intro b hb
            rcases List.mem_cons.1 hb with rfl | hb
            · exact ⟨hle, fun c a1 a2 => progI_sound a1 a2 hv⟩
            · exact ih1 b hb
          · intro c h1 h2
            by_cases hc : c ≤ hi
            · exact ⟨(lo, hi, v), by simp, h1, hc⟩
            · obtain ⟨b, hb, hb'⟩ := ih2 c (by omega) (by simpa [endOf] using h2)
              exact ⟨b, by simp [hb], hb'⟩
    · simp at h

/-- the maximal intervals on which the blocks have the value `v` -/
def rangesOf (v : Option Bool) : List (Nat × Nat × Option Bool) → List (Nat × Nat)
  | [] => []
  | (lo, hi, w) :: bs =>
    if w = v then
      match rangesOf v bs with
      | [] => [(lo, hi)]
      | (a, b) :: t => if Nat.beq a (hi + 1) && Nat.ble a b then (lo, b) :: t else (lo, hi) :: (a, b) :: t
    else rangesOf v bs

theorem rangesOf_sound {v : Option Bool} {bs : List (Nat × Nat × Option Bool)} (hbs : ∀ b ∈ bs, b.1 ≤ b.2.1) (c : Nat) :
    InRanges (rangesOf v bs) c ↔ ∃ b ∈ bs, b.2.2 = v ∧ b.1 ≤ c ∧ c ≤ b.2.1 := by
  induction bs with
  | nil => simp [rangesOf, InRanges]
  | cons b bs ih =>
    obtain ⟨lo, hi, w⟩ := b
    have hb : lo ≤ hi := hbs (lo, hi, w) (by simp)
    have ih := ih (fun b h => hbs b (by simp [h]))
    simp only [rangesOf, List.mem_cons, exists_eq_or_imp]
    split
    · rename_i hw
      rw [← ih]
      split
      · rename_i he
        simp [he, InRanges, hw]
      · rename_i a b t he
        rw [he]
        split
        · rename_i hc
          simp only [Bool.and_eq_true, Nat.beq_eq, Nat.ble_eq] at hc
          simp only [InRanges, List.mem_cons, exists_eq_or_imp, hw, true_and]
          constructor
          · rintro (h | h)
            · by_cases hh : c ≤ hi
              · exact Or.inl ⟨h.1, hh⟩
              · exact Or.inr (Or.inl ⟨by omega, h.2⟩)
            · exact Or.inr (Or.inr h)
          · rintro (h | h | h)
            · exact Or.inl ⟨h.1, by omega⟩
            · exact Or.inl ⟨by omega, h.2⟩
            · exact Or.inr h
        · simp [InRanges, hw]
    · rename_i hw
      rw [ih]; simp [hw]

/-- The checker: the intervals ending at `ends` cover `[0, bound)`, on each of them `p` is constant, and collecting the
intervals by value gives `ub` and `rs`. -/
def certify (p : Prog) (bound : Nat) (ends : List Nat) (ub rs : List (Nat × Nat)) : Bool :=
  match blocks p 0 ends with
  | none => false
  | some bs => Nat.ble bound (endOf 0 ends) && decide (rangesOf none bs = ub) && decide (rangesOf (some true) bs = rs)

theorem certify_sound {p : Prog} {bound : Nat} {ends : List Nat} {ub rs : List (Nat × Nat)}
    (h : certify p bound ends ub rs = true) {c : Nat} (hc : c < bound) :
    (InRanges ub c → p.eval c = none) ∧ (¬ InRanges ub c → p.eval c = some (decide (InRanges rs c))) := by
  unfold certify at h
  split at h
  · simp at h
  · rename_i bs hbs
    simp only [Bool.and_eq_true, Nat.ble_eq, decide_eq_true_eq] at h
    obtain ⟨⟨h1, h2⟩, h3⟩ := h
    obtain ⟨s1, s2⟩ := blocks_sound hbs
    obtain ⟨b, hb, hb1, hb2⟩ := s2 c (Nat.zero_le _) (by omega)
    have hv := (s1 b hb).2 c hb1 hb2
    have key : ∀ v, InRanges (rangesOf v bs) c ↔ p.eval c = v := by
      intro v
      rw [rangesOf_sound (fun b h => (s1 b h).1)]
      constructor
      · rintro ⟨b', hb', rfl, h'⟩; exact (s1 b' hb').2 c h'.1 h'.2
      · intro h'; exact ⟨b, hb, by rw [← h', hv], hb1, hb2⟩
    subst h2 h3
    simp only [key]
    refine ⟨id, fun hn => ?_⟩
    cases hx : p.eval c with
    | none => exact absurd hx hn
    | some x => cases x <;> simp

end Verif.Proofs.CodePoint
