import Verif.Model.Uuid
import Verif.Spec.Uuid
import Verif.Proofs.UtfDecode2
import Mathlib.Tactic.Tauto

/-! The language of `uuid_parser`. -/
namespace Verif.Proofs.Uuid
open Verif.Spec Verif.Spec.Uuid Verif.Model Verif.Model.Uuid Verif.Model.CodePoint

theorem hex_eval : ∀ n < 128, Char32.isHexadecimalDigit.eval n = some (decide (IsHex n)) := by decide +kernel
theorem hyphen_eval : ∀ n < 128, Char32.isAsciiHyphen.eval n = some (decide (n = 0x2D)) := by decide +kernel
theorem space_eval : ∀ n < 128, Char32.isAsciiWhitespace.eval n = some (decide (IsSpace n)) := by decide +kernel
theorem ascii_eval (n : Nat) : Char32.isAsciiCodePoint.eval n = some (decide (n < 128)) := by
  simp only [Char32.isAsciiCodePoint, Prog.eval, Cond.eval]
  congr 1
  exact decide_eq_decide.2 (by omega)

theorem hexVal_lt {n : Nat} (h : IsHex n) : hexVal n < 16 := by
  unfold IsHex at h; unfold hexVal; split
  · omega
  · split <;> omega

theorem hexToDec_eq {c : BitVec 32} (h : IsHex c.toNat) : hexToDec c = BitVec.ofNat 32 (hexVal c.toNat) := by
  have key : ∀ n < 128, IsHex n → hexToDec (BitVec.ofNat 32 n) = BitVec.ofNat 32 (hexVal n) := by decide +kernel
  have hlt : c.toNat < 128 := by unfold IsHex at h; omega
  have := key c.toNat hlt h
  rwa [BitVec.ofNat_toNat, BitVec.setWidth_eq] at this

theorem octet_eq {x y : Nat} (hx : x < 16) (hy : y < 16) :
    ((0#8 ||| (BitVec.ofNat 32 x <<< 4).setWidth 8) ||| (BitVec.ofNat 32 y <<< 0).setWidth 8).toNat = 16 * x + y := by
  have key : ∀ x < 16, ∀ y < 16,
    ((0#8 ||| (BitVec.ofNat 32 x <<< 4).setWidth 8) ||| (BitVec.ofNat 32 y <<< 0).setWidth 8).toNat = 16 * x + y := by
    decide +kernel
  exact key x hx y hy

/-! ### single steps -/

theorem step_nonascii {p : Parser} {c : BitVec 32} (h : ¬ c.toNat < 128) : p.step c = some { p with state := .error } := by
  unfold Parser.step
  rw [ascii_eval]
  simp [h]

theorem run_cons (p : Parser) (c : BitVec 32) (cs : List (BitVec 32)) :
    p.run (c :: cs) = (p.step c).bind fun p => p.run cs := rfl

theorem run_append (p : Parser) (xs ys : List (BitVec 32)) :
    p.run (xs ++ ys) = (p.run xs).bind fun p => p.run ys := by
  unfold Parser.run; rw [List.foldlM_append]; rfl

theorem step_error {p : Parser} (h : p.state = .error) (c : BitVec 32) : p.step c = some p := by
  have e : { p with state := .error } = p := by cases p; simp_all
  by_cases hc : c.toNat < 128
  · unfold Parser.step
    rw [ascii_eval]
    simp [hc, h]
  · rw [step_nonascii hc, e]

theorem run_error {p : Parser} (h : p.state = .error) (cs : List (BitVec 32)) : p.run cs = some p := by
  induction cs with
  | nil => rfl
  | cons c cs ih => rw [run_cons, step_error h, Option.bind_some, ih]

/-- in state `parsing` -/
theorem parsing_hex {p : Parser} {c : BitVec 32} (h : IsHex c.toNat) (hd : p.digits / 2 < 16) :
    p.parsing c = some { p with
      value := p.value.set (p.digits / 2) (p.value[p.digits / 2] ||| (BitVec.ofNat 32 (hexVal c.toNat) <<< p.rsh).setWidth 8)
      digits := p.digits + 1
      state := if p.digits + 1 = 32 then .finished else p.state
      rsh := ((p.digits + 1 + 1) % 2) * 4 } := by
  have hlt : c.toNat < 128 := by unfold IsHex at h; omega
  unfold Parser.parsing
  rw [hex_eval _ hlt, hexToDec_eq h]
  simp [h, hd]

theorem parsing_sep {p : Parser} {c : BitVec 32} (h : IsSep c.toNat) (hd : p.digits % 2 ≠ 1) : p.parsing c = some p := by
  have hlt : c.toNat < 128 := by unfold IsSep IsSpace at h; omega
  have hh : ¬ IsHex c.toNat := by unfold IsSep IsSpace at h; unfold IsHex; omega
  unfold Parser.parsing
  rw [hex_eval _ hlt, hyphen_eval _ hlt, space_eval _ hlt]
  unfold IsSep at h
  simp only [hh, decide_false, Option.bind_some, Bool.false_eq_true, if_false]
  by_cases h2 : c.toNat = 0x2D
  · simp only [h2, Option.bind_some, decide_true, if_true, if_neg hd]
  · have h3 : IsSpace c.toNat := h.resolve_right h2
    simp only [hh, h2, h3, decide_false, Option.bind_some, Bool.false_eq_true, if_false, decide_true, if_true, if_neg hd]

theorem parsing_bad {p : Parser} {c : BitVec 32} (hlt : c.toNat < 128) (hh : ¬ IsHex c.toNat)
    (h : ¬ IsSep c.toNat ∨ p.digits % 2 = 1) : p.parsing c = some { p with state := .error } := by
  unfold Parser.parsing
  rw [hex_eval _ hlt, hyphen_eval _ hlt, space_eval _ hlt]
  simp only [hh, decide_false, Option.bind_some, Bool.false_eq_true, if_false]
  by_cases hs : IsSep c.toNat
  · have hd : p.digits % 2 = 1 := by tauto
    unfold IsSep at hs
    by_cases h2 : c.toNat = 0x2D
    · simp only [h2, decide_true, Option.bind_some, if_true, if_pos hd]
    · have h3 : IsSpace c.toNat := hs.resolve_right h2
      simp only [h2, h3, decide_false, Option.bind_some, Bool.false_eq_true, if_false, decide_true, if_true, if_pos hd]
  · unfold IsSep at hs
    have h2 : ¬ c.toNat = 0x2D := by tauto
    have h3 : ¬ IsSpace c.toNat := by tauto
    simp only [h2, h3, decide_false, Option.bind_some, Bool.false_eq_true, if_false]

theorem step_parsing {p : Parser} {c : BitVec 32} (hs : p.state = .parsing) (hlt : c.toNat < 128) :
    p.step c = p.parsing c := by
  unfold Parser.step; rw [ascii_eval]; simp [hlt, hs]

/-! ### acceptance -/

/-- the parser, started in `p`, ends with success and the value `u` -/
def Acc (p : Parser) (cs : List (BitVec 32)) (u : Model.Uuid) : Prop :=
  ∃ p', p.run cs = some p' ∧ p'.bracketed = false ∧ p'.state = .finished ∧ p'.value = u

theorem acc_cons {p q : Parser} {c : BitVec 32} (h : p.step c = some q) (cs : List (BitVec 32)) (u : Model.Uuid) :
    Acc p (c :: cs) u ↔ Acc q cs u := by
  unfold Acc; rw [run_cons, h, Option.bind_some]

theorem not_acc_error {p : Parser} (h : p.state = .error) (cs : List (BitVec 32)) (u : Model.Uuid) : ¬ Acc p cs u := by
  rintro ⟨p', e, _, hs, _⟩
  rw [run_error h] at e
  obtain rfl := Option.some.inj e
  rw [h] at hs; exact absurd hs (by decide)

theorem map_toNat_inj {w : Nat} {a b : List (BitVec w)} (h : a.map BitVec.toNat = b.map BitVec.toNat) : a = b := by
  induction a generalizing b with
  | nil => cases b <;> simp_all
  | cons x a ih =>
    cases b with
    | nil => simp at h
    | cons y b =>
      simp only [List.map_cons, List.cons.injEq] at h
      rw [BitVec.eq_of_toNat_eq h.1, ih h.2]

/-- what may follow the last digit -/
def Tail (bracketed : Bool) (t : List Nat) : Prop :=
  if bracketed then ∃ w1 w2, (∀ c ∈ w1 ++ w2, IsSpace c) ∧ t = w1 ++ [0x7D] ++ w2 else ∀ c ∈ t, IsSpace c

theorem tail_ascii {b : Bool} {t : List Nat} (h : Tail b t) : ∀ c ∈ t, c < 128 ∧ ¬ IsHex c := by
  intro c hc
  cases b with
  | false => have := h c hc; unfold IsSpace at this; unfold IsHex; omega
  | true =>
    obtain ⟨w1, w2, hw, rfl⟩ := h
    simp only [List.mem_append, List.mem_singleton] at hc hw
    rcases hc with (hc | hc) | hc
    · have := hw c (Or.inl hc); unfold IsSpace at this; unfold IsHex; omega
    · unfold IsHex; omega
    · have := hw c (Or.inr hc); unfold IsSpace at this; unfold IsHex; omega

theorem tail_cons_space {b : Bool} {c : Nat} {t : List Nat} (hc : IsSpace c) : Tail b (c :: t) ↔ Tail b t := by
  have h7 : c ≠ 0x7D := by unfold IsSpace at hc; omega
  cases b with
  | false => simp [Tail, hc]
  | true =>
    constructor
    · rintro ⟨w1, w2, hw, e⟩
      cases w1 with
      | nil => simp at e; exact absurd e.1 h7
      | cons a w1 =>
        simp only [List.cons_append, List.cons.injEq] at e
        exact ⟨w1, w2, fun x hx => hw x (by simp at hx ⊢; tauto), e.2⟩
    · rintro ⟨w1, w2, hw, e⟩
      refine ⟨c :: w1, w2, ?_, by rw [e]; rfl⟩
      intro x hx
      simp only [List.cons_append, List.mem_cons] at hx
      rcases hx with rfl | hx
      · exact hc
      · exact hw x hx

theorem acc_finished (cs : List (BitVec 32)) : ∀ (p : Parser), p.state = .finished → ∀ u,
    (Acc p cs u ↔ p.value = u ∧ Tail p.bracketed (cs.map BitVec.toNat)) := by
  induction cs with
  | nil =>
    intro p hp u
    constructor
    · rintro ⟨p', e, h1, _, h3⟩
      obtain rfl := Option.some.inj e
      exact ⟨h3, by simp [Tail, h1]⟩
    · rintro ⟨h1, h2⟩
      refine ⟨p, rfl, ?_, hp, h1⟩
      cases hb : p.bracketed with
      | false => rfl
      | true =>
        rw [hb] at h2
        obtain ⟨w1, w2, _, e⟩ := h2
        simp at e
  | cons c cs ih =>
    intro p hp u
    by_cases hlt : c.toNat < 128
    · by_cases h7 : c.toNat = 0x7D
      · have hc : c = 0x7D#32 := BitVec.eq_of_toNat_eq h7
        have hst : p.step c = if p.bracketed then some { p with bracketed := false } else some { p with state := .error } := by
          unfold Parser.step; rw [ascii_eval]; simp [hp, hc]
        cases hb : p.bracketed with
        | false =>
          rw [hb] at hst
          rw [acc_cons hst]
          constructor
          · intro h; exact absurd h (not_acc_error rfl _ _)
          · rintro ⟨_, h⟩
            have := h c.toNat (by simp)
            unfold IsSpace at this; omega
        | true =>
          rw [hb] at hst
          rw [acc_cons hst, ih { p with bracketed := false } hp]
          refine and_congr_right fun _ => ?_
          rw [List.map_cons, h7]
          constructor
          · intro h
            exact ⟨[], cs.map BitVec.toNat, by simpa [Tail] using h, by simp⟩
          · rintro ⟨w1, w2, hw, e⟩
            cases w1 with
            | nil => simp at e; simp only [Tail]; rw [e]; simpa using hw
            | cons a w1 =>
              simp only [List.cons_append, List.cons.injEq] at e
              have := hw a (by simp)
              unfold IsSpace at this; omega
      · have hc : ¬ c = 0x7D#32 := by rintro rfl; exact h7 rfl
        have hst : p.step c = if IsSpace c.toNat then some p else some { p with state := .error } := by
          unfold Parser.step; rw [ascii_eval, space_eval _ hlt]; simp [hp, hc, hlt]
        by_cases hs : IsSpace c.toNat
        · rw [if_pos hs] at hst
          rw [acc_cons hst, ih p hp, List.map_cons, tail_cons_space hs]
        · rw [if_neg hs] at hst
          rw [acc_cons hst]
          constructor
          · intro h; exact absurd h (not_acc_error rfl _ _)
          · rintro ⟨_, h⟩
            cases hb : p.bracketed with
            | false => rw [hb] at h; exact absurd (h c.toNat (by simp)) hs
            | true =>
              rw [hb] at h
              obtain ⟨w1, w2, hw, e⟩ := h
              cases w1 with
              | nil => simp at e; omega
              | cons a w1 =>
                simp only [List.map_cons, List.cons_append, List.cons.injEq] at e
                exact absurd (e.1 ▸ hw a (by simp)) hs
    · rw [acc_cons (step_nonascii hlt)]
      constructor
      · intro h; exact absurd h (not_acc_error rfl _ _)
      · rintro ⟨_, h⟩
        exact absurd (tail_ascii h c.toNat (by simp)).1 hlt

theorem octets_head {body bytes : List Nat} (h : Octets body bytes) :
    ∃ x y rest b bs, body = x :: y :: rest ∧ bytes = b :: bs ∧ IsHex x ∧ IsHex y ∧ b = 16 * hexVal x + hexVal y ∧
      ((rest = [] ∧ bs = []) ∨ ∃ sep r2, rest = sep ++ r2 ∧ (∀ c ∈ sep, IsSep c) ∧ Octets r2 bs) := by
  cases h with
  | last hx hy => exact ⟨_, _, _, _, _, rfl, rfl, hx, hy, rfl, Or.inl ⟨rfl, rfl⟩⟩
  | more hx hy hs hr => exact ⟨_, _, _, _, _, rfl, rfl, hx, hy, rfl, Or.inr ⟨_, _, rfl, hs, hr⟩⟩

theorem sep_not_hex {c : Nat} (h : IsSep c) : ¬ IsHex c := by unfold IsSep IsSpace at h; unfold IsHex; omega
theorem sep_ascii {c : Nat} (h : IsSep c) : c < 128 := by unfold IsSep IsSpace at h; omega
theorem hex_ascii {c : Nat} (h : IsHex c) : c < 128 := by unfold IsHex at h; omega

/-- what is accepted from the state "parsing, `k` octets seen" -/
def Body (k : Nat) (br : Bool) (pre : List Nat) (text : List Nat) (u : List Nat) : Prop :=
  ∃ sep body tail bytes, text = sep ++ body ++ tail ∧ (∀ c ∈ sep, IsSep c) ∧ Octets body bytes ∧
    k + bytes.length = 16 ∧ Tail br tail ∧ u = pre ++ bytes

theorem body_nil {k br pre u} : ¬ Body k br pre [] u := by
  rintro ⟨sep, body, tail, bytes, e, _, ho, _⟩
  obtain ⟨x, y, rest, b, bs, rfl, _⟩ := octets_head ho
  simp at e

theorem body_sep {k br pre c text u} (h : IsSep c) : Body k br pre (c :: text) u ↔ Body k br pre text u := by
  constructor
  · rintro ⟨sep, body, tail, bytes, e, hs, ho, h1, h2, h3⟩
    cases sep with
    | nil =>
      obtain ⟨x, y, rest, b, bs, rfl, _, hx, _⟩ := octets_head ho
      simp only [List.nil_append, List.cons_append, List.cons.injEq] at e
      exact absurd (e.1 ▸ hx) (sep_not_hex h)
    | cons a sep =>
      simp only [List.cons_append, List.cons.injEq] at e
      exact ⟨sep, body, tail, bytes, e.2, fun x hx => hs x (by simp [hx]), ho, h1, h2, h3⟩
  · rintro ⟨sep, body, tail, bytes, e, hs, ho, h1, h2, h3⟩
    refine ⟨c :: sep, body, tail, bytes, by rw [e]; rfl, ?_, ho, h1, h2, h3⟩
    intro x hx
    rcases List.mem_cons.1 hx with rfl | hx
    · exact h
    · exact hs x hx

theorem body_bad {k br pre c text u} (h1 : ¬ IsSep c) (h2 : ¬ IsHex c) : ¬ Body k br pre (c :: text) u := by
  rintro ⟨sep, body, tail, bytes, e, hs, ho, _⟩
  cases sep with
  | nil =>
    obtain ⟨x, y, rest, b, bs, rfl, _, hx, _⟩ := octets_head ho
    simp only [List.nil_append, List.cons_append, List.cons.injEq] at e
    exact h2 (e.1 ▸ hx)
  | cons a sep =>
    simp only [List.cons_append, List.cons.injEq] at e
    exact h1 (e.1 ▸ hs a (by simp))

theorem body_hex {k br pre c text u} (h : IsHex c) : Body k br pre (c :: text) u ↔
    ∃ d rest, text = d :: rest ∧ IsHex d ∧
      ((k + 1 = 16 ∧ Tail br rest ∧ u = pre ++ [16 * hexVal c + hexVal d]) ∨
       (Body (k + 1) br (pre ++ [16 * hexVal c + hexVal d]) rest u)) := by
  constructor
  · rintro ⟨sep, body, tail, bytes, e, hs, ho, h1, h2, h3⟩
    cases sep with
    | cons a sep =>
      simp only [List.cons_append, List.cons.injEq] at e
      exact absurd (e.1 ▸ h) (sep_not_hex (hs a (by simp)))
    | nil =>
      obtain ⟨x, y, rest, b, bs, rfl, rfl, hx, hy, hb, hr⟩ := octets_head ho
      simp only [List.nil_append, List.cons_append, List.cons.injEq] at e
      obtain ⟨rfl, e⟩ := e
      refine ⟨y, rest ++ tail, e, hy, ?_⟩
      rcases hr with ⟨rfl, rfl⟩ | ⟨sep, r2, rfl, hs2, ho2⟩
      · left; exact ⟨by simpa using h1, by simpa using h2, by rw [h3, hb]⟩
      · right
        refine ⟨sep, r2, tail, bs, by simp, hs2, ho2, ?_, h2, by rw [h3, hb]; simp⟩
        simp only [List.length_cons] at h1; omega
  · rintro ⟨d, rest, rfl, hd, ⟨h1, h2, rfl⟩ | ⟨sep, body, tail, bytes, rfl, hs, ho, h1, h2, rfl⟩⟩
    · exact ⟨[], [c, d], rest, [_], rfl, by simp, .last h hd, by simpa using h1, h2, rfl⟩
    · refine ⟨[], c :: d :: (sep ++ body), tail, _, by simp, by simp, .more h hd hs ho, ?_, h2, by simp⟩
      simp only [List.length_cons]; omega

theorem body_full {br pre text u} : ¬ Body 16 br pre text u := by
  rintro ⟨sep, body, tail, bytes, e, hs, ho, h1, _⟩
  obtain ⟨x, y, rest, b, bs, rfl, rfl, _⟩ := octets_head ho
  simp at h1

theorem acc_parsing (n : Nat) : ∀ (cs : List (BitVec 32)), cs.length ≤ n → ∀ (p : Parser) (k : Nat) (pre : List (BitVec 8)),
    p.state = .parsing → p.digits = 2 * k → p.rsh = 4 → k < 16 → pre.length = k →
    p.value.toList = pre ++ List.replicate (16 - k) 0#8 → ∀ u : Model.Uuid,
    (Acc p cs u ↔ Body k p.bracketed (pre.map BitVec.toNat) (cs.map BitVec.toNat) (u.toList.map BitVec.toNat)) := by
  induction n with
  | zero =>
    intro cs hn p k pre hp _ _ _ _ _ u
    obtain rfl : cs = [] := by cases cs <;> simp_all
    constructor
    · rintro ⟨p', e, _, hs, _⟩
      obtain rfl := Option.some.inj e
      rw [hp] at hs; exact absurd hs (by decide)
    · intro h; exact absurd h body_nil
  | succ n ih =>
    intro cs hn p k pre hp hd hr hk hpre hv u
    cases cs with
    | nil => exact ih [] (by simp) p k pre hp hd hr hk hpre hv u
    | cons c cs =>
      rw [List.map_cons]
      by_cases hlt : c.toNat < 128
      rotate_left
      · rw [acc_cons (step_nonascii hlt)]
        refine iff_of_false (not_acc_error rfl _ _) (body_bad ?_ ?_)
        · intro h; exact hlt (sep_ascii h)
        · intro h; exact hlt (hex_ascii h)
      have hstep := step_parsing hp hlt
      by_cases hs : IsSep c.toNat
      · rw [parsing_sep hs (by omega)] at hstep
        rw [acc_cons hstep, body_sep hs]
        exact ih cs (by simpa using hn) p k pre hp hd hr hk hpre hv u
      by_cases hh : IsHex c.toNat
      rotate_left
      · rw [parsing_bad hlt hh (Or.inl hs)] at hstep
        rw [acc_cons hstep]
        exact iff_of_false (not_acc_error rfl _ _) (body_bad hs hh)
      rw [parsing_hex hh (by omega)] at hstep
      rw [acc_cons hstep, body_hex hh]
      have e1 : p.digits / 2 = k := by omega
      have e2 : (p.digits + 1) / 2 = k := by omega
      have e3 : ¬ p.digits + 1 = 32 := by omega
      have e4 : (p.digits + 1 + 1) % 2 * 4 = 0 := by omega
      simp only [e1, if_neg e3, e4, hr]
      have hvk : p.value[k] = 0#8 := by
        have : p.value.toList[k]'(by simpa using hk) = 0#8 := by
          simp only [hv]
          rw [List.getElem_append_right (by omega), List.getElem_replicate]
        simpa using this
      rw [hvk]
      cases cs with
      | nil =>
        refine iff_of_false ?_ ?_
        · rintro ⟨p', e, _, hs, _⟩
          obtain rfl := Option.some.inj e
          exact absurd (hp.symm.trans hs) (by decide)
        · rintro ⟨d, rest, h, _⟩; simp at h
      | cons d cs =>
        by_cases hltd : d.toNat < 128
        rotate_left
        · rw [acc_cons (step_nonascii hltd)]
          refine iff_of_false (not_acc_error rfl _ _) ?_
          rintro ⟨d', rest, h, hx, _⟩
          simp only [List.map_cons, List.cons.injEq] at h
          exact hltd (h.1 ▸ hex_ascii hx)
        have hstep2 := step_parsing (p := { p with
          value := p.value.set k (0#8 ||| (BitVec.ofNat 32 (hexVal c.toNat) <<< 4).setWidth 8)
          digits := p.digits + 1, rsh := 0 }) (c := d) hp hltd
        by_cases hhd : IsHex d.toNat
        rotate_left
        · rw [parsing_bad hltd hhd (Or.inr (by show (p.digits + 1) % 2 = 1; omega))] at hstep2
          rw [acc_cons hstep2]
          refine iff_of_false (not_acc_error rfl _ _) ?_
          rintro ⟨d', rest, h, hx, _⟩
          simp only [List.map_cons, List.cons.injEq] at h
          exact hhd (h.1 ▸ hx)
        rw [parsing_hex hhd (by show (p.digits + 1) / 2 < 16; omega)] at hstep2
        rw [acc_cons hstep2]
        simp only [e2, Vector.getElem_set_self, Vector.set_set]
        have e5 : (p.digits + 1 + 1 + 1) % 2 * 4 = 4 := by omega
        rw [e5]
        have hoct := octet_eq (hexVal_lt hh) (hexVal_lt hhd)
        generalize hb : ((0#8 ||| (BitVec.ofNat 32 (hexVal c.toNat) <<< 4).setWidth 8) |||
          (BitVec.ofNat 32 (hexVal d.toNat) <<< 0).setWidth 8) = b at hoct
        have hv2 : (p.value.set k b).toList = (pre ++ [b]) ++ List.replicate (16 - (k + 1)) 0#8 := by
          rw [Vector.toList_set, hv]
          rw [List.set_append_right _ _ (by omega), show k - pre.length = 0 by omega,
            show 16 - k = (16 - (k + 1)) + 1 by omega, List.replicate_succ, List.set_cons_zero]
          simp
        by_cases hfin : p.digits + 1 + 1 = 32
        · rw [if_pos hfin]
          rw [acc_finished _ _ rfl]
          have hk15 : k + 1 = 16 := by omega
          constructor
          · rintro ⟨h1, h2⟩
            refine ⟨d.toNat, _, rfl, hhd, Or.inl ⟨hk15, h2, ?_⟩⟩
            rw [← h1, hv2, ← hoct]
            simp [hk15]
          · rintro ⟨d', rest, h, _, h3 | h3⟩
            · simp only [List.map_cons, List.cons.injEq] at h
              obtain ⟨rfl, rfl⟩ := h
              refine ⟨?_, h3.2.1⟩
              have h4 := h3.2.2
              rw [← hoct, show List.map BitVec.toNat pre ++ [b.toNat] = (pre ++ [b]).map BitVec.toNat by simp] at h4
              have h5 : u.toList = pre ++ [b] := map_toNat_inj h4
              apply Vector.toList_inj.1
              rw [hv2, h5]; simp [hk15]
            · rw [hk15] at h3; exact absurd h3 body_full
        · rw [if_neg hfin]
          rw [ih cs (by simp at hn; omega)
            { p with value := p.value.set k b, digits := p.digits + 1 + 1, rsh := 4 } (k + 1) (pre ++ [b]) hp
            (by show p.digits + 1 + 1 = _; omega) rfl (by omega)
            (by simp [hpre]) hv2 u]
          rw [List.map_append, List.map_singleton, hoct]
          constructor
          · intro h; exact ⟨d.toNat, _, rfl, hhd, Or.inr h⟩
          · rintro ⟨d', rest, h, _, h3 | h3⟩
            · omega
            · simp only [List.map_cons, List.cons.injEq] at h
              obtain ⟨rfl, rfl⟩ := h
              exact h3

/-! ### the whole language -/

/-- what is accepted in the initial state -/
def Init (br : Bool) (text u : List Nat) : Prop :=
  (∃ w body tail, text = w ++ body ++ tail ∧ (∀ c ∈ w, IsSpace c) ∧ Octets body u ∧ u.length = 16 ∧ Tail br tail) ∨
  (br = false ∧ ∃ w w2 body tail, text = w ++ [0x7B] ++ w2 ++ body ++ tail ∧ (∀ c ∈ w ++ w2, IsSpace c) ∧
    Octets body u ∧ u.length = 16 ∧ Tail true tail)

theorem space_sep {c : Nat} (h : IsSpace c) : IsSep c := Or.inl h

theorem init_nil {br u} : ¬ Init br [] u := by
  rintro (⟨w, body, tail, e, _, ho, _⟩ | ⟨_, w, w2, body, tail, e, _⟩)
  · obtain ⟨x, y, rest, b, bs, rfl, _⟩ := octets_head ho
    simp at e
  · simp at e

theorem init_space {br c t u} (h : IsSpace c) : Init br (c :: t) u ↔ Init br t u := by
  have h7 : c ≠ 0x7B := by unfold IsSpace at h; omega
  constructor
  · rintro (⟨w, body, tail, e, hw, ho, h1, h2⟩ | ⟨hb, w, w2, body, tail, e, hw, ho, h1, h2⟩)
    · cases w with
      | nil =>
        obtain ⟨x, y, rest, b, bs, rfl, _, hx, _⟩ := octets_head ho
        simp only [List.nil_append, List.cons_append, List.cons.injEq] at e
        exact absurd (e.1 ▸ hx) (sep_not_hex (space_sep h))
      | cons a w =>
        simp only [List.cons_append, List.cons.injEq] at e
        exact Or.inl ⟨w, body, tail, e.2, fun x hx => hw x (by simp [hx]), ho, h1, h2⟩
    · cases w with
      | nil =>
        simp only [List.nil_append, List.cons_append, List.cons.injEq] at e
        exact absurd e.1 h7
      | cons a w =>
        simp only [List.cons_append, List.cons.injEq] at e
        refine Or.inr ⟨hb, w, w2, body, tail, e.2, fun x hx => hw x ?_, ho, h1, h2⟩
        simp only [List.cons_append, List.mem_cons]; exact Or.inr hx
  · rintro (⟨w, body, tail, e, hw, ho, h1, h2⟩ | ⟨hb, w, w2, body, tail, e, hw, ho, h1, h2⟩)
    · refine Or.inl ⟨c :: w, body, tail, by rw [e]; rfl, ?_, ho, h1, h2⟩
      intro x hx
      rcases List.mem_cons.1 hx with rfl | hx
      · exact h
      · exact hw x hx
    · refine Or.inr ⟨hb, c :: w, w2, body, tail, by rw [e]; rfl, ?_, ho, h1, h2⟩
      intro x hx
      rcases List.mem_cons.1 hx with rfl | hx
      · exact h
      · exact hw x hx

theorem init_brace {br t u} : Init br (0x7B :: t) u ↔ br = false ∧ Init true t u := by
  have hs : ¬ IsSpace 0x7B := by decide
  have hh : ¬ IsHex 0x7B := by decide
  constructor
  · rintro (⟨w, body, tail, e, hw, ho, h1, h2⟩ | ⟨hb, w, w2, body, tail, e, hw, ho, h1, h2⟩)
    · cases w with
      | nil =>
        obtain ⟨x, y, rest, b, bs, rfl, _, hx, _⟩ := octets_head ho
        simp only [List.nil_append, List.cons_append, List.cons.injEq] at e
        exact absurd (e.1 ▸ hx) hh
      | cons a w =>
        simp only [List.cons_append, List.cons.injEq] at e
        exact absurd (e.1 ▸ hw a (by simp)) hs
    · cases w with
      | nil =>
        simp only [List.nil_append, List.cons_append, List.cons.injEq] at e
        exact ⟨hb, Or.inl ⟨w2, body, tail, by rw [e.2], by simpa using hw, ho, h1, h2⟩⟩
      | cons a w =>
        simp only [List.cons_append, List.cons.injEq] at e
        exact absurd (e.1 ▸ hw a (by simp)) hs
  · rintro ⟨hb, ⟨w, body, tail, e, hw, ho, h1, h2⟩ | ⟨hb', _⟩⟩
    · exact Or.inr ⟨hb, [], w, body, tail, by rw [e]; simp, by simpa using hw, ho, h1, h2⟩
    · exact absurd hb' (by decide)

theorem init_hex {br c t u} (h : IsHex c) : Init br (c :: t) u ↔ Body 0 br [] (c :: t) u := by
  have hs : ¬ IsSpace c := fun hs => sep_not_hex (space_sep hs) h
  have h7 : c ≠ 0x7B := by unfold IsHex at h; omega
  constructor
  · rintro (⟨w, body, tail, e, hw, ho, h1, h2⟩ | ⟨hb, w, w2, body, tail, e, hw, ho, h1, h2⟩)
    · cases w with
      | nil => exact ⟨[], body, tail, u, by simpa using e, by simp, ho, by omega, h2, rfl⟩
      | cons a w =>
        simp only [List.cons_append, List.cons.injEq] at e
        exact absurd (e.1 ▸ hw a (by simp)) hs
    · cases w with
      | nil =>
        simp only [List.nil_append, List.cons_append, List.cons.injEq] at e
        exact absurd e.1 h7
      | cons a w =>
        simp only [List.cons_append, List.cons.injEq] at e
        exact absurd (e.1 ▸ hw a (by simp)) hs
  · rintro ⟨sep, body, tail, bytes, e, hsep, ho, h1, h2, rfl⟩
    cases sep with
    | nil => exact Or.inl ⟨[], body, tail, by simpa using e, by simp, ho, by simpa using h1, h2⟩
    | cons a sep =>
      simp only [List.cons_append, List.cons.injEq] at e
      exact absurd (e.1 ▸ h) (sep_not_hex (hsep a (by simp)))

theorem init_bad {br c t u} (hs : ¬ IsSpace c) (hh : ¬ IsHex c) (h7 : c ≠ 0x7B) : ¬ Init br (c :: t) u := by
  rintro (⟨w, body, tail, e, hw, ho, h1, h2⟩ | ⟨hb, w, w2, body, tail, e, hw, ho, h1, h2⟩)
  · cases w with
    | nil =>
      obtain ⟨x, y, rest, b, bs, rfl, _, hx, _⟩ := octets_head ho
      simp only [List.nil_append, List.cons_append, List.cons.injEq] at e
      exact absurd (e.1 ▸ hx) hh
    | cons a w =>
      simp only [List.cons_append, List.cons.injEq] at e
      exact absurd (e.1 ▸ hw a (by simp)) hs
  · cases w with
    | nil =>
      simp only [List.nil_append, List.cons_append, List.cons.injEq] at e
      exact absurd e.1 h7
    | cons a w =>
      simp only [List.cons_append, List.cons.injEq] at e
      exact absurd (e.1 ▸ hw a (by simp)) hs

theorem acc_initial (cs : List (BitVec 32)) : ∀ (p : Parser), p.state = .initial → p.value = Model.Uuid.nil → p.digits = 0 →
    p.rsh = 4 → ∀ u : Model.Uuid,
    (Acc p cs u ↔ Init p.bracketed (cs.map BitVec.toNat) (u.toList.map BitVec.toNat)) := by
  induction cs with
  | nil =>
    intro p hp _ _ _ u
    refine iff_of_false ?_ init_nil
    rintro ⟨p', e, _, hs, _⟩
    obtain rfl := Option.some.inj e
    exact absurd (hp.symm.trans hs) (by decide)
  | cons c cs ih =>
    intro p hp hv hd hr u
    rw [List.map_cons]
    by_cases hlt : c.toNat < 128
    rotate_left
    · rw [acc_cons (step_nonascii hlt)]
      refine iff_of_false (not_acc_error rfl _ _) (init_bad ?_ ?_ ?_)
      · intro h; exact hlt (sep_ascii (space_sep h))
      · intro h; exact hlt (hex_ascii h)
      · omega
    by_cases h7 : c.toNat = 0x7B
    · have hc : c = 0x7B#32 := BitVec.eq_of_toNat_eq h7
      rw [h7, init_brace]
      have hst : p.step c = some (if p.bracketed then { p with state := .error, bracketed := true }
          else { p with bracketed := true }) := by
        unfold Parser.step; rw [ascii_eval]; simp [hp, hc]
      rw [acc_cons hst]
      cases hb : p.bracketed with
      | true =>
        rw [if_pos rfl]
        exact iff_of_false (not_acc_error rfl _ _) (by simp)
      | false =>
        rw [if_neg (by simp), ih { p with bracketed := true } hp hv hd hr u]
        simp
    · have hc : ¬ c = 0x7B#32 := by rintro rfl; exact h7 rfl
      by_cases hs : IsSpace c.toNat
      · have hst : p.step c = some p := by
          unfold Parser.step; rw [ascii_eval, space_eval _ hlt]; simp [hp, hc, hlt, hs]
        rw [acc_cons hst, init_space hs, ih p hp hv hd hr u]
      · by_cases hh : IsHex c.toNat
        · have hst : p.step c = Parser.parsing { p with state := .parsing } c := by
            unfold Parser.step; rw [ascii_eval, space_eval _ hlt, hex_eval _ hlt]; simp [hp, hc, hlt, hs, hh]
          have hst2 : ({ p with state := .parsing } : Parser).step c = Parser.parsing { p with state := .parsing } c :=
            step_parsing rfl hlt
          have e : Acc p (c :: cs) u ↔ Acc { p with state := .parsing } (c :: cs) u := by
            unfold Acc; rw [run_cons, run_cons, hst, hst2]
          rw [e, init_hex hh, acc_parsing _ (c :: cs) (Nat.le_refl _) { p with state := .parsing } 0 [] rfl (by simpa using hd)
            hr (by decide) rfl (by show p.value.toList = _; rw [hv]; rfl) u]
          rfl
        · have hst : p.step c = some { p with state := .error } := by
            unfold Parser.step; rw [ascii_eval, space_eval _ hlt, hex_eval _ hlt]; simp [hp, hc, hlt, hs, hh]
          rw [acc_cons hst]
          exact iff_of_false (not_acc_error rfl _ _) (init_bad hs hh h7)

theorem init_iff_text (text u : List Nat) : Init false text u ↔ IsText text u := by
  constructor
  · rintro (⟨w, body, tail, e, hw, ho, h1, h2⟩ | ⟨_, w, w2, body, tail, e, hw, ho, h1, h2⟩)
    · refine ⟨h1, body, ho, Or.inl ⟨w, tail, ?_, e⟩⟩
      intro c hc
      rcases List.mem_append.1 hc with hc | hc
      · exact hw c hc
      · exact h2 c hc
    · obtain ⟨w3, w4, hw2, rfl⟩ := h2
      refine ⟨h1, body, ho, Or.inr ⟨w, w2, w3, w4, ?_, by rw [e]; simp⟩⟩
      intro c hc
      rw [List.append_assoc] at hc
      rcases List.mem_append.1 hc with hc | hc
      · exact hw c hc
      · exact hw2 c hc
  · rintro ⟨h1, body, ho, ⟨w1, w2, hw, e⟩ | ⟨w1, w2, w3, w4, hw, e⟩⟩
    · exact Or.inl ⟨w1, body, w2, e, fun c hc => hw c (by simp [hc]), ho, h1, fun c hc => hw c (by simp [hc])⟩
    · refine Or.inr ⟨rfl, w1, w2, body, w3 ++ [0x7D] ++ w4, by rw [e]; simp, fun c hc => hw c ?_, ho, h1,
        w3, w4, fun c hc => hw c ?_, rfl⟩
      · rw [List.append_assoc]; exact List.mem_append_left _ hc
      · rw [List.append_assoc]; exact List.mem_append_right _ hc

/-- the parser accepts exactly the texts of uuids -/
theorem acc_text (cs : List (BitVec 32)) (u : Model.Uuid) :
    Acc {} cs u ↔ IsText (cs.map BitVec.toNat) (u.toList.map BitVec.toNat) := by
  rw [acc_initial cs {} rfl rfl rfl rfl u, init_iff_text]

/-! ### the parser never runs into undefined behaviour -/

/-- enough room for the next digit -/
def Safe (p : Parser) : Prop :=
  match p.state with
  | .initial => p.digits = 0
  | .parsing => p.digits < 32
  | _ => True

theorem parsing_safe {p : Parser} (hs : p.state = .parsing) (hd : p.digits < 32) {c : BitVec 32} (hlt : c.toNat < 128) :
    ∃ q, p.parsing c = some q ∧ Safe q := by
  by_cases hh : IsHex c.toNat
  · rw [parsing_hex hh (by omega)]
    refine ⟨_, rfl, ?_⟩
    unfold Safe
    by_cases h : p.digits + 1 = 32
    · simp only [if_pos h]
    · simp only [if_neg h, hs]; omega
  · by_cases h : ¬ IsSep c.toNat ∨ p.digits % 2 = 1
    · rw [parsing_bad hlt hh h]; exact ⟨_, rfl, by unfold Safe; trivial⟩
    · rw [not_or, Classical.not_not] at h
      rw [parsing_sep h.1 h.2]
      exact ⟨_, rfl, by unfold Safe; rw [hs]; exact hd⟩

theorem step_safe {p : Parser} (h : Safe p) (c : BitVec 32) : ∃ q, p.step c = some q ∧ Safe q := by
  by_cases hlt : c.toNat < 128
  rotate_left
  · rw [step_nonascii hlt]; exact ⟨_, rfl, by unfold Safe; trivial⟩
  cases hs : p.state with
  | initial =>
    unfold Safe at h; rw [hs] at h
    simp only at h
    unfold Parser.step
    rw [ascii_eval, space_eval _ hlt, hex_eval _ hlt]
    simp only [hlt, decide_true, Bool.not_true, Option.bind_some, Bool.false_eq_true, if_false, hs, decide_eq_true_eq]
    split
    · split
      · exact ⟨_, rfl, by unfold Safe; trivial⟩
      · exact ⟨_, rfl, by unfold Safe; simp [hs, h]⟩
    · split
      · exact ⟨_, rfl, by unfold Safe; simp [hs, h]⟩
      · split
        · exact parsing_safe rfl (by show p.digits < 32; omega) hlt
        · exact ⟨_, rfl, by unfold Safe; trivial⟩
  | parsing =>
    unfold Safe at h; rw [hs] at h
    rw [step_parsing hs hlt]
    exact parsing_safe hs h hlt
  | finished =>
    unfold Parser.step
    rw [ascii_eval, space_eval _ hlt]
    simp only [hlt, decide_true, Bool.not_true, Option.bind_some, Bool.false_eq_true, if_false, hs, decide_eq_true_eq]
    split
    · split
      · exact ⟨_, rfl, by unfold Safe; simp [hs]⟩
      · exact ⟨_, rfl, by unfold Safe; trivial⟩
    · split
      · exact ⟨_, rfl, by unfold Safe; simp [hs]⟩
      · exact ⟨_, rfl, by unfold Safe; trivial⟩
  | error =>
    rw [step_error hs]; exact ⟨_, rfl, h⟩

theorem run_safe (cs : List (BitVec 32)) : ∀ {p : Parser}, Safe p → ∃ q, p.run cs = some q := by
  induction cs with
  | nil => intro p _; exact ⟨p, rfl⟩
  | cons c cs ih =>
    intro p h
    obtain ⟨q, e, hq⟩ := step_safe h c
    obtain ⟨r, hr⟩ := ih hq
    exact ⟨r, by rw [run_cons, e, Option.bind_some, hr]⟩

theorem run_some (cs : List (BitVec 32)) : ∃ q, ({} : Parser).run cs = some q := run_safe cs (by unfold Safe; rfl)

/-! ### the traversal stops at the first error -/

/-- stopping early does not change whether and with what value the parse succeeds -/
theorem acc_cut (rs seen : List Report) (u : Model.Uuid) :
    Acc {} ((seen ++ cut Parser.keepGoing seen rs).map Report.cp) u ↔ Acc {} ((seen ++ rs).map Report.cp) u := by
  induction rs generalizing seen with
  | nil => simp [cut]
  | cons r rs ih =>
    rw [cut]
    by_cases h : Parser.keepGoing (seen ++ [r]) = true
    · rw [if_pos h]
      have := ih (seen ++ [r])
      simpa using this
    · rw [if_neg h]
      obtain ⟨q, hq⟩ := run_some ((seen ++ [r]).map Report.cp)
      have he : q.state = .error := by
        unfold Parser.keepGoing at h; rw [hq] at h; simpa using h
      refine iff_of_false ?_ ?_
      · rintro ⟨p', e, _, hs, _⟩
        rw [hq] at e; obtain rfl := Option.some.inj e
        rw [he] at hs; exact absurd hs (by decide)
      · rintro ⟨p', e, _, hs, _⟩
        rw [show seen ++ r :: rs = (seen ++ [r]) ++ rs by simp, List.map_append, run_append, hq, Option.bind_some,
          run_error he] at e
        obtain rfl := Option.some.inj e
        rw [he] at hs; exact absurd hs (by decide)

theorem octets_length {body bytes : List Nat} (h : Octets body bytes) : 2 * bytes.length ≤ body.length := by
  induction h with
  | last => simp
  | more _ _ _ _ ih => simp only [List.length_cons, List.length_append]; omega

theorem text_length {text bytes : List Nat} (h : IsText text bytes) : 32 ≤ text.length := by
  obtain ⟨h1, body, ho, ⟨w1, w2, _, rfl⟩ | ⟨w1, w2, w3, w4, _, rfl⟩⟩ := h <;>
  · have := octets_length ho
    simp only [List.length_append, List.length_singleton]; omega

/-- `parse` in terms of what `utf_decode` would report to a callback that never stops -/
theorem parse_eq {υ : Type} (decode : List υ → Bool → Callback → Option (List Report)) (str : List υ) (rs : List Report)
    (hd : ∀ cb, decode str false cb = some (cut cb [] rs)) (hlen : rs.length ≤ str.length) :
    (∃ r, parse decode str = some r) ∧ ∀ u : Model.Uuid, parse decode str = some (some u) ↔
      IsText (rs.map fun r => r.cp.toNat) (u.toList.map BitVec.toNat) := by
  unfold parse
  by_cases hl : str.length < 32
  · rw [if_pos hl]
    refine ⟨⟨_, rfl⟩, fun u => iff_of_false (by simp) ?_⟩
    intro h
    have := text_length h
    rw [List.length_map] at this; omega
  · rw [if_neg hl]
    rw [hd, Option.bind_some]
    have hc := acc_cut rs []
    simp only [List.nil_append] at hc
    obtain ⟨q, hq⟩ := run_some ((cut Parser.keepGoing [] rs).map Report.cp)
    rw [hq, Option.bind_some]
    refine ⟨by split <;> exact ⟨_, rfl⟩, fun u => ?_⟩
    rw [show (rs.map fun r => r.cp.toNat) = (rs.map Report.cp).map BitVec.toNat by simp, ← acc_text, ← hc u]
    constructor
    · intro h
      split at h
      · next hcond =>
        simp only [Bool.and_eq_true, Bool.not_eq_true', beq_iff_eq] at hcond
        exact ⟨q, hq, hcond.1, hcond.2, by simpa using h⟩
      · simp at h
    · rintro ⟨p', e, h1, h2, h3⟩
      rw [hq] at e; obtain rfl := Option.some.inj e
      simp [h1, h2, h3]

end Verif.Proofs.Uuid
