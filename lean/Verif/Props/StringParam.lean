import Verif.Proofs.StringParam
import Verif.Props.Strings2
/-!
# C58: `string_param` keeps its text
-/
namespace Verif.Props
open Verif.Spec Verif.Spec.StringParam Verif.Model.StringParam Verif.Proofs Verif.Proofs.StringParam

/-- Text that the transcoding and trimming functions handle (C08, C11, C12, C13): text of the basic multilingual plane
whose byte order is guessed correctly, without NUL and without the code points on which `is_not_whitespace` is undefined.
(The length of an object is always below 2^64.) -/
structure Plain (t : Text) : Prop where
  native : Native16 t
  nul : 0 ∉ t
  ws : ∀ c ∈ t, ¬ InRanges wsUndefined c
  len : (utf8s t).length < 2 ^ 64

/-- Plain text that is still plain (or empty) when trimmed. -/
def GoodText (t : Text) : Prop := Plain t ∧ (trimmed t = [] ∨ Plain (trimmed t))

/-- The operation is not one of those shown below to be undefined: constructing from text that is not `GoodText`, moving from
or trimming an empty parameter. -/
def Allowed (ts : List Text) : Op → Prop
  | .default => True
  | .construct _ _ t => t = [] ∨ GoodText t
  | .moveConstruct j => ts[j]? ≠ some []
  | .moveAssign i j => i = j ∨ ts[j]? ≠ some []
  | .trim i => ts[i]? ≠ some []
  | .view .. | .toString .. | .isEmpty .. => True

private theorem no_bom {t : Text} (hcs : ∀ c ∈ t, IsScalar c) (hm : t.head? ≠ some 0xFEFF) : ¬ bom8 <+: utf8s t := by
  intro hp
  apply hm
  cases t with
  | nil => have := hp.length_le; simp [bom8, utf8s] at this
  | cons c t =>
    rw [utf8s_cons] at hp
    have hsc := hcs c (by simp)
    have e : bom8 = utf8 0xFEFF := by decide
    rw [e] at hp
    have hp2 : utf8 0xFEFF <+: utf8 c ∨ utf8 c <+: utf8 0xFEFF :=
      List.prefix_or_prefix_of_prefix hp (List.prefix_append _ _)
    have hne : c ≠ 0 := by
      rintro rfl
      rcases hp2 with h | h <;> revert h <;> decide
    have hc32 : (BitVec.ofNat 32 c).toNat = c := by
      unfold IsScalar at hsc; simp only [BitVec.toNat_ofNat]; omega
    have hcz : BitVec.ofNat 32 c ≠ 0#32 := by
      intro h; rw [h] at hc32; exact hne (by simpa using hc32.symm)
    have e1 := (C09_utf8_encoder_partial (BitVec.ofNat 32 c) (by rw [hc32]; exact hsc) hcz).1
    have e2 := (C09_utf8_encoder_partial 0xFEFF#32 (by decide) (by decide)).1
    rw [hc32] at e1
    have e2' : Model.enc8 0xFEFF#32 = utf8 0xFEFF := e2
    have : BitVec.ofNat 32 c = 0xFEFF#32 := by
      rcases hp2 with h | h
      · exact (C09_utf8_encoder_prefix_free_partial _ _ (by decide) (by rw [hc32]; exact hsc) (by decide) hcz
          (by rw [e1, e2']; exact h)).symm
      · exact C09_utf8_encoder_prefix_free_partial _ _ (by rw [hc32]; exact hsc) (by decide) hcz (by decide)
          (by rw [e1, e2']; exact h)
    rw [this] at hc32
    simp at hc32 ⊢; exact hc32.symm

private theorem native32_of {t : Text} (h : Native16 t) : Native32 t := by
  refine ⟨h.scalar, h.mark.1, ?_⟩
  apply Classical.byContradiction
  intro hn
  have hall : ∀ c ∈ t.take 16, (c % 256 == 0) = true := by
    intro c hc
    apply Classical.byContradiction
    intro hc'
    exact hn ⟨c, hc, by simpa using hc'⟩
  have h1 := h.low
  rw [count_all hall] at h1
  have := List.length_filter_le (fun c => c / 256 == 0) (t.take 16)
  omega

/-- Plain text is transcoded faithfully between any two character types. -/
theorem transcode_plain {t : Text} (h : Plain t) (e e' : Enc) : transcode e e' (encode e t) = some (encode e' t) := by
  have hb := no_bom h.native.scalar h.native.mark.1
  have h32 := native32_of h.native
  cases e <;> cases e' <;> simp only [transcode, encode]
  all_goals first
    | rfl
    | exact C11_transcode_8_to_16_partial _ t h.native.scalar hb h.nul
    | exact C11_transcode_8_to_32 _ t h.native.scalar hb
    | exact C11_transcode_16_to_8_partial t h.native h.nul
    | exact C11_transcode_16_to_32_partial t h.native
    | exact C11_transcode_32_to_8_partial t h32 h.nul
    | exact C11_transcode_32_to_16_partial t h32 h.nul

private theorem len_le (t : Text) : t.length ≤ (utf8s t).length := by
  induction t with
  | nil => simp
  | cons c t ih =>
    rw [utf8s_cons, List.length_append, List.length_cons]
    have := utf8_length_pos c
    omega

/-- Plain text is trimmed correctly in any character type. -/
theorem trim_plain {t : Text} (h : Plain t) (e : Enc) : trimUnits e (encode e t) = some (encode e (trimmed t)) := by
  have hb := no_bom h.native.scalar h.native.mark.1
  have hl : t.length < 2 ^ 64 := by have := h.len; have := len_le t; omega
  have h8 : ∀ raw, Model.trim8 raw (utf8s t) = some (utf8s (trimmed t)) := fun raw =>
    C12_trim_partial raw t h.native.scalar hb h.ws h.len
  have h16 := (C12_trim16_partial t h.native h.ws hl).1
  have h32 := (C12_trim32_partial t (native32_of h.native) h.ws hl).1
  cases e <;> simp only [trimUnits, encode]
  · exact h8 _
  · exact h32
  · exact h8 _
  · exact h16
  · exact h32

private theorem good_trimmed {t : Text} (h : GoodText t) : trimmed t = [] ∨ GoodText (trimmed t) := by
  rcases h.2 with h' | h'
  · exact Or.inl h'
  · right; exact ⟨h', Or.inr (by rw [trimmed_idem]; exact h')⟩

private theorem holds_view {t : Text} {p : Param} (h : Holds GoodText t p) (e : Enc) :
    ∃ q, view e p = some ((encode e t).map BitVec.toNat, q) ∧ Holds GoodText t q := by
  by_cases ht : t = []
  · rcases h with ⟨_, rfl⟩ | ⟨h', _⟩
    · subst ht; exact ⟨none, by simp [view, empty, encode_nil], Or.inl ⟨rfl, rfl⟩⟩
    · exact absurd ht h'
  · rcases h with ⟨h', _⟩ | ⟨_, hg, e0, o, rfl⟩
    · exact absurd h' ht
    · simp only [view, empty, visit, Option.bind_some, List.isEmpty_eq_false_iff.2 (encode_ne_nil e0 ht), Bool.false_eq_true, if_false, getView]
      by_cases he : e0 = e
      · subst he
        exact ⟨_, by simp, Or.inr ⟨ht, hg, e0, o, rfl⟩⟩
      · refine ⟨some ⟨e, true, encode e t⟩, ?_, Or.inr ⟨ht, hg, e, true, rfl⟩⟩
        simp [he, transcode_plain hg.1, init, encode_ne_nil e ht]

private theorem holds_toString {t : Text} {p : Param} (h : Holds GoodText t p) (e : Enc) :
    ∃ q, Model.StringParam.toString e p = some ((encode e t).map BitVec.toNat, q) ∧ (Holds GoodText t q ∨ Holds GoodText [] q) := by
  by_cases ht : t = []
  · rcases h with ⟨_, rfl⟩ | ⟨h', _⟩
    · subst ht; exact ⟨none, by simp [Model.StringParam.toString, empty, encode_nil], Or.inl (Or.inl ⟨rfl, rfl⟩)⟩
    · exact absurd ht h'
  · rcases h with ⟨h', _⟩ | ⟨_, hg, e0, o, rfl⟩
    · exact absurd h' ht
    · simp only [Model.StringParam.toString, empty, visit, Option.bind_some, List.isEmpty_eq_false_iff.2 (encode_ne_nil e0 ht), Bool.false_eq_true, if_false, moveIntoString]
      by_cases he : e0 = e
      · subst he
        cases o
        · exact ⟨_, by simp, Or.inl (Or.inr ⟨ht, hg, e0, false, rfl⟩)⟩
        · exact ⟨none, by simp, Or.inr (Or.inl ⟨rfl, rfl⟩)⟩
      · exact ⟨some ⟨e0, o, encode e0 t⟩, by simp [he, transcode_plain hg.1], Or.inl (Or.inr ⟨ht, hg, e0, o, rfl⟩)⟩

private theorem holds_trim {t : Text} {p : Param} (h : Holds GoodText t p) (ht : t ≠ []) :
    ∃ q, trim p = some q ∧ Holds GoodText (trimmed t) q := by
  rcases h with ⟨h', _⟩ | ⟨_, hg, e, o, rfl⟩
  · exact absurd h' ht
  · simp only [trim, visit, trim_plain hg.1, Option.map_some]
    by_cases hne : trimmed t = []
    · refine ⟨none, ?_, Or.inl ⟨hne, rfl⟩⟩
      rw [hne]; simp [encode_nil]
    · refine ⟨_, rfl, Or.inr ⟨hne, (good_trimmed hg).resolve_left hne, e, o, ?_⟩⟩
      rw [if_neg (by simpa using encode_ne_nil e hne)]

private theorem step_ok {ts : List Text} {ps : List Param} (h : List.Forall₂ (Holds GoodText) ts ps) (op : Op)
    (hv : op.valid ts.length) (ha : Allowed ts op) :
    ∃ ps' o ts', step ps op = some (ps', o) ∧ Step ts op o ts' ∧ List.Forall₂ (Holds GoodText) ts' ps' := by
  have hlen := forall2_length h
  have hnone : Holds GoodText [] none := Or.inl ⟨rfl, rfl⟩
  have hget : ∀ {i}, i < ts.length → ∃ t p, ts[i]? = some t ∧ ps[i]? = some p ∧ Holds GoodText t p := by
    intro i hi
    have h1 : ts[i]? = some ts[i] := List.getElem?_eq_getElem hi
    obtain ⟨p, h2, h3⟩ := forall2_get h h1
    exact ⟨_, p, h1, h2, h3⟩
  have hself : ∀ {i t}, ts[i]? = some t → ts.set i t = ts := by
    intro i t hi
    apply List.ext_getElem? 
    intro k
    rw [List.getElem?_set]
    split
    · next hk => subst hk; rw [hi]; simp [(List.getElem?_eq_some_iff.1 hi).1]
    · rfl
  cases op with
  | default => exact ⟨_, _, _, rfl, .default ts, forall2_snoc h hnone⟩
  | construct e o t => exact ⟨_, _, _, rfl, .construct ts e o t, forall2_snoc h (holds_init e o ha)⟩
  | moveConstruct j =>
    obtain ⟨t, p, h1, h2, h3⟩ := hget hv
    have ht : t ≠ [] := by rintro rfl; exact ha h1
    refine ⟨_, _, _, ?_, .moveConstruct ts j t h1, forall2_snoc (forall2_set h j hnone) h3⟩
    simp only [step, h2, Option.bind_some, holds_moveAssign h3 ht, Option.map_some]
  | moveAssign i j =>
    by_cases hij : i = j
    · subst hij
      refine ⟨ps, _, _, ?_, .moveSelf ts i, h⟩
      simp only [step, if_true]
      rw [if_pos (by rw [← hlen]; exact hv.1)]
    · obtain ⟨t, p, h1, h2, h3⟩ := hget hv.2
      obtain ⟨t', p', h1', h2', h3'⟩ := hget hv.1
      have ht : t ≠ [] := by rintro rfl; exact ha.elim hij (fun hh => hh h1)
      refine ⟨_, _, _, ?_, .moveAssign ts i j t hv.1 hij h1, forall2_set (forall2_set h i h3) j hnone⟩
      simp only [step, if_neg hij, h2, h2', Option.bind_some, holds_moveAssign h3 ht, Option.map_some]
  | view i e =>
    obtain ⟨t, p, h1, h2, h3⟩ := hget hv
    obtain ⟨q, h4, h5⟩ := holds_view h3 e
    refine ⟨ps.set i q, _, _, ?_, .view ts i e t h1, ?_⟩
    · simp only [step, h2, Option.bind_some, h4, Option.map_some]; rfl
    · have := forall2_set h i h5
      rwa [hself h1] at this
  | toString i e =>
    obtain ⟨t, p, h1, h2, h3⟩ := hget hv
    obtain ⟨q, h4, h5⟩ := holds_toString h3 e
    rcases h5 with h5 | h5
    · refine ⟨ps.set i q, _, _, ?_, .toStringKept ts i e t h1, ?_⟩
      · simp only [step, h2, Option.bind_some, h4, Option.map_some]; rfl
      · have := forall2_set h i h5
        rwa [hself h1] at this
    · refine ⟨_, _, _, ?_, .toStringGone ts i e t h1, forall2_set h i h5⟩
      simp only [step, h2, Option.bind_some, h4, Option.map_some]; rfl
  | trim i =>
    obtain ⟨t, p, h1, h2, h3⟩ := hget hv
    have ht : t ≠ [] := by rintro rfl; exact ha h1
    obtain ⟨q, h4, h5⟩ := holds_trim h3 ht
    refine ⟨_, _, _, ?_, .trim ts i t h1, forall2_set h i h5⟩
    simp only [step, h2, Option.bind_some, h4, Option.map_some]
  | isEmpty i =>
    obtain ⟨t, p, h1, h2, h3⟩ := hget hv
    refine ⟨ps, _, _, ?_, .isEmpty ts i t h1, h⟩
    simp only [step, h2, Option.bind_some, holds_empty h3, Option.map_some]

/-- **C58 (partial)** In every history of constructions (from any character type, owning or not), moves, requests for the text
in any character type, trims and emptiness checks, each operation is defined and shows what the text says: conversions,
moves and earlier requests never change the text, and `trim` removes exactly the surrounding whitespace. Missing (see
the theorems below): moving from or trimming an empty parameter, and text that is not `GoodText`. -/
theorem C58_history_partial (ops : List Op)
    (hok : ∀ pre op post ts os, ops = pre ++ op :: post → Run [] pre os ts → op.valid ts.length ∧ Allowed ts op) :
    ∃ ps os ts, run [] ops = some (ps, os) ∧ Run [] ops os ts := by
  have key : ∀ (post pre : List Op) (ts0 : List Text) (os0 : List Obs) (ps : List Param), ops = pre ++ post → Run [] pre os0 ts0 →
      List.Forall₂ (Holds GoodText) ts0 ps → ∃ ps' os ts, run ps post = some (ps', os) ∧ Run ts0 post os ts := by
    intro post
    induction post with
    | nil => intro pre ts0 os0 ps _ _ _; exact ⟨ps, [], ts0, rfl, .nil _⟩
    | cons op post ih =>
      intro pre ts0 os0 ps he hr hf
      obtain ⟨hv, ha⟩ := hok pre op post ts0 os0 he hr
      obtain ⟨ps', o, ts', h1, h2, h3⟩ := step_ok hf op hv ha
      obtain ⟨ps'', os, ts, h4, h5⟩ := ih (pre ++ [op]) ts' _ ps' (by simp [he]) (run_snoc hr h2) h3
      exact ⟨ps'', o :: os, ts, by simp [run, h1, h4], .cons h2 h5⟩
  exact key ops [] [] [] [] rfl (.nil _) .nil

/-- **C58 is violated**: moving from an empty parameter is undefined (a false optimiser assumption), whether by construction or by
assignment. -/
theorem C58_move_empty_violated :
    run [] [.default, .moveConstruct 0] = none ∧ run [] [.default, .default, .moveAssign 0 1] = none ∧
    ∀ e o t, run [] [.construct e o t, .default, .moveAssign 0 1] = none := by
  refine ⟨rfl, rfl, fun e o t => ?_⟩
  simp only [run, step, List.nil_append, Option.bind_some, List.cons_append, moveAssign, visit]
  simp

/-- **C58 is violated**: trimming an empty parameter, and trimming twice a parameter that holds only whitespace, is
undefined. -/
theorem C58_trim_empty_violated :
    run [] [.default, .trim 0] = none ∧ run [] [.construct .narrow false [0x20], .trim 0, .trim 0] = none := by
  decide +kernel

/-- **C58 is violated**: asking for a text of NULs in another character type dereferences a null pointer. -/
theorem C58_view_nul_violated : run [] [.construct .u32 false [0], .view 0 .narrow] = none := by decide +kernel

/-- **C58 is violated**: text whose byte order is guessed wrongly changes when asked for in another character type: U+0100 is shown as
U+10000. -/
theorem C58_view_swap_violated :
    (run [] [.construct .u32 false [0x100], .view 0 .narrow]).map (·.2) = some [.nothing, seen .narrow [0x10000]] ∧
    seen .narrow [0x100] ≠ seen .narrow [0x10000] := by decide +kernel

/-- **C58 is violated**: supplementary characters are lost on the way through UTF-16: "ab😀" is shown in UTF-32 as 'a', 'b'
and two surrogates. -/
theorem C58_view_supplementary_violated :
    (run [] [.construct .narrow false [0x61, 0x62, 0x1F600], .view 0 .u16, .view 0 .u32]).map (·.2) =
      some [.nothing, seen .u16 [0x61, 0x62, 0x1F600], .text [0x61, 0x62, 0xD83D, 0xDE00]] ∧
    seen .u32 [0x61, 0x62, 0x1F600] = .text [0x61, 0x62, 0x1F600] := by decide +kernel

/-- non-trivial good text: " é€b " -/
private theorem good_example : GoodText [0x20, 0xE9, 0x20AC, 0x62, 0x20] :=
  ⟨⟨⟨by decide, by decide, by decide, by decide⟩, by decide, by decide, by decide⟩,
    Or.inr ⟨⟨by decide, by decide, by decide, by decide⟩, by decide, by decide, by decide⟩⟩

/-- a history meeting the hypothesis of `C58_history_partial`: construct, view in another encoding, trim, move -/
example : ∃ ps os ts, run [] [.construct .u16 true [0x20, 0xE9, 0x20AC, 0x62, 0x20], .view 0 .wide, .trim 0, .moveConstruct 0] =
    some (ps, os) ∧ Run [] [.construct .u16 true [0x20, 0xE9, 0x20AC, 0x62, 0x20], .view 0 .wide, .trim 0, .moveConstruct 0] os ts := by
  refine C58_history_partial _ ?_
  intro pre op post ts os he hr
  rcases pre with _ | ⟨a, _ | ⟨b, _ | ⟨c, _ | ⟨d, pre⟩⟩⟩⟩
  · simp only [List.nil_append, List.cons.injEq] at he
    obtain ⟨rfl, _⟩ := he
    exact ⟨trivial, Or.inr good_example⟩
  · simp only [List.cons_append, List.nil_append, List.cons.injEq] at he
    obtain ⟨rfl, rfl, _⟩ := he
    cases hr with | cons h1 hr => cases h1; cases hr; exact ⟨by simp [Op.valid], trivial⟩
  · simp only [List.cons_append, List.nil_append, List.cons.injEq] at he
    obtain ⟨rfl, rfl, rfl, _⟩ := he
    cases hr with | cons h1 hr => cases h1; cases hr with | cons h2 hr => cases h2; cases hr; exact ⟨by simp [Op.valid], by simp [Allowed]⟩
  · simp only [List.cons_append, List.nil_append, List.cons.injEq] at he
    obtain ⟨rfl, rfl, rfl, rfl, _⟩ := he
    cases hr with | cons h1 hr => cases h1; cases hr with | cons h2 hr => cases h2; cases hr with
      | cons h3 hr => 
        cases h3 with | trim _ t h =>
          cases hr
          simp only [List.nil_append, List.getElem?_cons_zero, Option.some.injEq] at h
          subst h
          exact ⟨by simp [Op.valid], by unfold Allowed; decide +kernel⟩
  · have := congrArg List.length he
    simp at this
example : (run [] [.construct .u16 true [0x20, 0xE9, 0x20AC, 0x62, 0x20], .view 0 .wide, .moveConstruct 0, .trim 1, .view 1 .narrow,
    .isEmpty 0]).map (·.2) = some [.nothing, seen .wide [0x20, 0xE9, 0x20AC, 0x62, 0x20], .nothing, .nothing,
      seen .narrow [0xE9, 0x20AC, 0x62], .bool true] := by decide +kernel

end Verif.Props
