import Verif.Proofs.Uuid
import Verif.Props.Utf
import Verif.Props.Bits
import Verif.Props.Hashing

/-!
# C30-C34: uuid
-/
namespace Verif.Props
open Verif.Spec Verif.Spec.Uuid Verif.Model Verif.Proofs Verif.Proofs.Uuid

/-! ## C31 -/

theorem text_chars {text bytes : List Nat} (h : IsText text bytes) : ∀ c ∈ text, 0 < c ∧ c < 128 := by
  have ho : ∀ {body bytes : List Nat}, Octets body bytes → ∀ c ∈ body, 0 < c ∧ c < 128 := by
    intro body bytes h
    induction h with
    | last h1 h2 =>
      intro c hc
      simp only [List.mem_cons, List.not_mem_nil, or_false] at hc
      unfold IsHex at h1 h2
      rcases hc with rfl | rfl <;> omega
    | more h1 h2 h3 _ ih =>
      intro c hc
      simp only [List.mem_cons, List.mem_append] at hc
      unfold IsHex at h1 h2
      rcases hc with rfl | rfl | hc | hc
      · omega
      · omega
      · have := h3 c hc; unfold IsSep IsSpace at this; omega
      · exact ih c hc
  have hsp : ∀ {c : Nat}, IsSpace c → 0 < c ∧ c < 128 := by intro c h; unfold IsSpace at h; omega
  obtain ⟨_, body, hb, ⟨w1, w2, hw, rfl⟩ | ⟨w1, w2, w3, w4, hw, rfl⟩⟩ := h
  · intro c hc
    simp only [List.mem_append] at hc hw
    rcases hc with (hc | hc) | hc
    · exact hsp (hw c (Or.inl hc))
    · exact ho hb c hc
    · exact hsp (hw c (Or.inr hc))
  · intro c hc
    simp only [List.mem_append, List.mem_singleton] at hc hw
    rcases hc with (((((hc | hc) | hc) | hc) | hc) | hc) | hc
    · exact hsp (hw c (by tauto))
    · omega
    · exact hsp (hw c (by tauto))
    · exact ho hb c hc
    · exact hsp (hw c (by tauto))
    · omega
    · exact hsp (hw c (by tauto))

theorem text_ne_nil {text bytes : List Nat} (h : IsText text bytes) : text ≠ [] := by
  rintro rfl; have := text_length h; simp at this

theorem utf8_ascii {c : Nat} (h : c < 128) : utf8 c = [BitVec.ofNat 8 c] := utf8_1 h

theorem utf8s_ascii (cs : List Nat) (h : ∀ c ∈ cs, c < 128) : utf8s cs = cs.map (BitVec.ofNat 8) := by
  induction cs with
  | nil => rfl
  | cons c cs ih => rw [utf8s_cons, utf8_ascii (h c (by simp)), ih fun x hx => h x (by simp [hx])]; rfl

theorem reports8_cps (s : Nat) (cs : List Nat) (h : ∀ c ∈ cs, IsScalar c) :
    (reports8 s cs).map (fun r => r.cp.toNat) = cs := by
  induction cs generalizing s with
  | nil => rfl
  | cons c cs ih =>
    rw [reports8, List.map_cons, ih _ fun x hx => h x (by simp [hx])]
    have := h c (by simp)
    unfold IsScalar at this
    simp only [BitVec.toNat_ofNat]
    rw [Nat.mod_eq_of_lt (by omega)]

theorem reports8_length (s : Nat) (cs : List Nat) : (reports8 s cs).length = cs.length := by
  induction cs generalizing s with
  | nil => rfl
  | cons c cs ih => simp [reports8, ih]

theorem le_utf8s_length (cs : List Nat) : cs.length ≤ (utf8s cs).length := by
  induction cs with
  | nil => simp
  | cons c cs ih =>
    rw [utf8s_cons, List.length_cons, List.length_append]
    have : 0 < (utf8 c).length := List.length_pos_iff.2 (utf8_ne_nil c)
    omega

/-- **C31 (partial)** `parse` of well-formed UTF-8 (without byte order mark) accepts exactly the grammar of uuids, and the
result has exactly the octets written in the text. Missing from the full statement: malformed UTF-8, of which some is
accepted (see `C31_uuid_parse_utf8` for exactly which). -/
theorem C31_uuid_parse_wellformed_partial (raw : BitVec 8 → BitVec 32) (cs : List Nat) (hcs : ∀ c ∈ cs, IsScalar c)
    (hbom : ¬ bom8 <+: utf8s cs) :
    (∃ r, Uuid.parse8 raw (utf8s cs) = some r) ∧
    ∀ u : Model.Uuid, Uuid.parse8 raw (utf8s cs) = some (some u) ↔ IsText cs (u.toList.map BitVec.toNat) := by
  have hd : ∀ cb, utfDecode8 raw (utf8s cs) false cb = some (cut cb [] (reports8 0 cs)) := by
    intro cb
    obtain ⟨rs, e1, e2⟩ := C07_utf_decode_stops8 raw (utf8s cs) false cb
    rw [C04_utf_decode_wellformed raw cs hcs hbom] at e1
    rw [e2, ← Option.some.inj e1]
  have := parse_eq (utfDecode8 raw) (utf8s cs) (reports8 0 cs) hd (by rw [reports8_length]; exact le_utf8s_length cs)
  rw [reports8_cps 0 cs hcs] at this
  exact this

/-- a truncated sequence at the end produces no reports -/
theorem fwdL_truncated (raw : BitVec 8 → BitVec 32) (t : List (BitVec 8)) (ht : Truncated8 t) (d : Utf8Decoder)
    (hd : d.state = 0) (cp : Nat) : fwdL utf8Ops raw t d cp [] = [] := by
  obtain ⟨c, hc, ⟨t', e⟩, hne⟩ := ht
  obtain ⟨_, hmid⟩ := feed_utf8 hd hc
  have key : ∀ (us pre : List (BitVec 8)) (d : Utf8Decoder),
      (∀ n, 0 < n → n ≤ us.length → ∃ p, pend (d.feedAll (us.take n)).state = some p) →
      fwdL utf8Ops raw us d cp pre = [] := by
    intro us
    induction us with
    | nil => intro pre d _; rfl
    | cons u us ih =>
      intro pre d h
      obtain ⟨p, hp⟩ := h 1 (by omega) (by simp)
      have hp' : pend (d.feed u).state = some p := by simpa [Utf8Decoder.feedAll] using hp
      have := pend_not hp'
      rw [fwdL]
      rw [if_neg, if_neg]
      · refine ih _ _ fun n h1 h2 => ?_
        obtain ⟨q, hq⟩ := h (n + 1) (by omega) (by simpa using h2)
        exact ⟨q, hq⟩
      · show ¬ (d.feed u).error = true; rw [this.2]; simp
      · show ¬ (d.feed u).hasValue = true; rw [this.1]; simp
  refine key t [] d fun n h1 h2 => ?_
  have hlen : t.length < (utf8 c).length := by
    rw [← e, List.length_append]
    have : t' ≠ [] := by rintro rfl; exact hne (by simpa using e)
    have := List.length_pos_iff.2 this
    omega
  obtain ⟨p, hp⟩ := hmid n h1 (by omega)
  refine ⟨p, ?_⟩
  rw [← e, List.take_append_of_le_length h2] at hp
  exact hp

/-- reports of ASCII code points are single bytes of the string -/
theorem tiles_ascii {raw : BitVec 8 → BitVec 32} (hraw : ∀ b, (raw b).toNat < 128 → (raw b).toNat = b.toNat)
    (str : List (BitVec 8)) (rs : List Report) : ∀ (a m : Nat), Tiles a rs m → m ≤ str.length →
    (∀ r ∈ rs, Truthful8 raw str r) → (∀ r ∈ rs, r.cp.toNat < 128) →
    a ≤ m ∧ ∃ body, str.drop a = body ++ str.drop m ∧ body.map BitVec.toNat = rs.map fun r => r.cp.toNat := by
  induction rs with
  | nil =>
    intro a m h _ _ _
    obtain rfl : a = m := h
    exact ⟨Nat.le_refl _, [], rfl, rfl⟩
  | cons r rs ih =>
    intro a m h hm ht hc
    obtain ⟨rfl, hpos, h⟩ := h
    obtain ⟨hle, body, e, hb⟩ := ih _ m h hm (fun x hx => ht x (by simp [hx])) (fun x hx => hc x (by simp [hx]))
    have hr := hc r (by simp)
    have : r.count = 1 ∧ ∃ u, str[r.start]? = some u ∧ u.toNat = r.cp.toNat := by
      rcases ht r (by simp) with ⟨_, e2⟩ | ⟨h1, u, e2, e3⟩
      · rw [utf8_ascii hr] at e2
        have hl := congrArg List.length e2
        simp only [List.length_take, List.length_drop, List.length_singleton] at hl
        have h1 : r.count = 1 := by omega
        refine ⟨h1, BitVec.ofNat 8 r.cp.toNat, ?_, ?_⟩
        · have := congrArg (fun l => l[0]?) e2
          rw [h1] at this
          simpa [List.getElem?_take] using this
        · rw [BitVec.toNat_ofNat, Nat.mod_eq_of_lt (by omega)]
      · refine ⟨h1, u, e2, ?_⟩
        rw [e3] at hr ⊢
        exact (hraw u hr).symm
    obtain ⟨h1, u, hu, hv⟩ := this
    refine ⟨by omega, u :: body, ?_, by rw [List.map_cons, hb, List.map_cons, hv]⟩
    rw [h1] at e
    rw [List.cons_append, ← e]
    obtain ⟨hlt, hu'⟩ := List.getElem?_eq_some_iff.1 hu
    rw [← hu', ← List.drop_eq_getElem_cons hlt]

/-- **C31** exactly which byte strings `parse` accepts, whatever the signedness of `char`: an optional UTF-8 byte order
mark, the text of a uuid, and a truncated UTF-8 sequence (of up to three bytes), which is ignored. -/
theorem C31_uuid_parse_utf8 (raw : BitVec 8 → BitVec 32) (hraw : raw = (·.zeroExtend 32) ∨ raw = (·.signExtend 32))
    (str : List (BitVec 8)) :
    (∃ r, Uuid.parse8 raw str = some r) ∧
    ∀ u : Model.Uuid, Uuid.parse8 raw str = some (some u) ↔
      ∃ bom body t, str = bom ++ body ++ t ∧ (bom = [] ∨ bom = bom8) ∧
        IsText (body.map BitVec.toNat) (u.toList.map BitVec.toNat) ∧ Truncated8 t := by
  have hraw' : ∀ b, (raw b).toNat < 128 → (raw b).toNat = b.toNat := by
    intro b hb
    rcases hraw with rfl | rfl
    · simp only [BitVec.toNat_setWidth] at *
      have := b.isLt; omega
    · have key : ∀ n < 256, ((BitVec.ofNat 8 n).signExtend 32).toNat < 128 →
        ((BitVec.ofNat 8 n).signExtend 32).toNat = (BitVec.ofNat 8 n).toNat := by decide +kernel
      have := key b.toNat b.isLt
      rw [BitVec.ofNat_toNat, BitVec.setWidth_eq] at this
      exact this hb
  obtain ⟨rs, m, e1, htile, hm, hm3, htr, htruth⟩ := C05_utf_decode_arbitrary raw str
  have hd : ∀ cb, utfDecode8 raw str false cb = some (cut cb [] rs) := by
    intro cb
    obtain ⟨rs', e1', e2⟩ := C07_utf_decode_stops8 raw str false cb
    rw [e1] at e1'
    rw [e2, ← Option.some.inj e1']
  have hlen : rs.length ≤ str.length := by
    have : ∀ (rs : List Report) (a m : Nat), Tiles a rs m → a + rs.length ≤ m := by
      intro rs
      induction rs with
      | nil => intro a m h; have : a = m := h; simp; omega
      | cons r rs ih => intro a m h; obtain ⟨_, h2, h3⟩ := h; have := ih _ _ h3; simp only [List.length_cons]; omega
    have := this _ _ _ htile
    omega
  obtain ⟨hsome, hiff⟩ := parse_eq (utfDecode8 raw) str rs hd hlen
  refine ⟨hsome, fun u => ?_⟩
  rw [show Uuid.parse8 raw str = Uuid.parse (utfDecode8 raw) str from rfl, hiff u]
  constructor
  · intro h
    have hasc : ∀ r ∈ rs, r.cp.toNat < 128 := by
      intro r hr
      exact (text_chars h r.cp.toNat (List.mem_map.2 ⟨r, hr, rfl⟩)).2
    obtain ⟨_, body, e, hb⟩ := tiles_ascii hraw' str rs _ m htile hm htruth hasc
    rw [← hb] at h
    by_cases hp : bom8.isPrefixOf str = true
    · obtain ⟨rest, hrest⟩ := List.isPrefixOf_iff_prefix.1 hp
      rw [if_pos hp] at e
      refine ⟨bom8, body, str.drop m, ?_, Or.inr rfl, h, htr⟩
      rw [List.append_assoc, ← e, ← hrest]; rfl
    · rw [if_neg hp] at e
      exact ⟨[], body, str.drop m, by simpa using e, Or.inl rfl, h, htr⟩
  · rintro ⟨bom, body, t, rfl, hbom, h, ht⟩
    have hasc : ∀ c ∈ body.map BitVec.toNat, c < 128 := fun c hc => (text_chars h c hc).2
    have hsc : ∀ c ∈ body.map BitVec.toNat, IsScalar c := fun c hc => Or.inl (by have := hasc c hc; omega)
    have hbody : body = utf8s (body.map BitVec.toNat) := by
      rw [utf8s_ascii _ hasc, List.map_map]
      have : (BitVec.ofNat 8 ∘ BitVec.toNat) = (id : BitVec 8 → BitVec 8) := by funext b; simp
      rw [this, List.map_id]
    have htrace : ∃ s, rs = reports8 s (body.map BitVec.toNat) := by
      rw [utfDecode8_always] at e1
      rw [← Option.some.inj e1]
      rcases hbom with rfl | rfl
      · have hs : dataStart8 ([] ++ body ++ t) = 0 := by
          unfold dataStart8; rw [if_neg]
          intro hb
          have hpre := (hasBom8_iff _).1 hb
          cases body with
          | nil => exact text_ne_nil h rfl
          | cons b body =>
            obtain ⟨x, hx⟩ := hpre
            simp only [bom8, List.nil_append, List.cons_append, List.cons.injEq] at hx
            have := hasc b.toNat (by simp)
            rw [← hx.1] at this
            simp at this
        refine ⟨0, ?_⟩
        simp only [trace8, hs, List.drop_zero]
        rw [if_neg (by simp), List.nil_append]
        obtain ⟨d', hd', e⟩ := fwdL_utf8s raw _ hsc {} rfl 0 t
        rw [← hbody] at e
        exact e.trans (by rw [fwdL_truncated raw t ht d' hd', List.append_nil])
      · refine ⟨3, ?_⟩
        simp only [trace8, List.append_assoc, dataStart8_append_bom]
        rw [if_neg (by simp), show (bom8 ++ (body ++ t)).drop 3 = body ++ t from rfl]
        obtain ⟨d', hd', e⟩ := fwdL_utf8s raw _ hsc {} rfl 3 t
        rw [← hbody] at e
        exact e.trans (by rw [fwdL_truncated raw t ht d' hd', List.append_nil])
    obtain ⟨s, rfl⟩ := htrace
    rw [reports8_cps s _ hsc]
    exact h

/-- **C31** UTF-32: `parse` accepts exactly the text of a uuid, in the platform's byte order or byte-swapped, with or
without a byte order mark -/
theorem C31_uuid_parse_utf32 (str : List (BitVec 32)) :
    (∃ r, Uuid.parse32 str = some r) ∧
    ∀ u : Model.Uuid, Uuid.parse32 str = some (some u) ↔
      ∃ bom text, (IsText (text.map BitVec.toNat) (u.toList.map BitVec.toNat)) ∧
        ((str = bom ++ text ∧ (bom = [] ∨ bom = [0xFEFF#32])) ∨
         (str = bom ++ text.map byteReverse32 ∧ (bom = [] ∨ bom = [0xFFFE0000#32]))) := by
  have hd : ∀ cb, utfDecode32 str false cb = some (cut cb [] (trace32 str false)) := by
    intro cb
    rw [utfDecode32_eq, runLog_cut cb {} rfl]; rfl
  have htr : trace32 str false = unitReports (endian32 str).1
      ((str.map fun u => if (endian32 str).2 then byteReverse32 u else u).drop (endian32 str).1) := by
    simp only [trace32, rawL_id]; rfl
  have hur : ∀ (s : Nat) (us : List (BitVec 32)), (unitReports s us).map (fun r => r.cp.toNat) = us.map BitVec.toNat := by
    intro s us
    induction us generalizing s with
    | nil => rfl
    | cons u us ih => simp [unitReports, ih]
  have hul : ∀ (s : Nat) (us : List (BitVec 32)), (unitReports s us).length = us.length := by
    intro s us
    induction us generalizing s with
    | nil => rfl
    | cons u us ih => simp [unitReports, ih]
  obtain ⟨hsome, hiff⟩ := parse_eq utfDecode32 str (trace32 str false) hd (by
    rw [htr, hul, List.length_drop, List.length_map]; omega)
  refine ⟨hsome, fun u => ?_⟩
  rw [show Uuid.parse32 str = Uuid.parse utfDecode32 str from rfl, hiff u, htr, hur]
  constructor
  · intro h
    cases str with
    | nil => exact absurd rfl (text_ne_nil h)
    | cons v vs =>
      by_cases h1 : v = 0xFFFE0000#32
      · have he : endian32 (v :: vs) = (1, true) := by simp [endian32, h1]
        rw [he] at h
        simp only [if_true, List.map_cons, List.drop_succ_cons, List.drop_zero] at h
        refine ⟨[v], vs.map byteReverse32, h, Or.inr ⟨?_, Or.inr (by rw [h1])⟩⟩
        simp [byteReverse32_invol, Function.comp_def]
      · by_cases h2 : v = 0xFEFF#32
        · have he : endian32 (v :: vs) = (1, false) := by simp [endian32, h2]
          rw [he] at h
          simp only [Bool.false_eq_true, if_false, List.map_id', List.drop_succ_cons, List.drop_zero] at h
          exact ⟨[v], vs, h, Or.inl ⟨rfl, Or.inr (by rw [h2])⟩⟩
        · have he : endian32 (v :: vs) = (0, (endian32 (v :: vs)).2) := by simp [endian32, h1, h2]
          generalize (endian32 (v :: vs)).2 = b at he
          rw [he] at h
          cases b with
          | false =>
            simp only [Bool.false_eq_true, if_false, List.map_id', List.drop_zero] at h
            exact ⟨[], v :: vs, h, Or.inl ⟨rfl, Or.inl rfl⟩⟩
          | true =>
            simp only [if_true, List.drop_zero] at h
            refine ⟨[], (v :: vs).map byteReverse32, h, Or.inr ⟨?_, Or.inl rfl⟩⟩
            simp [byteReverse32_invol, Function.comp_def]
  · rintro ⟨bom, text, h, ⟨rfl, hb⟩ | ⟨rfl, hb⟩⟩
    · rcases hb with rfl | rfl
      · have hne : text ≠ [] := by rintro rfl; exact text_ne_nil h rfl
        have hch : ∀ v ∈ text, 0 < v.toNat ∧ v.toNat < 128 := fun v hv =>
          text_chars h v.toNat (List.mem_map.2 ⟨v, hv, rfl⟩)
        have he : endian32 ([] ++ text) = (0, false) := by
          rw [List.nil_append]
          refine endian32_native text hne ?_ ?_ ?_
          · intro hh; have := (hch _ (List.mem_of_head? hh)).2; simp at this
          · intro hh; have := (hch _ (List.mem_of_head? hh)).2; simp at this
          · have h1 : (text.take 16).filter lowByteZero = [] := by
              rw [List.filter_eq_nil_iff]
              intro v hv
              have := hch v (List.mem_of_mem_take hv)
              unfold lowByteZero
              simp only [beq_iff_eq]; omega
            have h2 : (text.take 16).filter highByteZero = text.take 16 := by
              rw [List.filter_eq_self]
              intro v hv
              have := hch v (List.mem_of_mem_take hv)
              unfold highByteZero
              simp only [beq_iff_eq]
              exact Nat.div_eq_of_lt (by omega)
            rw [h1, h2]
            have := List.length_pos_iff.2 hne
            simp only [List.length_nil, List.length_take]; omega
        rw [he]; simpa using h
      · have he : endian32 ([0xFEFF#32] ++ text) = (1, false) := by simp [endian32]
        rw [he]; simpa using h
    · have hinv : (text.map byteReverse32).map byteReverse32 = text := by
        simp [byteReverse32_invol, Function.comp_def]
      rcases hb with rfl | rfl
      · have hne : text ≠ [] := by rintro rfl; exact text_ne_nil h rfl
        have hch : ∀ v ∈ text, 0 < v.toNat ∧ v.toNat < 128 := fun v hv =>
          text_chars h v.toNat (List.mem_map.2 ⟨v, hv, rfl⟩)
        have hrev : ∀ n < 128, (byteReverse32 (BitVec.ofNat 32 n)).toNat = n * 2 ^ 24 := by decide +kernel
        have hrev' : ∀ v ∈ text, (byteReverse32 v).toNat = v.toNat * 2 ^ 24 := by
          intro v hv
          have := hrev v.toNat (hch v hv).2
          rwa [BitVec.ofNat_toNat, BitVec.setWidth_eq] at this
        have he : endian32 ([] ++ text.map byteReverse32) = (0, true) := by
          rw [List.nil_append]
          refine endian32_swapped _ (by simpa using hne) ?_ ?_ ?_
          · intro hh
            obtain ⟨v, hv, e⟩ := List.mem_map.1 (List.mem_of_head? hh)
            have h1 := hrev' v hv
            rw [e] at h1
            simp at h1; omega
          · intro hh
            obtain ⟨v, hv, e⟩ := List.mem_map.1 (List.mem_of_head? hh)
            have h1 := hrev' v hv
            rw [e] at h1
            simp at h1; omega
          · have h1 : ((text.map byteReverse32).take 16).filter highByteZero = [] := by
              rw [List.filter_eq_nil_iff]
              intro v hv
              obtain ⟨w, hw, rfl⟩ := List.mem_map.1 (List.mem_of_mem_take hv)
              have h1 := hrev' w hw
              have h2 := hch w hw
              unfold highByteZero
              simp only [beq_iff_eq, h1]
              omega
            rw [h1]; simp
        rw [he]
        simp only [List.nil_append, if_true, List.drop_zero, hinv]
        exact h
      · have he : endian32 ([0xFFFE0000#32] ++ text.map byteReverse32) = (1, true) := by simp [endian32]
        rw [he]
        have e : ([0xFFFE0000#32] ++ text.map byteReverse32).map (fun u => if true then byteReverse32 u else u) =
            [byteReverse32 0xFFFE0000#32] ++ text := by rw [List.map_append]; exact congrArg _ hinv
        rw [e]
        exact h

theorem byteReverse16_twice (v : BitVec 16) : byteReverse16 (byteReverse16 v) = v :=
  (C19_byte_reverse_involutive v 0 0 0).1

/-- **C31** UTF-16: `parse` accepts exactly the text of a uuid, in the platform's byte order or byte-swapped, with or
without a byte order mark -/
theorem C31_uuid_parse_utf16 (str : List (BitVec 16)) :
    (∃ r, Uuid.parse16 str = some r) ∧
    ∀ u : Model.Uuid, Uuid.parse16 str = some (some u) ↔
      ∃ bom text, (IsText (text.map BitVec.toNat) (u.toList.map BitVec.toNat)) ∧
        ((str = bom ++ text ∧ (bom = [] ∨ bom = [0xFEFF#16])) ∨
         (str = bom ++ text.map byteReverse16 ∧ (bom = [] ∨ bom = [0xFFFE#16]))) := by
  have hd : ∀ cb, utfDecode16 str false cb = some (cut cb [] (trace16 str false)) := by
    intro cb
    rw [utfDecode16_eq, runLog_cut cb {} rfl]; rfl
  have htr : trace16 str false = unitReports (endian16 str).1
      ((str.map fun u => if (endian16 str).2 then byteReverse16 u else u).drop (endian16 str).1) := by
    simp only [trace16, Bool.false_eq_true, if_false]; exact fwdL_units _ {} (Or.inl rfl) _
  have hur : ∀ (s : Nat) (us : List (BitVec 16)), (unitReports s us).map (fun r => r.cp.toNat) = us.map BitVec.toNat := by
    intro s us
    induction us generalizing s with
    | nil => rfl
    | cons u us ih =>
      have := u.isLt
      rw [unitReports, List.map_cons, List.map_cons, ih]
      congr 1
  have hul : ∀ (s : Nat) (us : List (BitVec 16)), (unitReports s us).length = us.length := by
    intro s us
    induction us generalizing s with
    | nil => rfl
    | cons u us ih => simp [unitReports, ih]
  obtain ⟨hsome, hiff⟩ := parse_eq utfDecode16 str (trace16 str false) hd (by
    rw [htr, hul, List.length_drop, List.length_map]; omega)
  refine ⟨hsome, fun u => ?_⟩
  rw [show Uuid.parse16 str = Uuid.parse utfDecode16 str from rfl, hiff u, htr, hur]
  constructor
  · intro h
    cases str with
    | nil => exact absurd rfl (text_ne_nil h)
    | cons v vs =>
      by_cases h1 : v = 0xFFFE#16
      · have he : endian16 (v :: vs) = (1, true) := by simp [endian16, h1]
        rw [he] at h
        simp only [if_true, List.map_cons, List.drop_succ_cons, List.drop_zero] at h
        refine ⟨[v], vs.map byteReverse16, h, Or.inr ⟨?_, Or.inr (by rw [h1])⟩⟩
        simp [byteReverse16_twice, Function.comp_def]
      · by_cases h2 : v = 0xFEFF#16
        · have he : endian16 (v :: vs) = (1, false) := by simp [endian16, h2]
          rw [he] at h
          simp only [Bool.false_eq_true, if_false, List.map_id', List.drop_succ_cons, List.drop_zero] at h
          exact ⟨[v], vs, h, Or.inl ⟨rfl, Or.inr (by rw [h2])⟩⟩
        · have he : endian16 (v :: vs) = (0, (endian16 (v :: vs)).2) := by simp [endian16, h1, h2]
          generalize (endian16 (v :: vs)).2 = b at he
          rw [he] at h
          cases b with
          | false =>
            simp only [Bool.false_eq_true, if_false, List.map_id', List.drop_zero] at h
            exact ⟨[], v :: vs, h, Or.inl ⟨rfl, Or.inl rfl⟩⟩
          | true =>
            simp only [if_true, List.drop_zero] at h
            refine ⟨[], (v :: vs).map byteReverse16, h, Or.inr ⟨?_, Or.inl rfl⟩⟩
            simp [byteReverse16_twice, Function.comp_def]
  · rintro ⟨bom, text, h, ⟨rfl, hb⟩ | ⟨rfl, hb⟩⟩
    · rcases hb with rfl | rfl
      · have hne : text ≠ [] := by rintro rfl; exact text_ne_nil h rfl
        have hch : ∀ v ∈ text, 0 < v.toNat ∧ v.toNat < 128 := fun v hv =>
          text_chars h v.toNat (List.mem_map.2 ⟨v, hv, rfl⟩)
        have he : endian16 ([] ++ text) = (0, false) := by
          rw [List.nil_append]
          refine endian16_native text hne ?_ ?_ ?_
          · intro hh; have := (hch _ (List.mem_of_head? hh)).2; simp at this
          · intro hh; have := (hch _ (List.mem_of_head? hh)).2; simp at this
          · have h1 : (text.take 16).filter lowByteZero = [] := by
              rw [List.filter_eq_nil_iff]
              intro v hv
              have := hch v (List.mem_of_mem_take hv)
              unfold lowByteZero
              simp only [beq_iff_eq]; omega
            have h2 : (text.take 16).filter highByteZero = text.take 16 := by
              rw [List.filter_eq_self]
              intro v hv
              have := hch v (List.mem_of_mem_take hv)
              unfold highByteZero
              simp only [beq_iff_eq]
              exact Nat.div_eq_of_lt (by omega)
            rw [h1, h2]
            have := List.length_pos_iff.2 hne
            simp only [List.length_nil, List.length_take]; omega
        rw [he]; simpa using h
      · have he : endian16 ([0xFEFF#16] ++ text) = (1, false) := by simp [endian16]
        rw [he]; simpa using h
    · have hinv : (text.map byteReverse16).map byteReverse16 = text := by
        simp [byteReverse16_twice, Function.comp_def]
      rcases hb with rfl | rfl
      · have hne : text ≠ [] := by rintro rfl; exact text_ne_nil h rfl
        have hch : ∀ v ∈ text, 0 < v.toNat ∧ v.toNat < 128 := fun v hv =>
          text_chars h v.toNat (List.mem_map.2 ⟨v, hv, rfl⟩)
        have hrev : ∀ n < 128, (byteReverse16 (BitVec.ofNat 16 n)).toNat = n * 2 ^ 8 := by decide +kernel
        have hrev' : ∀ v ∈ text, (byteReverse16 v).toNat = v.toNat * 2 ^ 8 := by
          intro v hv
          have := hrev v.toNat (hch v hv).2
          rwa [BitVec.ofNat_toNat, BitVec.setWidth_eq] at this
        have he : endian16 ([] ++ text.map byteReverse16) = (0, true) := by
          rw [List.nil_append]
          refine endian16_swapped _ (by simpa using hne) ?_ ?_ ?_
          · intro hh
            obtain ⟨v, hv, e⟩ := List.mem_map.1 (List.mem_of_head? hh)
            have h1 := hrev' v hv
            rw [e] at h1
            simp at h1; omega
          · intro hh
            obtain ⟨v, hv, e⟩ := List.mem_map.1 (List.mem_of_head? hh)
            have h1 := hrev' v hv
            rw [e] at h1
            simp at h1; omega
          · have h1 : ((text.map byteReverse16).take 16).filter highByteZero = [] := by
              rw [List.filter_eq_nil_iff]
              intro v hv
              obtain ⟨w, hw, rfl⟩ := List.mem_map.1 (List.mem_of_mem_take hv)
              have h1 := hrev' w hw
              have h2 := hch w hw
              unfold highByteZero
              simp only [beq_iff_eq, h1]
              omega
            rw [h1]; simp
        rw [he]
        simp only [List.nil_append, if_true, List.drop_zero, hinv]
        exact h
      · have he : endian16 ([0xFFFE#16] ++ text.map byteReverse16) = (1, true) := by simp [endian16]
        rw [he]
        have e : ([0xFFFE#16] ++ text.map byteReverse16).map (fun u => if true then byteReverse16 u else u) =
            [byteReverse16 0xFFFE#16] ++ text := by rw [List.map_append]; exact congrArg _ hinv
        rw [e]
        exact h

/-- **C31 is violated** UTF-16 and UTF-32: a string of 32 CJK characters U+4100 is accepted as the uuid AA…AA, because
the byte order is guessed. -/
theorem C31_uuid_parse_swapped_violated :
    Uuid.parse16 (List.replicate 32 0x4100#16) = some (some (Vector.replicate 16 0xAA#8)) := by
  rw [(C31_uuid_parse_utf16 _).2]
  refine ⟨[], List.replicate 32 0x41#16, ?_, Or.inr ⟨?_, Or.inl rfl⟩⟩
  · refine ⟨rfl, List.replicate 32 0x41, ?_, Or.inl ⟨[], [], by simp, rfl⟩⟩
    have h : IsHex 0x41 := by decide
    have key : ∀ n, Octets (List.replicate (2 * (n + 1)) 0x41) (List.replicate (n + 1) 0xAA) := by
      intro n
      induction n with
      | zero => exact Octets.last h h
      | succ n ih => exact Octets.more (sep := []) h h (by simp) ih
    exact key 15
  · decide

/-- **C31 is violated** UTF-8: the printed form of any uuid is still accepted with a stray byte 0xC3 behind it. -/
theorem C31_uuid_parse_truncated_violated (raw : BitVec 8 → BitVec 32)
    (hraw : raw = (·.zeroExtend 32) ∨ raw = (·.signExtend 32)) (u : Model.Uuid) (body : List (BitVec 8))
    (h : IsText (body.map BitVec.toNat) (u.toList.map BitVec.toNat)) :
    Uuid.parse8 raw (body ++ [0xC3#8]) = some (some u) :=
  ((C31_uuid_parse_utf8 raw hraw _).2 u).2
    ⟨[], body, [0xC3#8], rfl, Or.inl rfl, h, 0xE9, by decide, ⟨[0xA9#8], by decide⟩, by decide⟩

/-- **C31 (partial)** UTF-32: for strings of code points (without byte order mark) the full statement holds. Missing:
byte order marks and units that are not code points. -/
theorem C31_uuid_parse_utf32_partial (str : List (BitVec 32)) (hcp : ∀ v ∈ str, v.toNat ≤ 0x10FFFF)
    (hb : str.head? ≠ some 0xFEFF#32) (u : Model.Uuid) :
    Uuid.parse32 str = some (some u) ↔ IsText (str.map BitVec.toNat) (u.toList.map BitVec.toNat) := by
  rw [(C31_uuid_parse_utf32 str).2 u]
  constructor
  · rintro ⟨bom, text, h, ⟨rfl, rfl | rfl⟩ | ⟨rfl, rfl | rfl⟩⟩
    · exact h
    · simp at hb
    · exfalso
      cases text with
      | nil => exact text_ne_nil h rfl
      | cons v vs =>
        have h1 := text_chars h v.toNat (by simp)
        have h2 := hcp (byteReverse32 v) (by simp)
        have hrev : ∀ n < 128, (byteReverse32 (BitVec.ofNat 32 n)).toNat = n * 2 ^ 24 := by decide +kernel
        have h3 := hrev v.toNat h1.2
        rw [BitVec.ofNat_toNat, BitVec.setWidth_eq] at h3
        omega
    · have := hcp 0xFFFE0000#32 (by simp)
      simp at this
  · intro h
    exact ⟨[], str, h, Or.inl ⟨rfl, Or.inl rfl⟩⟩

/-! ## C30 -/

theorem octets_append {b1 x b2 y : List Nat} (h1 : Octets b1 x) (sep : List Nat) (hs : ∀ c ∈ sep, IsSep c)
    (h2 : Octets b2 y) : Octets (b1 ++ sep ++ b2) (x ++ y) := by
  induction h1 with
  | last hx hy => exact Octets.more hx hy hs h2
  | more hx hy hsep _ ih =>
    rename_i s _ _ _
    have := Octets.more hx hy hsep ih
    simpa [List.append_assoc] using this

/-- `o` writes an octet as two hex digits -/
def WritesOctet (o : Nat → List Nat) : Prop :=
  ∀ b < 256, ∃ h l, o b = [h, l] ∧ IsHex h ∧ IsHex l ∧ 16 * hexVal h + hexVal l = b

theorem writes_upper : WritesOctet upperOctet := by
  have : ∀ b < 256, IsHex (upperDigit (b / 16)) ∧ IsHex (upperDigit (b % 16)) ∧
      16 * hexVal (upperDigit (b / 16)) + hexVal (upperDigit (b % 16)) = b := by decide +kernel
  exact fun b hb => ⟨_, _, rfl, this b hb⟩

theorem writes_lower : WritesOctet lowerOctet := by
  have : ∀ b < 256, IsHex (lowerDigit (b / 16)) ∧ IsHex (lowerDigit (b % 16)) ∧
      16 * hexVal (lowerDigit (b / 16)) + hexVal (lowerDigit (b % 16)) = b := by decide +kernel
  exact fun b hb => ⟨_, _, rfl, this b hb⟩

theorem octets_flat {o : Nat → List Nat} (ho : WritesOctet o) (bytes : List Nat) (hne : bytes ≠ [])
    (hb : ∀ b ∈ bytes, b < 256) : Octets (bytes.flatMap o) bytes := by
  induction bytes with
  | nil => exact absurd rfl hne
  | cons b bs ih =>
    obtain ⟨x, y, e, hx, hy, hv⟩ := ho b (hb b (by simp))
    have h1 : Octets (o b) [b] := by rw [e, ← hv]; exact Octets.last hx hy
    cases bs with
    | nil => simpa using h1
    | cons b' bs' =>
      have := octets_append h1 [] (by simp) (ih (by simp) fun c hc => hb c (by simp [hc]))
      simpa using this

theorem octets_canonical {o : Nat → List Nat} (ho : WritesOctet o) (bytes : List Nat) (hl : bytes.length = 16)
    (hb : ∀ b ∈ bytes, b < 256) : Octets (canonical o bytes) bytes := by
  have h : ∀ m n : Nat, m < n → n ≤ 16 → Octets (((bytes.drop m).take (n - m)).flatMap o) ((bytes.drop m).take (n - m)) := by
    intro m n h1 h2
    refine octets_flat ho _ ?_ fun b hbm => hb b (List.mem_of_mem_drop (List.mem_of_mem_take hbm))
    intro e
    have := congrArg List.length e
    rw [List.length_take, List.length_drop, hl] at this
    simp at this; omega
  have hy : ∀ c ∈ [0x2D], IsSep c := by decide
  have a := octets_append (octets_append (octets_append (octets_append (h 0 4 (by decide) (by decide)) [0x2D] hy
    (h 4 6 (by decide) (by decide))) [0x2D] hy (h 6 8 (by decide) (by decide))) [0x2D] hy
    (h 8 10 (by decide) (by decide))) [0x2D] hy (h 10 16 (by decide) (by decide))
  have e : ∀ m n : Nat, m < n → n ≤ 16 → bytes.take m ++ (bytes.drop m).take (n - m) = bytes.take n := by
    intro m n h1 h2
    have := List.take_add (l := bytes) (i := m) (j := n - m)
    rw [show m + (n - m) = n by omega] at this
    exact this.symm
  have e16 : bytes.take 16 = bytes := List.take_of_length_le (by omega)
  have e10 : (bytes.drop 10).take 6 = bytes.drop 10 := List.take_of_length_le (by rw [List.length_drop]; omega)
  have e' := e 4 6 (by decide) (by decide)
  rw [show (bytes.drop 0) = bytes from rfl, show (4 : Nat) - 0 = 4 from rfl, e', e 6 8 (by decide) (by decide),
    e 8 10 (by decide) (by decide), e 10 16 (by decide) (by decide), e16, show (16 : Nat) - 10 = 6 from rfl, e10] at a
  exact a

theorem toList_eq (u : Model.Uuid) : u.toList = [u[0], u[1], u[2], u[3], u[4], u[5], u[6], u[7], u[8], u[9], u[10],
    u[11], u[12], u[13], u[14], u[15]] := by
  apply List.ext_getElem
  · simp
  · intro i h1 h2
    simp only [Vector.length_toList] at h1
    interval_cases i <;> simp

/-- **C30** the printed form: 36 characters, 8-4-4-4-12 upper-case hex digits, for every uuid -/
theorem C30_uuid_print (u : Model.Uuid) :
    (Uuid.print u).map BitVec.toNat = canonical upperOctet (u.toList.map BitVec.toNat) ∧ (Uuid.print u).length = 36 := by
  have hb : ∀ b : BitVec 8, [(byteToHex b 0x41#8).1.toNat, (byteToHex b 0x41#8).2.toNat] = upperOctet b.toNat := by
    intro b
    have : ∀ n < 256, [(byteToHex (BitVec.ofNat 8 n) 0x41#8).1.toNat, (byteToHex (BitVec.ofNat 8 n) 0x41#8).2.toNat] =
        upperOctet n := by decide +kernel
    have := this b.toNat b.isLt
    rwa [BitVec.ofNat_toNat, BitVec.setWidth_eq] at this
  have main : (Uuid.print u).map BitVec.toNat = canonical upperOctet (u.toList.map BitVec.toNat) := by
    rw [toList_eq]
    have hb' : ∀ b : BitVec 8, List.map BitVec.toNat [(byteToHex b 0x41#8).1, (byteToHex b 0x41#8).2] =
        upperOctet b.toNat := hb
    unfold Uuid.print canonical
    generalize u[0] = b0
    generalize u[1] = b1
    generalize u[2] = b2
    generalize u[3] = b3
    generalize u[4] = b4
    generalize u[5] = b5
    generalize u[6] = b6
    generalize u[7] = b7
    generalize u[8] = b8
    generalize u[9] = b9
    generalize u[10] = b10
    generalize u[11] = b11
    generalize u[12] = b12
    generalize u[13] = b13
    generalize u[14] = b14
    generalize u[15] = b15
    simp only [List.map_append, hb']
    simp only [List.map_cons, List.map_nil, List.take_succ_cons, List.take_zero, List.drop_succ_cons, List.drop_zero,
      List.flatMap_cons, List.flatMap_nil, List.append_nil, List.append_assoc, show (0x2D#8).toNat = 0x2D from rfl]
  refine ⟨main, ?_⟩
  have hlen : ∀ l : List Nat, (l.flatMap upperOctet).length = 2 * l.length := by
    intro l
    induction l with
    | nil => rfl
    | cons b l ih => rw [List.flatMap_cons, List.length_append, ih, List.length_cons]; show 2 + _ = _; omega
  have := congrArg List.length main
  rw [List.length_map] at this
  rw [this]
  unfold canonical
  simp only [List.length_append, hlen, List.length_take, List.length_drop, List.length_map, Vector.length_toList,
    List.length_singleton]
  decide

/-- **C30** every written form of a uuid is parsed back to it, in UTF-8, UTF-16 and UTF-32: digits in upper or lower case
(or any mixture, `o` being any way of writing an octet with two hex digits), with hyphens or without, surrounded by white
space, optionally in braces -/
theorem C30_uuid_round_trip (raw : BitVec 8 → BitVec 32) (u : Model.Uuid) (o : Nat → List Nat) (ho : WritesOctet o)
    (hyphens braces : Bool) (w1 w2 w3 w4 : List Nat) (hw : ∀ c ∈ w1 ++ w2 ++ w3 ++ w4, IsSpace c) (text : List Nat)
    (htext : text =
      let digits := if hyphens then canonical o (u.toList.map BitVec.toNat) else (u.toList.map BitVec.toNat).flatMap o
      if braces then w1 ++ [0x7B] ++ w2 ++ digits ++ w3 ++ [0x7D] ++ w4 else w1 ++ digits ++ w4) :
    Uuid.parse8 raw (text.map (BitVec.ofNat 8)) = some (some u) ∧
    Uuid.parse16 (text.map (BitVec.ofNat 16)) = some (some u) ∧
    Uuid.parse32 (text.map (BitVec.ofNat 32)) = some (some u) := by
  have hbytes : ∀ b ∈ u.toList.map BitVec.toNat, b < 256 := by
    intro b hb
    obtain ⟨c, _, rfl⟩ := List.mem_map.1 hb
    exact c.isLt
  have hT : IsText text (u.toList.map BitVec.toNat) := by
    refine ⟨by simp, if hyphens then canonical o (u.toList.map BitVec.toNat) else (u.toList.map BitVec.toNat).flatMap o,
      ?_, ?_⟩
    · cases hyphens
      · exact octets_flat ho _ (by intro e; have := congrArg List.length e; simp at this) hbytes
      · exact octets_canonical ho _ (by simp) hbytes
    · cases braces
      · exact Or.inl ⟨w1, w4, fun c hc => hw c (by simp only [List.mem_append] at hc ⊢; rcases hc with h | h <;> simp [h]),
          htext⟩
      · exact Or.inr ⟨w1, w2, w3, w4, hw, htext⟩
  have hch := text_chars hT
  have hmap : ∀ w, 7 ≤ w → (text.map (BitVec.ofNat w)).map BitVec.toNat = text := by
    intro w hw
    rw [List.map_map]
    conv => rhs; rw [← List.map_id text]
    refine List.map_congr_left fun c hc => ?_
    simp only [Function.comp, BitVec.toNat_ofNat, id]
    have : 2 ^ 7 ≤ 2 ^ w := Nat.pow_le_pow_right (by decide) hw
    exact Nat.mod_eq_of_lt (by have := (hch c hc).2; omega)
  refine ⟨?_, ?_, ?_⟩
  · have hs : ∀ c ∈ text, IsScalar c := fun c hc => Or.inl (by have := (hch c hc).2; omega)
    have e := utf8s_ascii text fun c hc => (hch c hc).2
    rw [← e]
    refine ((C31_uuid_parse_wellformed_partial raw text hs ?_).2 u).2 hT
    rw [e]
    rintro ⟨x, hx⟩
    cases text with
    | nil => exact text_ne_nil hT rfl
    | cons c cs =>
      simp only [bom8, List.cons_append, List.map_cons, List.cons.injEq] at hx
      have h1 := congrArg BitVec.toNat hx.1
      have h2 := (hch c (by simp)).2
      simp only [BitVec.toNat_ofNat] at h1
      omega
  · exact ((C31_uuid_parse_utf16 _).2 u).2 ⟨[], _, by rw [hmap 16 (by decide)]; exact hT, Or.inl ⟨rfl, Or.inl rfl⟩⟩
  · exact ((C31_uuid_parse_utf32 _).2 u).2 ⟨[], _, by rw [hmap 32 (by decide)]; exact hT, Or.inl ⟨rfl, Or.inl rfl⟩⟩

/-- **C30** in particular, parsing what was printed gives the same uuid -/
theorem C30_uuid_parse_print (raw : BitVec 8 → BitVec 32) (u : Model.Uuid) :
    Uuid.parse8 raw (Uuid.print u) = some (some u) := by
  have := (C30_uuid_round_trip raw u upperOctet writes_upper true false [] [] [] [] (by simp) _ rfl).1
  simp only [if_true, List.nil_append, List.append_nil, Bool.false_eq_true, if_false] at this
  rw [← (C30_uuid_print u).1, List.map_map] at this
  have e : (BitVec.ofNat 8 ∘ BitVec.toNat) = (id : BitVec 8 → BitVec 8) := by funext b; simp
  have e2 : (Uuid.print u).map (BitVec.ofNat 8 ∘ BitVec.toNat) = Uuid.print u :=
    (congrArg (fun f => (Uuid.print u).map f) e).trans (List.map_id _)
  exact (congrArg (Uuid.parse8 raw) e2).symm.trans this

example : WritesOctet upperOctet ∧ WritesOctet lowerOctet := ⟨writes_upper, writes_lower⟩
-- "6BA7B810-9DAD-11D1-80B4-00C04FD430C8"
example : Uuid.parse8 (·.zeroExtend 32) ("6BA7B810-9DAD-11D1-80B4-00C04FD430C8".toList.map fun c => BitVec.ofNat 8 c.toNat) =
    some (some Uuid.namespaceDns) := by
  have e : ("6BA7B810-9DAD-11D1-80B4-00C04FD430C8".toList.map fun c => BitVec.ofNat 8 c.toNat) =
    Uuid.print Uuid.namespaceDns := by decide +kernel
  have := C30_uuid_parse_print (·.zeroExtend 32) Uuid.namespaceDns
  rwa [← e] at this

end Verif.Props
