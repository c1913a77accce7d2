import Verif.Proofs.Span
/-! C47 (span subviews), C73 (span conversions and qualifiers). -/
namespace Verif.Props
open Verif.Spec.Span Verif.Model.Span Verif.Proofs.Span

/-- a call on a span which gives another span; `n = dynamicExtent` in `subspan` is its default argument -/
inductive SpanOp where
  | first (n : Nat)
  | firstStatic (n : Nat)
  | last (n : Nat)
  | lastStatic (n : Nat)
  | subspan (off n : Nat)
  | subspanStatic (off n : Nat)
  | asBytes
  | convert (extent alignment : Nat)

/-- what the call does in the model -/
def SpanOp.run (s : Span) : SpanOp → Option Span
  | .first n => s.first n
  | .firstStatic n => s.firstStatic n
  | .last n => s.last n
  | .lastStatic n => s.lastStatic n
  | .subspan off n => s.subspan off n
  | .subspanStatic off n => s.subspanStatic off n
  | .asBytes => s.asBytes
  | .convert e a => s.convert e a

/-- a chain of calls -/
def SpanOp.runAll : Span → List SpanOp → Option Span
  | s, [] => some s
  | s, op :: l => match op.run s with
    | none => none
    | some s => runAll s l

/-- what the call is meant to do -/
def SpanOp.meaning : SpanOp → Step
  | .first n | .firstStatic n => .part (.first n)
  | .last n | .lastStatic n => .part (.last n)
  | .subspan off n | .subspanStatic off n => .part (if n = dynamicExtent then .from off else .mid off n)
  | .asBytes => .bytes
  | .convert e _ => if e = dynamicExtent then .same else .exactly e

/-- a span over an array of `n` elements of `esize` bytes (`ealign` their alignment, which divides the size) at `p` -/
def spanOver (esize ealign p n : Nat) : Span := ⟨esize, ealign, dynamicExtent, ealign, p, n⟩

/-- the array is a possible object: not at address zero, aligned, inside the address space -/
def PossibleArray (esize ealign p n : Nat) : Prop :=
  0 < esize ∧ 0 < ealign ∧ ealign ∣ esize ∧ ealign ∣ p ∧ p ≠ 0 ∧ n * esize < dynamicExtent

/-- one call, on a span described by `v` -/
theorem span_step {s : Span} (h : Ok s) (ha : s.align ≠ 0) (hb : s.size * s.esize < dynamicExtent)
    (v : View) (hv : v = ⟨s.esize, array s.ptr s.size s.esize⟩) (op : SpanOp) (l : List Step) (w : View)
    (hw : v.run (op.meaning :: l) = some w) (hconv : ∀ e a, op = .convert e a → ∃ t, op.run s = some t) :
    ∃ t, op.run s = some t ∧ Ok t ∧ t.align ≠ 0 ∧ t.size * t.esize < dynamicExtent ∧
      (∃ v', v' = ⟨t.esize, array t.ptr t.size t.esize⟩ ∧ View.run v' l = some w) ∧
      s.ptr ≤ t.ptr ∧ t.ptr + t.size * t.esize ≤ s.ptr + s.size * s.esize := by
  have hdata := data_ok h
  have hlen : v.addrs.length = s.size := by rw [hv]; simp [array]
  have hesz := h.esz
  have hsz : s.size < dynamicExtent := by
    have : s.size * 1 ≤ s.size * s.esize := Nat.mul_le_mul_left _ h.esz
    omega
  -- the new span of a part
  have mkpart : ∀ (e al off n : Nat), (if e = dynamicExtent then n else e) = n → off + n ≤ s.size → al ≠ 0 →
      al ∣ s.ptr + off * s.esize → s.ealign ≤ al →
      ∀ t : Span, t = ⟨s.esize, s.ealign, e, al, s.ptr + off * s.esize, n⟩ →
      Ok t ∧ t.align ≠ 0 ∧ t.size * t.esize < dynamicExtent ∧ t.size = n ∧ t.ptr = s.ptr + off * s.esize ∧ t.esize = s.esize ∧
      s.ptr ≤ t.ptr ∧ t.ptr + t.size * t.esize ≤ s.ptr + s.size * s.esize := by
    intro e al off n he hle hal hdv hge t ht
    have hsize : t.size = n := by rw [ht]; exact he
    have e1 : (off + n) * s.esize ≤ s.size * s.esize := Nat.mul_le_mul_right _ hle
    rw [Nat.add_mul] at e1
    subst ht
    refine ⟨⟨h.esz, h.eal, h.mul, Nat.dvd_add h.ea (Nat.dvd_trans h.mul (Nat.dvd_mul_left _ _)), hdv, hge, ?_⟩, hal, ?_, hsize, rfl, rfl, ?_, ?_⟩
    · intro hne
      rw [hsize] at hne
      have := h.nn (by omega)
      simp only; omega
    · rw [hsize]; simp only; omega
    · simp only; omega
    · rw [hsize]; simp only; omega
  have hea : ∀ off, s.ealign ∣ s.ptr + off * s.esize := fun off =>
    Nat.dvd_add h.ea (Nat.dvd_trans h.mul (Nat.dvd_mul_left _ _))
  have heal : s.ealign ≠ 0 := by have := h.eal; omega
  have hext : s.size ≤ s.extent := by
    by_cases he : s.extent = dynamicExtent
    · omega
    · unfold Span.size; rw [if_neg he]; omega
  have hst : ∀ n, n ≤ s.size → (if n = dynamicExtent then n else n) = n := by intro n _; simp
  cases op with
  | first n =>
    obtain ⟨hle, hw⟩ := run_part hw
    rw [hlen] at hle
    simp only [Part.Fits] at hle
    obtain ⟨q1, q2, q3, q4, q5, q6, q7, q8⟩ := mkpart dynamicExtent s.align 0 n (by simp) (by omega) ha (by simpa using h.al) h.ge _ rfl
    simp only [Nat.zero_mul, Nat.add_zero] at q1 q2 q3 q4 q5 q6 q7 q8
    refine ⟨_, ?_, q1, q2, q3, ⟨_, rfl, ?_⟩, q7, q8⟩
    · simp only [SpanOp.run, Span.first]
      rw [if_pos hle, hdata]
      refine construct_first h ha _ n ?_ hle
      simp
    · rw [q4]
      rw [← hw, hv]
      simp only
      rw [← part_first _ _ _ _ hle]; rfl
  | firstStatic n =>
    obtain ⟨hle, hw⟩ := run_part hw
    rw [hlen] at hle
    simp only [Part.Fits] at hle
    obtain ⟨q1, q2, q3, q4, q5, q6, q7, q8⟩ := mkpart n s.align 0 n (by simp) (by omega) ha (by simpa using h.al) h.ge _ rfl
    simp only [Nat.zero_mul, Nat.add_zero] at q1 q2 q3 q4 q5 q6 q7 q8
    refine ⟨_, ?_, q1, q2, q3, ⟨_, rfl, ?_⟩, q7, q8⟩
    · simp only [SpanOp.run, Span.firstStatic]
      rw [if_pos ⟨by omega, hle⟩, hdata]
      refine construct_first h ha _ n ?_ hle
      simp
    · rw [q4]
      rw [← hw, hv]
      simp only
      rw [← part_first _ _ _ _ hle]; rfl
  | last n =>
    obtain ⟨hle, hw⟩ := run_part hw
    rw [hlen] at hle
    simp only [Part.Fits] at hle
    obtain ⟨q1, q2, q3, q4, q5, q6, q7, q8⟩ := mkpart dynamicExtent s.ealign (s.size - n) n (by simp) (by omega) heal (hea _) (Nat.le_refl _) _ rfl
    refine ⟨_, ?_, q1, q2, q3, ⟨_, rfl, ?_⟩, q7, q8⟩
    · simp only [SpanOp.run, Span.last]
      rw [if_pos hle, hdata]
      refine construct_zero _ _ _ _ _ (fun hne => ?_) ?_
      · have := h.nn (by omega); omega
      · simp
    · rw [q4]
      rw [← hw, hv]
      simp only
      rw [← part_last _ _ _ _ hle]; rfl
  | lastStatic n =>
    obtain ⟨hle, hw⟩ := run_part hw
    rw [hlen] at hle
    simp only [Part.Fits] at hle
    obtain ⟨q1, q2, q3, q4, q5, q6, q7, q8⟩ := mkpart n s.ealign (s.size - n) n (by simp) (by omega) heal (hea _) (Nat.le_refl _) _ rfl
    refine ⟨_, ?_, q1, q2, q3, ⟨_, rfl, ?_⟩, q7, q8⟩
    · simp only [SpanOp.run, Span.lastStatic]
      rw [if_pos ⟨by omega, hle⟩, hdata]
      refine construct_zero _ _ _ _ _ (fun hne => ?_) ?_
      · have := h.nn (by omega); omega
      · simp
    · rw [q4]
      rw [← hw, hv]
      simp only
      rw [← part_last _ _ _ _ hle]; rfl
  | subspan off n =>
    simp only [SpanOp.meaning] at hw
    by_cases hd : n = dynamicExtent
    · rw [if_pos hd] at hw
      obtain ⟨hlt, hw⟩ := run_part hw
      rw [hlen] at hlt
      simp only [Part.Fits] at hlt
      obtain ⟨q1, q2, q3, q4, q5, q6, q7, q8⟩ := mkpart dynamicExtent s.ealign off (s.size - off) (by simp) (by omega) heal (hea _) (Nat.le_refl _) _ rfl
      refine ⟨_, ?_, q1, q2, q3, ⟨_, rfl, ?_⟩, q7, q8⟩
      · simp only [SpanOp.run, Span.subspan]
        rw [if_pos hlt, if_pos hd, hdata]
        refine construct_zero _ _ _ _ _ (fun hne => ?_) ?_
        · have := h.nn (by omega); omega
        · simp
      · rw [q4]
        rw [← hw, hv]
        simp only
        rw [← part_from _ _ _ _ (Nat.le_of_lt hlt)]; rfl
    · rw [if_neg hd] at hw
      obtain ⟨hlt, hw⟩ := run_part hw
      rw [hlen] at hlt
      simp only [Part.Fits] at hlt
      obtain ⟨q1, q2, q3, q4, q5, q6, q7, q8⟩ := mkpart dynamicExtent s.ealign off n (by simp) hlt.2 heal (hea _) (Nat.le_refl _) _ rfl
      refine ⟨_, ?_, q1, q2, q3, ⟨_, rfl, ?_⟩, q7, q8⟩
      · simp only [SpanOp.run, Span.subspan]
        rw [if_pos hlt.1, if_neg hd, if_pos (by omega), hdata]
        refine construct_zero _ _ _ _ _ (fun hne => ?_) ?_
        · have := h.nn (by omega); omega
        · simp
      · rw [q4]
        rw [← hw, hv]
        simp only
        rw [← part_mid _ _ _ _ _ hlt.2]; rfl
  | subspanStatic off n =>
    simp only [SpanOp.meaning] at hw
    by_cases hd : n = dynamicExtent
    · rw [if_pos hd] at hw
      obtain ⟨hlt, hw⟩ := run_part hw
      rw [hlen] at hlt
      simp only [Part.Fits] at hlt
      obtain ⟨q1, q2, q3, q4, q5, q6, q7, q8⟩ := mkpart dynamicExtent s.ealign off (s.size - off) (by simp) (by omega) heal (hea _) (Nat.le_refl _) _ rfl
      refine ⟨_, ?_, q1, q2, q3, ⟨_, rfl, ?_⟩, q7, q8⟩
      · simp only [SpanOp.run, Span.subspanStatic]
        rw [if_pos ⟨by omega, Or.inl hd, hlt⟩, if_pos hd, hdata]
        refine construct_zero _ _ _ _ _ (fun hne => ?_) ?_
        · have := h.nn (by omega); omega
        · simp
      · rw [q4]
        rw [← hw, hv]
        simp only
        rw [← part_from _ _ _ _ (Nat.le_of_lt hlt)]; rfl
    · rw [if_neg hd] at hw
      obtain ⟨hlt, hw⟩ := run_part hw
      rw [hlen] at hlt
      simp only [Part.Fits] at hlt
      obtain ⟨q1, q2, q3, q4, q5, q6, q7, q8⟩ := mkpart n s.ealign off n (by simp) hlt.2 heal (hea _) (Nat.le_refl _) _ rfl
      refine ⟨_, ?_, q1, q2, q3, ⟨_, rfl, ?_⟩, q7, q8⟩
      · simp only [SpanOp.run, Span.subspanStatic]
        rw [if_pos ⟨by omega, Or.inr (by omega), hlt.1⟩, if_neg hd, if_pos (by omega), hdata]
        refine construct_zero _ _ _ _ _ (fun hne => ?_) ?_
        · have := h.nn (by omega); omega
        · simp
      · rw [q4]
        rw [← hw, hv]
        simp only
        rw [← part_mid _ _ _ _ _ hlt.2]; rfl
  | asBytes =>
    simp only [SpanOp.meaning, View.run] at hw
    have hsb : s.sizeBytes = s.size * s.esize := by
      unfold Span.sizeBytes
      exact Nat.mod_eq_of_lt (by unfold dynamicExtent at hb; omega)
    have hrun : ∃ e, SpanOp.run s .asBytes = some ⟨1, 1, e, 1, s.ptr, s.size * s.esize⟩ ∧
        (if e = dynamicExtent then s.size * s.esize else e) = s.size * s.esize := by
      have hnn : s.size * s.esize ≠ 0 → s.ptr ≠ 0 := fun hne => h.nn (fun h0 => hne (by rw [h0]; simp))
      by_cases he : s.extent = dynamicExtent
      · refine ⟨dynamicExtent, ?_, by simp⟩
        simp only [SpanOp.run, Span.asBytes]
        rw [if_pos he, hdata, hsb]
        refine construct_zero _ _ _ _ _ hnn ?_
        simp
      · refine ⟨s.size * s.esize, ?_, by simp⟩
        simp only [SpanOp.run, Span.asBytes]
        have hse : s.size = s.extent := by unfold Span.size; rw [if_neg he]
        have : (s.esize * s.extent) % 2 ^ 64 = s.size * s.esize := by
          rw [← hse, Nat.mul_comm]; exact Nat.mod_eq_of_lt (by unfold dynamicExtent at hb; omega)
        rw [if_neg he, hdata, this]
        refine construct_zero _ _ _ _ _ hnn ?_
        simp
    obtain ⟨e, hrun, he⟩ := hrun
    have hsize : (⟨1, 1, e, 1, s.ptr, s.size * s.esize⟩ : Span).size = s.size * s.esize := he
    refine ⟨_, hrun, ⟨by simp, by simp, by simp, by simp, by simp, by simp, ?_⟩, by simp, ?_, ⟨_, rfl, ?_⟩, by simp, ?_⟩
    · intro hne
      rw [hsize] at hne
      exact h.nn (fun h0 => hne (by rw [h0]; simp))
    · rw [hsize]; simpa using hb
    · rw [hsize]
      rw [← hw, hv]
      simp only
      rw [bytes_array]
    · rw [hsize]; simp
  | convert e a =>
    obtain ⟨t, ht⟩ := hconv e a rfl
    simp only [SpanOp.run, Span.convert, hdata, Option.bind_some] at ht
    have hsame : (if e = dynamicExtent then s.size else e) = s.size ∧ v.run l = some w := by
      simp only [SpanOp.meaning] at hw
      by_cases he : e = dynamicExtent
      · rw [if_pos he] at hw ⊢
        exact ⟨rfl, by simpa [View.run] using hw⟩
      · rw [if_neg he] at hw ⊢
        simp only [View.run, hlen] at hw
        split at hw
        · rename_i hx; exact ⟨hx.symm, hw⟩
        · simp at hw
    obtain ⟨hsame, hw⟩ := hsame
    unfold construct at ht
    simp only [hsame] at ht
    split at ht
    · simp at ht
    rename_i hsmall
    split at ht
    · simp at ht
    rename_i hn
    by_cases hal : (if a = 0 then s.ealign else a) > s.ealign ∧ s.ptr % (if a = 0 then s.ealign else a) ≠ 0
    · rw [if_pos hal] at ht; simp at ht
    rw [if_neg hal, Option.some.injEq] at ht
    have hsize : t.size = s.size := by rw [← ht]; exact hsame
    have hge : s.ealign ≤ (if a = 0 then s.ealign else a) := by
      split
      · exact Nat.le_refl _
      · omega
    refine ⟨t, ?_, ?_, ?_, ?_, ⟨_, rfl, ?_⟩, ?_, ?_⟩
    · simp only [SpanOp.run, Span.convert, hdata, Option.bind_some]
      unfold construct
      simp only [hsame]
      rw [if_neg hsmall, if_neg hn, if_neg hal, ht]
    · refine ⟨by rw [← ht]; exact h.esz, by rw [← ht]; exact h.eal, by rw [← ht]; exact h.mul, by rw [← ht]; exact h.ea, ?_,
        by rw [← ht]; exact hge, ?_⟩
      · rw [← ht]
        simp only
        by_cases hgt : (if a = 0 then s.ealign else a) > s.ealign
        · apply Nat.dvd_of_mod_eq_zero
          exact Classical.byContradiction (fun hc => hal ⟨hgt, hc⟩)
        · have : (if a = 0 then s.ealign else a) = s.ealign := by omega
          rw [this]; exact h.ea
      · rw [hsize, ← ht]; exact h.nn
    · rw [← ht]
      simp only
      omega
    · rw [hsize, ← ht]; exact hb
    · rw [hsize, ← ht, ← hv]; exact hw
    · rw [← ht]; exact Nat.le_refl _
    · rw [hsize, ← ht]; exact Nat.le_refl _

/-- **C47** Every chain of first, last, subspan (static and dynamic), as_bytes and conversions which stays within the
    documented preconditions (the parts taken lie inside the view, conversions to a fixed extent are to the view's own
    number of elements, and no alignment assertion fails) gives a span of exactly the expected elements, none outside
    the original array; data() is aligned as the type says, indexing gives the elements, size() and empty() their
    number. Missing: conversions to a wrong fixed extent, which nothing rejects (C47_convert_violated). -/
theorem C47_subviews_partial (esize ealign p n : Nat) (harr : PossibleArray esize ealign p n) (ops : List SpanOp) (w : View)
    (hw : View.run ⟨esize, array p n esize⟩ (ops.map SpanOp.meaning) = some w)
    (hassert : (∀ e a, .convert e a ∉ ops) ∨ ∃ t, SpanOp.runAll (spanOver esize ealign p n) ops = some t) :
    ∃ t, SpanOp.runAll (spanOver esize ealign p n) ops = some t ∧ t.esize = w.esize ∧ t.addresses = w.addrs ∧
      t.size = w.addrs.length ∧ (t.empty = true ↔ w.addrs = []) ∧
      (∃ q, t.data = some q ∧ q % t.align = 0) ∧
      (∀ i (hi : i < w.addrs.length), t.at i = some w.addrs[i]) ∧
      (∀ h : w.addrs ≠ [], t.back = some (w.addrs.getLast h)) ∧
      ∀ a ∈ bytes w.esize w.addrs, p ≤ a ∧ a < p + n * esize := by
  obtain ⟨a1, a2, a3, a4, a5, a6⟩ := harr
  have key : ∀ (ops : List SpanOp) (s : Span), Ok s → s.align ≠ 0 → s.size * s.esize < dynamicExtent →
      View.run ⟨s.esize, array s.ptr s.size s.esize⟩ (ops.map SpanOp.meaning) = some w →
      ((∀ e a, .convert e a ∉ ops) ∨ ∃ t, SpanOp.runAll s ops = some t) →
      ∃ t, SpanOp.runAll s ops = some t ∧ Ok t ∧ w = ⟨t.esize, array t.ptr t.size t.esize⟩ ∧
        s.ptr ≤ t.ptr ∧ t.ptr + t.size * t.esize ≤ s.ptr + s.size * s.esize := by
    intro ops
    induction ops with
    | nil =>
      intro s h _ _ hw _
      simp only [List.map_nil, View.run, Option.some.injEq] at hw
      exact ⟨s, rfl, h, hw.symm, Nat.le_refl _, Nat.le_refl _⟩
    | cons op ops ih =>
      intro s h ha hb hw hc
      rw [List.map_cons] at hw
      have hconv : ∀ e a, op = .convert e a → ∃ t, op.run s = some t := by
        intro e a hop
        rcases hc with hc | ⟨t, ht⟩
        · exact absurd (by rw [hop]; simp) (hc e a)
        · rw [SpanOp.runAll] at ht
          cases hr : op.run s with
          | none => rw [hr] at ht; simp at ht
          | some u => exact ⟨u, rfl⟩
      obtain ⟨t, ht, hok, hal, hb', ⟨v', hv', hw'⟩, hp1, hp2⟩ := span_step h ha hb _ rfl op _ w hw hconv
      have hc' : (∀ e a, .convert e a ∉ ops) ∨ ∃ u, SpanOp.runAll t ops = some u := by
        rcases hc with hc | ⟨u, hu⟩
        · exact Or.inl (fun e a hm => hc e a (List.mem_cons_of_mem _ hm))
        · rw [SpanOp.runAll, ht] at hu
          exact Or.inr ⟨u, hu⟩
      obtain ⟨u, hu, hok', hw2, hq1, hq2⟩ := ih t hok hal hb' (by rw [← hv']; exact hw') hc'
      refine ⟨u, ?_, hok', hw2, by omega, by omega⟩
      rw [SpanOp.runAll, ht]; exact hu
  have hsize : (spanOver esize ealign p n).size = n := by simp [spanOver, Span.size]
  obtain ⟨t, ht, hok, hwt, hp1, hp2⟩ := key ops (spanOver esize ealign p n)
    ⟨a1, a2, a3, a4, a4, Nat.le_refl _, fun _ => a5⟩ (by show ealign ≠ 0; omega) (by rw [hsize]; exact a6)
    (by rw [hsize]; exact hw) hassert
  have hlen : w.addrs.length = t.size := by rw [hwt]; simp [array]
  have hd := data_ok hok
  rw [hsize] at hp2
  refine ⟨t, ht, by rw [hwt], by rw [hwt]; rfl, hlen.symm, ?_, ⟨t.ptr, hd, Nat.mod_eq_zero_of_dvd hok.al⟩, ?_, ?_, ?_⟩
  · rw [← List.length_eq_zero_iff, hlen]
    unfold Span.empty Span.size
    by_cases he : t.extent = dynamicExtent
    · rw [if_pos he, if_pos he]; simp
    · rw [if_neg he, if_neg he]
      by_cases h0 : t.extent = 0
      · simp [h0]
      · simp [h0]
  · intro i hi
    unfold Span.at
    rw [hd]
    simp only [hwt, array, Option.map_some, List.getElem_map, List.getElem_range]
  · intro hne
    unfold Span.back
    have : 0 < t.size := by rw [← hlen]; exact List.length_pos_iff.mpr hne
    rw [hd, List.getLast_eq_getElem]
    simp only [hwt, array, Option.map_some, List.getElem_map, List.getElem_range, List.length_map, List.length_range]
  · intro a ha
    rw [hwt] at ha
    simp only at ha
    rw [bytes_array] at ha
    simp only [array, List.mem_map, List.mem_range] at ha
    obtain ⟨i, hi, rfl⟩ := ha
    simp only [spanOver] at hp1 hp2
    omega

/-- bytes of the middle two of five 4-byte elements at 1000, then the last three of those bytes -/
example : PossibleArray 4 4 1000 5 ∧
    SpanOp.runAll (spanOver 4 4 1000 5) [.subspan 1 dynamicExtent, .first 2, .asBytes, .lastStatic 3, .convert 3 0] =
      some ⟨1, 1, 3, 1, 1009, 3⟩ ∧
    (View.run ⟨4, array 1000 5 4⟩ ([.subspan 1 dynamicExtent, .first 2, .asBytes, .lastStatic 3, .convert 3 0].map SpanOp.meaning)).map
      View.addrs = some [1009, 1010, 1011] := by
  refine ⟨⟨by decide, by decide, by decide, by decide, by decide, by decide⟩, by decide +kernel, by decide +kernel⟩

/-- a part that reaches beyond the span is refused (an assertion fails or the call does not compile), for every span -/
theorem C47_checked (s : Span) (op : SpanOp) (p : Part) (hp : op.meaning = .part p) (hout : ¬ p.Fits s.size) :
    op.run s = none := by
  cases op with
  | first n =>
    simp only [SpanOp.meaning, Step.part.injEq] at hp; subst hp
    simp only [Part.Fits] at hout
    simp only [SpanOp.run, Span.first]
    rw [if_neg hout]
  | firstStatic n =>
    simp only [SpanOp.meaning, Step.part.injEq] at hp; subst hp
    simp only [Part.Fits] at hout
    simp only [SpanOp.run, Span.firstStatic]
    rw [if_neg (fun h => hout h.2)]
  | last n =>
    simp only [SpanOp.meaning, Step.part.injEq] at hp; subst hp
    simp only [Part.Fits] at hout
    simp only [SpanOp.run, Span.last]
    rw [if_neg hout]
  | lastStatic n =>
    simp only [SpanOp.meaning, Step.part.injEq] at hp; subst hp
    simp only [Part.Fits] at hout
    simp only [SpanOp.run, Span.lastStatic]
    rw [if_neg (fun h => hout h.2)]
  | subspan off n =>
    simp only [SpanOp.meaning, Step.part.injEq] at hp; subst hp
    simp only [SpanOp.run, Span.subspan]
    by_cases h1 : off < s.size
    · by_cases h2 : n = dynamicExtent
      · rw [if_pos h2] at hout
        exact absurd h1 hout
      · rw [if_neg h2] at hout
        simp only [Part.Fits] at hout
        rw [if_pos h1, if_neg h2, if_neg (by omega)]
    · rw [if_neg h1]
  | subspanStatic off n =>
    simp only [SpanOp.meaning, Step.part.injEq] at hp; subst hp
    simp only [SpanOp.run, Span.subspanStatic]
    by_cases h1 : off < s.size
    · by_cases h2 : n = dynamicExtent
      · rw [if_pos h2] at hout
        exact absurd h1 hout
      · rw [if_neg h2] at hout
        simp only [Part.Fits] at hout
        by_cases h3 : off < s.extent ∧ (n = dynamicExtent ∨ n ≤ s.extent - off) ∧ off < s.size
        · rw [if_pos h3, if_neg h2, if_neg (by omega)]
        · rw [if_neg h3]
    · rw [if_neg (fun h => h1 h.2.2)]
  | asBytes => simp [SpanOp.meaning] at hp
  | convert e a =>
    simp only [SpanOp.meaning] at hp
    split at hp <;> simp at hp

example : ¬ (Part.mid 2 4).Fits (spanOver 4 4 1000 5).size ∧ (SpanOp.subspanStatic 2 4).meaning = .part (.mid 2 4) := by
  refine ⟨by simp [Part.Fits, spanOver, Span.size], by rfl⟩

/-- **C47 is violated**: a span can be converted to a span of any fixed, larger extent, without an assertion failing;
    the result has elements outside the original array -/
theorem C47_convert_violated (esize ealign p n m : Nat) (harr : PossibleArray esize ealign p n) (hm : n < m)
    (hd : m ≠ dynamicExtent) :
    ∃ t, (spanOver esize ealign p n).convert m 0 = some t ∧ t.size = m ∧ (p + n * esize) ∈ t.addresses ∧
      p + n * esize ∉ bytes esize (array p n esize) := by
  obtain ⟨a1, a2, a3, a4, a5, a6⟩ := harr
  have hok : Ok (spanOver esize ealign p n) := ⟨a1, a2, a3, a4, a4, Nat.le_refl _, fun _ => a5⟩
  have ht : (spanOver esize ealign p n).convert m 0 = some ⟨esize, ealign, m, ealign, p, n⟩ := by
    unfold Span.convert
    rw [data_ok hok]
    simp only [spanOver, Option.bind_some]
    unfold construct
    simp only [if_true]
    rw [if_neg (by simp), if_neg (by rintro ⟨_, h⟩; exact a5 h), if_neg (by rintro ⟨h, _⟩; omega)]
    simp [Span.size]
  have hs : (⟨esize, ealign, m, ealign, p, n⟩ : Span).size = m := by unfold Span.size; rw [if_neg hd]
  refine ⟨_, ht, hs, ?_, ?_⟩
  · unfold Span.addresses
    rw [hs]
    exact List.mem_map.mpr ⟨n, List.mem_range.mpr hm, rfl⟩
  · rw [bytes_array]
    intro h
    simp only [array, List.mem_map, List.mem_range] at h
    obtain ⟨i, hi, h⟩ := h
    omega

/-- `span<int, 3>` taken as `span<int, 5>` -/
example : (spanOver 4 4 1000 3).convert 5 0 = some ⟨4, 4, 5, 4, 1000, 3⟩ := by decide +kernel

/-- **C73** Among const and volatile qualified targets, constructing a span of `t` elements from a source of `f` elements
    compiles exactly if no qualifier is dropped, and the choice of specialisation is never ambiguous.
    Missing: unqualified targets (C73_const_violated). -/
theorem C73_qualifiers_partial (f t : Quals) (ht : t ≠ ⟨false, false⟩) :
    ∃ b, qualifierCompatible f t = some b ∧ (b = true ↔ f.Keeps t) := by
  obtain ⟨fc, fv⟩ := f
  obtain ⟨tc, tv⟩ := t
  cases fc <;> cases fv <;> cases tc <;> cases tv <;> first
    | (exact absurd rfl ht)
    | (refine ⟨true, by decide +kernel, ?_⟩; simp [Quals.Keeps]; done)
    | (refine ⟨false, by decide +kernel, ?_⟩; simp [Quals.Keeps]; done)

example : qualifierCompatible ⟨false, true⟩ ⟨true, false⟩ = some false ∧ qualifierCompatible ⟨true, false⟩ ⟨true, true⟩ = some true := by
  decide +kernel

/-- **C73 is violated**: a span of non-const elements can be constructed from const (or volatile) ones -/
theorem C73_const_violated (f : Quals) (hf : f ≠ ⟨false, false⟩) :
    qualifierCompatible f ⟨false, false⟩ = some true ∧ ¬ f.Keeps ⟨false, false⟩ := by
  obtain ⟨fc, fv⟩ := f
  cases fc <;> cases fv <;> first
    | (exact absurd rfl hf)
    | exact ⟨by decide +kernel, by simp [Quals.Keeps]⟩

example : (⟨true, false⟩ : Quals) ≠ ⟨false, false⟩ := by decide

end Verif.Props
