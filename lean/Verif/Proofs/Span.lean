import Verif.Model.Span
namespace Verif.Proofs.Span
open Verif.Spec.Span Verif.Model.Span

/-- what the theorems need of a span: it is aligned as claimed and not null, and the element size is a positive
    multiple of the element alignment -/
structure Ok (s : Span) : Prop where
  esz : 0 < s.esize
  eal : 0 < s.ealign
  mul : s.ealign ∣ s.esize
  ea : s.ealign ∣ s.ptr
  al : s.align ∣ s.ptr
  ge : s.ealign ≤ s.align
  nn : s.size ≠ 0 → s.ptr ≠ 0

theorem data_ok {s : Span} (h : Ok s) : s.data = some s.ptr := by
  unfold Span.data
  rw [if_pos (Nat.mod_eq_zero_of_dvd h.al)]

theorem construct_first {s : Span} (h : Ok s) (hal : s.align ≠ 0) (e n : Nat) (he : (if e = dynamicExtent then n else e) = n)
    (hn : n ≤ s.size) :
    construct s.esize s.ealign e s.align s.ptr n = some ⟨s.esize, s.ealign, e, s.align, s.ptr, n⟩ := by
  unfold construct
  simp only [he, hal, if_false]
  rw [if_neg (by rintro ⟨_, h'⟩; have := h.ge; omega), if_neg, if_neg]
  · rintro ⟨_, h'⟩; exact h' (Nat.mod_eq_zero_of_dvd h.al)
  · rintro ⟨h1, h2⟩; exact h.nn (by omega) h2

theorem construct_zero (esize ealign e p n : Nat) (hp : n ≠ 0 → p ≠ 0) (he : (if e = dynamicExtent then n else e) = n) :
    construct esize ealign e 0 p n = some ⟨esize, ealign, e, ealign, p, n⟩ := by
  unfold construct
  simp only [he, if_true]
  rw [if_neg (by rintro ⟨h', _⟩; exact h' rfl), if_neg, if_neg]
  · rintro ⟨h1, _⟩; omega
  · rintro ⟨h1, h2⟩; exact hp h1 h2

theorem addresses_length (s : Span) : s.addresses.length = s.size := by simp [Span.addresses]

theorem range_drop (n off : Nat) : (List.range n).drop off = (List.range (n - off)).map (off + ·) := by
  apply List.ext_getElem
  · simp
  · intro i h1 h2; simp

theorem part_first (p sz n size : Nat) (h : n ≤ sz) :
    (List.range n).map (fun i => p + i * size) = Part.apply (array p sz size) (.first n) := by
  unfold Part.apply array
  simp only
  rw [← List.map_take, List.take_range, Nat.min_eq_left h]

theorem part_mid (p sz off n size : Nat) (h : off + n ≤ sz) :
    (List.range n).map (fun i => (p + off * size) + i * size) = Part.apply (array p sz size) (.mid off n) := by
  unfold Part.apply array
  simp only
  rw [← List.map_drop, ← List.map_take, range_drop, ← List.map_take, List.take_range, Nat.min_eq_left (by omega), List.map_map]
  apply List.map_congr_left
  intro i _
  simp only [Function.comp, Nat.add_mul]
  omega

theorem part_from (p sz off size : Nat) (h : off ≤ sz) :
    (List.range (sz - off)).map (fun i => (p + off * size) + i * size) = Part.apply (array p sz size) (.from off) := by
  rw [part_mid p sz off (sz - off) size (by omega)]
  unfold Part.apply
  simp only
  rw [List.take_of_length_le]
  unfold array; simp

theorem part_last (p sz n size : Nat) (h : n ≤ sz) :
    (List.range n).map (fun i => (p + (sz - n) * size) + i * size) = Part.apply (array p sz size) (.last n) := by
  have := part_from p sz (sz - n) size (by omega)
  rw [show sz - (sz - n) = n by omega] at this
  rw [this]
  unfold Part.apply array
  simp

theorem bytes_array (p n size : Nat) : bytes size (array p n size) = array p (n * size) 1 := by
  unfold bytes array
  induction n with
  | zero => simp
  | succ n ih =>
    have e : (n + 1) * size = n * size + size := Nat.succ_mul n size
    rw [List.range_succ, List.map_append, List.flatMap_append, ih, e, List.range_add, List.map_append]
    congr 1
    simp only [List.map_cons, List.map_nil, List.flatMap_cons, List.flatMap_nil, List.append_nil, List.map_map]
    apply List.map_congr_left
    intro i _
    simp only [Function.comp]; omega

theorem run_part {v w : View} {p : Part} {l : List Step} (h : v.run (.part p :: l) = some w) :
    p.Fits v.addrs.length ∧ View.run ⟨v.esize, p.apply v.addrs⟩ l = some w := by
  rw [View.run] at h
  split at h
  · exact ⟨by assumption, h⟩
  · simp at h

end Verif.Proofs.Span
