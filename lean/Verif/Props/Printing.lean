import Verif.Proofs.Printing

/-! # C136: printing vectors, matrices and shapes -/

namespace Verif.Props.Printing

open Verif.Spec.Printing Verif.Model.Printing Verif.Proofs.Printing

/-- One number as the stream shows it: decimal, at the right of a column as wide as the stream's width, and with a number of
significant digits that depends only on the type if it is floating-point. -/
def column {T : Type} (k : Scalar T) (s : Stream) (x : T) : List Char :=
  atRight s.width s.fill (k.text
    { s.format with
      base := .dec
      adjust := .right
      precision := if k.floating = true then significant k.size else s.format.precision } x)

theorem precision_eq (n : ℕ) : precisionFor n = significant n := by
  unfold precisionFor significant
  split_ifs <;> omega

theorem prepare_cell {T : Type} (k : Scalar T) (s : Stream) (x : T) (t : List Char) :
    cell k (printString (prepare k s) t) x = column k s x := by
  unfold cell column printString prepare
  cases h : k.floating
  · simp
  · simp [precision_eq]

theorem prepare_out {T : Type} (k : Scalar T) (s : Stream) : (prepare k s).out = s.out := by
  unfold prepare; cases k.floating <;> simp

theorem prepare_base {T : Type} (k : Scalar T) (s : Stream) (t : List Char) : (printString (prepare k s) t).format.base = .dec := rfl

theorem finish {T : Type} (k : Scalar T) (s s' : Stream) (t : List Char) (h : Like (printString (prepare k s) "{ ".toList) s' t) :
    restore s (printString s' " }".toList) = { s with width := 0, out := s.out ++ braces t } := by
  have h' := ((like_string (prepare k s) "{ ".toList).trans h).trans (like_string s' " }".toList)
  exact restore_like h' (prepare_out k s)

/-- A vector, or Euler angles, of any length and type is shown as `{ a, b, c }`; afterwards the stream's flags, precision and fill
character are what they were and its width is zero, as after any other output. -/
theorem C136_vector {T : Type} (k : Scalar T) (s : Stream) (v : List T) :
    vector k s v = { s with width := 0, out := s.out ++ braces (commas (v.map (column k s))) } := by
  unfold vector printVector
  have h := like_items k v 0 (printString (prepare k s) "{ ".toList)
  rw [if_pos rfl] at h
  have e : v.map (cell k (printString (prepare k s) "{ ".toList)) = v.map (column k s) :=
    List.map_congr_left (fun x _ => prepare_cell k s x _)
  rw [e] at h
  exact finish k s _ _ h

/-- A stream as it is at first. -/
def fresh : Stream := ⟨⟨.dec, .unset, false, false, 0, 6⟩, 0, ' ', []⟩

example : (vector (integer true 32) { fresh with width := 4 } [1, -20, 300]).out = "{    1,  -20,  300 }".toList := by
  rw [C136_vector]; decide

/-- Hexadecimal, signs and adjustment to the left: only the sign remains. -/
example : (vector (integer true 8) ⟨⟨.hex, .left, true, true, 0, 6⟩, 4, '*', []⟩ [1, -128]).out = "{ **+1, -128 }".toList := by
  rw [C136_vector]; decide

/-- A matrix of any size is shown row by row, each row but the first on its own line and indented by two blanks. -/
theorem C136_matrix {T : Type} (k : Scalar T) (s : Stream) (rows cols : ℕ) (hr : 0 < rows) (m : ℕ → ℕ → T) :
    matrix k s rows cols m = { s with
      width := 0
      out := s.out ++ braces (join ",\n  ".toList ((List.range rows).map fun r =>
        commas ((List.range cols).map fun c => column k s (m r c)))) } := by
  unfold matrix printMatrix
  by_cases h1 : rows = 1
  · subst h1
    rw [if_pos rfl]
    have := C136_vector k s ((List.range cols).map fun i => m (i % 1) (i / 1))
    unfold vector at this
    rw [this, List.map_map]
    simp [join, List.range_succ, Function.comp_def, Nat.mod_one]
  · rw [if_neg h1]
    have h := like_rows k (fun i => m (i % rows) (i / rows)) rows cols rows 0 (by omega) (printString (prepare k s) "{ ".toList)
    rw [if_pos rfl, ← List.range_eq_range'] at h
    have e : ((List.range rows).map fun r => row k (printString (prepare k s) "{ ".toList) (fun i => m (i % rows) (i / rows)) rows cols r) =
        (List.range rows).map fun r => commas ((List.range cols).map fun c => column k s (m r c)) := by
      apply List.map_congr_left
      intro r hr'
      have hr' := List.mem_range.mp hr'
      unfold row
      congr 1
      apply List.map_congr_left
      intro c _
      rw [prepare_cell]
      have e1 : (c * rows + r) % rows = r := by rw [Nat.mul_comm, Nat.mul_add_mod, Nat.mod_eq_of_lt hr']
      have e2 : (c * rows + r) / rows = c := by
        rw [Nat.mul_comm, Nat.mul_add_div hr, Nat.div_eq_of_lt hr', Nat.add_zero]
      dsimp only
      rw [e1, e2]
    rw [e] at h
    exact finish k s _ _ h

example : (matrix (integer true 32) fresh 2 3 (fun r c => 10 * r + c)).out = "{ 0, 1, 2,\n  10, 11, 12 }".toList := by
  rw [C136_matrix _ _ _ _ (by omega)]; decide

/-- A quaternion is shown as `{ s, { x, y, z } }`, a bounding sphere or plane as `{ { x, y, z }, r }`, a bounding box, line
segment or ray as `{ { x, y, z }, { u, v, w } }` and a triangle as three vectors. -/
theorem C136_shapes {T : Type} (k : Scalar T) (s : Stream) :
    let n := column k s
    let v (x y z : T) := braces (commas [n x, n y, n z])
    let shown (parts : List (List Char)) : Stream := { s with width := 0, out := s.out ++ braces (commas parts) }
    (∀ w x y z, quaternion k s w x y z = shown [n w, v x y z]) ∧
    (∀ x y z r, sphereOrPlane k s x y z r = shown [v x y z, n r]) ∧
    (∀ x y z a b c, twoVectors k s x y z a b c = shown [v x y z, v a b c]) ∧
    ∀ p q r : Fin 3 → T, triangle k s p q r = shown [v (p 0) (p 1) (p 2), v (q 0) (q 1) (q 2), v (r 0) (r 1) (r 2)] := by
  have key : ∀ elems : List (List T), printCompound k s elems = { s with
      width := 0
      out := s.out ++ braces (commas (elems.map fun e =>
        if e.length > 1 then braces (commas (e.map (column k s))) else commas (e.map (column k s)))) } := by
    intro elems
    unfold printCompound
    have h := like_compound k elems 0 (printString (prepare k s) "{ ".toList)
    rw [if_pos rfl] at h
    have e : elems.map (part k (printString (prepare k s) "{ ".toList)) = elems.map fun e =>
        if e.length > 1 then braces (commas (e.map (column k s))) else commas (e.map (column k s)) := by
      apply List.map_congr_left
      intro e _
      unfold part
      have : e.map (cell k (printString (prepare k s) "{ ".toList)) = e.map (column k s) :=
        List.map_congr_left (fun x _ => prepare_cell k s x _)
      rw [this]
    rw [e] at h
    exact finish k s _ _ h
  refine ⟨fun w x y z => ?_, fun x y z r => ?_, fun x y z a b c => ?_, fun p q r => ?_⟩
  · exact key _
  · exact key _
  · exact key _
  · exact key _

example : (quaternion (integer true 64) fresh 1 2 3 4).out = "{ 1, { 2, 3, 4 } }".toList := by
  rw [(C136_shapes _ _).1]; decide

theorem reads_column (sg : Bool) (bits : ℕ) (hb : bits ≠ 128) (s : Stream) (hf : Separator s.fill) (z : ℤ) :
    Reads (column (integer sg bits) s z) [z] :=
  reads_cell sg bits hb (printString (prepare (integer sg bits) s) []) rfl hf z

/-- C136 (partial): the numbers in the text of a vector or matrix of integers of up to 64 bits are its elements in order, and in
the order of its rows, whatever the stream's width, flags and precision, if the fill character cannot be taken for part of a
number.  So different vectors have different texts.  Missing: 128 bits. -/
theorem C136_integers_partial (sg : Bool) (bits : ℕ) (hb : bits = 8 ∨ bits = 16 ∨ bits = 32 ∨ bits = 64) (s : Stream)
    (hs : s.out = []) (hf : Separator s.fill) :
    (∀ v, numbers (vector (integer sg bits) s v).out = v) ∧
    ∀ rows cols, 0 < rows → ∀ m : ℕ → ℕ → ℤ,
      numbers (matrix (integer sg bits) s rows cols m).out = (List.range rows).flatMap fun r => (List.range cols).map fun c => m r c := by
  have hb' : bits ≠ 128 := by rcases hb with rfl | rfl | rfl | rfl <;> decide
  constructor
  · intro v
    rw [C136_vector]
    show numbers (s.out ++ _) = v
    rw [hs, List.nil_append, numbers_braces _ _ (reads_commas _ (fun z => [z]) v (fun z _ => reads_column sg bits hb' s hf z))]
    simp
  · intro rows cols hr m
    rw [C136_matrix _ _ _ _ hr]
    show numbers (s.out ++ _) = _
    rw [hs, List.nil_append]
    refine numbers_braces _ _ (reads_lines _ (fun r => (List.range cols).map fun c => m r c) _ (fun r _ => ?_))
    have := reads_commas (fun c => column (integer sg bits) s (m r c)) (fun c => [m r c]) (List.range cols)
      (fun c _ => reads_column sg bits hb' s hf _)
    rwa [← List.map_eq_flatMap] at this

example : fresh.out = [] ∧ Separator fresh.fill ∧ Separator '*' :=
  ⟨rfl, ⟨by decide, by decide, by decide⟩, ⟨by decide, by decide, by decide⟩⟩

/-- C136 is false of the code for 128 bits: 2⁶⁴ is shown as 0, and the largest number, 2¹²⁷ - 1, as -1. -/
theorem C136_wide_violated :
    (vector (integer false 128) fresh [2 ^ 64]).out = "{ 0 }".toList ∧
    (vector (integer true 128) fresh [2 ^ 127 - 1]).out = "{ -1 }".toList := by
  rw [C136_vector, C136_vector]; decide +kernel

end Verif.Props.Printing
