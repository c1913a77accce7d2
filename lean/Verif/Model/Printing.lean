import Verif.Spec.Printing
import Mathlib.Data.Fin.Basic

/-!
# Model of printing vectors, matrices and shapes (`src/stream_printer.h`, `src/vector_types_common.cpp`)

The stream is in a good state, without exceptions, in the "C" locale.  The text of one floating-point number is left to the
standard library: it is an arbitrary function of the format and the number.
-/

namespace Verif.Model.Printing

/-- `std::ios_base::basefield`. -/
inductive Base
  | oct
  | dec
  | hex
  deriving DecidableEq

/-- `std::ios_base::adjustfield`. -/
inductive Adjust
  | unset
  | left
  | right
  | internal
  deriving DecidableEq

/-- The format flags of a stream, and its precision. -/
structure Format where
  base : Base
  adjust : Adjust
  showpos : Bool
  showbase : Bool
  /-- The other flags. -/
  rest : ℕ
  precision : ℤ
  deriving DecidableEq

/-- An output stream and what was written to it. -/
structure Stream where
  format : Format
  width : ℤ
  fill : Char
  out : List Char

/-- An arithmetic type: whether it is floating-point, its size, and how `operator<<` of the standard library turns a value into
text before padding; the value is cast as `stream_output_cast_type` says. -/
structure Scalar (T : Type) where
  floating : Bool
  size : ℕ
  text : Format → T → List Char

/-- The value in `bits` bits of two's complement, or unsigned. -/
def wrap (isSigned : Bool) (bits : ℕ) (z : ℤ) : ℤ :=
  if isSigned then (z + 2 ^ (bits - 1)) % 2 ^ bits - 2 ^ (bits - 1) else z % 2 ^ bits

/-- The text of an integer: [facet.num.put.virtuals]. -/
def integerText (isSigned : Bool) (bits : ℕ) (f : Format) (z : ℤ) : List Char :=
  match f.base with
  | .dec => (if z < 0 then ['-'] else if f.showpos = true ∧ isSigned = true then ['+'] else []) ++ Nat.toDigits 10 z.natAbs
  | .oct => (if f.showbase = true ∧ z ≠ 0 then ['0'] else []) ++ Nat.toDigits 8 (z % 2 ^ bits).toNat
  | .hex => (if f.showbase = true ∧ z ≠ 0 then ['0', 'x'] else []) ++ Nat.toDigits 16 (z % 2 ^ bits).toNat

/-- The integer types of 8, 16, 32, 64 and 128 bits.  `stream_output_cast_type`: `stream_printer.h` 84-134; one byte becomes `int`,
128 bits become 64. -/
def integer (isSigned : Bool) (bits : ℕ) : Scalar ℤ where
  floating := false
  size := bits / 8
  text f z :=
    if bits = 8 then integerText isSigned 32 f z
    else if bits = 128 then integerText isSigned 64 f (wrap isSigned 64 z)
    else integerText isSigned bits f z

/-- Padding: [facet.num.put.virtuals], stage 3. -/
def pad (s : Stream) (text : List Char) : List Char :=
  let fill := List.replicate (s.width.toNat - text.length) s.fill
  match s.format.adjust with
  | .left => text ++ fill
  | .internal =>
    match text with
    | c :: rest => if c = '-' ∨ c = '+' then c :: (fill ++ rest) else fill ++ text
    | [] => fill
  | _ => fill ++ text

/-- `operator<<` of a number: pads, writes and resets the width. -/
def insert {T : Type} (k : Scalar T) (s : Stream) (x : T) : Stream :=
  { s with out := s.out ++ pad s (k.text s.format x), width := 0 }

/-- `print_number`: `stream_printer.h` 187-203.  The destructor of `stream_width_saver` restores the width. -/
def printNumber {T : Type} (k : Scalar T) (s : Stream) (x : T) : Stream :=
  let width := s.width
  let s := { s with format := { s.format with adjust := .right } }
  let s := insert k s x
  { s with width := width }

/-- `print_string`: `stream_printer.h` 302-305. -/
def printString (s : Stream) (text : List Char) : Stream := { s with out := s.out ++ text }

/-- `operator()(indent_tag)`: `stream_printer.h` 351-363; the buffer holds 50 blanks. -/
def indent (s : Stream) (count : ℕ) : Stream :=
  if h : count > 0 then indent (printString s (List.replicate (min count 25 * 2) ' ')) (count - 25) else s
termination_by count
decreasing_by omega

/-- `operator()(breaking_list_item_tag)`: `stream_printer.h` 381-385. -/
def breakingListItem (s : Stream) (indentCount : ℕ) : Stream := indent (printString s ",\n".toList) indentCount

/-- `operator()(list_item_tag, x, num)`: `stream_printer.h` 387-397; the loop from index `i`. -/
def listItems {T : Type} (k : Scalar T) (x : List T) (i : ℕ) (s : Stream) : Stream :=
  match x with
  | [] => s
  | a :: rest =>
    let s := if i > 0 then printString s ", ".toList else s
    listItems k rest (i + 1) (printNumber k s a)

/-- The precision for a floating-point type: `vector_types_common.cpp` 25-31. -/
def precisionFor (size : ℕ) : ℤ :=
  3 + (if size ≥ 4 then 3 else 0) + (if size ≥ 8 then 3 else 0) + (if size > 8 then 3 else 0)

/-- The start of all three functions: `vector_types_common.cpp` 25-33, 262-269, 514-521. -/
def prepare {T : Type} (k : Scalar T) (s : Stream) : Stream :=
  let s := if k.floating = true then { s with format := { s.format with precision := precisionFor k.size } } else s
  { s with format := { s.format with base := .dec } }

/-- `stream_saver`, with `saver.width = 0`: its destructor restores the flags, the precision and the fill character:
`stream_printer.h` 20-47. -/
def restore (before s : Stream) : Stream := { s with format := before.format, width := 0, fill := before.fill }

/-- `print_vector`: `vector_types_common.cpp` 19-45. -/
def printVector {T : Type} (k : Scalar T) (s0 : Stream) (x : List T) : Stream :=
  let s := prepare k s0
  let s := printString s "{ ".toList
  let s := listItems k x 0 s
  let s := printString s " }".toList
  restore s0 s

/-- The inner loop of `print_matrix`, columns `c` to `cols`: `vector_types_common.cpp` 286-294.  The matrix is an array with column
`c` at `c * rows`. -/
def printRow {T : Type} (k : Scalar T) (m : ℕ → T) (rows cols r c : ℕ) (s : Stream) : Stream :=
  if h : c < cols then
    let s := if c > 0 then printString s ", ".toList else s
    printRow k m rows cols r (c + 1) (printNumber k s (m (c * rows + r)))
  else s
termination_by cols - c

/-- The outer loop: `vector_types_common.cpp` 280-295. -/
def printRows {T : Type} (k : Scalar T) (m : ℕ → T) (rows cols r : ℕ) (s : Stream) : Stream :=
  if h : r < rows then
    let s := if r > 0 then breakingListItem s 1 else s
    printRows k m rows cols (r + 1) (printRow k m rows cols r 0 s)
  else s
termination_by rows - r

/-- `print_matrix`: `vector_types_common.cpp` 248-301. -/
def printMatrix {T : Type} (k : Scalar T) (s0 : Stream) (m : ℕ → T) (rows cols : ℕ) : Stream :=
  if rows = 1 then printVector k s0 ((List.range cols).map m)
  else
    let s := prepare k s0
    let s := printString s "{ ".toList
    let s := printRows k m rows cols 0 s
    let s := printString s " }".toList
    restore s0 s

/-- The loop of `print_compound_vector`: `vector_types_common.cpp` 528-543. -/
def compoundItems {T : Type} (k : Scalar T) (elems : List (List T)) (i : ℕ) (s : Stream) : Stream :=
  match elems with
  | [] => s
  | e :: rest =>
    let s := if i > 0 then printString s ", ".toList else s
    let s := if e.length > 1 then printString s "{ ".toList else s
    let s := listItems k e 0 s
    let s := if e.length > 1 then printString s " }".toList else s
    compoundItems k rest (i + 1) s

/-- `print_compound_vector`: `vector_types_common.cpp` 501-549. -/
def printCompound {T : Type} (k : Scalar T) (s0 : Stream) (elems : List (List T)) : Stream :=
  let s := prepare k s0
  let s := printString s "{ ".toList
  let s := compoundItems k elems 0 s
  let s := printString s " }".toList
  restore s0 s

/-- `operator<<` of a vector and of Euler angles: `vector.h` 2655-2659, `euler_angles.h` 208-214. -/
def vector {T : Type} (k : Scalar T) (s : Stream) (v : List T) : Stream := printVector k s v

/-- `operator<<` of a quaternion: `quaternion.h` 958-964. -/
def quaternion {T : Type} (k : Scalar T) (s : Stream) (w x y z : T) : Stream := printCompound k s [[w], [x, y, z]]

/-- `operator<<` of a bounding sphere (center, radius) and of a plane (normal, d): `bounding_sphere.h` 705-712, `plane.h` 535-541. -/
def sphereOrPlane {T : Type} (k : Scalar T) (s : Stream) (x y z r : T) : Stream := printCompound k s [[x, y, z], [r]]

/-- `operator<<` of a bounding box (center, extents), a line segment (both ends) and a ray (origin, direction):
`bounding_box.h` 1128-1135, `line_segment.h` 759-766, `ray.h` 363-369. -/
def twoVectors {T : Type} (k : Scalar T) (s : Stream) (x y z u v w : T) : Stream := printCompound k s [[x, y, z], [u, v, w]]

/-- `operator<<` of a triangle: `triangle.h` 803-810. -/
def triangle {T : Type} (k : Scalar T) (s : Stream) (p q r : Fin 3 → T) : Stream :=
  printCompound k s [[p 0, p 1, p 2], [q 0, q 1, q 2], [r 0, r 1, r 2]]

/-- `operator<<` of a matrix stored as columns: `matrix.h` 3015-3019. -/
def matrix {T : Type} (k : Scalar T) (s : Stream) (rows cols : ℕ) (m : ℕ → ℕ → T) : Stream :=
  printMatrix k s (fun i => m (i % rows) (i / rows)) rows cols

end Verif.Model.Printing
