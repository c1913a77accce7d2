import Verif.Spec.TypeName
import Verif.Model.CInt
import Verif.Model.IntVector
/-!
# Names of types

`/repo/include/muu/type_name.h` for GCC and Clang. Texts are lists of characters; concatenation of fixed_strings is claim C49.
The built-in types and those for which an alias is specialised (type_name.h 779-855, impl/type_name_specializations.h) are `named`: the
alias is the name. Not modelled: pointers to members (a todo in the source: the compiler's own text), names that the user specialises.
-/
namespace Verif.Model.TypeName
open Verif.Spec.CInt Verif.Spec.TypeName

/-- type_name_find, type_name.h:84-92: the loop from position `i` on. -/
def findFrom (i : ℕ) (needle : Char) : List Char → Option ℕ
  | [] => none
  | c :: cs => if c = needle then some i else findFrom (i + 1) needle cs

/-- type_name_rfind, type_name.h:126-134: the loop from position `i` down. -/
def rfindFrom (src : List Char) (needle : Char) : ℕ → Option ℕ
  | 0 => none
  | i + 1 => if src[i]? = some needle then some i else rfindFrom src needle i

/-- type_name_trim_left_from_first, type_name.h:136-143. -/
def trimLeftFromFirst (src : List Char) (needle : Char) : List Char :=
  match findFrom 0 needle src with
  | some left => src.drop (left + 1)
  | none => src

/-- type_name_trim_right_from_last, type_name.h:145-152. -/
def trimRightFromLast (src : List Char) (needle : Char) : List Char :=
  match rfindFrom src needle src.length with
  | some right => src.take right
  | none => src

/-- type_name_starts_with, type_name.h:112-124: the loop compares character by character. -/
def startsWith : List Char → List Char → Bool
  | _, [] => true
  | [], _ :: _ => false
  | c :: cs, p :: ps => c == p && startsWith cs ps

/-- The list in type_name_remove_prefixes, type_name.h:161-171. -/
def prefixes : List (List Char) :=
  [chars! "`anonymous-namespace'::", chars! "(anonymous namespace)::", chars! "{anonymous}::", chars! "struct ", chars! "class ",
   chars! "union ", chars! "enum ", chars! "T = ", chars! "with ", chars! "::", chars! " "]

/-- One pass over the prefixes, type_name.h:161-178: the rest, and whether one was found. -/
def pass (src : List Char) : List Char × Bool :=
  prefixes.foldl (fun (s : List Char × Bool) p => if startsWith s.1 p then (s.1.drop p.length, true) else s) (src, false)

/-- type_name_remove_prefixes, type_name.h:154-182. The number of passes is bounded by the length: each removes something. -/
def removePrefixes : (passes : ℕ) → List Char → List Char
  | 0, src => src
  | n + 1, src => if (pass src).2 then removePrefixes n (pass src).1 else src

/-- type_name_source_string, type_name.h:184-208, from __PRETTY_FUNCTION__. -/
def sourceString (pretty : List Char) : List Char :=
  let str := trimLeftFromFirst pretty '['
  let str := trimRightFromLast str ']'
  let str := trimRightFromLast str ';'
  removePrefixes (str.length + 1) str

/-- `-val`, type_name.h:331, 355, for a type that may be smaller than `int`. `none`: overflow, so not a constant. -/
def negated (t : Ty) (v : ℤ) : Option ℤ := do some (CInt.conv t (← IntVector.result (CInt.promote t) (-v)))

/-- The number of digits: the loop of type_name.h:335-339. -/
def countDigits (v : ℤ) (len : ℕ) : ℕ := if h : v = 0 then len else countDigits (v.tdiv 10) (len + 1)
termination_by v.natAbs
decreasing_by
  rw [Int.natAbs_tdiv]
  exact Nat.div_lt_self (Int.natAbs_pos.2 h) (by decide)

/-- type_name_int_to_str_length, type_name.h:318-342. -/
def strLength (t : Ty) (n : ℤ) : Option ℕ :=
  if n = 0 then some 1
  else if t.signed ∧ n < 0 then do some (countDigits (← negated t n) 1)
  else some (countDigits n 0)

/-- The character of a digit, type_name.h:359: `static_cast<char>('0' + (val % T{ 10 }))`. -/
def digitChar (v : ℤ) : Char := Char.ofNat (48 + v.tmod 10).toNat

/-- The loop of type_name.h:357-361: `i` is the index at which to write next (as an integer; it wraps only after the last use). -/
def writeDigits (v : ℤ) (str : List Char) (i : ℤ) : List Char × ℤ :=
  if h : v = 0 then (str, i) else writeDigits (v.tdiv 10) (str.set i.toNat (digitChar v)) (i - 1)
termination_by v.natAbs
decreasing_by
  rw [Int.natAbs_tdiv]
  exact Nat.div_lt_self (Int.natAbs_pos.2 h) (by decide)

/-- type_name_int_to_str, type_name.h:344-368, for integers but `bool` (for which `T{ 10 }` is ill-formed). -/
def intToStr (t : Ty) (n : ℤ) : Option (List Char) := do
  let len ← strLength t n
  let val ← if t.signed ∧ n < 0 then negated t n else some n
  let (str, i) := writeDigits val (List.replicate len (Char.ofNat 0)) ((len : ℤ) - 1)
  some (if t.signed ∧ n < 0 then str.set i.toNat '-' else str)

/-- type_name_list_, type_name.h:408-433, and type_name_nttp_list_, 435-461, of the names. -/
def list : List (List Char) → List Char
  | [] => []
  | [t] => t
  | [t, u] => t ++ chars! ", " ++ u
  | t :: u :: v => (t ++ chars! ", " ++ u) ++ chars! ", " ++ list v

/-- type_name_<const T> and its kin, type_name.h:220-236. -/
def qualifiers (cv : CV) : List Char :=
  match cv with
  | ⟨false, false⟩ => []
  | ⟨true, false⟩ => chars! "const "
  | ⟨false, true⟩ => chars! "volatile "
  | ⟨true, true⟩ => chars! "const volatile "

/-- type_name_<T*>, <T* const>, and so on, type_name.h:240-262. -/
def pointerSuffix (cv : CV) : List Char :=
  match cv with
  | ⟨false, false⟩ => chars! "*"
  | ⟨true, false⟩ => chars! "* const"
  | ⟨false, true⟩ => chars! "* volatile"
  | ⟨true, true⟩ => chars! "* const volatile"

/-- The declarators of pointers to functions, type_name.h:569, 608, 647, 687. -/
def functionPointer (cv : CV) : List Char :=
  match cv with
  | ⟨false, false⟩ => chars! "(*)("
  | ⟨true, false⟩ => chars! "(*const)("
  | ⟨false, true⟩ => chars! "(*volatile)("
  | ⟨true, true⟩ => chars! "(*const volatile)("

/-- Functions, type_name.h:528-562, of the names of the result and the parameters. -/
def functionName (r : List Char) (ps : List (List Char)) (variadic noexc : Bool) : List Char :=
  (match variadic, ps with
    | false, ps => r ++ chars! "(" ++ list ps ++ chars! ")"
    | true, [] => r ++ chars! "(...)"
    | true, ps => r ++ chars! "(" ++ list ps ++ chars! ", ...)") ++
  if noexc then chars! " noexcept" else []

/-- Pointers and references to functions, type_name.h:566-758. -/
def functionIndirect (open' : List Char) (r : List Char) (ps : List (List Char)) (variadic noexc : Bool) : List Char :=
  (match variadic, ps with
    | false, ps => r ++ open' ++ list ps ++ chars! ")"
    | true, [] => r ++ open' ++ chars! "...)"
    | true, ps => r ++ open' ++ chars! "(" ++ list ps ++ chars! ", ...)") ++
  if noexc then chars! " noexcept" else []

/-- Instances of templates, type_name.h:465-524: only types, only integers, or up to three types and then integers; else the compiler's
    text. `inner` is the compiler's text between the brackets, so that its text of the type is `template<inner>`. -/
def instName (template inner : List Char) (types values : List (List Char)) : List Char :=
  let source := template ++ chars! "<" ++ inner ++ chars! ">"
  let base := trimRightFromLast source '<'
  match types, values with
  | types, [] => base ++ chars! "<" ++ list types ++ chars! ">"
  | [], values => base ++ chars! "<" ++ list values ++ chars! ">"
  | [u], values => base ++ chars! "<" ++ u ++ chars! ", " ++ list values ++ chars! ">"
  | [u0, u1], values => base ++ chars! "<" ++ list [u0, u1] ++ chars! ", " ++ list values ++ chars! ">"
  | [u0, u1, u2], values => base ++ chars! "<" ++ list [u0, u1, u2] ++ chars! ", " ++ list values ++ chars! ">"
  | _, _ => source

/-- The names of integral arguments, in order. -/
def valueNames : List (Ty × ℤ) → Option (List (List Char))
  | [] => some []
  | v :: vs => do
    let s ← intToStr v.1 v.2
    let ss ← valueNames vs
    some (s :: ss)

/-- `[N]` or `[]`; the number is a size_t. -/
def extentName : Option ℕ → Option (List Char)
  | none => some chars! "[]"
  | some n => do
    let s ← intToStr ⟨64, false⟩ n
    some (chars! "[" ++ s ++ chars! "]")

mutual

/-- type_name, type_name.h:57-58, 211-758, choosing the most specialised definition; `args` is the compiler's text of template arguments. -/
def name (args : List CType → List (Ty × ℤ) → List Char) : CType → Option (List Char)
  | .named cv n => some (qualifiers cv ++ n)
  | .inst cv template types values => do
    let ts ← names args types
    let vs ← valueNames values
    some (qualifiers cv ++ instName template (args types values) ts vs)
  | .ptr cv (.fn r ps variadic noexc) => do
    let r ← name args r
    let ps ← names args ps
    some (functionIndirect (functionPointer cv) r ps variadic noexc)
  | .ptr cv t => do
    let t ← name args t
    some (t ++ pointerSuffix cv)
  | .lref (.fn r ps variadic noexc) => do
    let r ← name args r
    let ps ← names args ps
    some (functionIndirect chars! "(&)(" r ps variadic noexc)
  | .lref (.array n t) => do
    let t ← name args t
    let n ← extentName n
    some (t ++ chars! "(&)" ++ n)
  | .lref t => do
    let t ← name args t
    some (t ++ chars! "&")
  | .rref (.array n t) => do
    let t ← name args t
    let n ← extentName n
    some (t ++ chars! "(&&)" ++ n)
  | .rref t => do
    let t ← name args t
    some (t ++ chars! "&&")
  | .array n t => do
    let t ← name args t
    let n ← extentName n
    some (t ++ n)
  | .fn r ps variadic noexc => do
    let r ← name args r
    let ps ← names args ps
    some (functionName r ps variadic noexc)

/-- The names of the types of a list. -/
def names (args : List CType → List (Ty × ℤ) → List Char) : List CType → Option (List (List Char))
  | [] => some []
  | t :: ts => do
    let n ← name args t
    let ns ← names args ts
    some (n :: ns)

end

end Verif.Model.TypeName
