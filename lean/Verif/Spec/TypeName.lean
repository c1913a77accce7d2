import Verif.Spec.CInt
import Mathlib.Data.Nat.Notation
import Mathlib.Data.Int.Notation

/-!
# Specification of the names of types

The types of C++ and how they are written: the *type-id* of a type in the grammar of declarators ([dcl.name]), as a list of tokens.
-/

namespace Verif.Spec.TypeName

/-- `chars! "ab"` is the list `['a', 'b']`. -/
macro:max "chars!" s:str : term => do
  let cs := (s.getString.toList.map fun c => Lean.Syntax.mkCharLit c).toArray
  `([$cs,*])

/-- `const`, `volatile`. -/
structure CV where
  isConst : Bool
  isVolatile : Bool
  deriving DecidableEq

/-- No qualifier. -/
def CV.no : CV := ⟨false, false⟩

/-- Types of C++ without pointers to members.  Qualifiers belong to classes, arithmetic types and pointers: those of an array are those
of its elements, and references and functions have none.  The arguments of a class template are types followed by integers. -/
inductive CType where
  | named (cv : CV) (name : List Char)
  | inst (cv : CV) (template : List Char) (types : List CType) (values : List (CInt.Ty × ℤ))
  | ptr (cv : CV) (to' : CType)
  | lref (to' : CType)
  | rref (to' : CType)
  | array (size : Option ℕ) (of' : CType)
  | fn (result : CType) (params : List CType) (variadic noexc : Bool)

/-- A symbol, or a word: a name, keyword or number. -/
inductive Token where
  | sym (c : Char)
  | word (w : List Char)
  deriving DecidableEq

/-- The characters that are symbols. -/
def symbols : List Char := ['*', '&', '(', ')', '[', ']', ',', '<', '>']

/-- The word read so far. -/
def flush (w : List Char) : List Token := if w = [] then [] else [.word w]

/-- The tokens of a text, after the first characters of a word. -/
def lexFrom : List Char → List Char → List Token
  | w, [] => flush w
  | w, c :: cs =>
    if c ∈ symbols then flush w ++ .sym c :: lexFrom [] cs
    else if c = ' ' then flush w ++ lexFrom [] cs
    else lexFrom (w ++ [c]) cs

/-- The tokens of a text; blanks separate words. -/
def lex (text : List Char) : List Token := lexFrom [] text

/-- A decimal number. -/
def decimal (z : ℤ) : List Char := (if z < 0 then ['-'] else []) ++ Nat.toDigits 10 z.natAbs

/-- The qualifiers, as words. -/
def cvTokens (cv : CV) : List Token :=
  (if cv.isConst then [.word chars! "const"] else []) ++ (if cv.isVolatile then [.word chars! "volatile"] else [])

/-- Items with commas between them. -/
def commas : List (List Token) → List Token
  | [] => []
  | [x] => x
  | x :: y :: l => x ++ .sym ',' :: commas (y :: l)

/-- What binds weaker than the brackets of an array or a function is written in parentheses. -/
def operand : CType → List Token → List Token
  | .array _ _, d => .sym '(' :: d ++ [.sym ')']
  | .fn _ _ _ _, d => .sym '(' :: d ++ [.sym ')']
  | _, d => d

/-- The number of elements in brackets. -/
def extent (n : Option ℕ) : List Token :=
  .sym '[' :: ((match n with | none => [] | some n => [.word (decimal n)]) ++ [.sym ']'])

/-- An ellipsis after the parameters. -/
def ellipsis (variadic : Bool) : List (List Token) := if variadic then [[.word chars! "..."]] else []

mutual

/-- The tokens that declare `d` to be of the type: C++'s declarations are written inside out. -/
def declare : CType → List Token → List Token
  | .named cv n, d => cvTokens cv ++ lex n ++ d
  | .inst cv n types values, d =>
    cvTokens cv ++ lex n ++ .sym '<' :: commas (spellings types ++ values.map fun v => [.word (decimal v.2)]) ++ .sym '>' :: d
  | .ptr cv t, d => declare t (operand t (.sym '*' :: cvTokens cv ++ d))
  | .lref t, d => declare t (operand t (.sym '&' :: d))
  | .rref t, d => declare t (operand t (.sym '&' :: .sym '&' :: d))
  | .array n t, d => declare t (d ++ extent n)
  | .fn r ps variadic noexc, d =>
    declare r (d ++ .sym '(' :: commas (spellings ps ++ ellipsis variadic) ++
      .sym ')' :: if noexc then [.word chars! "noexcept"] else [])

/-- Each of a list of types. -/
def spellings : List CType → List (List Token)
  | [] => []
  | t :: ts => declare t [] :: spellings ts

end

/-- How a type is written: a declaration of nothing. -/
def spelling (t : CType) : List Token := declare t []

-- `int (*const[2])(float)`: an array of two constant pointers to functions
example : spelling (.array (some 2) (.ptr ⟨true, false⟩ (.fn (.named .no chars! "int") [.named .no chars! "float"] false false))) =
    lex chars! "int(*const[2])(float)" := by decide

example : spelling (.ptr .no (.array (some 3) (.named ⟨true, false⟩ chars! "int"))) = lex chars! "const int (*)[3]" := by decide

example : spelling (.array (some 2) (.array (some 3) (.named .no chars! "int"))) = lex chars! "int [2][3]" := by decide

/-- What compilers write before the name of a type: the words of the parameter, keywords, anonymous namespaces, qualification, blanks. -/
def decorations : List (List Char) :=
  [chars! " ", chars! "::", chars! "with ", chars! "T = ", chars! "struct ", chars! "class ", chars! "union ", chars! "enum ",
   chars! "{anonymous}::", chars! "(anonymous namespace)::", chars! "`anonymous-namespace'::"]

end Verif.Spec.TypeName
