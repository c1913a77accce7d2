/-! Model of include/muu/build.h:15-92: the moment of compilation, parsed from `__DATE__` and `__TIME__`. A character is its
code in ASCII, which is the value of a plain `char` whether that type is signed or not. Not modelled: the constants of the
same header which come from the configuration (`cpp_version`, `bitness`, ...). -/
namespace Verif.Model.BuildDate

/-- a character of a literal, promoted to `int`; `none`: an index outside of the literal, which does not compile in a constant
expression -/
def at? (s : List Char) (i : Nat) : Option Int := s[i]?.map fun c => (c.toNat : Int)

/-- include/muu/build.h:20 `build_date_month_hash` -/
def monthHash (d : List Char) : Option Int := do
  return (← at? d 0) + (← at? d 1) + (← at? d 2)

/-- include/muu/build.h:41-46 `year` -/
def year (d : List Char) : Option (BitVec 32) := do
  return BitVec.ofInt 32 (((← at? d 7) - 48) * 1000 + ((← at? d 8) - 48) * 100 + ((← at? d 9) - 48) * 10 + ((← at? d 10) - 48))

/-- include/muu/build.h:50-63 `month` -/
def month (d : List Char) : Option (BitVec 32) := do
  let h ← monthHash d
  return if h = 281 then 1 else if h = 269 then 2 else if h = 288 then 3 else if h = 291 then 4 else if h = 295 then 5
    else if h = 301 then 6 else if h = 299 then 7 else if h = 285 then 8 else if h = 296 then 9 else if h = 294 then 10
    else if h = 307 then 11 else if h = 268 then 12 else 0

/-- the expression of include/muu/build.h:67-70, 74-77, 81-84 and 88-91: two characters, of which the first may be a space -/
def pair (s : List Char) (i : Nat) : Option (BitVec 32) := do
  let a ← at? s i
  return BitVec.ofInt 32 ((if a = 32 then 0 else a - 48) * 10 + ((← at? s (i + 1)) - 48))

/-- include/muu/build.h:67-70 `day` -/
def day (d : List Char) : Option (BitVec 32) := pair d 4
/-- include/muu/build.h:74-77 `hour` -/
def hour (t : List Char) : Option (BitVec 32) := pair t 0
/-- include/muu/build.h:81-84 `minute` -/
def minute (t : List Char) : Option (BitVec 32) := pair t 3
/-- include/muu/build.h:88-91 `second` -/
def second (t : List Char) : Option (BitVec 32) := pair t 6

/-- the constants of `muu::build` which name the moment of compilation -/
structure Build where
  year : BitVec 32
  month : BitVec 32
  day : BitVec 32
  hour : BitVec 32
  minute : BitVec 32
  second : BitVec 32
  deriving DecidableEq, Repr

/-- include/muu/build.h:41-92, with the `static_assert`s of lines 47, 64, 71, 78, 85 and 92; `none`: the header does not
compile -/
def build (d t : List Char) : Option Build := do
  let y ← year d
  guard (y ≥ 2021#32)
  let mo ← month d
  guard (mo ≥ 1#32 ∧ mo ≤ 12#32)
  let da ← day d
  guard (da ≥ 1#32 ∧ da ≤ 31#32)
  let h ← hour t
  guard (h ≤ 23#32)
  let mi ← minute t
  guard (mi ≤ 59#32)
  let s ← second t
  guard (s ≤ 60#32)
  return ⟨y, mo, da, h, mi, s⟩

end Verif.Model.BuildDate
