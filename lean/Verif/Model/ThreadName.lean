import Mathlib.Data.Nat.Notation
/-!
# Names of threads

`/repo/src/thread_name.cpp` and `/repo/include/muu/thread_name.h`. A buffer is a list of bytes; `none` is a byte that was not initialised.
-/
namespace Verif.Model.ThreadName

/-- The operating systems that the code distinguishes: thread_name.cpp:13, 72. -/
inductive System where
  | windows | other
  deriving DecidableEq

/-- What the system is told: by the exception for debuggers, a pointer to a string that ends with a zero byte; by SetThreadDescription, a string.
`none`: undefined behaviour, a byte is read that is not in the buffer or was not initialised. -/
structure Told where
  debugger : Option (List UInt8)
  description : Option (List UInt8)
  deriving DecidableEq

/-- std::strncpy(buf, s, n), for `n` not more than the length of `s`: the bytes of `s` up to a zero byte, then zero bytes, `n` bytes in all; the rest of
the buffer is left alone. -/
def strncpy (buf : List (Option UInt8)) (s : List UInt8) (n : ℕ) : List (Option UInt8) :=
  let copied := (s.take n).takeWhile (· ≠ 0)
  copied.map some ++ List.replicate (n - copied.length) (some 0) ++ buf.drop n

/-- Reading a string that ends with a zero byte. -/
def readString : List (Option UInt8) → Option (List UInt8)
  | [] => none
  | none :: _ => none
  | some c :: l => if c = 0 then some [] else (readString l).map (c :: ·)

/-- Reading `n` bytes. -/
def readBytes (buf : List (Option UInt8)) (n : ℕ) : Option (List UInt8) :=
  if n ≤ buf.length then (buf.take n).mapM id else none

/-- set_thread_name_os_specific, thread_name.cpp:53-68 (Windows, with a recent SDK): a buffer of 256 bytes. -/
def windows (name : List UInt8) : Told :=
  let buf := strncpy (List.replicate 256 none) name (min name.length 256)
  let buf := buf.set 255 (some 0)
  ⟨readString buf, readBytes buf name.length⟩

/-- set_thread_name, thread_name.h:25-30, thread_name.cpp:85-104: on other systems nothing is told. -/
def setThreadName (s : System) (name : List UInt8) : Option Told :=
  match s with
  | .windows => some (windows name)
  | .other => none

end Verif.Model.ThreadName
