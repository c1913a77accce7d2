import Verif.Model.StringParam
import Verif.Spec.StringLifetime
import Mathlib.Logic.Function.Basic
/-!
# Model of `src/string_param.cpp` with the memory it uses

As `Model/StringParam.lean`, but strings and views have addresses: a `std::basic_string` is an object with a buffer of characters, a
`std::basic_string_view` is a place in a buffer.  Using a buffer or a string object that is not alive is undefined (`none`).

The buffer of a short string (up to `sso` characters, in its own memory; 15 characters of type `char` in libstdc++) is a new one when
the string is moved; the buffer of a longer one goes along.  A string moved from has no buffer.  Simplifications: allocation always
succeeds; buffers of different character types are in different memories; the place of a buffer is not used again.
-/
namespace Verif.Model.StringLifetime
open Verif.Spec
open Verif.Spec.StringParam (Enc encode Text)
open Verif.Spec.StringLifetime
open Verif.Model.StringParam (transcode rawNarrow rawU8)

structure Mem where
  /-- the characters of each buffer that is alive -/
  buf : (e : Enc) → Nat → Option (List (BitVec e.bits))
  /-- buffers so far -/
  next : Nat
  /-- is the string object alive -/
  object : Nat → Bool
  /-- string objects so far -/
  made : Nat

def Mem.init : Mem := ⟨fun _ _ => none, 0, fun _ => false, 0⟩

def Mem.setBuf (m : Mem) (e : Enc) (b : Nat) (x : Option (List (BitVec e.bits))) : Mem :=
  { m with buf := Function.update m.buf e (Function.update (m.buf e) b x) }

def Mem.setObject (m : Mem) (o : Nat) (x : Bool) : Mem := { m with object := fun k => if k = o then x else m.object k }

/-- a new buffer: its number, and the memory -/
def Mem.alloc (m : Mem) (e : Enc) (u : List (BitVec e.bits)) : Nat × Mem :=
  (m.next, { m.setBuf e m.next (some u) with next := m.next + 1 })

/-- a new string object -/
def Mem.make (m : Mem) : Nat × Mem := (m.made, { m.setObject m.made true with made := m.made + 1 })

/-- a place in a buffer -/
structure View where
  e : Enc
  b : Nat
  off : Nat
  len : Nat
  deriving DecidableEq

/-- reading the characters a view refers to -/
def Mem.read (m : Mem) (v : View) : Option (List (BitVec v.e.bits)) :=
  (m.buf v.e v.b).bind fun u => if v.off + v.len ≤ u.length then some ((u.drop v.off).take v.len) else none

/-- what is in the storage -/
inductive Store
  /-- string object `o` with buffer `b` -/
  | string (o b : Nat)
  | view (b off len : Nat)
  deriving DecidableEq

/-- include/muu/string_param.h:56-84, src/string_param.cpp:14-30: mode and storage -/
structure Val where
  e : Enc
  store : Store
  deriving DecidableEq

abbrev Param := Option Val

/-- the value as a view, whether string or view; a string says how long it is -/
def Mem.asView (m : Mem) (v : Val) : Option View := match v.store with
  | .string o b => if m.object o then (m.buf v.e b).map fun u => ⟨v.e, b, 0, u.length⟩ else none
  | .view b off len => some ⟨v.e, b, off, len⟩

/-- the characters of the value -/
def Mem.content (m : Mem) (v : Val) : Option (List (BitVec v.e.bits)) := match v.store with
  | .string o b => if m.object o then m.buf v.e b else none
  | .view b off len => m.read ⟨v.e, b, off, len⟩

/-- moving the buffer of a string into a new string object (the C++ library) -/
def Mem.moveBuffer (sso : Enc → Nat) (m : Mem) (e : Enc) (b : Nat) : Option (Nat × Mem) :=
  (m.buf e b).map fun u => if u.length ≤ sso e then (m.setBuf e b none).alloc e u else (b, m)

/-- src/string_param.cpp:154-176 `initialize` with a view -/
def initView (e : Enc) (b off len : Nat) : Param := if len = 0 then none else some ⟨e, .view b off len⟩

/-- src/string_param.cpp:203-211 `initialize` with a string whose buffer is `b`, which is moved unless it is empty -/
def initString (sso : Enc → Nat) (m : Mem) (e : Enc) (b : Nat) : Option (Param × Mem) :=
  (m.buf e b).bind fun u =>
    if u.isEmpty then some (none, m)
    else (m.moveBuffer sso e b).map fun (b', m) => (some ⟨e, .string m.make.1 b'⟩, m.make.2)

/-- src/string_param.cpp:277-286 `call_destructor` -/
def destructor (m : Mem) (v : Val) : Option Mem := match v.store with
  | .string o b => if m.object o && (m.buf v.e b).isSome then some ((m.setBuf v.e b none).setObject o false) else none
  | .view .. => some m

/-- src/string_param.cpp:450-451 and 465-469: what the storage has, if anything, is destroyed -/
def clear (m : Mem) (p : Param) : Option Mem := match p with
  | none => some m
  | some v => destructor m v

/-- the end of a string of the user, or of a local variable, whose buffer is `b`: a string moved from has none -/
def endString (m : Mem) (e : Enc) (b : Nat) (moved : Bool) : Mem := if moved then m else m.setBuf e b none

/-- src/string_param.cpp:312-431 the constructors from strings that are moved in: the string is the user's, and ends afterwards -/
def fromString (sso : Enc → Nat) (m : Mem) (e : Enc) (u : List (BitVec e.bits)) : Option (Param × Mem) :=
  let (b, m) := m.alloc e u
  (initString sso m e b).map fun (p, m) => (p, endString m e b p.isSome)

/-- src/string_param.cpp:471-479 `empty` -/
def empty (m : Mem) (p : Param) : Option Bool := match p with
  | none => some true
  | some v => (m.asView v).map fun w => w.len == 0

/-- src/string_param.cpp:493-517 `get_view`: the view, the parameter and the memory afterwards. The new string is made, then the old
    one destroyed, then the new one is moved into the storage; `*initialize(...)` dereferences null if it is empty. -/
def getView (sso : Enc → Nat) (m : Mem) (e : Enc) (p : Param) : Option (View × Param × Mem) := match p with
  | none => none
  | some v =>
    if v.e = e then (m.asView v).map fun w => (w, p, m)
    else (m.content v).bind fun u => (transcode v.e e u).bind fun new =>
      let (b, m) := m.alloc e new
      (destructor m v).bind fun m => (initString sso m e b).bind fun
        | (none, _) => none
        | (some n, m) => (m.asView n).map fun w => (w, some n, m)

/-- src/string_param.cpp:520-559 the conversions to views; an empty parameter gives an empty view of nothing -/
def view (sso : Enc → Nat) (m : Mem) (e : Enc) (p : Param) : Option (Option View × Param × Mem) :=
  (empty m p).bind fun b => if b then some (none, p, m) else (getView sso m e p).map fun (w, q, m) => (some w, q, m)

/-- src/string_param.cpp:563-591 `move_into_string`: the characters of the result, which is the user's: its buffer leaves the
    model -/
def moveIntoString (m : Mem) (e : Enc) (p : Param) : Option (List Nat × Param × Mem) := match p with
  | none => none
  | some v =>
    if v.e = e then match v.store with
      | .string _ _ => (m.content v).bind fun u => (destructor m v).map fun m => (u.map BitVec.toNat, none, m)
      | .view .. => (m.content v).map fun u => (u.map BitVec.toNat, p, m)
    else (m.content v).bind fun u => (transcode v.e e u).map fun new => (new.map BitVec.toNat, p, m)

/-- src/string_param.cpp:614-653 the conversions to strings -/
def toString (m : Mem) (e : Enc) (p : Param) : Option (List Nat × Param × Mem) :=
  (empty m p).bind fun b => if b then some ([], p, m) else moveIntoString m e p

/-- where `muu::trim` puts the view: start and length, include/muu/strings.h:205-222 (see `predicatedTrim`) -/
def trimmedAt {υ : Type} (decode : List υ → Bool → Callback → Option (List Report))
    (pred : BitVec 32 → Option Bool) (str : List υ) : Option (Nat × Nat) :=
  if str.isEmpty then some (0, 0)
  else
    (utfFind decode str false pred).bind fun
      | none => some (0, 0)
      | some first => (utfFind decode str true pred).bind fun last =>
        let stop := match last with
          | none => 2 ^ 64 - 1 + 0
          | some l => l.start + l.count
        let n := (stop + (2 ^ 64 - first.start)) % 2 ^ 64
        if first.start ≤ str.length then some (first.start, min n (str.length - first.start)) else none

/-- the same for each character type -/
def trimAt : (e : Enc) → List (BitVec e.bits) → Option (Nat × Nat)
  | .narrow, s => trimmedAt (utfDecode8 rawNarrow) isNotWhitespace32 s
  | .u8, s => trimmedAt (utfDecode8 rawU8) isNotWhitespace32 s
  | .u16, s => trimmedAt utfDecode16 isNotWhitespace32 s
  | .wide, s => trimmedAt utfDecode32 isNotWhitespace32 s
  | .u32, s => trimmedAt utfDecode32 isNotWhitespace32 s

/-- src/string_param.cpp:655-691 `trim`: a string is erased at both ends, in its buffer; a view is replaced -/
def trim (m : Mem) (p : Param) : Option (Param × Mem) := match p with
  | none => none
  | some v => (m.content v).bind fun u => (trimAt v.e u).bind fun (a, n) =>
    if n = 0 then (destructor m v).map fun m => (none, m)
    else match v.store with
      | .string _ b => some (p, m.setBuf v.e b (some ((u.drop a).take n)))
      | .view b off _ => some (some ⟨v.e, .view b (off + a) n⟩, m)

/-- `mode_` -/
def mode (p : Param) : Option (Enc × Bool) := p.map fun v => (v.e, match v.store with | .string .. => true | .view .. => false)

/-- src/string_param.cpp:432-458 `operator=(string_param&&)` for distinct objects: the left side and the memory afterwards. If the modes are
    the same, strings are move-assigned and the right one is destroyed (440-447); otherwise the left one is destroyed, and a new one is
    made of the right one (450-453), which is not destroyed. -/
def moveAssign (sso : Enc → Nat) (m : Mem) (lhs rhs : Param) : Option (Param × Mem) :=
  match rhs with
  | none => none
  | some r =>
    if mode lhs = mode rhs then match lhs, r.store with
      | some ⟨_, .string o b⟩, .string o' b' =>
        if m.object o && m.object o' && (m.buf r.e b).isSome then
          ((m.setBuf r.e b none).moveBuffer sso r.e b').map fun (b'', m) => (some ⟨r.e, .string o b''⟩, m.setObject o' false)
        else none
      | _, _ => some (rhs, m)
    else
      (clear m lhs).bind fun m => match r.store with
        | .string o b => if m.object o then initString sso m r.e b else none
        | .view b off len => some (initView r.e b off len, m)

structure State where
  mem : Mem
  /-- character type and buffer of each source -/
  sources : List (Enc × Nat)
  /-- the parameters; `none`: destroyed -/
  params : List (Option Param)

def State.init : State := ⟨.init, [], []⟩

/-- what the user gets -/
inductive Out
  | nothing
  | bool (b : Bool)
  | text (units : List Nat)
  /-- a view (`none`: of nothing), and what is read through it at once -/
  | view (w : Option View) (units : List Nat)

/-- reading through what the user got -/
def Mem.show (m : Mem) : Option View → Option (List Nat)
  | none => some []
  | some w => (m.read w).map (·.map BitVec.toNat)

/-- `parameter i is alive` -/
def State.param (s : State) (i : Nat) : Option Param := (s.params[i]?).bind id

def State.set (s : State) (i : Nat) (p : Param) (m : Mem) : State := { s with mem := m, params := s.params.set i (some p) }

/-- one operation -/
def State.step (sso : Enc → Nat) (s : State) : Op → Option (State × Out)
  | .source e t =>
    let (b, m) := s.mem.alloc e (encode e t)
    some ({ s with mem := m, sources := s.sources ++ [(e, b)] }, .nothing)
  | .free k => (s.sources[k]?).bind fun (e, b) =>
    (s.mem.buf e b).map fun _ => ({ s with mem := s.mem.setBuf e b none }, .nothing)
  | .default => some ({ s with params := s.params ++ [some none] }, .nothing)
  -- src/string_param.cpp:154-200, 305-424: the length is that of the view, or found by reading
  | .fromView k => (s.sources[k]?).bind fun (e, b) => (s.mem.buf e b).map fun u =>
    ({ s with params := s.params ++ [some (initView e b 0 u.length)] }, .nothing)
  | .fromString e t => (fromString sso s.mem e (encode e t)).map fun (p, m) =>
    ({ s with mem := m, params := s.params ++ [some p] }, .nothing)
  -- src/string_param.cpp:460-463
  | .moveConstruct j => (s.param j).bind fun r => (moveAssign sso s.mem none r).map fun (p, m) =>
    ({ s with mem := m, params := s.params.set j (some none) ++ [some p] }, .nothing)
  | .moveAssign i j => (s.param i).bind fun l => (s.param j).bind fun r =>
    if i = j then some (s, .nothing)
    else (moveAssign sso s.mem l r).map fun (p, m) =>
      ({ s with mem := m, params := (s.params.set i (some p)).set j (some none) }, .nothing)
  | .view i e => (s.param i).bind fun p => (view sso s.mem e p).bind fun (w, q, m) =>
    (m.show w).map fun u => (s.set i q m, .view w u)
  | .toString i e => (s.param i).bind fun p => (toString s.mem e p).map fun (u, q, m) => (s.set i q m, .text u)
  | .trim i => (s.param i).bind fun p => (trim s.mem p).map fun (q, m) => (s.set i q m, .nothing)
  | .isEmpty i => (s.param i).bind fun p => (empty s.mem p).map fun b => (s, .bool b)
  -- src/string_param.cpp:465-469
  | .destroy i => (s.param i).bind fun p =>
    (clear s.mem p).map fun m => ({ s with mem := m, params := s.params.set i none }, .nothing)

/-- a history -/
def State.run (sso : Enc → Nat) (s : State) : List Op → Option (State × List Out)
  | [] => some (s, [])
  | o :: os => (s.step sso o).bind fun (s', x) => (s'.run sso os).map fun (s'', xs) => (s'', x :: xs)

/-- src/string_param.cpp:487-490 `owning` -/
def owning (p : Param) : Bool := (mode p).any (·.2)

end Verif.Model.StringLifetime
