import Verif.Model.Strings
import Verif.Model.Bits
import Verif.Model.Chars

/-!
# Model of include/muu/hashing.h and src/hashing.cpp

A little-endian platform is modelled (`build::is_little_endian` true); bytes are 8 bits.
-/
namespace Verif.Model

/-! ## hash_combiner -/

/-- include/muu/hashing.h:30-72 `hash_combiner_traits<w>` -/
structure HashCombinerTraits (w : Nat) where
  offset : BitVec w
  leftShift : Nat
  rightShift : Nat

/-- hashing.h:38-44 -/
def hashCombiner16 : HashCombinerTraits 16 := ⟨0x9E37#16, 3, 1⟩
/-- hashing.h:46-52 -/
def hashCombiner32 : HashCombinerTraits 32 := ⟨0x9E3779B9#32, 6, 2⟩
/-- hashing.h:54-60 -/
def hashCombiner64 : HashCombinerTraits 64 := ⟨0x9E3779B97F4A7C15#64, 12, 4⟩
/-- hashing.h:64-70; the `bit_pack` of the two halves is written out -/
def hashCombiner128 : HashCombinerTraits 128 := ⟨0x9E3779B97F4A7C15F39CC0605D396154#128, 24, 8⟩

/-- include/muu/hashing.h:92-97 `hash_combiner::operator()`. (The 16 bit one is computed in `int` and converted back; the
right shift is of a non-negative number below 2^16, so this is the same as arithmetic modulo 2^16.) -/
def hashCombine {w : Nat} (t : HashCombinerTraits w) (value newHash : BitVec w) : BitVec w :=
  value ^^^ (newHash + t.offset + (value <<< t.leftShift) + (value >>> t.rightShift))

/-- a `hash_combiner` constructed with a seed and called with a sequence of hashes -/
def hashCombineAll {w : Nat} (t : HashCombinerTraits w) (seed : BitVec w) (hs : List (BitVec w)) : BitVec w :=
  hs.foldl (hashCombine t) seed

/-! ## fnv1a -/

/-- include/muu/hashing.h:110-145 `fnv1a_traits<w>` -/
structure Fnv1aTraits (w : Nat) where
  prime : BitVec w
  offsetBasis : BitVec w

/-- hashing.h:118-123 -/
def fnv1a32 : Fnv1aTraits 32 := ⟨0x01000193#32, 0x811C9DC5#32⟩
/-- hashing.h:125-130 -/
def fnv1a64 : Fnv1aTraits 64 := ⟨0x00000100000001B3#64, 0xCBF29CE484222325#64⟩
/-- hashing.h:134-139; the `bit_pack`s are written out -/
def fnv1a128 : Fnv1aTraits 128 :=
  ⟨0x0000000001000000000000000000013B#128, 0x6C62272E07BB014262B821756295C58D#128⟩

/-- include/muu/hashing.h:198-204 `fnv1a::operator()(uint8_t)` -/
def fnv1aByte {w : Nat} (t : Fnv1aTraits w) (value : BitVec w) (byte : BitVec 8) : BitVec w :=
  (value ^^^ byte.setWidth w) * t.prime

/-- include/muu/hashing.h:213-220 (raw data) and 177-182 (one-byte strings): one byte at a time, front to back -/
def fnv1aBytes {w : Nat} (t : Fnv1aTraits w) (value : BitVec w) : List (BitVec 8) → BitVec w
  | [] => value
  | b :: bs => fnv1aBytes t (fnv1aByte t value b) bs

/-- include/muu/hashing.h:143-153 `add_to_hasher_as_utf8(hasher, char32_t)`: the bytes given to the hasher -/
def hasherUtf8 (cp : BitVec 32) : List (BitVec 8) := if cp = 0 then [0] else unitsView (encode8 cp)

/-- include/muu/hashing.h:155-159 and 183-186: a string of multi-byte code units, decoded by `decode` (= `utf_decode`),
fed code point by code point -/
def fnv1aString {w : Nat} {υ : Type} (t : Fnv1aTraits w) (decode : List υ → Bool → Callback → Option (List Spec.Report))
    (value : BitVec w) (str : List υ) : Option (BitVec w) :=
  (decode str false Spec.always).map fun rs => rs.foldl (fun v r => fnv1aBytes t v (hasherUtf8 r.cp)) value

/-- include/muu/hashing.h:266-273 `operator<<`: two hex digits per byte, `byte_select(value, i)` for `i` counting down.
`none` is the undefined behaviour of `byte_select`, which does not happen here. -/
def fnv1aText {n : Nat} (value : BitVec (8 * n)) : Option (List (BitVec 8)) :=
  ((List.range n).reverse.mapM fun i => byteSelect value i).map fun bs =>
    bs.flatMap fun b => [(byteToHex b).1, (byteToHex b).2]

/-! ## sha1 -/

namespace Sha1

/-- src/hashing.cpp:21-25 `rol` -/
def rol (value : BitVec 32) (bits : Nat) : BitVec 32 := (value <<< bits) ||| (value >>> (32 - bits))

/-- `raw_block`: 16 words -/
abbrev RawBlock := Nat → BitVec 32

/-- src/hashing.cpp:27-31 `blk` -/
def blk (bl : RawBlock) (i : Nat) : BitVec 32 :=
  rol (bl ((i + 13) &&& 15) ^^^ bl ((i + 8) &&& 15) ^^^ bl ((i + 2) &&& 15) ^^^ bl i) 1

/-- the five local variables of `process_block` -/
inductive Reg where | a | b | c | d | e
deriving DecidableEq
/-- the functions `R0` to `R4` -/
inductive Op where | R0 | R1 | R2 | R3 | R4
deriving DecidableEq

structure Locals where
  bl : RawBlock
  reg : Reg → BitVec 32

/-- one call `Rk(bl.value, v, w, x, y, z, i)` -/
structure Call where
  op : Op
  v : Reg
  w : Reg
  x : Reg
  y : Reg
  z : Reg
  i : Nat
deriving DecidableEq

/-- the value added to `z` by `R0` … `R4` (`blI` is `bl[i]`, after its update if there is one); src/hashing.cpp:41, 54, 67,
80, 93 -/
def Op.term (op : Op) (blI v w x y : BitVec 32) : BitVec 32 :=
  match op with
  | .R0 => ((w &&& (x ^^^ y)) ^^^ y) + blI + 0x5a827999#32 + rol v 5
  | .R1 => ((w &&& (x ^^^ y)) ^^^ y) + blI + 0x5a827999#32 + rol v 5
  | .R2 => (w ^^^ x ^^^ y) + blI + 0x6ed9eba1#32 + rol v 5
  | .R3 => (((w ||| x) &&& y) ||| (w &&& x)) + blI + 0x8f1bbcdc#32 + rol v 5
  | .R4 => (w ^^^ x ^^^ y) + blI + 0xca62c1d6#32 + rol v 5

/-- `bl[i] = blk(bl, i)`, which `R0` does not do; src/hashing.cpp:53, 66, 79, 92 -/
def Op.update (op : Op) (bl : RawBlock) (i : Nat) : RawBlock :=
  match op with
  | .R0 => bl
  | _ => fun j => if j = i then blk bl i else bl j

/-- src/hashing.cpp:33-96 the functions `R0` to `R4`: `w` and `z` are passed by reference; `z` is written first. -/
def Call.run (k : Call) (s : Locals) : Locals :=
  let bl := k.op.update s.bl k.i
  let zVal := s.reg k.z + k.op.term (bl k.i) (s.reg k.v) (s.reg k.w) (s.reg k.x) (s.reg k.y)
  let wVal := rol (s.reg k.w) 30
  { bl := bl, reg := fun r => if r = k.w then wVal else if r = k.z then zVal else s.reg r }

/-- src/hashing.cpp:114-193, the 80 calls, literally -/
def program : List Call := [
  ⟨.R0, .a, .b, .c, .d, .e, 0⟩, ⟨.R0, .e, .a, .b, .c, .d, 1⟩, ⟨.R0, .d, .e, .a, .b, .c, 2⟩, ⟨.R0, .c, .d, .e, .a, .b, 3⟩,
  ⟨.R0, .b, .c, .d, .e, .a, 4⟩, ⟨.R0, .a, .b, .c, .d, .e, 5⟩, ⟨.R0, .e, .a, .b, .c, .d, 6⟩, ⟨.R0, .d, .e, .a, .b, .c, 7⟩,
  ⟨.R0, .c, .d, .e, .a, .b, 8⟩, ⟨.R0, .b, .c, .d, .e, .a, 9⟩, ⟨.R0, .a, .b, .c, .d, .e, 10⟩, ⟨.R0, .e, .a, .b, .c, .d, 11⟩,
  ⟨.R0, .d, .e, .a, .b, .c, 12⟩, ⟨.R0, .c, .d, .e, .a, .b, 13⟩, ⟨.R0, .b, .c, .d, .e, .a, 14⟩, ⟨.R0, .a, .b, .c, .d, .e, 15⟩,
  ⟨.R1, .e, .a, .b, .c, .d, 0⟩, ⟨.R1, .d, .e, .a, .b, .c, 1⟩, ⟨.R1, .c, .d, .e, .a, .b, 2⟩, ⟨.R1, .b, .c, .d, .e, .a, 3⟩,
  ⟨.R2, .a, .b, .c, .d, .e, 4⟩, ⟨.R2, .e, .a, .b, .c, .d, 5⟩, ⟨.R2, .d, .e, .a, .b, .c, 6⟩, ⟨.R2, .c, .d, .e, .a, .b, 7⟩,
  ⟨.R2, .b, .c, .d, .e, .a, 8⟩, ⟨.R2, .a, .b, .c, .d, .e, 9⟩, ⟨.R2, .e, .a, .b, .c, .d, 10⟩, ⟨.R2, .d, .e, .a, .b, .c, 11⟩,
  ⟨.R2, .c, .d, .e, .a, .b, 12⟩, ⟨.R2, .b, .c, .d, .e, .a, 13⟩, ⟨.R2, .a, .b, .c, .d, .e, 14⟩, ⟨.R2, .e, .a, .b, .c, .d, 15⟩,
  ⟨.R2, .d, .e, .a, .b, .c, 0⟩, ⟨.R2, .c, .d, .e, .a, .b, 1⟩, ⟨.R2, .b, .c, .d, .e, .a, 2⟩, ⟨.R2, .a, .b, .c, .d, .e, 3⟩,
  ⟨.R2, .e, .a, .b, .c, .d, 4⟩, ⟨.R2, .d, .e, .a, .b, .c, 5⟩, ⟨.R2, .c, .d, .e, .a, .b, 6⟩, ⟨.R2, .b, .c, .d, .e, .a, 7⟩,
  ⟨.R3, .a, .b, .c, .d, .e, 8⟩, ⟨.R3, .e, .a, .b, .c, .d, 9⟩, ⟨.R3, .d, .e, .a, .b, .c, 10⟩, ⟨.R3, .c, .d, .e, .a, .b, 11⟩,
  ⟨.R3, .b, .c, .d, .e, .a, 12⟩, ⟨.R3, .a, .b, .c, .d, .e, 13⟩, ⟨.R3, .e, .a, .b, .c, .d, 14⟩, ⟨.R3, .d, .e, .a, .b, .c, 15⟩,
  ⟨.R3, .c, .d, .e, .a, .b, 0⟩, ⟨.R3, .b, .c, .d, .e, .a, 1⟩, ⟨.R3, .a, .b, .c, .d, .e, 2⟩, ⟨.R3, .e, .a, .b, .c, .d, 3⟩,
  ⟨.R3, .d, .e, .a, .b, .c, 4⟩, ⟨.R3, .c, .d, .e, .a, .b, 5⟩, ⟨.R3, .b, .c, .d, .e, .a, 6⟩, ⟨.R3, .a, .b, .c, .d, .e, 7⟩,
  ⟨.R3, .e, .a, .b, .c, .d, 8⟩, ⟨.R3, .d, .e, .a, .b, .c, 9⟩, ⟨.R3, .c, .d, .e, .a, .b, 10⟩, ⟨.R3, .b, .c, .d, .e, .a, 11⟩,
  ⟨.R4, .a, .b, .c, .d, .e, 12⟩, ⟨.R4, .e, .a, .b, .c, .d, 13⟩, ⟨.R4, .d, .e, .a, .b, .c, 14⟩, ⟨.R4, .c, .d, .e, .a, .b, 15⟩,
  ⟨.R4, .b, .c, .d, .e, .a, 0⟩, ⟨.R4, .a, .b, .c, .d, .e, 1⟩, ⟨.R4, .e, .a, .b, .c, .d, 2⟩, ⟨.R4, .d, .e, .a, .b, .c, 3⟩,
  ⟨.R4, .c, .d, .e, .a, .b, 4⟩, ⟨.R4, .b, .c, .d, .e, .a, 5⟩, ⟨.R4, .a, .b, .c, .d, .e, 6⟩, ⟨.R4, .e, .a, .b, .c, .d, 7⟩,
  ⟨.R4, .d, .e, .a, .b, .c, 8⟩, ⟨.R4, .c, .d, .e, .a, .b, 9⟩, ⟨.R4, .b, .c, .d, .e, .a, 10⟩, ⟨.R4, .a, .b, .c, .d, .e, 11⟩,
  ⟨.R4, .e, .a, .b, .c, .d, 12⟩, ⟨.R4, .d, .e, .a, .b, .c, 13⟩, ⟨.R4, .c, .d, .e, .a, .b, 14⟩, ⟨.R4, .b, .c, .d, .e, .a, 15⟩]

/-- `state.digest.value` -/
structure Digest where
  d0 : BitVec 32
  d1 : BitVec 32
  d2 : BitVec 32
  d3 : BitVec 32
  d4 : BitVec 32
deriving DecidableEq

/-- `current_block`: 64 bytes -/
abbrev ByteBlock := Nat → BitVec 8

/-- src/hashing.cpp:100-105: `bit_cast` to 16 words (little-endian) and `byte_reverse` of each -/
def loadWord (b : ByteBlock) (i : Nat) : BitVec 32 :=
  byteReverse32 (b (4 * i + 3) ++ b (4 * i + 2) ++ b (4 * i + 1) ++ b (4 * i))

/-- src/hashing.cpp:107-112 -/
def copyDigest (h : Digest) : Reg → BitVec 32
  | .a => h.d0
  | .b => h.d1
  | .c => h.d2
  | .d => h.d3
  | .e => h.d4

/-- src/hashing.cpp:98-204 `process_block` -/
def processBlock (block : ByteBlock) (h : Digest) : Digest :=
  let s := program.foldl (fun s c => c.run s)
    { bl := loadWord block, reg := copyDigest h }
  ⟨h.d0 + s.reg .a, h.d1 + s.reg .b, h.d2 + s.reg .c, h.d3 + s.reg .d, h.d4 + s.reg .e⟩

/-- include/muu/hashing.h:298-313 the data members of `sha1`. The union `state` is the digest words; its other member,
the 20 bytes of `state.hash`, is the memory of those words. -/
structure State where
  digest : Digest
  processedBlocks : BitVec 32
  currentLength : Nat
  current : ByteBlock
  finished : Bool

/-- src/hashing.cpp:208-210 the constructor; `current_block` is left uninitialised, so its contents are arbitrary. -/
def init (garbage : ByteBlock) : State :=
  { digest := ⟨0x67452301#32, 0xEFCDAB89#32, 0x98BADCFE#32, 0x10325476#32, 0xC3D2E1F0#32⟩
    processedBlocks := 0, currentLength := 0, current := garbage, finished := false }

/-- src/hashing.cpp:218-223 and 238-243: what happens when the block is full -/
def flush (s : State) : State :=
  if s.currentLength = 64 then
    { s with currentLength := 0, digest := processBlock s.current s.digest, processedBlocks := s.processedBlocks + 1 }
  else s

/-- src/hashing.cpp:212-224 `add(uint8_t)`. A write behind the end of the block is `none`. -/
def addByte (s : State) (byte : BitVec 8) : Option State :=
  if s.currentLength < 64 then
    some (flush { s with current := fun j => if j = s.currentLength then byte else s.current j
                         currentLength := s.currentLength + 1 })
  else none

/-- src/hashing.cpp:226-244 `add(const uint8_t*, size_t)`: `memcpy` of the bytes (for a null pointer `memset` with 0:
the argument is then a list of zeros). A write behind the end of the block is `none`. -/
def addBytes (s : State) (bytes : List (BitVec 8)) : Option State :=
  if s.currentLength + bytes.length ≤ 64 then
    some (flush { s with current := fun j =>
                           if s.currentLength ≤ j ∧ j < s.currentLength + bytes.length
                           then bytes.getD (j - s.currentLength) 0 else s.current j
                         currentLength := s.currentLength + bytes.length })
  else none

/-- src/hashing.cpp:246-251 `operator()(uint8_t)` -/
def feedByte (s : State) (byte : BitVec 8) : Option State := if s.finished then some s else addByte s byte

/-- src/hashing.cpp:265-270 the `while` loop; `fuel` bounds the number of iterations (`none` if it does not end) -/
def feedLoop : (fuel : Nat) → State → List (BitVec 8) → Option State
  | 0, _, _ => none
  | fuel + 1, s, data =>
    if data.isEmpty then some s
    else
      let delta := min 64 data.length
      (addBytes s (data.take delta)).bind fun s => feedLoop fuel s (data.drop delta)

/-- src/hashing.cpp:253-273 `operator()(const void*, size_t)` (a null pointer is an empty list) -/
def feed (s : State) (data : List (BitVec 8)) : Option State :=
  if !s.finished && !data.isEmpty then
    if s.currentLength ≠ 0 then
      let delta := min (64 - s.currentLength) data.length
      (addBytes s (data.take delta)).bind fun s => feedLoop (data.length + 1) s (data.drop delta)
    else feedLoop (data.length + 1) s data
  else some s

/-- include/muu/hashing.h:324-333 with 155-159: strings of multi-byte code units -/
def feedString {υ : Type} (decode : List υ → Bool → Callback → Option (List Spec.Report)) (s : State) (str : List υ) :
    Option State :=
  (decode str false Spec.always).bind fun rs =>
    rs.foldlM (fun s r => if r.cp = 0 then feedByte s 0 else feed s (unitsView (encode8 r.cp))) s

/-- src/hashing.cpp:280-282 the length in bits, byte-reversed; the arithmetic is in `uint64_t` -/
def hashedBits (s : State) : BitVec 64 :=
  byteReverse64 ((s.processedBlocks.setWidth 64 * 64#64 + BitVec.ofNat 64 s.currentLength) * 8#64)

/-- the bytes of an integer in (little-endian) memory -/
def memBytes {w : Nat} (n : Nat) (x : BitVec w) : List (BitVec 8) := (List.range n).map fun i => (x >>> (8 * i)).setWidth 8

/-- src/hashing.cpp:275-314 `finish` -/
def finish (s : State) : Option State :=
  if s.finished then some s
  else
    let bits := hashedBits s
    (addByte s 0x80#8).bind fun s =>
    (if s.currentLength > 56 then addBytes s (List.replicate (64 - s.currentLength) 0) else some s).bind fun s =>
    (if s.currentLength < 56 then addBytes s (List.replicate (56 - s.currentLength) 0) else some s).bind fun s =>
    (addBytes s (memBytes 8 bits)).map fun s =>
      { s with finished := true
               digest := ⟨byteReverse32 s.digest.d0, byteReverse32 s.digest.d1, byteReverse32 s.digest.d2,
                          byteReverse32 s.digest.d3, byteReverse32 s.digest.d4⟩ }

/-- include/muu/hashing.h:400-404 `value()`: the 20 bytes of memory of the digest -/
def value (s : State) : List (BitVec 8) :=
  memBytes 4 s.digest.d0 ++ memBytes 4 s.digest.d1 ++ memBytes 4 s.digest.d2 ++ memBytes 4 s.digest.d3 ++
    memBytes 4 s.digest.d4

/-- A call of the public interface before `finish`. -/
inductive Input where
  | byte (b : BitVec 8)
  | data (d : List (BitVec 8))

def Input.bytes : Input → List (BitVec 8)
  | .byte b => [b]
  | .data d => d

def apply (s : State) : Input → Option State
  | .byte b => feedByte s b
  | .data d => feed s d

/-- a sequence of calls -/
def applyAll (s : State) : List Input → Option State
  | [] => some s
  | i :: is => (apply s i).bind fun s => applyAll s is

end Sha1
end Verif.Model
