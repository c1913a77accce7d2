/-!
# SHA-1 as in FIPS 180-4 (sections 4.1.1, 4.2.1, 5.1.1, 5.2.1, 5.3.1, 6.1.2), for messages that are whole bytes
-/
namespace Verif.Spec.Sha1

abbrev Word := BitVec 32
abbrev Byte := BitVec 8

/-- 4.1.1 -/
def ch (x y z : Word) : Word := (x &&& y) ^^^ (~~~x &&& z)
def parity (x y z : Word) : Word := x ^^^ y ^^^ z
def maj (x y z : Word) : Word := (x &&& y) ^^^ (x &&& z) ^^^ (y &&& z)
def f (t : Nat) : Word → Word → Word → Word :=
  if t < 20 then ch else if t < 40 then parity else if t < 60 then maj else parity

/-- 4.2.1 -/
def k (t : Nat) : Word :=
  if t < 20 then 0x5a827999#32 else if t < 40 then 0x6ed9eba1#32 else if t < 60 then 0x8f1bbcdc#32 else 0xca62c1d6#32

/-- 5.1.1: after the message and the bit 1, the least number of zero bits such that the length is 448 modulo 512, then
the length in bits as a 64 bit big-endian number. The message being whole bytes: a byte 0x80 and zero bytes up to 56
modulo 64. -/
def zeroBytes (len : Nat) : Nat := (119 - len % 64) % 64
def bigEndian64 (n : Nat) : List Byte :=
  (List.range 8).map fun i => BitVec.ofNat 8 (n / 256 ^ (7 - i))
def pad (msg : List Byte) : List Byte :=
  msg ++ 0x80#8 :: List.replicate (zeroBytes msg.length) 0 ++ bigEndian64 (8 * msg.length)

/-- 5.2.1: the bytes of a block as 16 big-endian words -/
def wordOf (b : List Byte) (i : Nat) : Word :=
  b.getD (4 * i) 0 ++ b.getD (4 * i + 1) 0 ++ b.getD (4 * i + 2) 0 ++ b.getD (4 * i + 3) 0
def words (block : List Byte) : List Word := (List.range 16).map (wordOf block)

/-- 5.3.1 -/
structure Digest where
  a : Word
  b : Word
  c : Word
  d : Word
  e : Word
deriving DecidableEq
def initial : Digest := ⟨0x67452301#32, 0xefcdab89#32, 0x98badcfe#32, 0x10325476#32, 0xc3d2e1f0#32⟩

/-- 6.1.2 step 1: `W 0 … W 79`; `W (t + 16)` is appended at step `t` -/
def schedule (m : List Word) : Nat → List Word
  | 0 => m
  | t + 1 =>
    let w := schedule m t
    w ++ [(w.getD (t + 13) 0 ^^^ w.getD (t + 8) 0 ^^^ w.getD (t + 2) 0 ^^^ w.getD t 0).rotateLeft 1]

/-- 6.1.2 step 3 -/
def round (w : Word) (t : Nat) (s : Digest) : Digest :=
  ⟨s.a.rotateLeft 5 + f t s.b s.c s.d + s.e + k t + w, s.a, s.b.rotateLeft 30, s.c, s.d⟩

def rounds (w : List Word) : Nat → Digest → Digest
  | 0, s => s
  | t + 1, s => round (w.getD t 0) t (rounds w t s)

/-- 6.1.2 steps 2 to 4: one block -/
def compress (h : Digest) (block : List Byte) : Digest :=
  let s := rounds (schedule (words block) 64) 80 h
  ⟨s.a + h.a, s.b + h.b, s.c + h.c, s.d + h.d, s.e + h.e⟩

/-- all blocks, in order; `n` is their number -/
def compressAll : (n : Nat) → List Byte → Digest → Digest
  | 0, _, h => h
  | n + 1, bytes, h => compressAll n (bytes.drop 64) (compress h (bytes.take 64))

def bigEndian32 (w : Word) : List Byte := (List.range 4).map fun i => (w >>> (8 * (3 - i))).setWidth 8

def digestBytes (h : Digest) : List Byte :=
  bigEndian32 h.a ++ bigEndian32 h.b ++ bigEndian32 h.c ++ bigEndian32 h.d ++ bigEndian32 h.e

/-- SHA-1 -/
def sha1 (msg : List Byte) : List Byte :=
  let p := pad msg
  digestBytes (compressAll (p.length / 64) p initial)

-- FIPS 180-4 example: "abc" → a9993e36 4706816a ba3e2571 7850c26c 9cd0d89d
example : sha1 [0x61#8, 0x62#8, 0x63#8] =
    [0xa9#8, 0x99#8, 0x3e#8, 0x36#8, 0x47#8, 0x06#8, 0x81#8, 0x6a#8, 0xba#8, 0x3e#8, 0x25#8, 0x71#8,
     0x78#8, 0x50#8, 0xc2#8, 0x6c#8, 0x9c#8, 0xd0#8, 0xd8#8, 0x9d#8] := by decide +kernel

end Verif.Spec.Sha1
