/-!
# The text and number forms of a uuid, independent of the code

RFC 4122: a uuid is 16 octets. Text is a list of code points.
-/
namespace Verif.Spec.Uuid

/-- ASCII hexadecimal digits, either case -/
def IsHex (c : Nat) : Prop := (0x30 ≤ c ∧ c ≤ 0x39) ∨ (0x41 ≤ c ∧ c ≤ 0x46) ∨ (0x61 ≤ c ∧ c ≤ 0x66)

def hexVal (c : Nat) : Nat := if c ≤ 0x39 then c - 0x30 else if c ≤ 0x46 then c - 0x41 + 10 else c - 0x61 + 10

/-- ASCII white space: tab, line feed, vertical tab, form feed, carriage return, space -/
def IsSpace (c : Nat) : Prop := (9 ≤ c ∧ c ≤ 13) ∨ c = 32

/-- what may stand between two octets: white space and hyphens -/
def IsSep (c : Nat) : Prop := IsSpace c ∨ c = 0x2D

instance (c : Nat) : Decidable (IsHex c) := by unfold IsHex; infer_instance
instance (c : Nat) : Decidable (IsSpace c) := by unfold IsSpace; infer_instance
instance (c : Nat) : Decidable (IsSep c) := by unfold IsSep; infer_instance

/-- one or more octets, each two hex digits without anything between them, with separators between the octets only -/
inductive Octets : List Nat → List Nat → Prop
  | last {h l : Nat} : IsHex h → IsHex l → Octets [h, l] [16 * hexVal h + hexVal l]
  | more {h l : Nat} {sep rest bytes : List Nat} : IsHex h → IsHex l → (∀ c ∈ sep, IsSep c) → Octets rest bytes →
      Octets (h :: l :: (sep ++ rest)) ((16 * hexVal h + hexVal l) :: bytes)

/-- the text of a uuid: 16 octets, white space around them, and optionally one pair of braces around the octets (with
white space allowed inside and outside) -/
def IsText (text bytes : List Nat) : Prop :=
  bytes.length = 16 ∧ ∃ body, Octets body bytes ∧
    ((∃ w1 w2, (∀ c ∈ w1 ++ w2, IsSpace c) ∧ text = w1 ++ body ++ w2) ∨
     (∃ w1 w2 w3 w4, (∀ c ∈ w1 ++ w2 ++ w3 ++ w4, IsSpace c) ∧
        text = w1 ++ [0x7B] ++ w2 ++ body ++ w3 ++ [0x7D] ++ w4))

/-- the two upper-case hex digits of an octet -/
def upperDigit (n : Nat) : Nat := if n < 10 then 0x30 + n else 0x41 + (n - 10)
def upperOctet (b : Nat) : List Nat := [upperDigit (b / 16), upperDigit (b % 16)]
/-- … and in lower case -/
def lowerDigit (n : Nat) : Nat := if n < 10 then 0x30 + n else 0x61 + (n - 10)
def lowerOctet (b : Nat) : List Nat := [lowerDigit (b / 16), lowerDigit (b % 16)]

/-- RFC 4122 section 3: 8-4-4-4-12 digits separated by hyphens; `o` writes one octet -/
def canonical (o : Nat → List Nat) (bytes : List Nat) : List Nat :=
  (bytes.take 4).flatMap o ++ [0x2D] ++ ((bytes.drop 4).take 2).flatMap o ++ [0x2D] ++
  ((bytes.drop 6).take 2).flatMap o ++ [0x2D] ++ ((bytes.drop 8).take 2).flatMap o ++ [0x2D] ++
  (bytes.drop 10).flatMap o

/-- octets as one big-endian number ("network byte order") -/
def bigEndian : List Nat → Nat
  | [] => 0
  | b :: bs => b * 256 ^ bs.length + bigEndian bs

-- RFC 4122 appendix C, the name space ID for DNS
example : canonical upperOctet [0x6B, 0xA7, 0xB8, 0x10, 0x9D, 0xAD, 0x11, 0xD1, 0x80, 0xB4, 0x00, 0xC0, 0x4F, 0xD4, 0x30, 0xC8] =
    "6BA7B810-9DAD-11D1-80B4-00C04FD430C8".toList.map Char.toNat := by decide

end Verif.Spec.Uuid
