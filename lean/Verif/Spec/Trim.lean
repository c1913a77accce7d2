import Verif.Spec.Ucd

/-! # What trimming should do to a sequence of code points -/
namespace Verif.Spec

/-- the Unicode property White_Space -/
def isWs (c : Nat) : Bool := decide (InRanges Ucd.whiteSpace c)

def trimmedLeft (cs : List Nat) : List Nat := cs.dropWhile isWs
def trimmedRight (cs : List Nat) : List Nat := (cs.reverse.dropWhile isWs).reverse
def trimmed (cs : List Nat) : List Nat := trimmedRight (trimmedLeft cs)

end Verif.Spec
