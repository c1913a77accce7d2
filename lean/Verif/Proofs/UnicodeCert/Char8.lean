import Verif.Proofs.CodePointProg
import Verif.Model.UnicodeChar8

/-! Certificates: the intervals (given by their last elements) on which each predicate is constant. -/
namespace Verif.Proofs.CodePoint.Char8
open Verif.Model.CodePoint Verif.Model.CodePoint.Char8 Verif.Spec

def isAsciiCodePointEnds : List Nat := [
  0x7F, 0xFF]

def isAsciiHyphenEnds : List Nat := [
  0x2C, 0x2D, 0xFF]

def isAsciiLetterEnds : List Nat := [
  0x40, 0x5A, 0x60, 0x7A, 0xFF]

def isAsciiLowercaseEnds : List Nat := [
  0x60, 0x7A, 0xFF]

def isAsciiNumberEnds : List Nat := [
  0x2F, 0x39, 0xFF]

def isAsciiUppercaseEnds : List Nat := [
  0x40, 0x5A, 0xFF]

def isAsciiWhitespaceEnds : List Nat := [
  0x8, 0xD, 0x1F, 0x20, 0xFF]

def isNonAsciiCodePointEnds : List Nat := [
  0xFF]

def isNonAsciiHyphenEnds : List Nat := [
  0xFF]

def isNonAsciiLetterEnds : List Nat := [
  0xFF]

def isNonAsciiLowercaseEnds : List Nat := [
  0xFF]

def isNonAsciiNumberEnds : List Nat := [
  0xFF]

def isNonAsciiUppercaseEnds : List Nat := [
  0xFF]

def isNonAsciiWhitespaceEnds : List Nat := [
  0xFF]

def isCodePointEnds : List Nat := [
  0x7F, 0xFF]

def isCombiningMarkEnds : List Nat := [
  0xFF]

def isDecimalDigitEnds : List Nat := [
  0x2F, 0x39, 0xFF]

def isHexadecimalDigitEnds : List Nat := [
  0x2F, 0x39, 0x40, 0x46, 0x60, 0x66, 0xFF]

def isOctalDigitEnds : List Nat := [
  0x2F, 0x37, 0xFF]

end Verif.Proofs.CodePoint.Char8
