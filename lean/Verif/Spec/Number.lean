import Verif.Spec.CommandLine
/-
How numbers are written on the command line: in decimal, in octal after a 0, in hexadecimal after 0x. Nothing here
mentions the functions that read them.
-/
namespace Verif.Spec
open Verif

/-- Digits in a base up to 16, at least one. -/
def DigitsOf (base : Nat) (ds : Str) : Prop := ds ≠ [] ∧ ∀ c ∈ ds, ∃ d, hexDigit c = some d ∧ d < base

/-- The number that digits denote, the most significant first. -/
def digitsNat (base : Nat) (ds : Str) : Nat := ds.foldl (fun n c => base * n + (hexDigit c).getD 0) 0

/-- `Numeral t n`: the text `t` is the number `n`. -/
inductive Numeral : Str → Nat → Prop
  | decimal {ds : Str} (h : DigitsOf 10 ds) (h0 : ds.head? ≠ some 0x30) : Numeral ds (digitsNat 10 ds)
  | octal {ds : Str} (h : DigitsOf 8 (0x30 :: ds)) : Numeral (0x30 :: ds) (digitsNat 8 ds)
  | hex {x : U8} {ds : Str} (hx : x = 0x78 ∨ x = 0x58) (h : DigitsOf 16 ds) : Numeral (0x30 :: x :: ds) (digitsNat 16 ds)

/-- The same text, or two ways to write the same number. -/
def SameNumber (t t' : Str) : Prop := t = t' ∨ ∃ n, Numeral t n ∧ Numeral t' n

/-- The same option, up to how its numbers are written. -/
inductive SameOpt : Opt → Opt → Prop
  | elf (f : Str) : SameOpt (.elf f) (.elf f)
  | dump (f : Str) : SameOpt (.dump f) (.dump f)
  | bin (f : Str) {b b' : Str} (h : SameNumber b b') : SameOpt (.bin f b) (.bin f b')
  | alias {b b' s s' r r' : Str} (hb : SameNumber b b') (hs : SameNumber s s') (hr : SameNumber r r') :
      SameOpt (.alias b s r) (.alias b' s' r')

/-- White space of the C locale. -/
def Blank (c : U8) : Prop := c ∈ [0x20, 0x09, 0x0A, 0x0B, 0x0C, 0x0D]

/-- Any word, taken for a number: white space, a sign, and the longest text after it that is a number `n`. -/
structure Begins (t : Str) (minus : Bool) (n : Nat) (rest : Str) : Prop where
  parts : ∃ sp sg num, t = sp ++ (sg ++ (num ++ rest)) ∧ (∀ c ∈ sp, Blank c) ∧ Numeral num n ∧
    (if minus then sg = [0x2D] else sg = [] ∨ sg = [0x2B]) ∧ ∀ r k, r ≠ [] → r <+: rest → ¬ Numeral (num ++ r) k

/-- The 32-bit number that a word means: the number that it begins with, negative after a minus sign, whatever follows; all ones
if this number has more than 64 bits; zero if it begins with no number. -/
inductive Means : Str → U32 → Prop
  | plus {t rest : Str} {n : Nat} (h : Begins t false n rest) (hn : n < 2 ^ 64) : Means t (BitVec.ofNat 32 n)
  | minus {t rest : Str} {n : Nat} (h : Begins t true n rest) (hn : n < 2 ^ 64) : Means t (-BitVec.ofNat 32 n)
  | large {t rest : Str} {n : Nat} {m : Bool} (h : Begins t m n rest) (hn : 2 ^ 64 ≤ n) : Means t 0xFFFFFFFF
  | nothing {t : Str} (h : ∀ m n rest, ¬ Begins t m n rest) : Means t 0

end Verif.Spec
