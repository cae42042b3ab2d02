import Verif.Model.Base
/-
How messages write numbers.
-/
namespace Verif.Spec
open Verif

/-- An upper-case hexadecimal digit: 0 to 9, then A to F. -/
def digitUpper (d : Nat) : U8 := if d < 10 then BitVec.ofNat 8 (0x30 + d) else BitVec.ofNat 8 (0x41 + (d - 10))

/-- An address or a word as eight hexadecimal digits, the most significant first. -/
def eightDigits (x : U32) : Str := [7, 6, 5, 4, 3, 2, 1, 0].map fun i => digitUpper (x.toNat / 16 ^ i % 16)

/-- A word in decimal, as a signed number. -/
def signedDecimal (x : U32) : Str := asc (toString x.toInt)

end Verif.Spec
