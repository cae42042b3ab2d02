import Verif.Spec.Text
import Verif.Spec.CommandLine
import Verif.Spec.Elf
/-
What can be wrong with a binary crash dump, and what should be said about it.
-/
namespace Verif.Spec
open Verif

/-- The word at an offset of the file. -/
def wordOf (t : Str) (off : Nat) : U32 := BitVec.ofNat 32 (numAt t off 4)

/-- How many bytes of the file are general purpose registers. -/
def registerBytes (t : Str) : Nat := if t[2]? = some 2 then 4 * 17 else 4 * 19

/-- What is wrong with the part before the memory blocks, if anything. -/
def headComplaint (t : Str) : Option Str :=
  if t.length < 4 then some (asc "The dump file was too short to contain the 4-byte signature.")
  else if t.take 4 ≠ [0x63, 0x43, 3, 0] ∧ t.take 4 ≠ [0x63, 0x43, 2, 0] then
    some (asc "The dump file didn't start with the expected 4-byte signature.")
  else if t.length < 8 then some (asc "The dump file was too short to contain the flags.")
  else if t.length < 8 + registerBytes t then some (asc "The dump file was too short to contain the integer registers.")
  else if t.length < 8 + registerBytes t + 4 then some (asc "The dump file was too short to contain the exception PSR.")
  else if hasFloat (wordOf t 4) = true ∧ t.length < 8 + registerBytes t + 4 + 4 * 33 then
    some (asc "The dump file was too short to contain the floating point registers.")
  else none

/-- What is wrong with the rest of the file, if anything, where a memory block should start or the file should end: the mark of
a stack overflow is there, or a block starts that is not complete. -/
def restComplaint (t : Str) : Option Exn :=
  if t = [] then none
  else if t = le32 0xACCE55ED then
    some ⟨.stackOverflow, asc "The dump file ended with an indication that CrashCatcher detected a stack overflow."⟩
  else if t.length < 8 then some ⟨.fileFormat, asc "The dump file contained a truncated memory region header."⟩
  else if t.length < 8 + (wordOf t 4 - wordOf t 0).toNat then
    some ⟨.fileFormat, asc "The dump file failed to load RAM memory region at 0x" ++ eightDigits (wordOf t 0) ++
      asc " - 0x" ++ eightDigits (wordOf t 4) ++ asc "."⟩
  else none

/-- What there is of the last block. -/
def lastPart (t : Str) : U32 × List U8 := (wordOf t 0, t.drop 8)

/-- The dump consists of these bytes, in binary or in hexadecimal. -/
def DumpBytes (text bytes : Str) : Prop :=
  ([0x63, 0x43] <+: text ∧ text = bytes) ∨ (asc "6343" <+: text ∧ HexText text bytes)

end Verif.Spec
