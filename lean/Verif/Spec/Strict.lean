import Verif.Model.Strict
import Verif.Spec.AnyCrash
import Verif.Spec.AnyLog
/-
What has to be a multiple of what, so that a host that is strict about alignment can run the program.
-/
namespace Verif.Spec
open Verif MemSim CommandLine Platform

/-- Starting on a host that is strict about alignment. -/
def startUpStrict (args : List Str) : M Prog Unit := CommandLine.initS args.length args

/-- The program headers of an ELF file, and the contents to load, are at multiples of 4 in the file. Of a raw image nothing is needed. -/
def ImageAligned (os : List Opt) (bytes : Str) : Prop :=
  match lastElf os with
  | some _ => (∀ i < phnum bytes, 4 ∣ entryAt bytes i) ∧ ∀ h ∈ progHeaders bytes, h.loadable = true → 4 ∣ h.offset
  | none => True

/-- The image is to be loaded to these addresses, as pairs of an address and a size. -/
def imagePlaces (os : List Opt) (bytes : Str) : List (U32 × Nat) :=
  match lastElf os, lastBin os with
  | some _, _ => ((progHeaders bytes).filter ProgHeader.loadable).map fun h => (BitVec.ofNat 32 h.paddr, h.filesz)
  | none, some (_, base) => [(Libc.strtoul32 base, bytes.length)]
  | none, none => []

/-- The file is a log and not a crash dump. -/
def IsLog (text : Str) : Prop := ¬ [0x63, 0x43] <+: text ∧ ¬ asc "6343" <+: text

/-- A word begins at the address `x`: a word of the image, counted from where a piece of it begins, or a word of a line of the log. Memory in
crash dumps does not count. -/
def WordAt (os : List Opt) (bytes text : Str) (x : U32) : Prop :=
  (∃ b ∈ imagePlaces os bytes, ∃ j, 4 * j + 4 ≤ b.2 ∧ x = b.1 + BitVec.ofNat 32 (4 * j)) ∨
  IsLog text ∧ ∃ ms, LogTakenFor text ms ∧ ∃ l ∈ memoryIn ms, ∃ j < l.2.length, x = l.1 + BitVec.ofNat 32 (4 * j)

/-- No two words overlap in part. -/
def NoPartialOverlap (word : U32 → Prop) : Prop := ∀ x y, word x → word y → x.toNat < y.toNat → x.toNat + 4 ≤ y.toNat

/-- A call by the debug monitor on such a host. -/
def PCall.runStrict : PCall → M Plat Unit
  | .memRead w a => do let _ ← memReadS w a
  | .memWrite w a v => memWriteS w a v
  | .displayFault => displayFaultCauseS
  | c => c.run

/-- It reads and writes at multiples of the size. -/
def PCall.Aligned : PCall → Prop
  | .memRead w a => w.bytes ∣ a.toNat
  | .memWrite w a _ => w.bytes ∣ a.toNat
  | _ => True

/-- The `n` bytes at the address `a` are in memory, all in one piece, but not at a multiple of `n` from where the piece begins. -/
def Crash.misaligned (c : Crash) (a : U32) (n : Nat) : Bool :=
  c.pieces.any fun p => p.holds (c.place a n) n && decide (((c.place a n).toNat - p.address.toNat) % n ≠ 0)

end Verif.Spec
