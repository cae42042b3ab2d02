import Verif.Spec.Arrange
import Verif.Spec.Diagnosis
/-
A crash, whatever the format of the files that tell of it.
-/
namespace Verif.Spec
open Verif CommandLine MemSim

/-- The text of a dump of whatever format tells of a crash with these registers and these blocks of memory: a dump, binary or
hexadecimal, or a log. -/
inductive TellsOf (text : Str) : Regs → List (U32 × List U8) → Prop
  | dump {df : DumpFile} (hd : DumpText text df) (hw : df.WF) : TellsOf text (loadedRegs df {}) df.mem
  | log {ms : List Meaning} (hr : LogReads text ms) (hl : ∀ r ∈ runs (memoryIn ms), 4 * r.2.length < 2 ^ 32) :
      TellsOf text (regsIn ms) (blocks (runs (memoryIn ms)))

/-- The command line `args` with the files of `p` gives a valid image with the blocks `blks`, a dump of whatever format with the
registers `regs` and the blocks `mem`, and aliases that show the blocks `shows`. Nothing overlaps, everything fits into the
address space, and there is memory on the host. -/
structure CrashGiven (args : List Str) (p : Prog) (os : List Opt) (blks : List (U32 × List U8)) (regs : Regs)
    (mem shows : List (U32 × List U8)) : Prop where
  spelled : Spelled args os
  image : ∃ n bytes, imageFile os = some n ∧ OnDisk p.host n bytes ∧ ImageBlocks os bytes blks
  dump : ∃ d text, lastDump os = some d ∧ OnDisk p.host d text ∧ TellsOf text regs mem
  aliases : List.Forall₂ (AliasShows (blks ++ mem)) (aliases os) shows
  disjoint : Spec.Disjoint (blks ++ mem ++ shows)
  fits : ∀ r ∈ blks ++ mem ++ shows, Fits r
  memory : PlentyOfMemory p.host.mem

/-- The `n` bytes at the address `a` are all in the block. -/
def Within (b : U32 × List U8) (a : U32) (n : Nat) : Prop := b.1.toNat ≤ a.toNat ∧ a.toNat + n ≤ b.1.toNat + b.2.length

/-- The debug monitor can read `w` at the address `a`. -/
def CanRead (p : Platform.Plat) (w : Width) (a : U32) : Prop := ∃ v p', Platform.memRead w a p = .ok v p' ∧ p'.faults = p.faults

/-- The debug monitor can write `w` at the address `a`. -/
def CanWrite (p : Platform.Plat) (w : Width) (a : U32) : Prop := ∀ v, ∃ p', Platform.memWrite w a v p = .ok () p' ∧ p'.faults = p.faults

end Verif.Spec
