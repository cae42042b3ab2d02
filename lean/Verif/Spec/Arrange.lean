import Verif.Spec.Alias
import Verif.Spec.Crash
/-
What the files and the command line say about a crash, apart from how they arrange it.
-/
namespace Verif.Spec
open Verif CommandLine MemSim

/-- The command line `args` with the files of `p` gives a valid image with the blocks `blks`, the valid dump `df` (binary or
hexadecimal), and aliases that show the blocks `shows`. Nothing overlaps, everything fits into the address space, and there is
memory on the host. -/
structure Given (args : List Str) (p : Prog) (os : List Opt) (blks : List (U32 × List U8)) (df : DumpFile)
    (shows : List (U32 × List U8)) : Prop where
  spelled : Spelled args os
  image : ∃ n bytes, imageFile os = some n ∧ OnDisk p.host n bytes ∧ ImageBlocks os bytes blks
  dump : ∃ d text, lastDump os = some d ∧ OnDisk p.host d text ∧ DumpText text df
  wf : df.WF
  aliases : List.Forall₂ (AliasShows (blks ++ df.mem)) (aliases os) shows
  disjoint : Spec.Disjoint (blks ++ df.mem ++ shows)
  fits : ∀ r ∈ blks ++ df.mem ++ shows, Fits r
  memory : PlentyOfMemory p.host.mem

/-- The two dumps have the same registers; nothing is said about their memory. -/
def SameRegisters (d d' : DumpFile) : Prop := { d with mem := [] } = { d' with mem := [] }

end Verif.Spec
