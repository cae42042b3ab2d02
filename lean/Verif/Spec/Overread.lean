import Verif.Spec.Elf
/-
Which ELF files make a loader that computes offset + size in 32 bits read outside the file.
-/
namespace Verif.Spec
open Verif

/-- The segments to be loaded fit into the address space, and no two of them share an address. -/
def SegmentsApart (b : Str) : Prop :=
  (∀ h ∈ progHeaders b, h.loadable = true → h.paddr + h.filesz ≤ 2 ^ 32) ∧
  ((progHeaders b).filter ProgHeader.loadable).Pairwise fun g h => g.paddr + g.filesz ≤ h.paddr ∨ h.paddr + h.filesz ≤ g.paddr

instance : Decidable (SegmentsApart b) := inferInstanceAs (Decidable ((∀ h ∈ _, _ → _) ∧ List.Pairwise _ _))

/-- Nothing is wrong with the file's header, and in the order of the program headers, the first thing that does not lie within
the file is the contents of one that wraps around. -/
def WrapsFirst (b : Str) : Prop :=
  headerComplaint b = none ∧ ∃ i h, (progHeaders b)[i]? = some h ∧ GoodUpTo b i ∧ entryAt b i + 32 ≤ b.length ∧
    h.loadable = true ∧ h.wraps b = true

end Verif.Spec
