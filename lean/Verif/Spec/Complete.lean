import Verif.Spec.CommandLine
/-
Files that are complete.
-/
namespace Verif.Spec
open Verif

/-- The image is a complete ELF file with something to load, or a raw image that is not empty and ends within the address space.
(Not said of files of about 4 GiB.) -/
def CompleteImage (os : List Opt) (bytes : Str) : Prop :=
  bytes.length + 32 < 2 ^ 32 → ∃ blocks, ImageBlocks os bytes blocks ∧ (lastElf os = none → ∀ r ∈ blocks, Fits r)

/-- The text is that of the bytes, two hexadecimal digits each; there may be a lone character, with line ends only behind it, at
the end. -/
def HexUpToLone (text bytes : Str) : Prop :=
  HexText text bytes ∨ ∃ t c nl, text = t ++ c :: nl ∧ HexText t bytes ∧ isNewline c ≠ true ∧ ∀ x ∈ nl, isNewline x = true

/-- The dump begins like a crash dump, and then it is a complete one, binary or hexadecimal, with the registers `regs`; or it
begins like neither, and then it is read as a log. -/
def CompleteDump (text : Str) (regs : Regs) : Prop :=
  ([0x63, 0x43] <+: text ∧ ∃ d : DumpFile, d.WF ∧ text = encode d ∧ regs = loadedRegs d {}) ∨
  (asc "6343" <+: text ∧ ∃ d : DumpFile, d.WF ∧ HexUpToLone text (encode d) ∧ regs = loadedRegs d {}) ∨
  (¬ [0x63, 0x43] <+: text ∧ ¬ asc "6343" <+: text)

end Verif.Spec
