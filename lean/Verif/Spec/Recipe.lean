import Verif.Spec.GdbLog
/-
The recipe in README.creole ("Manual Crash Dump"): GDB, attached to the crashed device, is asked to log

  set var $ptr=LOW
  while $ptr < HIGH
  x/4wx $ptr
  set var $ptr+=16
  end

for every range of RAM, and then `info all-registers`. This file says what GDB writes then.
-/
namespace Verif.Spec
open Verif

/-- A hexadecimal digit as GDB writes it. -/
def digitLower (n : Nat) : U8 := BitVec.ofNat 8 (if n < 10 then 48 + n else 87 + n)

/-- A word as `x/wx` writes it, after the `0x`. -/
def eightHex (v : U32) : Str := [7, 6, 5, 4, 3, 2, 1, 0].map fun k => digitLower (v.toNat / 16 ^ k % 16)

/-- An address as GDB writes it, after the `0x`: without leading zeros. -/
def shortHex (v : U32) : Str :=
  match (eightHex v).dropWhile (· = 0x30) with
  | [] => [0x30]
  | ds => ds

/-- After an address GDB writes nothing, or the symbol there: ` <name+4>`. -/
def Label (t : Str) : Prop := t = [] ∨
  ∃ s, Balanced s ∧ (∀ c ∈ s, c ≠ 0x0A ∧ c ≠ 0) ∧ s.length ≤ 900 ∧ t = [0x20, 0x3C] ++ s ++ [0x3E]

/-- What `x/4wx` writes for an address; `word` is the memory of the device, `label` the symbols. -/
def recipeLine (word : U32 → U32) (label : U32 → Str) (a : U32) : Str :=
  asc "0x" ++ shortHex a ++ label a ++ [0x3A] ++
    ([0, 4, 8, 12].flatMap fun j => [0x09] ++ (asc "0x" ++ eightHex (word (a + BitVec.ofNat 32 j)))) ++ [0x0A]

/-- How often the loop runs for a range of RAM, given by its start and end. -/
def rounds (r : U32 × U32) : Nat := (r.2.toNat - r.1.toNat + 15) / 16

/-- What the loops write. -/
def recipeText (word : U32 → U32) (label : U32 → Str) (ram : List (U32 × U32)) : Str :=
  ram.flatMap fun r => (List.range (rounds r)).flatMap fun k => recipeLine word label (r.1 + BitVec.ofNat 32 (16 * k))

/-- The words of a range of RAM. -/
def ramWords (word : U32 → U32) (r : U32 × U32) : U32 × List U32 :=
  (r.1, (List.range (4 * rounds r)).map fun i => word (r.1 + BitVec.ofNat 32 (4 * i)))

/-- The memory of the device in these ranges; ranges of which one starts where the one before it ends make one block. -/
def ramBlocks (word : U32 → U32) (ram : List (U32 × U32)) : List (U32 × List U8) := blocks (runs (ram.map (ramWords word)))

/-- Ranges of RAM: at least one, and none empty. -/
def SomeRam (ram : List (U32 × U32)) : Prop := ram ≠ [] ∧ ∀ r ∈ ram, r.1.toNat < r.2.toNat

/-- RAM at 0x10000000 or above, where GDB writes addresses with eight digits. -/
def HighRam (ram : List (U32 × U32)) : Prop := ∀ r ∈ ram, 0x10000000 ≤ r.1.toNat

/-- How many of the lines for a range have an address of fewer than eight digits. -/
def lowRounds (r : U32 × U32) : Nat := (0x10000000 - r.1.toNat + 15) / 16

/-- What is left of ranges of RAM without the lines whose address has fewer than eight digits. -/
def foundRam (ram : List (U32 × U32)) : List (U32 × U32) := ram.filterMap fun r =>
  if r.1.toNat + 16 * lowRounds r < r.2.toNat then some (r.1 + BitVec.ofNat 32 (16 * lowRounds r), r.2) else none

/-- A log made by the README's recipe: the text of the loops over these ranges of RAM, then lines that show no memory (those
of `info all-registers`). -/
structure Recorded (word : U32 → U32) (label : U32 → Str) (ram : List (U32 × U32)) (info : List LogLine) (text : Str) : Prop where
  text : text = recipeText word label ram ++ logText info
  ram : SomeRam ram
  label : ∀ a, Label (label a)
  rest : LogOK info
  none : shown info = []

end Verif.Spec
