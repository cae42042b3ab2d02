import Verif.Spec.Dump
import Verif.Spec.Outcome
/-
32-bit little-endian ELF files, as far as they matter for loading: where the fields are and what they mean. Written from
the ELF format's documentation; nothing here mentions the loader.
-/
namespace Verif.Spec
open Verif MemSim

/-- The number in the `n` bytes at an offset, least significant byte first; bytes beyond the end count as 0. -/
def numAt (b : Str) (off : Nat) : (n : Nat) → Nat
  | 0 => 0
  | n + 1 => (b.getD off 0).toNat + 256 * numAt b (off + 1) n

/-- A program header: what to load from where to where. -/
structure ProgHeader where
  type : Nat
  offset : Nat
  paddr : Nat
  filesz : Nat
  memsz : Nat
  deriving DecidableEq

/-- The program header at an offset of the file. -/
def progHeaderAt (b : Str) (off : Nat) : ProgHeader :=
  { type := numAt b off 4, offset := numAt b (off + 4) 4, paddr := numAt b (off + 12) 4, filesz := numAt b (off + 16) 4,
    memsz := numAt b (off + 20) 4 }

def phoff (b : Str) : Nat := numAt b 28 4
def phentsize (b : Str) : Nat := numAt b 42 2
def phnum (b : Str) : Nat := numAt b 44 2

/-- Where program header number `i` is in the file. Offsets in the file are 32-bit numbers. -/
def entryAt (b : Str) (i : Nat) : Nat := (phoff b + i * phentsize b) % 2 ^ 32

/-- All program headers. -/
def progHeaders (b : Str) : List ProgHeader :=
  (List.range (phnum b)).map fun i => progHeaderAt b (entryAt b i)

/-- Only these have contents to load. -/
def ProgHeader.loadable (h : ProgHeader) : Bool := h.type = 1 ∧ 0 < h.filesz ∧ h.filesz ≤ h.memsz

/-- The contents reach beyond the end of the file, so far that offset + size, computed in 32 bits, is again within the file. -/
def ProgHeader.wraps (b : Str) (h : ProgHeader) : Bool :=
  h.offset ≤ b.length ∧ b.length < h.offset + h.filesz ∧ 2 ^ 32 ≤ h.offset + h.filesz ∧ h.offset + h.filesz ≤ 2 ^ 32 + b.length

/-- Program header number `i` itself reaches beyond the end of the file, and its end, computed in 32 bits, is again within the
file. Only a file whose length differs from 4 GiB by no more than 32 bytes has such a program header. -/
def entryWraps (b : Str) (i : Nat) : Bool := entryAt b i ≤ b.length ∧ b.length < entryAt b i + 32 ∧ 2 ^ 32 ≤ entryAt b i + 32

/-- The file's bytes for a program header, at the physical address. -/
def ProgHeader.block (b : Str) (h : ProgHeader) : U32 × List U8 := (BitVec.ofNat 32 h.paddr, (b.drop h.offset).take h.filesz)

/-- The blocks that loading the file should put into memory. -/
def elfBlocks (b : Str) : List (U32 × List U8) := ((progHeaders b).filter ProgHeader.loadable).map (ProgHeader.block b)

/-- What is wrong with the file's header, if anything. -/
def headerComplaint (b : Str) : Option Str :=
  if b.length < 52 then some (asc "ELF was too short to contain valid header.")
  else if b.take 4 ≠ [0x7F] ++ asc "ELF" then some (asc "ELF header doesn't start with expected magic ELF identifier.")
  else if numAt b 4 1 ≠ 1 then some (asc "ELF header doesn't contain 32-bit flag.")
  else if numAt b 5 1 ≠ 1 then some (asc "ELF header doesn't contain little endian flag.")
  else if numAt b 16 2 ≠ 2 then some (asc "ELF header doesn't contain executable flag.")
  else if phoff b = 0 then some (asc "ELF header contains an invalid offset of 0 for the page headers.")
  else if phnum b = 0 then some (asc "ELF header contains an invalid page header entry count of 0.")
  else if phentsize b < 32 then some (asc "ELF header contains a page header entry size of " ++ asc (toString (phentsize b)) ++
    asc ", which is smaller than the expected size of 32.")
  else none

/-- The program headers lie within the file. -/
def TableInside (b : Str) : Prop := ∀ i < phnum b, entryAt b i + 32 ≤ b.length

/-- The contents to be loaded lie within the file. -/
def ContentsInside (b : Str) : Prop := ∀ h ∈ progHeaders b, h.loadable = true → h.offset + h.filesz ≤ b.length

/-- The program headers before number `i` lie within the file, and so do their contents to be loaded. -/
def GoodUpTo (b : Str) (i : Nat) : Prop :=
  (∀ j < i, entryAt b j + 32 ≤ b.length) ∧
  ∀ h ∈ (progHeaders b).take i, h.loadable = true → h.offset + h.filesz ≤ b.length

instance : Decidable (GoodUpTo b i) := inferInstanceAs (Decidable (_ ∧ ∀ h ∈ _, _ → _))

/-- The blocks that are in the file for the program headers before number `i`. -/
def blocksUpTo (b : Str) (i : Nat) : List (U32 × List U8) :=
  (((progHeaders b).take i).filter ProgHeader.loadable).map (ProgHeader.block b)

/-- Nothing that loading fetches from the file wraps around. -/
def NoWraps (b : Str) : Prop := (∀ i < phnum b, entryWraps b i = false) ∧ ∀ h ∈ progHeaders b, h.loadable = true → h.wraps b = false

instance : Decidable (NoWraps b) := inferInstanceAs (Decidable ((∀ i < _, _) ∧ ∀ h ∈ _, _ → _))
instance : Decidable (TableInside b) := inferInstanceAs (Decidable (∀ i < _, _))
instance : Decidable (ContentsInside b) := inferInstanceAs (Decidable (∀ h ∈ _, _ → _))

/-- No write of any width inside the blocks has any effect; it raises a bus error. -/
def RefusesWrites (s : Sim) (mem : List (U32 × List U8)) : Prop :=
  ∀ r ∈ mem, ∀ (w : Width) (a : U32) (v : BitVec w.bits), r.1.toNat ≤ a.toNat → a.toNat + w.bytes ≤ r.1.toNat + r.2.length →
    IMemory.write w a v s = .throw ⟨.busError, []⟩ s

/-- Behind the regions that were there, one read-only region was added per block, with the block's address, length and
bytes. -/
def AddsReadOnly (s s' : Sim) (mem : List (U32 × List U8)) : Prop :=
  ∃ news, s'.regions = s.regions ++ news ∧
    news.map (fun r => (r.baseAddress, r.size.toNat, r.data, r.isReadOnly, r.isAlias)) =
      mem.map (fun r => (r.1, r.2.length, r.2, true, false))

/-- Creating a region, putting an image into memory, or marking memory read-only. -/
def loadsImage : Call → Prop
  | .createRegion .. => True
  | .load .. => True
  | .makeReadOnly .. => True
  | _ => False

end Verif.Spec
