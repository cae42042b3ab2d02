import Batteries.Data.List.Basic
import Verif.Spec.History
/-
What the text of a memory map is, independent of how it is produced.
-/
namespace Verif.Spec
open Verif MemSim

/-- Value of an upper-case hexadecimal digit. -/
def digitVal (b : U8) : Option Nat :=
  if 48 ≤ b.toNat ∧ b.toNat ≤ 57 then some (b.toNat - 48)
  else if 65 ≤ b.toNat ∧ b.toNat ≤ 70 then some (b.toNat - 55)
  else none

/-- Value of a string of hexadecimal digits. -/
def hexVal (t : Str) : Nat := t.foldl (fun acc b => acc * 16 + (digitVal b).getD 0) 0

/-- `t` is the upper-case hexadecimal numeral for `n`, without superfluous zeros. -/
def IsHex (t : Str) (n : Nat) : Prop :=
  t ≠ [] ∧ (∀ b ∈ t, digitVal b ≠ none) ∧ hexVal t = n ∧ (t.head? = some 48 → t.length = 1)

/-- One entry of the memory map: is it flash, where does it start, how long is it. -/
structure Entry where
  flash : Bool
  start : U32
  length : U32
  deriving DecidableEq

/-- The access of `n` bytes at `a` lies in the entry's address range. -/
def Entry.holds (e : Entry) (a : U32) (n : Nat) : Bool :=
  e.start.toNat ≤ a.toNat && a.toNat + n ≤ e.start.toNat + e.length.toNat

/-- `t` is the XML element for the entry `e`. -/
def IsElement (e : Entry) (t : Str) : Prop :=
  ∃ a b, IsHex a e.start.toNat ∧ IsHex b e.length.toNat ∧
    t = if e.flash then
        asc "<memory type=\"flash\" start=\"0x" ++ a ++ asc "\" length=\"0x" ++ b ++
          asc "\"> <property name=\"blocksize\">1</property></memory>"
      else
        asc "<memory type=\"ram\" start=\"0x" ++ a ++ asc "\" length=\"0x" ++ b ++ asc "\"></memory>"

/-- The fixed beginning and end of a memory map. -/
def mapHead : Str := asc ("<?xml version=\"1.0\"?><!DOCTYPE memory-map PUBLIC \"+//IDN gnu.org//DTD GDB Memory Map V1.0//EN\" " ++
  "\"http://sourceware.org/gdb/gdb-memory-map.dtd\"><memory-map>")
def mapTail : Str := asc "</memory-map>"

/-- `t` is the memory map that lists exactly `es`, in this order. -/
def IsMap (es : List Entry) (t : Str) : Prop :=
  ∃ ts, List.Forall₂ IsElement es ts ∧ t = mapHead ++ ts.flatten ++ mapTail

/-- The entries a simulator should list: every region and alias in order of creation. -/
def entries (s : Sim) : List Entry := s.regions.map fun r => ⟨r.isReadOnly, r.baseAddress, r.size⟩

/-- Every alias shows the read-only flag of the memory it leads to. -/
def InSync (s : Sim) : Prop :=
  ∀ q ∈ s.regions, q.isAlias = true → ∀ i t, q.redirect = some i → s.regions[i]? = some t → q.isReadOnly = t.isReadOnly

/-- The call does not mark memory read-only to which an alias already leads. -/
def NoLateMark (c : Call) (s : Sim) : Prop :=
  match c with
  | .makeReadOnly b => ∀ i, Reaches s b 1 i → ∀ q ∈ s.regions, q.isAlias = true → q.redirect ≠ some i
  | .flashImage .. => ∀ q ∈ s.regions, q.isAlias = false
  | _ => True

end Verif.Spec
