import Verif.Spec.AnyCrash
/-
C117: what the debug monitor can tell of two crashes.
-/
namespace Verif.Spec
open Verif Platform

/-- The debug monitor reads the byte `v` at the address `a`. -/
def ReadsAs (p : Plat) (a : U32) (v : U8) : Prop := ∃ p', memRead .w8 a p = .ok v p' ∧ p'.faults = p.faults

/-- Asked for the registers, with an empty packet buffer, the program answers `t`. -/
def Sends (p : Plat) (t : Str) : Prop :=
  ∀ b : Buf, b.pos = 0 → packetBufferSize ≤ b.data.length →
    ∃ b', copyContextToBuffer { p with buf := b } = .ok () { p with buf := b' } ∧ written b' = t

/-- The debug monitor gets the same answers in both sessions: for every address the same byte or in both a fault, for every address
a write is accepted in both or in neither, and the same registers. -/
structure SameAnswers (p1 p2 : Plat) : Prop where
  reads : ∀ a v, ReadsAs p1 a v ↔ ReadsAs p2 a v
  writes : ∀ a, CanWrite p1 .w8 a ↔ CanWrite p2 .w8 a
  registers : ∀ t, Sends p1 t ↔ Sends p2 t

/-- The byte at an address, if one of the blocks has it. -/
def byteAmong (mem : List (U32 × List U8)) (a : U32) : Option U8 := mem.findSome? fun b => byteIn b a

/-- The address is in a block of the dump or in what an alias shows of such a block. -/
def Changeable (mem : List (U32 × List U8)) (aliases : List (U32 × U32 × U32)) (shows : List (U32 × List U8)) (a : U32) : Prop :=
  (byteAmong mem a).isSome = true ∨ ∃ z ∈ aliases.zip shows, AliasShows mem z.1 z.2 ∧ (byteIn z.2 a).isSome = true

/-- The same registers, those of the floating point unit only if there are any. -/
def SameRegs (c d : Regs) : Prop :=
  c.r = d.r ∧ hasFloat c.flags = hasFloat d.flags ∧ (hasFloat c.flags = true → c.fpr = d.fpr)

end Verif.Spec
