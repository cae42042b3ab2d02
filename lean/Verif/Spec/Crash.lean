import Verif.Spec.Platform
/-
The memory of the crashed program as a user thinks of it: some pieces of memory, those of the image not writable, and aliases.
Nothing here mentions the simulator.
-/
namespace Verif.Spec
open Verif

/-- A piece of memory: whether it belongs to the image, its address, its bytes. -/
structure Piece where
  image : Bool
  address : U32
  bytes : List U8

/-- The `n` bytes at the address `a` lie within the piece. -/
def Piece.holds (p : Piece) (a : U32) (n : Nat) : Bool := p.address.toNat ≤ a.toNat ∧ a.toNat + n ≤ p.address.toNat + p.bytes.length

/-- An alias: its address, its length, the address it leads to. -/
structure Alias where
  address : U32
  length : Nat
  target : U32

/-- The `n` bytes at the address `a` lie within the alias. -/
def Alias.holds (x : Alias) (a : U32) (n : Nat) : Bool := x.address.toNat ≤ a.toNat ∧ a.toNat + n ≤ x.address.toNat + x.length

/-- The memory of the crashed program. -/
structure Crash where
  pieces : List Piece
  aliases : List Alias

/-- Where the `n` bytes at the address `a` are: an alias leads somewhere else. -/
def Crash.place (c : Crash) (a : U32) (n : Nat) : U32 :=
  match c.aliases.find? fun x => x.holds a n with
  | some x => x.target + (a - x.address)
  | none => a

/-- The `n` bytes at an address, if they are in memory, all in one piece. -/
def Crash.read (c : Crash) (a : U32) (n : Nat) : Option (List U8) :=
  (c.pieces.find? fun p => p.holds (c.place a n) n).map fun p => (p.bytes.drop ((c.place a n).toNat - p.address.toNat)).take n

/-- The `n` bytes at an address can be written. -/
def Crash.writable (c : Crash) (a : U32) (n : Nat) : Bool := c.pieces.any fun p => p.holds (c.place a n) n && !p.image

/-- The memory after writing these bytes; if they cannot be written nothing changes. -/
def Crash.write (c : Crash) (a : U32) (bs : List U8) : Crash :=
  { c with pieces := c.pieces.map fun p =>
      if p.holds (c.place a bs.length) bs.length && !p.image then
        { p with bytes := p.bytes.take ((c.place a bs.length).toNat - p.address.toNat) ++ bs ++
            p.bytes.drop ((c.place a bs.length).toNat - p.address.toNat + bs.length) }
      else p }

/-- The bytes of a number, the lowest first. -/
def numberBytes {w : Width} (v : BitVec w.bits) : List U8 := (List.range w.bytes).map (byteOf v)

/-- The memory after these calls of the debug monitor: each memory write takes effect, nothing else does. -/
def Crash.after (c : Crash) (cs : List PCall) : Crash :=
  cs.foldl (fun c x => match x with | .memWrite _ a v => c.write a (numberBytes v) | _ => c) c

/-- The crashed program's memory: the blocks of the image, those of the dump, and the aliases (address, size, target) with what
they show. -/
def crashOf (image dump : List (U32 × List U8)) (aliases : List (U32 × U32 × U32)) (shows : List (U32 × List U8)) : Crash :=
  { pieces := image.map (fun b => ⟨true, b.1, b.2⟩) ++ dump.map fun b => ⟨false, b.1, b.2⟩,
    aliases := (aliases.zip shows).map fun x => ⟨x.1.1, x.2.2.length, x.1.2.2⟩ }

/-- The debug monitor finds this memory: a read inside memory yields the bytes there, any other read is counted as a fault; a write
is accepted if the memory can be written, and otherwise counted as a fault. (The count of faults is an `int`.) -/
def Finds (p : Platform.Plat) (c : Crash) : Prop :=
  ∀ (w : Width) (a : U32),
    (match c.read a w.bytes with
      | some bs => ∃ v p', Platform.memRead w a p = .ok v p' ∧ bs = numberBytes v ∧ p'.faults = p.faults
      | none => p.faults + 1 < 2 ^ 31 → ∃ p', Platform.memRead w a p = .ok 0 p' ∧ p'.faults = p.faults + 1) ∧
    ∀ v, if c.writable a w.bytes
      then ∃ p', Platform.memWrite w a v p = .ok () p' ∧ p'.faults = p.faults
      else p.faults + 1 < 2 ^ 31 → ∃ p', Platform.memWrite w a v p = .ok () p' ∧ p'.faults = p.faults + 1

/-- The 32-bit value at an address, if it is in memory; its lowest byte comes first. -/
def Crash.word (c : Crash) (a : U32) : Option U32 :=
  match c.read a 4 with
  | some [b0, b1, b2, b3] => some (b3 ++ b2 ++ b1 ++ b0)
  | _ => none

/-- The registers of a stop reply: numbers 12 to 15, taken from the bytes of all registers. -/
def stopRegisters (regs : Str) : Str :=
  [("0c", 12), ("0d", 13), ("0e", 14), ("0f", 15)].flatMap fun x =>
    asc x.1 ++ (asc ":" ++ (hexOf ((regs.drop (4 * x.2)).take 4) ++ asc ";"))

/-- What the debug monitor is told: it finds the memory `c`; the signal and the fault report are those of a crash with the
exception PSR `psr` and the status registers in this memory; in a register packet and in a stop reply it gets the registers
`regs` (their bytes). It gets all of this without any exception being raised. -/
structure Told (p : Platform.Plat) (c : Crash) (psr : U32) (regs : Str) : Prop where
  memory : Finds p c
  signal : Platform.determineCauseOfException p = .ok (signalFor (psr.toNat % 256)) p
  report : ∃ k, Platform.displayFaultCause p = .ok () { p with console := p.console ++ faultReport c.word (psr.toNat % 256), code := k }
  registers : p.buf.pos = 0 → Platform.packetBufferSize ≤ p.buf.data.length →
    ∃ b, Platform.copyContextToBuffer p = .ok () { p with buf := b } ∧ written b = hexOf regs
  stop : p.buf.pos + 48 ≤ p.buf.data.length →
    ∃ b, Platform.writeTResponseRegisters p = .ok () { p with buf := b } ∧ written b = written p.buf ++ stopRegisters regs

end Verif.Spec
