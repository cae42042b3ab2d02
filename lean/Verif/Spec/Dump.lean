import Verif.Spec.MemSim
import Verif.Model.Host
/-
What a CrashCatcher dump file is, written from CrashCatcher's side: an encoder, and what loading it should yield. Nothing
here mentions the parser.
-/
namespace Verif.Spec
open Verif MemSim

/-- A word as four bytes, least significant first. -/
def le32 (w : U32) : Str := [byteOf w 0, byteOf w 1, byteOf w 2, byteOf w 3]

/-- The contents of a crash dump. `mem` lists the dumped memory: start address and bytes. -/
structure DumpFile where
  v2 : Bool
  flags : U32
  regs : List U32
  psr : U32
  fpr : List U32
  mem : List (U32 × List U8)

/-- Does the dump have floating point registers? -/
def hasFloat (flags : U32) : Bool := flags.getLsbD 0

/-- The numbers of registers are right for the version and flags, and no dumped block is 4 GiB or longer. -/
structure DumpFile.WF (d : DumpFile) : Prop where
  regs : d.regs.length = if d.v2 then 17 else 19
  fpr : d.fpr.length = if hasFloat d.flags then 33 else 0
  mem : ∀ r ∈ d.mem, r.2.length < 2 ^ 32

/-- One memory block in the file: start, end, bytes. -/
def encodeBlock (r : U32 × List U8) : Str := le32 r.1 ++ le32 (r.1 + BitVec.ofNat 32 r.2.length) ++ r.2

/-- Everything before the memory blocks. -/
def encodeHead (d : DumpFile) : Str :=
  [0x63, 0x43, if d.v2 then 2 else 3, 0] ++ le32 d.flags ++ d.regs.flatMap le32 ++ le32 d.psr ++ d.fpr.flatMap le32

/-- The dump file. -/
def encode (d : DumpFile) : Str := encodeHead d ++ d.mem.flatMap encodeBlock

/-- The registers after loading; `old` is what they were before. -/
def loadedRegs (d : DumpFile) (old : Regs) : Regs :=
  { flags := d.flags,
    r := if d.v2 then d.regs ++ [0xBAADBAAD, 0xBAADBAAD] else d.regs,
    psr := d.psr,
    fpr := if hasFloat d.flags then d.fpr else old.fpr }

/-- The context has room for 19 registers and 33 floating point registers. -/
def RegsWF (c : Regs) : Prop := c.r.length = 19 ∧ c.fpr.length = 33

/-- The byte a block holds for an address. -/
def byteIn (r : U32 × List U8) (a : U32) : Option U8 :=
  if r.1.toNat ≤ a.toNat then r.2[a.toNat - r.1.toNat]? else none

/-- The byte that the last block containing the address holds for it. -/
def lastByte (mem : List (U32 × List U8)) (a : U32) : Option U8 := mem.foldl (fun acc r => (byteIn r a).or acc) none

/-- No two blocks contain the same address. -/
def Disjoint (mem : List (U32 × List U8)) : Prop := mem.Pairwise fun r q => ∀ a, byteIn r a = none ∨ byteIn q a = none

/-- The simulator returns the dumped bytes: every access of any width within one of the blocks completes and yields them. -/
def HoldsBlocks (s : Sim) (mem : List (U32 × List U8)) : Prop :=
  ∀ r ∈ mem, ∀ (w : Width) (a : U32), r.1.toNat ≤ a.toNat → a.toNat + w.bytes ≤ r.1.toNat + r.2.length →
    ∃ v s', IMemory.read w a s = .ok v s' ∧ ∀ j < w.bytes, r.2[a.toNat - r.1.toNat + j]? = some (byteOf v j)

/-- Behind the regions that were there, one plain writable region was added per block, with the block's address and
length. -/
def AddsBlocks (s s' : Sim) (mem : List (U32 × List U8)) : Prop :=
  ∃ news, s'.regions = s.regions ++ news ∧
    news.map (fun r => (r.baseAddress, r.size.toNat, r.isReadOnly, r.isAlias)) =
      mem.map (fun r => (r.1, r.2.length, false, false))

/-- The block ends within the address space. -/
def Fits (r : U32 × List U8) : Prop := r.1.toNat + r.2.length ≤ 2 ^ 32

/-- The blocks fit into the address space, and at their addresses the simulator has nothing yet. -/
def Free (s : Sim) (mem : List (U32 × List U8)) : Prop :=
  ∀ r ∈ mem, Fits r ∧ ∀ a, (byteIn r a).isSome → ¬ Mapped s a 1

/-- No allocation fails. -/
def PlentyOfMemory (s : Sim) : Prop := ∀ n, s.heap.fails n = false

/-- The next `fopen` of `name` gives a file with these contents. -/
def NextFile (h : Host) (name : Str) (bytes : Str) : Prop :=
  ∃ f, h.files.opens h.files.next name = some f ∧ f.bytes = bytes

/-- A simulator and context in which a dump can be loaded: consistent, no allocation failures, and the counter of
watchpoint hits within `int`. -/
structure Ready (h : Host) : Prop where
  sound : Sound h.mem
  heap : PlentyOfMemory h.mem
  regs : RegsWF h.ctx
  hits : h.mem.hits < 2 ^ 31

/-- Hexadecimal digits, upper or lower case. -/
def hexDigit (c : U8) : Option Nat :=
  if 48 ≤ c.toNat ∧ c.toNat ≤ 57 then some (c.toNat - 48)
  else if 65 ≤ c.toNat ∧ c.toNat ≤ 70 then some (c.toNat - 55)
  else if 97 ≤ c.toNat ∧ c.toNat ≤ 102 then some (c.toNat - 87)
  else none

/-- Carriage return or line feed. -/
def isNewline (c : U8) : Bool := c = 13 ∨ c = 10

/-- `HexText t bs`: `t` is hexadecimal text for the bytes `bs`, two digits per byte, with line ends inserted anywhere. -/
inductive HexText : Str → Str → Prop
  | nil : HexText [] []
  | newline {c : U8} {t bs : Str} (hc : isNewline c = true) (h : HexText t bs) : HexText (c :: t) bs
  | byte {hi lo : U8} {x y : Nat} {nl t bs : Str} {b : U8} (hx : hexDigit hi = some x) (hy : hexDigit lo = some y)
      (hn : ∀ c ∈ nl, isNewline c = true) (hb : b.toNat = 16 * x + y) (h : HexText t bs) :
      HexText (hi :: (nl ++ lo :: t)) (b :: bs)

end Verif.Spec
