import Verif.Spec.Dump
import Verif.Spec.Outcome
/-
GDB logs: what the lines printed by `x/...xw` and `info registers` look like and what they mean. Written from the
output format; nothing here mentions the parser.
-/
namespace Verif.Spec
open Verif MemSim

/-! ### Text -/

/-- White space. -/
def isSpace (c : U8) : Bool := c = 0x20 ∨ (9 ≤ c.toNat ∧ c.toNat ≤ 13)

/-- Only hexadecimal digits. -/
def AllHex (ds : Str) : Prop := ∀ c ∈ ds, (hexDigit c).isSome
/-- Only white space. -/
def AllSpace (t : Str) : Prop := ∀ c ∈ t, isSpace c = true
/-- No white space. -/
def NoSpace (t : Str) : Prop := ∀ c ∈ t, isSpace c = false

instance : Decidable (AllHex ds) := inferInstanceAs (Decidable (∀ c ∈ _, _))
instance : Decidable (AllSpace ds) := inferInstanceAs (Decidable (∀ c ∈ _, _))
instance : Decidable (NoSpace ds) := inferInstanceAs (Decidable (∀ c ∈ _, _))

/-- The number that hexadecimal digits denote. -/
def hexNat (ds : Str) : Nat := ds.foldl (fun n c => 16 * n + (hexDigit c).getD 0) 0

/-- `0x` and hexadecimal digits that denote a 32-bit number. -/
def HexNum (t : Str) (v : U32) : Prop := ∃ ds, t = asc "0x" ++ ds ∧ ds ≠ [] ∧ AllHex ds ∧ hexNat ds = v.toNat

/-- The number that stood before this text ends here. -/
def NumEnds (t : Str) : Prop := ∀ c t', t = c :: t' → hexDigit c = none

/-- Text in which every `<` has its `>`. -/
inductive Balanced : Str → Prop
  | nil : Balanced []
  | char {c : U8} {t : Str} (h1 : c ≠ 0x3C) (h2 : c ≠ 0x3E) (h : Balanced t) : Balanced (c :: t)
  | nest {s t : Str} (hs : Balanced s) (ht : Balanced t) : Balanced (0x3C :: (s ++ 0x3E :: t))

/-- What may stand before a value: white space, perhaps with a symbol such as `<main+4>:` in it. -/
inductive Gap : Str → Prop
  | space {t : Str} (h : AllSpace t) : Gap t
  | symbol {a s e : Str} {c : U8} {b : Str} (ha : AllSpace a) (hs : Balanced s) (he : NoSpace e)
      (hb : ∀ c ∈ e, c ≠ 0x3C ∧ c ≠ 0x3E) (hc : isSpace c = true) (ht : AllSpace b) :
      Gap (a ++ 0x3C :: (s ++ 0x3E :: (e ++ c :: b)))

/-- `Values t vs rest`: `t` shows the values `vs`, after which comes `rest`. -/
inductive Values : Str → List U32 → Str → Prop
  | nil {t : Str} : Values t [] t
  | cons {g n t rest : Str} {v : U32} {vs : List U32} (hg : Gap g) (hn : HexNum n v) (he : NumEnds t) (h : Values t vs rest) :
      Values (g ++ n ++ t) (v :: vs) rest

/-! ### Lines -/

/-- A memory line: an address of 8 digits, a colon or space, and one to four values. After four values anything may
follow, else only white space. -/
def ShowsMemory (line : Str) (a : U32) (vs : List U32) : Prop :=
  ∃ head c body rest, line = head ++ c :: body ∧ HexNum head a ∧ head.length = 10 ∧ hexDigit c = none ∧ Values body vs rest ∧
    1 ≤ vs.length ∧ vs.length ≤ 4 ∧ (vs.length = 4 ∨ AllSpace rest)

/-- The registers in a log. -/
inductive Reg
  | core (i : Fin 19)
  | float (i : Fin 33)
  deriving DecidableEq

/-- Their names. -/
def Reg.name : Reg → String
  | .core i => if i.val < 13 then "r" ++ toString i.val else ["sp", "lr", "pc", "xpsr", "msp", "psp"].getD (i.val - 13) ""
  | .float i => if i.val < 32 then "s" ++ toString i.val else "fpscr"

/-- The name filled up with spaces to 15 characters, as in a log. -/
def Reg.field (r : Reg) : Str := asc r.name ++ List.replicate (15 - r.name.length) 0x20

/-- One of s0 to s31. -/
def Reg.isFloat : Reg → Bool
  | .core _ => false
  | .float i => i.val < 32

/-- A register line: name and value; for s0 to s31 another number and the value as `(raw 0x...)`. -/
def ShowsRegister (line : Str) (r : Reg) (v : U32) : Prop :=
  if r.isFloat then
    ∃ f w n rest, line = r.field ++ f ++ w ++ asc "(raw " ++ n ++ rest ∧ NoSpace f ∧ AllSpace w ∧ w ≠ [] ∧ HexNum n v ∧ NumEnds rest
  else ∃ w n rest, line = r.field ++ w ++ n ++ rest ∧ AllSpace w ∧ HexNum n v ∧ NumEnds rest

/-- The line begins like a memory line: `0x`, 8 digits, and at least two more characters. -/
def LikeMemory (line : Str) : Prop := 11 < line.length ∧ line.take 2 = asc "0x" ∧ AllHex ((line.drop 2).take 8)

/-- The line begins with the name of a register. -/
def LikeRegister (line : Str) : Prop := ∃ r : Reg, r.field <+: line

/-- What a line says. -/
inductive Meaning
  | memory (a : U32) (vs : List U32)
  | register (r : Reg) (v : U32)
  | other

def Says (line : Str) : Meaning → Prop
  | .memory a vs => ShowsMemory line a vs
  | .register r v => ShowsRegister line r v
  | .other => ¬ LikeMemory line ∧ ¬ LikeRegister line

/-! ### Logs -/

/-- A line of a log. -/
structure LogLine where
  text : Str
  says : Meaning

/-- One line of text that fits into a buffer of 1024 characters: a newline at its end and nowhere else, no NUL. -/
def IsLine (t : Str) : Prop := ∃ u, t = u ++ [0x0A] ∧ (∀ c ∈ u, c ≠ 0x0A ∧ c ≠ 0) ∧ t.length ≤ 1023

/-- Such a line without the newline; only the last line of a file can be like this. -/
def IsLastLine (t : Str) : Prop := t ≠ [] ∧ (∀ c ∈ t, c ≠ 0x0A ∧ c ≠ 0) ∧ t.length ≤ 1023

/-- A well-formed log. -/
inductive LogOK : List LogLine → Prop
  | nil : LogOK []
  | last {l : LogLine} (h : IsLastLine l.text) (hs : Says l.text l.says) : LogOK [l]
  | cons {l : LogLine} {ls : List LogLine} (h : IsLine l.text) (hs : Says l.text l.says) (ht : LogOK ls) : LogOK (l :: ls)

/-- Lines of text of any kind; the last one may lack its newline. -/
inductive AnyLines : List Str → Prop
  | nil : AnyLines []
  | last {t : Str} (h : IsLastLine t) : AnyLines [t]
  | cons {t : Str} {ts : List Str} (h : IsLine t) (ht : AnyLines ts) : AnyLines (t :: ts)

/-- Text that ends where a line ends. -/
def WholeLines (p : Str) : Prop := p = [] ∨ p.getLast? = some 0x0A

/-- The file. -/
def logText (ls : List LogLine) : Str := ls.flatMap LogLine.text

/-- A memory line with fewer than four values after which white space, such as a newline, follows. -/
def Short (l : LogLine) : Prop :=
  match l.says with
  | .memory _ vs => vs.length < 4 ∧ l.text.getLast?.any isSpace = true
  | _ => False

/-- What the memory lines show, in order. -/
def shown (ls : List LogLine) : List (U32 × List U32) :=
  ls.filterMap fun l => match l.says with | .memory a vs => some (a, vs) | _ => none

/-- What the memory lines contribute. This is not what they should, see C39: a line of fewer than four values that ends
with a newline contributes a 0 after them. -/
def contributed (ls : List LogLine) : List (U32 × List U32) :=
  ls.filterMap fun l => match l.says with
    | .memory a vs => some (a, if vs.length < 4 ∧ l.text.getLast?.any isSpace then vs ++ [0] else vs)
    | _ => none

/-- Words as bytes. -/
def wordBytes (vs : List U32) : Str := vs.flatMap le32

/-- Lines of words as blocks of bytes. -/
def blocks (ls : List (U32 × List U32)) : List (U32 × List U8) := ls.map fun l => (l.1, wordBytes l.2)

/-- Join lines of which each starts where the one before it ends. -/
def runs : List (U32 × List U32) → List (U32 × List U32)
  | [] => []
  | l :: ls =>
    match runs ls with
    | [] => [l]
    | r :: rs => if l.1 + BitVec.ofNat 32 (4 * l.2.length) = r.1 then (l.1, l.2 ++ r.2) :: rs else l :: r :: rs

/-- Address and size of each region, and whether it is an alias. -/
def outline (s : Sim) : List (U32 × Nat × Bool) := s.regions.map fun r => (r.baseAddress, r.size.toNat, r.isAlias)

/-- Behind the regions that were there, one was added per run, with the run's address and length. -/
def AddsRuns (s s' : Sim) (rs : List (U32 × List U32)) : Prop :=
  outline s' = outline s ++ rs.map fun r => (r.1, 4 * r.2.length, false)

/-- The address of a word of a line. -/
def wordAt (l : U32 × List U32) (i : Nat) : U32 := l.1 + BitVec.ofNat 32 (i * 4)

/-- Every run contains all four bytes of a shown word, or none of them. (So it is if all addresses are multiples of four,
and if no two runs overlap.) -/
def WholeWords (ms : List (U32 × List U32)) : Prop :=
  ∀ m ∈ ms, ∀ i < m.2.length, ∀ r ∈ blocks (runs ms),
    (∀ j < 4, (byteIn r (wordAt m i + BitVec.ofNat 32 j)).isSome) ∨ ∀ j < 4, byteIn r (wordAt m i + BitVec.ofNat 32 j) = none

/-- The simulator returns the words: each reads as a word, every byte of which is that of the last line showing it. -/
def HoldsWords (s : Sim) (ms : List (U32 × List U32)) : Prop :=
  ∀ m ∈ ms, ∀ i < m.2.length, ∃ v s', IMemory.read .w32 (wordAt m i) s = .ok v s' ∧
    ∀ j < 4, lastByte (blocks ms) (wordAt m i + BitVec.ofNat 32 j) = some (byteOf v j)

/-- The simulator returns the bytes: each address in the blocks reads as the byte the last block has for it. -/
def HoldsBytes (s : Sim) (mem : List (U32 × List U8)) : Prop :=
  ∀ a b, lastByte mem a = some b → ∃ s', IMemory.read .w8 a s = .ok b s'

/-- The value in the last line for a register, if any. -/
def lastValue (ls : List LogLine) (r : Reg) : Option U32 :=
  (ls.filterMap fun l => match l.says with | .register q v => if q = r then some v else none | _ => none).getLast?

/-- Some line is for one of s0 to s31. -/
def showsFloat (ls : List LogLine) : Bool :=
  ls.any fun l => match l.says with | .register r _ => r.isFloat | _ => false

/-- A register in the context. -/
def Reg.get (r : Reg) (c : Regs) : Option U32 :=
  match r with
  | .core i => c.r[i.val]?
  | .float i => c.fpr[i.val]?

/-- The next `fopen` of `name` gives this file, and it can be rewound. -/
def NextLog (h : Host) (name : Str) (bytes : Str) : Prop :=
  ∃ f, h.files.opens h.files.next name = some f ∧ f.bytes = bytes ∧ f.seekSetFails = false

/-- The registers after loading the log: the value shown last for each; what the log does not show is 0, and 0xBAADBAAD for MSP
and PSP. -/
def logRegs (ls : List LogLine) : Regs :=
  { flags := if showsFloat ls then 1 else 0,
    r := List.ofFn fun i : Fin 19 => (lastValue ls (.core i)).getD (if i = 17 ∨ i = 18 then 0xBAADBAAD else 0),
    psr := 0,
    fpr := List.ofFn fun i : Fin 33 => (lastValue ls (.float i)).getD 0 }

/-- A dump of the crash the log shows: its memory blocks are the runs of the log's memory lines and its registers those the
log shows; what the log does not show is 0, and 0xBAADBAAD for MSP and PSP. -/
structure SameCrash (ls : List LogLine) (df : DumpFile) : Prop where
  mem : df.mem = blocks (runs (shown ls))
  v3 : df.v2 = false
  core : ∀ i : Fin 19, df.regs[i.val]? = some ((lastValue ls (.core i)).getD (if i = 17 ∨ i = 18 then 0xBAADBAAD else 0))
  flags : df.flags = if showsFloat ls then 1 else 0
  float : showsFloat ls = true → ∀ i : Fin 33, df.fpr[i.val]? = some ((lastValue ls (.float i)).getD 0)
  fpscr : showsFloat ls = false → lastValue ls (.float 32) = none

/-- The parser reached the end of the file: it returned normally, or failed but not for lack of memory. -/
def ReadAll (o : Out Host Unit) (h' : Host) : Prop := o = .ok () h' ∨ ∃ e, o = .throw e h' ∧ e.code ≠ .outOfMemory

end Verif.Spec
