import Verif.Spec.DumpComplaint
import Verif.Spec.Clash
import Verif.Spec.Complete
import Verif.Spec.AnyLog
/-
C107: everything that can be wrong with what the program is started with, in the order in which it should be reported.
-/
namespace Verif.Spec
open Verif CommandLine

/-! ### The image -/

/-- What is wrong with program header number `i` of an ELF file or with its contents, if anything. -/
def entryComplaint (b : Str) (i : Nat) : Option Str :=
  if b.length < entryAt b i + 32 then
    some (asc "ELF page header entry " ++ asc (Nat.repr i) ++ asc " is at an invalid file offset of " ++
      asc (Nat.repr (entryAt b i)) ++ asc ".")
  else
    let h := progHeaderAt b (entryAt b i)
    if h.loadable = true ∧ b.length < h.offset + h.filesz then
      some (asc "ELF failed to load entry from file at offsets " ++ signedDecimal (BitVec.ofNat 32 h.offset) ++ asc " to " ++
        signedDecimal (BitVec.ofNat 32 (h.offset + h.filesz - 1)) ++ asc ".")
    else none

/-- What is wrong with an ELF file: its header, then the first program header that is not in order, then that there is nothing
to load. -/
def elfComplaint (b : Str) : Option Str :=
  (headerComplaint b).or (((List.range (phnum b)).findSome? (entryComplaint b)).or
    (if elfBlocks b = [] then
      some (asc "ELF contained no entries which were loadable and had a valid non-zero filesz <= to memsz.") else none))

/-- What is wrong with the image. -/
def imageComplaint (os : List Opt) (b : Str) : Option Exn :=
  match lastElf os, lastBin os with
  | some _, _ => (elfComplaint b).map fun m => ⟨.elfFormat, m⟩
  | none, some (_, base) =>
    if b = [] ∨ 2 ^ 32 < (Libc.strtoul32 base).toNat + b.length then some ⟨.busError, rawComplaint (Libc.strtoul32 base)⟩ else none
  | none, none => none

/-- The memory that is in the image. -/
def imageBlocks (os : List Opt) (b : Str) : List (U32 × List U8) :=
  match lastElf os, lastBin os with
  | some _, _ => elfBlocks b
  | none, some (_, base) => [(Libc.strtoul32 base, b)]
  | none, none => []

/-! ### The dump -/

/-- The dump consists of these bytes, in binary or in hexadecimal. -/
def DumpReads (text bytes : Str) : Prop :=
  ([0x63, 0x43] <+: text ∧ text = bytes) ∨ (asc "6343" <+: text ∧ HexUpToLone text bytes)

/-- After the text of these bytes there is a pair of characters, possibly with line ends between them, not both of which are
hexadecimal digits. -/
def Spoiled (text bytes : Str) : Prop :=
  ∃ t hi nl lo rest, text = t ++ hi :: (nl ++ lo :: rest) ∧ HexText t bytes ∧ isNewline hi ≠ true ∧ isNewline lo ≠ true ∧
    (∀ c ∈ nl, isNewline c = true) ∧ (hexDigit hi = none ∨ hexDigit lo = none)

/-- The dump is spoiled after these bytes. -/
def DumpSpoiled (text bytes : Str) : Prop := asc "6343" <+: text ∧ Spoiled text bytes

/-- The dump does not look like one, so it is taken for a log, with these lines. -/
def LogReads (text : Str) (ms : List Meaning) : Prop :=
  ¬ [0x63, 0x43] <+: text ∧ ¬ asc "6343" <+: text ∧ LogTakenFor text ms

/-- After the complete blocks the file ends, or something is wrong with the rest. -/
def EndsAt (u : Str) : Prop := u = [] ∨ (restComplaint u).isSome

/-- What is said about a block of memory from `lo` up to `hi` that cannot be loaded. -/
def regionComplaint (lo hi : U32) : Str :=
  asc "The dump file failed to load RAM memory region at 0x" ++ eightDigits lo ++ asc " - 0x" ++ eightDigits hi ++ asc "."

/-- There are four bytes, and they are not a signature that is known. -/
def WrongSignature (t : Str) : Prop := 4 ≤ t.length ∧ t.take 4 ≠ [0x63, 0x43, 3, 0] ∧ t.take 4 ≠ [0x63, 0x43, 2, 0]
instance (t : Str) : Decidable (WrongSignature t) := by unfold WrongSignature; infer_instance

/-- What is said if the text is spoiled after the bytes `u`, which come after the complete blocks. (Nothing, unless a block has
started.) -/
def spoiledComplaint (u : Str) : Exn :=
  if u.length < 8 then ⟨.fileFormat, []⟩ else ⟨.fileFormat, regionComplaint (wordOf u 0) (wordOf u 4)⟩

/-- The first thing that is wrong with the dump, if `image` is the memory that is in the image. -/
inductive DumpProblem (image : List (U32 × List U8)) (text : Str) : Exn → Prop
  /-- Something before the memory blocks. -/
  | head {bytes m : Str} (hr : DumpReads text bytes) (h : headComplaint bytes = some m) : DumpProblem image text ⟨.fileFormat, m⟩
  /-- The text is spoiled before the memory blocks. Nothing is said unless the signature is wrong. -/
  | spoiledHead {bytes m : Str} (hr : DumpSpoiled text bytes) (h : headComplaint bytes = some m) :
      DumpProblem image text ⟨.fileFormat, if WrongSignature bytes then m else []⟩
  /-- A complete block is where the image is, and those before it are not. -/
  | block {bytes u : Str} {df : DumpFile} {pre post : List (U32 × List U8)} {r : U32 × List U8} (hr : DumpReads text bytes ∨ DumpSpoiled text bytes)
      (hw : df.WF) (hb : bytes = encode df ++ u) (hu : EndsAt u) (hm : df.mem = pre ++ r :: post)
      (hpre : ∀ q ∈ pre, ¬ Clashes image q) (hc : Clashes image r) :
      DumpProblem image text ⟨.busError, regionComplaint r.1 (r.1 + BitVec.ofNat 32 r.2.length)⟩
  /-- The last block is not complete, and what there is of it is where the image is. -/
  | part {bytes u : Str} {df : DumpFile} {e : Exn} (hr : DumpReads text bytes ∨ DumpSpoiled text bytes)
      (hw : df.WF) (hb : bytes = encode df ++ u) (hu : restComplaint u = some e) (hno : ∀ q ∈ df.mem, ¬ Clashes image q)
      (hc : Clashes image (lastPart u)) : DumpProblem image text ⟨.busError, regionComplaint (wordOf u 0) (wordOf u 4)⟩
  /-- The blocks do not end properly. -/
  | rest {bytes u : Str} {df : DumpFile} {e : Exn} (hr : DumpReads text bytes)
      (hw : df.WF) (hb : bytes = encode df ++ u) (hu : restComplaint u = some e)
      (hno : ∀ q ∈ df.mem ++ [lastPart u], ¬ Clashes image q) : DumpProblem image text e
  /-- The text is spoiled after complete blocks. -/
  | spoiledRest {bytes u : Str} {df : DumpFile} (hr : DumpSpoiled text bytes)
      (hw : df.WF) (hb : bytes = encode df ++ u) (hu : EndsAt u)
      (hno : ∀ q ∈ df.mem ++ [lastPart u], ¬ Clashes image q) : DumpProblem image text (spoiledComplaint u)
  /-- A log shows a word that is inside the image. -/
  | log {ms : List Meaning} (hr : LogReads text ms) (h : ∃ m ∈ memoryIn ms, ∃ i < m.2.length, WordInside image (wordAt m i)) :
      DumpProblem image text ⟨.busError, []⟩

/-- Nothing is wrong with the dump, and it has this memory. -/
inductive DumpFine (image : List (U32 × List U8)) (text : Str) : List (U32 × List U8) → Prop
  | dump {df : DumpFile} (hr : DumpReads text (encode df)) (hw : df.WF) (h : ∀ q ∈ df.mem, ¬ Clashes image q) :
      DumpFine image text df.mem
  | log {ms : List Meaning} (hr : LogReads text ms) (h : ∀ m ∈ memoryIn ms, ∀ i < m.2.length, ¬ WordInside image (wordAt m i)) :
      DumpFine image text (blocks (runs (memoryIn ms)))

/-! ### Everything -/

/-- There is memory at this address. -/
def Inside (blks : List (U32 × List U8)) (a : U32) : Prop := ∃ b ∈ blks, (byteIn b a).isSome

/-- The first thing that is wrong, with this command line and these files. -/
inductive Problem (args : List Str) (disk : Str → Option Str) : Exn → Prop
  /-- A word of the command line. -/
  | word {pre rest : List Str} {os : List Opt} {m : Str} (ha : args = pre ++ rest) (hs : Spelled pre os) (h : Stuck rest m) :
      Problem args disk ⟨.invalidArgument, m⟩
  | noImage {os : List Opt} (hs : Spelled args os) (h : imageFile os = none) :
      Problem args disk ⟨.invalidArgument, asc "Must provide --bin or --elf command line option."⟩
  | noDump {os : List Opt} {n : Str} (hs : Spelled args os) (hn : imageFile os = some n) (h : lastDump os = none) :
      Problem args disk ⟨.invalidArgument, asc "Must provide --dump command line option."⟩
  | imageMissing {os : List Opt} {n d : Str} (hs : Spelled args os) (hn : imageFile os = some n) (hd : lastDump os = some d)
      (h : disk n = none) : Problem args disk ⟨.file, (asc "Failed to open \"" ++ n ++ asc "\".").take 1023⟩
  | image {os : List Opt} {n d b : Str} {e : Exn} (hs : Spelled args os) (hn : imageFile os = some n) (hd : lastDump os = some d)
      (hi : disk n = some b) (h : imageComplaint os b = some e) : Problem args disk e
  | dumpMissing {os : List Opt} {n d b : Str} (hs : Spelled args os) (hn : imageFile os = some n) (hd : lastDump os = some d)
      (hi : disk n = some b) (hc : imageComplaint os b = none) (h : disk d = none) :
      Problem args disk ⟨.file, (asc "Failed to open \"" ++ d ++ asc "\".").take 1023⟩
  | dump {os : List Opt} {n d b text : Str} {e : Exn} (hs : Spelled args os) (hn : imageFile os = some n) (hd : lastDump os = some d)
      (hi : disk n = some b) (hc : imageComplaint os b = none) (ht : disk d = some text)
      (h : DumpProblem (imageBlocks os b) text e) : Problem args disk e
  /-- An alias of an address without memory. -/
  | badAlias {os : List Opt} {n d b text : Str} {mem : List (U32 × List U8)} {pre post : List (U32 × U32 × U32)} {x : U32 × U32 × U32}
      (hs : Spelled args os) (hn : imageFile os = some n) (hd : lastDump os = some d)
      (hi : disk n = some b) (hc : imageComplaint os b = none) (ht : disk d = some text)
      (hf : DumpFine (imageBlocks os b) text mem) (ha : aliases os = pre ++ x :: post)
      (hpre : ∀ y ∈ pre, Inside (imageBlocks os b ++ mem) y.2.2) (h : ¬ Inside (imageBlocks os b ++ mem) x.2.2) :
      Problem args disk ⟨.busError, aliasComplaint x⟩

/-- Nothing is wrong. -/
inductive Fine (args : List Str) (disk : Str → Option Str) : Prop
  | mk {os : List Opt} {n d b text : Str} {mem : List (U32 × List U8)}
      (hs : Spelled args os) (hn : imageFile os = some n) (hd : lastDump os = some d)
      (hi : disk n = some b) (hc : imageComplaint os b = none) (ht : disk d = some text)
      (hf : DumpFine (imageBlocks os b) text mem) (ha : ∀ y ∈ aliases os, Inside (imageBlocks os b ++ mem) y.2.2)

/-! ### What is left out -/

/-- An image of less than 4 GiB. The segments of an ELF file fit into the address space and do not overlap, and their ends can be
computed in 32 bits. -/
def OrdinaryImage (os : List Opt) (b : Str) : Prop :=
  b.length < 2 ^ 32 ∧ (lastElf os ≠ none → NoWraps b ∧ Spec.Disjoint (elfBlocks b) ∧ ∀ r ∈ elfBlocks b, Fits r)

/-- Any file; the memory that it shows fits into the address space. -/
structure OrdinaryDump (text : Str) : Prop where
  dumpFits : ∀ bytes df u, DumpReads text bytes ∨ DumpSpoiled text bytes → df.WF → bytes = encode df ++ u → EndsAt u →
    ∀ r ∈ df.mem ++ [lastPart u], Fits r
  logFits : ∀ ms, LogReads text ms → (∀ r ∈ blocks (runs (memoryIn ms)), Fits r) ∧ ∀ r ∈ runs (memoryIn ms), 4 * r.2.length < 2 ^ 32

/-- Both, and no alias leads to another. -/
structure OrdinaryStart (args : List Str) (disk : Str → Option Str) : Prop where
  image : ∀ os n b, Spelled args os → imageFile os = some n → disk n = some b → OrdinaryImage os b
  dump : ∀ os d text, Spelled args os → lastDump os = some d → disk d = some text → OrdinaryDump text
  aliases : ∀ os, Spelled args os → NoAliasChain (aliases os)

/-- The files the program finds, each time it looks. -/
def HasDisk (p : Prog) (disk : Str → Option Str) : Prop := ∀ k n, p.host.files.opens k n = (disk n).map File.of

end Verif.Spec
