import Verif.Spec.Text
import Verif.Spec.GdbLog
import Verif.Spec.Elf
import Batteries.Data.List.Basic
import Verif.Model.CommandLine
/-
Command lines as a user means them: options with their parameters. Nothing here mentions the functions of the parser.
-/
namespace Verif.Spec
open Verif MemSim CommandLine

/-- The options. -/
inductive Opt
  | bin (file base : Str)
  | elf (file : Str)
  | dump (file : Str)
  | alias (base size redirect : Str)
  deriving DecidableEq

/-- Kinds of options: name, number of parameters, and what they are. -/
inductive Kind
  | bin | elf | dump | alias
  deriving DecidableEq

def Kind.name : Kind → String
  | .bin => "--bin" | .elf => "--elf" | .dump => "--dump" | .alias => "--alias"

def Kind.arity : Kind → Nat
  | .bin => 2 | .elf => 1 | .dump => 1 | .alias => 3

def Kind.needs : Kind → String
  | .bin => "filename and base address"
  | .elf => "filename"
  | .dump => "filename"
  | .alias => "baseAddress, size, and redirectAddress"

def Opt.kind : Opt → Kind
  | .bin .. => .bin | .elf _ => .elf | .dump _ => .dump | .alias .. => .alias

def Opt.params : Opt → List Str
  | .bin f b => [f, b] | .elf f => [f] | .dump f => [f] | .alias b s r => [b, s, r]

/-- The word is the (lower-case) name, with any letters of it in upper case. -/
def Spells (w name : Str) : Prop :=
  List.Forall₂ (fun c d => c = d ∨ (65 ≤ c.toNat ∧ c.toNat ≤ 90 ∧ d.toNat = c.toNat + 32)) w name

/-- The words are complete options, one after the other. -/
inductive Spelled : List Str → List Opt → Prop
  | nil : Spelled [] []
  | cons {w : Str} {o : Opt} {ws : List Str} {os : List Opt} (hn : Spells w (asc o.kind.name)) (h : Spelled ws os) :
      Spelled (w :: (o.params ++ ws)) (o :: os)

/-- The words do not begin with a complete option, and what the complaint is. -/
inductive Stuck : List Str → Str → Prop
  | noDashes {w : Str} {ws : List Str} (h : ¬ asc "--" <+: w) :
      Stuck (w :: ws) (asc "Command line options must start with \"--\".")
  | unknown {w : Str} {ws : List Str} (hd : asc "--" <+: w) (h : ∀ k : Kind, ¬ Spells w (asc k.name)) :
      Stuck (w :: ws) ((asc "\"" ++ w ++ asc "\" isn't a valid command line option.").take 1023)
  | tooFew {w : Str} {ws : List Str} (k : Kind) (h : Spells w (asc k.name)) (hl : ws.length < k.arity) :
      Stuck (w :: ws) (asc ("The " ++ k.name ++ " command line option requires " ++ k.needs ++ "."))

/-- The last option of each kind. -/
def lastElf (os : List Opt) : Option Str := (os.filterMap fun o => match o with | .elf f => some f | _ => none).getLast?
def lastBin (os : List Opt) : Option (Str × Str) :=
  (os.filterMap fun o => match o with | .bin f b => some (f, b) | _ => none).getLast?
def lastDump (os : List Opt) : Option Str := (os.filterMap fun o => match o with | .dump f => some f | _ => none).getLast?

/-- The aliases, in order: base address, size, address redirected to. -/
def aliases (os : List Opt) : List (U32 × U32 × U32) :=
  os.filterMap fun o => match o with
    | .alias b s r => some (Libc.strtoul32 b, Libc.strtoul32 s, Libc.strtoul32 r)
    | _ => none

/-- What is said about an alias that cannot be created. -/
def aliasComplaint (x : U32 × U32 × U32) : Str :=
  asc "Failed to create alias of 0x" ++ eightDigits x.1 ++ asc " to 0x" ++ eightDigits x.2.2 ++ asc " of size " ++ signedDecimal x.2.1 ++ asc "."

/-- Creating the aliases, one after the other, up to the first that fails. -/
def createAliases : List (U32 × U32 × U32) → M Sim Unit
  | [] => pure ()
  | x :: xs => do
    M.tryCatch (createAlias x.1 x.2.2 x.2.1) (fun e => M.throw e.code (aliasComplaint x))
    createAliases xs

/-- The reader for a dump file with these contents. -/
def readerFor (bytes : Str) : Str → M Host Unit :=
  if [0x63, 0x43] <+: bytes then Dump.readBinary else if asc "6343" <+: bytes then Dump.readHex else GdbLog.parse

/-- `CrashDebugCommandLine_Init` with these words. -/
def startUp (args : List Str) : M Prog Unit := CommandLine.init args.length args

/-- What a failed start-up writes to stderr. The message buffer holds 1023 characters. -/
def report (msg : Str) : Str := asc "ERROR: " ++ msg.take 1023 ++ asc "\n" ++ copyrightNotice ++ usage

/-- The next `fopen` of `name` gives an ordinary file with these contents. -/
def OrdinaryFile (h : Host) (name : Str) (bytes : Str) : Prop := h.files.opens h.files.next name = some (File.of bytes)

/-- No segment to be loaded starts inside an earlier one. -/
def StartsApart (b : Str) : Prop :=
  ((progHeaders b).filter ProgHeader.loadable).Pairwise fun h g => ¬ (h.paddr ≤ g.paddr ∧ g.paddr < h.paddr + h.filesz)

instance : Decidable (StartsApart b) := inferInstanceAs (Decidable (List.Pairwise _ _))

/-- Which of these segments, counting from 0, is the first to contain the start of `g`. -/
def firstWithStart (hs : List ProgHeader) (g : ProgHeader) : Nat :=
  hs.findIdx fun h => decide (h.paddr ≤ g.paddr ∧ g.paddr < h.paddr + h.filesz)

/-- How many of these segments have their start in a segment that already contained the start of another (or its own). -/
def sharedStarts (hs : List ProgHeader) : Nat := hs.length - (hs.map (firstWithStart hs)).eraseDups.length

/-- The segments of the file to be loaded. -/
def segmentsOf (b : Str) : List ProgHeader := (progHeaders b).filter ProgHeader.loadable

/-- What is in the file that the next `fopen` of `name` gives, as far as its length says. -/
def nextContents (h : Host) (name : Str) : Str :=
  match h.files.opens h.files.next name with
  | some f => f.bytes.take f.tell.toNat
  | none => []

/-- How many heap blocks a start-up with these options loses, if it loads the image: one for every segment of the ELF file whose
start is in a segment that has been marked before. -/
def imageLosses (os : List Opt) (h : Host) : Nat :=
  match lastElf os with
  | none => 0
  | some name => sharedStarts (segmentsOf (nextContents h name))

/-- Why the next file cannot be read into memory, if it cannot. -/
def fileComplaint (h : Host) (name : Str) : Option Exn :=
  match h.files.opens h.files.next name with
  | none => some ⟨.file, (asc "Failed to open \"" ++ name ++ asc "\".").take 1023⟩
  | some f =>
    if f.seekEndFails = true ∨ f.tell < 0 ∨ f.seekSetFails = true then
      some ⟨.file, (asc "Failed to get file size of \"" ++ name ++ asc "\".").take 1023⟩
    else if h.mem.heap.fails h.mem.heap.next = true then
      some ⟨.outOfMemory, (asc "Failed to allocate " ++ asc (toString f.tell) ++ asc " bytes for reading \"" ++ name ++ asc "\".").take 1023⟩
    else if (f.bytes.length : Int) < f.tell then some ⟨.file, (asc "Failed to read \"" ++ name ++ asc "\".").take 1023⟩
    else none

/-- What is said about a raw image that cannot be put into memory. -/
def rawComplaint (base : U32) : Str :=
  asc "Failed to load read-only code into memory region at address 0x" ++ eightDigits base ++ asc "."

/-- The file is there with these contents, whenever it is opened. -/
def OnDisk (h : Host) (name : Str) (bytes : Str) : Prop := ∀ k, h.files.opens k name = some (File.of bytes)

/-- An image file with these contents is valid for the options, and these are the blocks of memory it describes. -/
def ImageBlocks (os : List Opt) (bytes : Str) (blocks : List (U32 × List U8)) : Prop :=
  match lastElf os, lastBin os with
  | some _, _ => headerComplaint bytes = none ∧ TableInside bytes ∧ ContentsInside bytes ∧
      elfBlocks bytes ≠ [] ∧ blocks = elfBlocks bytes
  | none, some (_, base) => bytes ≠ [] ∧ bytes.length < 2 ^ 32 ∧ blocks = [(Libc.strtoul32 base, bytes)]
  | none, none => False

/-- A dump file with these contents holds the dump, in binary or hexadecimal form. -/
def DumpText (bytes : Str) (d : DumpFile) : Prop := bytes = encode d ∨ (asc "6343" <+: bytes ∧ HexText bytes (encode d))

/-- The file names the options select. -/
def imageFile (os : List Opt) : Option Str := (lastElf os).or ((lastBin os).map Prod.fst)

/-- The program without the selections made by `--bin`. -/
def withoutBin (p : Prog) : Prog := { p with bin := none, baseAddress := 0 }

/-- The outcome, with the final state seen through `f`. -/
def seenThrough (f : σ → σ) : Out σ α → Out σ α
  | .ok a s => .ok a (f s)
  | .throw e s => .throw e (f s)
  | .ub r => .ub r

/-- The same program with another file system: `g k n` is what the `k`-th opening of the file named `n` yields. -/
def reopened (g : Nat → Str → Option File) (p : Prog) : Prog :=
  { p with host := { p.host with files := { p.host.files with opens := g } } }

/-- The file system `g` does not differ from that of `p` where this command line names a file: the first file opened is the
image, the second and the third are the dump. -/
def SameNamedFiles (args : List Str) (g : Nat → Str → Option File) (p : Prog) : Prop :=
  ∀ os, Spelled args os →
    (∀ n, imageFile os = some n → g p.host.files.next n = p.host.files.opens p.host.files.next n) ∧
    ∀ d, lastDump os = some d → ∀ i, i = p.host.files.next + 1 ∨ i = p.host.files.next + 2 → g i d = p.host.files.opens i d

/-- No alias leads into the address range of an alias given before it. -/
def NoAliasChain (xs : List (U32 × U32 × U32)) : Prop :=
  xs.Pairwise fun x y => ¬ (x.1.toNat ≤ y.2.2.toNat ∧ y.2.2.toNat < x.1.toNat + x.2.1.toNat)

/-- Every alias leads into a block of this memory which is no alias itself, so into one that stems from the image or the dump. -/
def AliasesLoaded (xs : List (U32 × U32 × U32)) (s : Sim) : Prop :=
  ∀ x ∈ xs, ∃ r ∈ s.regions, r.isAlias = false ∧ Covers r x.2.2 1

/-- Without the aliases. -/
def withoutAliases (os : List Opt) : List Opt := os.filter fun o => o.kind ≠ .alias

/-- What start-up may raise. -/
def startUpCodes : List Exc := [.invalidArgument, .file, .outOfMemory, .elfFormat, .busError, .fileFormat, .stackOverflow]

end Verif.Spec
