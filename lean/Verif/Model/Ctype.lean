import Verif.Model.CommandLine
/-
Start-up where a call of `isspace` with a negative number other than `EOF` is undefined, as the C standard says (C11 7.4p1).
The log parser passes it a plain `char`, so on hosts whose `char` is signed the bytes from 0x80 to 0xFE are such numbers; 0xFF
is -1, the usual `EOF`. The rest of the code calls no function of `ctype.h`. `signed` says whether `char` is signed. C
libraries look the character up in a table, so the undefined behaviour is called `outOfBounds` here.
-/
namespace Verif

namespace Libc

/-- `isspace(*pLine)`. See libCrashDebug/src/GdbLogParser.c:275, 292, 416. -/
def isspaceC (signed : Bool) (c : U8) : M σ Bool :=
  if signed = true ∧ 0x80 ≤ c.toNat ∧ c.toNat ≠ 0xFF then M.ub .outOfBounds else pure (isspace c)

end Libc

namespace GdbLog
open Libc MemSim

/-- `skipWhitespace`, libCrashDebug/src/GdbLogParser.c:273-278. -/
def skipWhitespaceC (signed : Bool) : Str → M Obj Str
  | [] => pure []
  | c :: t => do
    if ← isspaceC signed c then skipWhitespaceC signed t else pure (c :: t)

/-- The loop of `skipSymbol`, libCrashDebug/src/GdbLogParser.c:286-295. -/
def skipSymbolLoopC (signed : Bool) : Str → Int → M Obj Str
  | [], _ => pure []
  | c :: t, level =>
    if c = 0x3C then skipSymbolLoopC signed t (level + 1)
    else if c = 0x3E then skipSymbolLoopC signed t (level - 1)
    else do
      let space ← isspaceC signed c
      if space ∧ level = 0 then pure (c :: t) else skipSymbolLoopC signed t level

/-- `skipSymbol`, libCrashDebug/src/GdbLogParser.c:280-298. -/
def skipSymbolC (signed : Bool) (line : Str) : M Obj Str :=
  if line.head? ≠ some 0x3C then pure line else skipSymbolLoopC signed line 0

/-- `skipWhitespaceAndSymbol`, libCrashDebug/src/GdbLogParser.c:265-271. -/
def skipWhitespaceAndSymbolC (signed : Bool) (line : Str) : M Obj Str := do
  let line ← skipWhitespaceC signed line
  let line ← skipSymbolC signed line
  skipWhitespaceC signed line

/-- `skipWhitespaceSymbolsAndParseNextValue`, libCrashDebug/src/GdbLogParser.c:258-263. -/
def parseNextValueC (signed : Bool) (values : List U32) (line : Str) : M Obj (List U32 × Str) := do
  let line ← skipWhitespaceAndSymbolC signed line
  parseValue values line

/-- The loop of `parseMemoryLine`, libCrashDebug/src/GdbLogParser.c:241-242. `fuel` bounds it in the model. -/
def parseValuesC (signed : Bool) : (fuel : Nat) → (values : List U32) → (line : Str) → M Obj (List U32)
  | 0, _, _ => M.ub .outOfFuel
  | fuel + 1, values, line =>
    if areMoreValues values line then do
      let (values, line) ← parseNextValueC signed values line
      parseValuesC signed fuel values line
    else pure values

/-- `parseMemoryLine`, libCrashDebug/src/GdbLogParser.c:234-244, with `parseAddress`, lines 246-251. -/
def parseMemoryLineC (signed : Bool) (line : Str) : M Obj Results := do
  let address := strtoul32 line
  if line.length < 11 then M.ub .outOfBounds
  else do
    let values ← parseValuesC signed (VALUES_SIZE + 1) [] (line.drop 11)
    pure (.memory address values)

/-- `findWhitespace`, libCrashDebug/src/GdbLogParser.c:414-419. -/
def findWhitespaceC (signed : Bool) : Str → M Obj Str
  | [] => pure []
  | c :: t => do
    if ← isspaceC signed c then pure (c :: t) else findWhitespaceC signed t

/-- `parseFloatRegisterLine`, libCrashDebug/src/GdbLogParser.c:399-412, for the text after the name field. -/
def parseFloatRegisterC (signed : Bool) (text : Str) : M Obj U32 := do
  let p ← findWhitespaceC signed text
  let p ← skipWhitespaceC signed p
  if ¬ strncmpEq p (asc "(raw ") 5 then pure 0xFFFFFFFF else pure (strtoul32 (p.drop 5))

/-- `parseRegisterLine`, libCrashDebug/src/GdbLogParser.c:381-397. -/
def parseRegisterLineC (signed : Bool) (line : Str) (offset : Nat) : M Obj Results :=
  if line.length < 15 then M.ub .outOfBounds
  else if isFloatingPointRegister offset then do
    let v ← parseFloatRegisterC signed (line.drop 15)
    pure (.register offset v)
  else pure (.register offset (strtoul32 (line.drop 15)))

/-- `parseLine`, libCrashDebug/src/GdbLogParser.c:197-206, and `parseOtherLine`, lines 421-426. -/
def parseLineC (signed : Bool) (line : Str) : M Obj Results :=
  if isMemoryLine line then parseMemoryLineC signed line
  else match isRegisterLine line with
    | some offset => parseRegisterLineC signed line offset
    | none => pure .other

/-- The loop of `parseLines`, libCrashDebug/src/GdbLogParser.c:188-192. `fuel` bounds it in the model. -/
def parseLoopC (signed : Bool) (handler : Results → M Obj Unit) : (fuel : Nat) → (rest : Str) → M Obj Unit
  | 0, _ => M.ub .outOfFuel
  | fuel + 1, rest =>
    match fgets (LINE_SIZE - 1) rest with
    | none => pure ()
    | some (buf, rest) => do
      let results ← parseLineC signed (cstr buf)
      handler results
      parseLoopC signed handler fuel rest

/-- `parseLines`, libCrashDebug/src/GdbLogParser.c:176-195. -/
def parseLinesC (signed : Bool) (handler : Results → M Obj Unit) (bytes : Str) : M Host Unit := fun h =>
  let m : M Obj Unit := do
    parseLoopC signed handler (bytes.length + 1) bytes
    let o ← M.get
    if o.regionSize ≠ 0 then onMem (createRegion o.regionStart o.regionSize) else pure ()
  match m { host := h } with
  | .ok _ o => .ok () o.host
  | .throw e o => .throw e o.host
  | .ub r => .ub r

/-- `GdbLogParse`, libCrashDebug/src/GdbLogParser.c:90-109, and `openFileAndThrowOnError`, lines 111-117. Simplification: as in
`parse`. -/
def parseC (signed : Bool) (name : Str) : M Host Unit := do
  match ← Host.fopen name with
  | none => M.throwMsg .file (asc "Failed to open \"" ++ name ++ asc "\" GDB log.")
  | some f => M.tryCatch (do
      initPSPandMSP
      parseLinesC signed firstPassHandler f.bytes
      rewindLogFile f
      parseLinesC signed secondPassHandler f.bytes
      Host.fclose) (fun e => do
      Host.fclose
      M.rethrow e)

end GdbLog

namespace CommandLine
open Libc MemSim

/-- `loadDumpFile`, libCrashDebug/src/CrashDebugCommandLine.c:313-327. -/
def loadDumpFileC (signed : Bool) : M Prog Unit := do
  match (← M.get).dump with
  | none => M.ub .nullDeref
  | some name => do
    match ← getFileType name with
    | .gdbLog => onMemory (GdbLog.parseC signed name)
    | .crashCatcherHex => onMemory (Dump.readHex name)
    | .crashCatcherBin => onMemory (Dump.readBinary name)

/-- The `__try` block of `CrashDebugCommandLine_Init`, libCrashDebug/src/CrashDebugCommandLine.c:111-117. -/
def initBodyC (signed : Bool) (argc : Int) (argv : List Str) : M Prog Unit := do
  clear
  parseArguments argc argv .first
  throwIfRequiredArgumentNotSpecified
  initMemory
  loadImageFile
  loadDumpFileC signed
  parseArguments argc argv .second

/-- `CrashDebugCommandLine_Init`, libCrashDebug/src/CrashDebugCommandLine.c:107-128. -/
def initC (signed : Bool) (argc : Int) (argv : List Str) : M Prog Unit :=
  M.tryCatch (initBodyC signed argc argv) (fun e => do
    displayExceptionMessage e
    print copyrightNotice
    print usage
    uninitMemory
    M.modify fun p => { p with memory := false }
    M.rethrow e)

end CommandLine
end Verif
