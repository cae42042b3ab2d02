import Verif.Model.CommandLine
/-
Start-up on hosts whose `unsigned long` has another number of bits than 64, such as the 32-bit Windows build
(makefile:41-47): the functions that lead to a call of `strtoul`, with this number as the parameter `w`. The rest of the
code has no variable of type `unsigned long`, but for the casts of pointers at libCrashDebug/src/mriPlatform.c:223-268,
which keep the low 32 bits in any case. Simplification: the sizes of files are unbounded as in the rest of the model; a
`long` of 32 bits cannot hold the size of a file of 2 GB or more (libCrashDebug/src/CrashDebugCommandLine.c:261).
-/
namespace Verif

namespace Libc

/-- `strtoul(t, &end, 0)` where `unsigned long` has `w` bits. See libCrashDebug/src/GdbLogParser.c:248, 303, 394, 411 and
libCrashDebug/src/CrashDebugCommandLine.c:175, 207-209. -/
def strtoulW (w : Nat) (t : Str) : Nat × Str :=
  let (neg, t2) := takeSign (t.dropWhile isspace)
  let (base, t3) := takeBase t2
  let ds := t3.takeWhile (isDigit base)
  if ds = [] then (0, t)
  else
    let n := digitsVal base ds
    (if 2 ^ w ≤ n then 2 ^ w - 1 else if neg then (2 ^ w - n) % 2 ^ w else n, t3.dropWhile (isDigit base))

/-- Its result stored in a `uint32_t`. See libCrashDebug/src/GdbLogParser.c:248, 303, 394, 411 and
libCrashDebug/src/CrashDebugCommandLine.c:175, 207-209. -/
def strtoulW32 (w : Nat) (t : Str) : U32 := BitVec.ofNat 32 (strtoulW w t).1

end Libc

namespace GdbLog
open Libc MemSim

/-- `parseValue`, libCrashDebug/src/GdbLogParser.c:300-305. -/
def parseValueW (w : Nat) (values : List U32) (line : Str) : M Obj (List U32 × Str) :=
  if values.length < VALUES_SIZE then pure (values ++ [strtoulW32 w line], (strtoulW w line).2) else M.ub .outOfBounds

/-- `skipWhitespaceSymbolsAndParseNextValue`, libCrashDebug/src/GdbLogParser.c:258-263. -/
def parseNextValueW (w : Nat) (values : List U32) (line : Str) : M Obj (List U32 × Str) :=
  parseValueW w values (skipWhitespaceAndSymbol line)

/-- The loop of `parseMemoryLine`, libCrashDebug/src/GdbLogParser.c:241-242. `fuel` bounds it in the model. -/
def parseValuesW (w : Nat) : (fuel : Nat) → (values : List U32) → (line : Str) → M Obj (List U32)
  | 0, _, _ => M.ub .outOfFuel
  | fuel + 1, values, line =>
    if areMoreValues values line then do
      let (values, line) ← parseNextValueW w values line
      parseValuesW w fuel values line
    else pure values

/-- `parseMemoryLine`, libCrashDebug/src/GdbLogParser.c:234-244, with `parseAddress`, lines 246-251. -/
def parseMemoryLineW (w : Nat) (line : Str) : M Obj Results := do
  let address := strtoulW32 w line
  if line.length < 11 then M.ub .outOfBounds
  else do
    let values ← parseValuesW w (VALUES_SIZE + 1) [] (line.drop 11)
    pure (.memory address values)

/-- `parseFloatRegisterLine`, libCrashDebug/src/GdbLogParser.c:399-412, for the text after the name field. -/
def parseFloatRegisterW (w : Nat) (text : Str) : U32 :=
  let p := skipWhitespace (findWhitespace text)
  if ¬ strncmpEq p (asc "(raw ") 5 then 0xFFFFFFFF else strtoulW32 w (p.drop 5)

/-- `parseRegisterLine`, libCrashDebug/src/GdbLogParser.c:381-397. -/
def parseRegisterLineW (w : Nat) (line : Str) (offset : Nat) : M Obj Results :=
  if line.length < 15 then M.ub .outOfBounds
  else if isFloatingPointRegister offset then pure (.register offset (parseFloatRegisterW w (line.drop 15)))
  else pure (.register offset (strtoulW32 w (line.drop 15)))

/-- `parseLine`, libCrashDebug/src/GdbLogParser.c:197-206, and `parseOtherLine`, lines 421-426. -/
def parseLineW (w : Nat) (line : Str) : M Obj Results :=
  if isMemoryLine line then parseMemoryLineW w line
  else match isRegisterLine line with
    | some offset => parseRegisterLineW w line offset
    | none => pure .other

/-- The loop of `parseLines`, libCrashDebug/src/GdbLogParser.c:188-192. `fuel` bounds it in the model. -/
def parseLoopW (w : Nat) (handler : Results → M Obj Unit) : (fuel : Nat) → (rest : Str) → M Obj Unit
  | 0, _ => M.ub .outOfFuel
  | fuel + 1, rest =>
    match fgets (LINE_SIZE - 1) rest with
    | none => pure ()
    | some (buf, rest) => do
      let results ← parseLineW w (cstr buf)
      handler results
      parseLoopW w handler fuel rest

/-- `parseLines`, libCrashDebug/src/GdbLogParser.c:176-195. -/
def parseLinesW (w : Nat) (handler : Results → M Obj Unit) (bytes : Str) : M Host Unit := fun h =>
  let m : M Obj Unit := do
    parseLoopW w handler (bytes.length + 1) bytes
    let o ← M.get
    if o.regionSize ≠ 0 then onMem (createRegion o.regionStart o.regionSize) else pure ()
  match m { host := h } with
  | .ok _ o => .ok () o.host
  | .throw e o => .throw e o.host
  | .ub r => .ub r

/-- `GdbLogParse`, libCrashDebug/src/GdbLogParser.c:90-109, and `openFileAndThrowOnError`, lines 111-117. Simplification: as in
`parse`. -/
def parseW (w : Nat) (name : Str) : M Host Unit := do
  match ← Host.fopen name with
  | none => M.throwMsg .file (asc "Failed to open \"" ++ name ++ asc "\" GDB log.")
  | some f => M.tryCatch (do
      initPSPandMSP
      parseLinesW w firstPassHandler f.bytes
      rewindLogFile f
      parseLinesW w secondPassHandler f.bytes
      Host.fclose) (fun e => do
      Host.fclose
      M.rethrow e)

end GdbLog

namespace CommandLine
open Libc MemSim

/-- `parseBinFilenameOption`, libCrashDebug/src/CrashDebugCommandLine.c:167-178. -/
def parseBinFilenameOptionW (w : Nat) (argc : Int) (args : List Str) (pass : Pass) : M Prog Nat := do
  if argc < 2 then
    M.throw .invalidArgument (asc "The --bin command line option requires filename and base address.")
  else do
    if pass = .first then do
      let name ← arg args 0
      let base ← arg args 1
      M.modify fun p => { p with bin := some name, baseAddress := strtoulW32 w base }
    else pure ()
    pure 3

/-- `parseAliasOption`, libCrashDebug/src/CrashDebugCommandLine.c:200-222. -/
def parseAliasOptionW (w : Nat) (argc : Int) (args : List Str) (pass : Pass) : M Prog Nat := do
  if argc < 3 then
    M.throw .invalidArgument (asc "The --alias command line option requires baseAddress, size, and redirectAddress.")
  else do
    if pass = .second then do
      let baseAddress := strtoulW32 w (← arg args 0)
      let size := strtoulW32 w (← arg args 1)
      let redirectAddress := strtoulW32 w (← arg args 2)
      M.tryCatch (onMemory (Host.onMem (createAlias baseAddress redirectAddress size)))
        (fun e => M.throw e.code (asc "Failed to create alias of 0x" ++ fmt08X baseAddress ++ asc " to 0x" ++
          fmt08X redirectAddress ++ asc " of size " ++ Elf.fmtD size ++ asc "."))
    else pure ()
    pure 4

/-- `parseFlagArgument`, libCrashDebug/src/CrashDebugCommandLine.c:153-165. -/
def parseFlagArgumentW (w : Nat) (argc : Int) (args : List Str) (pass : Pass) : M Prog Nat := do
  let a ← arg args 0
  if strcasecmpEq a (asc "--bin") then parseBinFilenameOptionW w (argc - 1) (args.drop 1) pass
  else if strcasecmpEq a (asc "--elf") then parseElfFilenameOption (argc - 1) (args.drop 1) pass
  else if strcasecmpEq a (asc "--dump") then parseDumpFilenameOption (argc - 1) (args.drop 1) pass
  else if strcasecmpEq a (asc "--alias") then parseAliasOptionW w (argc - 1) (args.drop 1) pass
  else M.throwMsg .invalidArgument (asc "\"" ++ a ++ asc "\" isn't a valid command line option.")

/-- `parseArgument`, libCrashDebug/src/CrashDebugCommandLine.c:140-146. -/
def parseArgumentW (w : Nat) (argc : Int) (args : List Str) (pass : Pass) : M Prog Nat := do
  let a ← arg args 0
  if hasDoubleDashPrefix a then parseFlagArgumentW w argc args pass
  else M.throw .invalidArgument (asc "Command line options must start with \"--\".")

/-- The loop of `parseArguments`, libCrashDebug/src/CrashDebugCommandLine.c:132-137. `fuel` bounds it; see `Base.lean`. -/
def parseLoopW (w : Nat) (pass : Pass) : (fuel : Nat) → (argc : Int) → (args : List Str) → M Prog Unit
  | 0, _, _ => M.ub .outOfFuel
  | fuel + 1, argc, args => do
    if argc = 0 then pure ()
    else do
      let argumentsUsed ← parseArgumentW w argc args pass
      parseLoopW w pass fuel (argc - argumentsUsed) (args.drop argumentsUsed)

/-- `parseArguments`, libCrashDebug/src/CrashDebugCommandLine.c:130-138. -/
def parseArgumentsW (w : Nat) (argc : Int) (args : List Str) (pass : Pass) : M Prog Unit :=
  parseLoopW w pass (args.length + 1) argc args

/-- `loadDumpFile`, libCrashDebug/src/CrashDebugCommandLine.c:313-327. -/
def loadDumpFileW (w : Nat) : M Prog Unit := do
  match (← M.get).dump with
  | none => M.ub .nullDeref
  | some name => do
    match ← getFileType name with
    | .gdbLog => onMemory (GdbLog.parseW w name)
    | .crashCatcherHex => onMemory (Dump.readHex name)
    | .crashCatcherBin => onMemory (Dump.readBinary name)

/-- The `__try` block of `CrashDebugCommandLine_Init`, libCrashDebug/src/CrashDebugCommandLine.c:111-117. -/
def initBodyW (w : Nat) (argc : Int) (argv : List Str) : M Prog Unit := do
  clear
  parseArgumentsW w argc argv .first
  throwIfRequiredArgumentNotSpecified
  initMemory
  loadImageFile
  loadDumpFileW w
  parseArgumentsW w argc argv .second

/-- `CrashDebugCommandLine_Init`, libCrashDebug/src/CrashDebugCommandLine.c:107-128. -/
def initW (w : Nat) (argc : Int) (argv : List Str) : M Prog Unit :=
  M.tryCatch (initBodyW w argc argv) (fun e => do
    displayExceptionMessage e
    print copyrightNotice
    print usage
    uninitMemory
    M.modify fun p => { p with memory := false }
    M.rethrow e)

end CommandLine
end Verif
