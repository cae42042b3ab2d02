import Verif.Model.Dump
import Verif.Model.Elf
import Verif.Model.GdbLog
/-
Model of libCrashDebug/src/CrashDebugCommandLine.c (line numbers refer to that file unless stated otherwise) and of
libcommon/src/common.c.
-/
namespace Verif

/-! ### libcommon/src/common.c -/

/-- An open file with its position. After `fseek(SEEK_END)` the position is what `ftell` reports there (`File.tell`;
negative when `ftell` fails). See libcommon/src/common.c:17-34. -/
structure Handle where
  file : File
  pos : Int := 0

/-- `fseek(pFile, 0, SEEK_END) == -1`. See libcommon/src/common.c:22. -/
def Handle.seekEnd : M Handle Bool := fun h =>
  if h.file.seekEndFails then .ok true h else .ok false { h with pos := h.file.tell }

/-- `fseek(pFile, 0, SEEK_SET) == -1`. See libcommon/src/common.c:30. -/
def Handle.seekSet : M Handle Bool := fun h =>
  if h.file.seekSetFails then .ok true h else .ok false { h with pos := 0 }

/-- `ftell`. See libcommon/src/common.c:26. -/
def Handle.tell : M Handle Int := fun h => .ok h.pos h

/-- What `fread` of `n` bytes stores. See libCrashDebug/src/CrashDebugCommandLine.c:280, 336. -/
def Handle.read (h : Handle) (n : Int) : Str := (h.file.bytes.drop h.pos.toNat).take n.toNat

/-- `GetFileSize`, libcommon/src/common.c:17-35. -/
def getFileSize : M Handle Int := do
  if ← Handle.seekEnd then M.throw .file
  else do
    let fileSize ← Handle.tell
    if fileSize < 0 then M.throw .file
    else do
      if ← Handle.seekSet then M.throw .file
      else pure fileSize

namespace CommandLine
open MemSim Libc

/-- `struct CrashDebugCommandLine` (include/CrashDebugCommandLine.h:20-28) and what surrounds it. `none` is a NULL file
name; `memory` tells whether `pMemory` is not NULL (it then points to the one simulator, `host.mem`); `host.ctx` is
`context`. `err` is the text written to stderr so far. -/
structure Prog where
  elf : Option Str := none
  bin : Option Str := none
  dump : Option Str := none
  memory : Bool := false
  baseAddress : U32 := 0
  host : Host
  err : Str := []

/-- Code that works on the host. See libCrashDebug/src/CrashDebugCommandLine.c:315-326. -/
def onHost (m : M Host α) : M Prog α := M.zoom Prog.host (fun h p => { p with host := h }) m

/-- Code that is handed `pMemory`. All of it dereferences the pointer. See include/CrashDebugCommandLine.h:20-28. -/
def onMemory (m : M Host α) : M Prog α := fun p => if p.memory then onHost m p else .ub .nullDeref

/-- `malloc`, outside the simulator. See libCrashDebug/src/CrashDebugCommandLine.c:276. -/
def mallocP : M Prog Bool := onHost (Host.onMem malloc)

/-- `free` of one block, outside the simulator. See libCrashDebug/src/CrashDebugCommandLine.c:248, 252, 288. -/
def freeP : M Prog Unit := onHost (Host.onMem (free 1))

/-- `fprintf(stderr, ...)`. See libCrashDebug/src/CrashDebugCommandLine.c:30, 38, 379. -/
def print (t : Str) : M Prog Unit := M.modify fun p => { p with err := p.err ++ t }

/-- `displayCopyrightNotice`, lines 28-34, with include/version.h:18-32. -/
def copyrightNotice : Str := asc
  ("\nCrashDebug - Cortex-M Post-Mortem Debugging Aid (1.7-20210805.0)\n\n" ++
   "Copyright (C) 2021 Adam Green\n" ++
   "This is free software; see the source for copying conditions.  There is NO\n" ++
   "warranty; not even for MERCHANTABILITY or FITNESS FOR A PARTICULAR PURPOSE.\n" ++
   "\n")

/-- `displayUsage`, libCrashDebug/src/CrashDebugCommandLine.c:36-62. -/
def usage : Str := asc
  ("Usage: CrashDebug (--elf elfFilename | --bin imageFilename baseAddress)\n" ++
   "                   --dump dumpFilename\n" ++
   "                  [--alias baseAddress size redirectAddress]\n" ++
   "Where: NOTE: The --elf and --bin options are mutually exclusive.  Use one\n" ++
   "             or the other but not both.\n" ++
   "       --elf is used to provide the filename of the .elf image containing\n" ++
   "         the device's FLASH contents at the time of the crash.\n" ++
   "       --bin is used to provide the filename of the binary image loaded into\n" ++
   "         the device's FLASH when the crash occurred. These binary images are\n" ++
   "         typically generated by running:\n" ++
   "           \"arm-none-eabi-objcopy -O binary input.elf output.bin\"\n" ++
   "         The baseAddress parameter indicates where the contents of the .bin\n" ++
   "         file was loaded into FLASH.  This address will typically be\n" ++
   "         0x00000000 unless a boot loader was in use.\n" ++
   "       --dump is used to provide the filename of the crash dump which\n" ++
   "         contains the contents of RAM and the CPU registers at the time of\n" ++
   "         the crash.  See the following link to learn more about generating\n" ++
   "         these crash dumps:\n" ++
   "           http://github.com/adamgreen/CrashDebug#crash-dump-generation\n" ++
   "       --alias is used to trap memory accesses to the region defined\n" ++
   "         by baseAddress/size and redirect them to the region at\n" ++
   "         redirectAddress. For example acesses to baseAddress will access\n" ++
   "         redirectAddress instead).\n")

/-- `displayExceptionMessage`, lines 376-380. The message buffer holds 1023 characters (include/try_catch.h:97-100). -/
def displayExceptionMessage (e : Exn) : M Prog Unit := print (asc "ERROR: " ++ e.msg.take 1023 ++ asc "\n")

/-- `ParsePass`, libCrashDebug/src/CrashDebugCommandLine.c:78-82. -/
inductive Pass
  | first | second
  deriving DecidableEq

/-- Reading `ppArgs[i]`; the list is what is left of the argument vector. See libCrashDebug/src/CrashDebugCommandLine.c:174-175,
186, 196, 207-209. -/
def arg (args : List Str) (i : Nat) : M Prog Str :=
  match args[i]? with
  | some a => pure a
  | none => M.ub .outOfBounds

/-- `tolower` in the "C" locale. See libCrashDebug/src/CrashDebugCommandLine.c:155-161. -/
def tolower (c : U8) : U8 := if 0x41 ≤ c.toNat ∧ c.toNat ≤ 0x5A then c + 0x20 else c

/-- `strcasecmp(a, b) == 0`. See libCrashDebug/src/CrashDebugCommandLine.c:155-161. -/
def strcasecmpEq (a b : Str) : Bool := a.map tolower = b.map tolower

/-- `hasDoubleDashPrefix`, libCrashDebug/src/CrashDebugCommandLine.c:148-151. (The terminating NUL ends the comparison.) -/
def hasDoubleDashPrefix (a : Str) : Bool := a[0]? = some 0x2D && a[1]? = some 0x2D

/-- `parseBinFilenameOption`, libCrashDebug/src/CrashDebugCommandLine.c:167-178. -/
def parseBinFilenameOption (argc : Int) (args : List Str) (pass : Pass) : M Prog Nat := do
  if argc < 2 then
    M.throw .invalidArgument (asc "The --bin command line option requires filename and base address.")
  else do
    if pass = .first then do
      let name ← arg args 0
      let base ← arg args 1
      M.modify fun p => { p with bin := some name, baseAddress := strtoul32 base }
    else pure ()
    pure 3

/-- `parseElfFilenameOption`, libCrashDebug/src/CrashDebugCommandLine.c:180-188. -/
def parseElfFilenameOption (argc : Int) (args : List Str) (pass : Pass) : M Prog Nat := do
  if argc < 1 then M.throw .invalidArgument (asc "The --elf command line option requires filename.")
  else do
    if pass = .first then do
      let name ← arg args 0
      M.modify fun p => { p with elf := some name }
    else pure ()
    pure 2

/-- `parseDumpFilenameOption`, libCrashDebug/src/CrashDebugCommandLine.c:190-198. -/
def parseDumpFilenameOption (argc : Int) (args : List Str) (pass : Pass) : M Prog Nat := do
  if argc < 1 then M.throw .invalidArgument (asc "The --dump command line option requires filename.")
  else do
    if pass = .first then do
      let name ← arg args 0
      M.modify fun p => { p with dump := some name }
    else pure ()
    pure 2

/-- `parseAliasOption`, libCrashDebug/src/CrashDebugCommandLine.c:200-222. -/
def parseAliasOption (argc : Int) (args : List Str) (pass : Pass) : M Prog Nat := do
  if argc < 3 then
    M.throw .invalidArgument (asc "The --alias command line option requires baseAddress, size, and redirectAddress.")
  else do
    if pass = .second then do
      let baseAddress := strtoul32 (← arg args 0)
      let size := strtoul32 (← arg args 1)
      let redirectAddress := strtoul32 (← arg args 2)
      M.tryCatch (onMemory (Host.onMem (createAlias baseAddress redirectAddress size)))
        (fun e => M.throw e.code (asc "Failed to create alias of 0x" ++ fmt08X baseAddress ++ asc " to 0x" ++
          fmt08X redirectAddress ++ asc " of size " ++ Elf.fmtD size ++ asc "."))
    else pure ()
    pure 4

/-- `parseFlagArgument`, libCrashDebug/src/CrashDebugCommandLine.c:153-165. -/
def parseFlagArgument (argc : Int) (args : List Str) (pass : Pass) : M Prog Nat := do
  let a ← arg args 0
  if strcasecmpEq a (asc "--bin") then parseBinFilenameOption (argc - 1) (args.drop 1) pass
  else if strcasecmpEq a (asc "--elf") then parseElfFilenameOption (argc - 1) (args.drop 1) pass
  else if strcasecmpEq a (asc "--dump") then parseDumpFilenameOption (argc - 1) (args.drop 1) pass
  else if strcasecmpEq a (asc "--alias") then parseAliasOption (argc - 1) (args.drop 1) pass
  else M.throwMsg .invalidArgument (asc "\"" ++ a ++ asc "\" isn't a valid command line option.")

/-- `parseArgument`, libCrashDebug/src/CrashDebugCommandLine.c:140-146. -/
def parseArgument (argc : Int) (args : List Str) (pass : Pass) : M Prog Nat := do
  let a ← arg args 0
  if hasDoubleDashPrefix a then parseFlagArgument argc args pass
  else M.throw .invalidArgument (asc "Command line options must start with \"--\".")

/-- The loop of `parseArguments`, libCrashDebug/src/CrashDebugCommandLine.c:132-137. `fuel` bounds it; see `Base.lean`. -/
def parseLoop (pass : Pass) : (fuel : Nat) → (argc : Int) → (args : List Str) → M Prog Unit
  | 0, _, _ => M.ub .outOfFuel
  | fuel + 1, argc, args => do
    if argc = 0 then pure ()
    else do
      let argumentsUsed ← parseArgument argc args pass
      parseLoop pass fuel (argc - argumentsUsed) (args.drop argumentsUsed)

/-- `parseArguments`, libCrashDebug/src/CrashDebugCommandLine.c:130-138. -/
def parseArguments (argc : Int) (args : List Str) (pass : Pass) : M Prog Unit :=
  parseLoop pass (args.length + 1) argc args

/-- `throwIfRequiredArgumentNotSpecified`, libCrashDebug/src/CrashDebugCommandLine.c:224-230. -/
def throwIfRequiredArgumentNotSpecified : M Prog Unit := do
  let p ← M.get
  if p.bin = none ∧ p.elf = none then
    M.throw .invalidArgument (asc "Must provide --bin or --elf command line option.")
  else if p.dump = none then M.throw .invalidArgument (asc "Must provide --dump command line option.")
  else pure ()

/-- `struct FileData`, libCrashDebug/src/CrashDebugCommandLine.c:65-69: the buffer `pData` and `dataSize`. -/
structure FileData where
  data : Str
  dataSize : Int

/-- The local variables of `loadFileData`, libCrashDebug/src/CrashDebugCommandLine.c:259-261, beside the program. -/
structure LoadState where
  prog : Prog
  pFile : Option Handle := none
  pBuffer : Option Str := none
  fileSize : Int := 0

/-- libCrashDebug/src/CrashDebugCommandLine.c:276, 288. -/
def onProg (m : M Prog α) : M LoadState α := M.zoom LoadState.prog (fun p s => { s with prog := p }) m

/-- Calling `GetFileSize(pFile)`. See libCrashDebug/src/CrashDebugCommandLine.c:271-274. -/
def fileSizeOf : M LoadState Int := fun s =>
  match s.pFile with
  | none => .ub .nullDeref
  | some h =>
    match getFileSize h with
    | .ok n h' => .ok n { s with pFile := some h' }
    | .throw e h' => .throw e { s with pFile := some h' }
    | .ub r => .ub r

/-- Calling `fread(pBuffer, 1, fileSize, pFile)`: the bytes stored in the buffer. See
libCrashDebug/src/CrashDebugCommandLine.c:280. -/
def freadAll : M LoadState Str := fun s =>
  match s.pFile with
  | none => .ub .nullDeref
  | some h => .ok (h.read s.fileSize) { s with pBuffer := some (h.read s.fileSize) }

/-- The `__try` block of `loadFileData`, libCrashDebug/src/CrashDebugCommandLine.c:266-284. -/
def loadFileBody (name : Str) : M LoadState Unit := do
  let f ← onProg (onHost (Host.fopen name))
  M.modify fun s => { s with pFile := f.map fun f => { file := f } }
  if f.isNone then M.throwMsg .file (asc "Failed to open \"" ++ name ++ asc "\".")
  else do
    let n ← M.tryCatch fileSizeOf (fun e =>
      M.throwMsg e.code (asc "Failed to get file size of \"" ++ name ++ asc "\"."))
    M.modify fun s => { s with fileSize := n }
    if ← onProg mallocP then do
      M.modify fun s => { s with pBuffer := some [] }
      let bytes ← freadAll
      if (bytes.length : Int) ≠ n then M.throwMsg .file (asc "Failed to read \"" ++ name ++ asc "\".")
      else onProg (onHost Host.fclose)
    else
      M.throwMsg .outOfMemory (asc "Failed to allocate " ++ asc (toString n) ++ asc " bytes for reading \"" ++ name ++ asc "\".")

/-- The `__catch` block of `loadFileData`, libCrashDebug/src/CrashDebugCommandLine.c:286-292. -/
def loadFileCatch (buffer file : Bool) (e : Exn) : M Prog α := do
  if buffer then freeP else pure ()
  if file then onHost Host.fclose else pure ()
  M.rethrow e

/-- `loadFileData`, libCrashDebug/src/CrashDebugCommandLine.c:257-297. -/
def loadFileData (name : Str) : M Prog FileData := fun p =>
  match loadFileBody name { prog := p } with
  | .ok _ s => .ok ⟨s.pBuffer.getD [], s.fileSize⟩ s.prog
  | .throw e s => loadFileCatch s.pBuffer.isSome s.pFile.isSome e s.prog
  | .ub r => .ub r

/-- `loadBinFile`, libCrashDebug/src/CrashDebugCommandLine.c:299-311. `dataSize` is a `long` that is passed as `uint32_t`. -/
def loadBinFile (fd : FileData) : M Prog Unit := do
  let base := (← M.get).baseAddress
  M.tryCatch (do
      onMemory (Host.onMem (createRegion base (BitVec.ofInt 32 fd.dataSize)))
      onMemory (Host.onMem (loadFromFlashImage base fd.data (BitVec.ofInt 32 fd.dataSize)))
      onMemory (Host.onMem (makeRegionReadOnly base)))
    (fun e => M.throw e.code (asc "Failed to load read-only code into memory region at address 0x" ++ fmt08X base ++ asc "."))

/-- `loadImageFile`, libCrashDebug/src/CrashDebugCommandLine.c:232-255. What `loadFileData` raises passes through a catch block with nothing to free.
A `long` size is passed to `ElfLoad_FromMemory` as `size_t`; it is not negative here. -/
def loadImageFile : M Prog Unit := do
  let p ← M.get
  match p.elf with
  | some name => do
    let fd ← loadFileData name
    M.tryCatch (do
      onMemory (Host.onMem (Elf.fromMemory fd.data fd.dataSize.toNat))
      freeP) (fun e => do freeP; M.rethrow e)
  | none =>
    match p.bin with
    | some name => do
      let fd ← loadFileData name
      M.tryCatch (do loadBinFile fd; freeP) (fun e => do freeP; M.rethrow e)
    | none => M.ub .nullDeref

/-- `DumpFileType`, libCrashDebug/src/CrashDebugCommandLine.c:71-76. -/
inductive DumpFileType
  | gdbLog | crashCatcherBin | crashCatcherHex
  deriving DecidableEq

/-- `nibbleDigit`, libCrashDebug/src/CrashDebugCommandLine.c:370-374. -/
def nibbleDigit (n : U8) : Option U8 := (asc "0123456789ABCDEF")[n.toNat]?
/-- `hiNibbleDigit`, libCrashDebug/src/CrashDebugCommandLine.c:360-363, and `loNibbleDigit`, lines 365-368. -/
def hiNibbleDigit (b : U8) : Option U8 := nibbleDigit (b >>> 4)
/-- `loNibbleDigit`, libCrashDebug/src/CrashDebugCommandLine.c:365-368. -/
def loNibbleDigit (b : U8) : Option U8 := nibbleDigit (b &&& 0xF)

/-- `hasBinaryCrashCatcherSignature`, libCrashDebug/src/CrashDebugCommandLine.c:347-350; the signature bytes are 0x63 and 0x43 as in `Dump.lean`. -/
def hasBinarySignature (hdr : Str) : Bool := hdr[0]? = some 0x63 && hdr[1]? = some 0x43

/-- `hasHexCrashCatcherSignature`, libCrashDebug/src/CrashDebugCommandLine.c:352-358. -/
def hasHexSignature (hdr : Str) : Bool :=
  hdr[0]? = hiNibbleDigit 0x63 && hdr[1]? = loNibbleDigit 0x63 &&
  hdr[2]? = hiNibbleDigit 0x43 && hdr[3]? = loNibbleDigit 0x43

/-- `getFileType`, libCrashDebug/src/CrashDebugCommandLine.c:329-345: up to four bytes are read over a buffer of zeroes. -/
def getFileType (name : Str) : M Prog DumpFileType := do
  match ← onHost (Host.fopen name) with
  | none => M.throwMsg .file (asc "Failed to open \"" ++ name ++ asc "\".")
  | some f => do
    let n := f.bytes.take 4
    let hdr := n ++ List.replicate (4 - n.length) 0
    onHost Host.fclose
    if hasBinarySignature hdr then pure .crashCatcherBin
    else if hasHexSignature hdr then pure .crashCatcherHex
    else pure .gdbLog

/-- `loadDumpFile`, libCrashDebug/src/CrashDebugCommandLine.c:313-327. -/
def loadDumpFile : M Prog Unit := do
  match (← M.get).dump with
  | none => M.ub .nullDeref
  | some name => do
    match ← getFileType name with
    | .gdbLog => onMemory (GdbLog.parse name)
    | .crashCatcherHex => onMemory (Dump.readHex name)
    | .crashCatcherBin => onMemory (Dump.readBinary name)

/-- libCrashDebug/src/CrashDebugCommandLine.c:111, `memset`. -/
def clear : M Prog Unit := M.modify fun p =>
  { p with elf := none, bin := none, dump := none, memory := false, baseAddress := 0, host := { p.host with ctx := {} } }

/-- Line 114: `MemorySim_Init` (libCrashDebug/src/MemorySim.c:129-134) returns the one simulator, zeroed. -/
def initMemory : M Prog Unit := M.modify fun p =>
  { p with memory := true, host := { p.host with mem := MemSim.init p.host.mem.heap } }

/-- `MemorySim_Uninit(pThis->pMemory)`: does nothing for NULL (libCrashDebug/src/MemorySim.c:142-143). -/
def uninitMemory : M Prog Unit := do
  if (← M.get).memory then onHost (Host.onMem MemSim.uninit) else pure ()

/-- The `__try` block of `CrashDebugCommandLine_Init`, libCrashDebug/src/CrashDebugCommandLine.c:111-117. -/
def initBody (argc : Int) (argv : List Str) : M Prog Unit := do
  clear
  parseArguments argc argv .first
  throwIfRequiredArgumentNotSpecified
  initMemory
  loadImageFile
  loadDumpFile
  parseArguments argc argv .second

/-- `CrashDebugCommandLine_Init`, libCrashDebug/src/CrashDebugCommandLine.c:107-128. -/
def init (argc : Int) (argv : List Str) : M Prog Unit :=
  M.tryCatch (initBody argc argv) (fun e => do
    displayExceptionMessage e
    print copyrightNotice
    print usage
    uninitMemory
    M.modify fun p => { p with memory := false }
    M.rethrow e)

/-- `CrashDebugCommandLine_Uninit`, libCrashDebug/src/CrashDebugCommandLine.c:383-386. -/
def uninit : M Prog Unit := uninitMemory

end CommandLine
end Verif
