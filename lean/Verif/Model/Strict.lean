import Verif.Model.Platform
import Verif.Model.CommandLine
/-
The same program on a host that is strict about alignment.

MemorySim.c:577-605 and 323-331 access its buffers through `uint32_t*` and `uint16_t*`, MemorySim.c:305-316 reads the caller's buffer
through `uint32_t*`, and ElfLoad.c:105-143 reads the file's buffer through `Elf32_Phdr*`. Using a pointer that is not a multiple of the
type's size (4 for `Elf32_Phdr`) is undefined (C11 6.3.2.3 paragraph 7). The other files of the model take it to work. Here the functions
that do it are repeated, with the suffix `S`, and give `ub .misaligned` where the pointer is misaligned. Blocks from `malloc` are aligned
for every type, so a pointer is aligned if and only if its offset in its block is a multiple of the size. Functions that make accesses of
one byte only, as those that load crash dumps (CrashCatcherDump.c), need no second version. `MemorySim_CreateRegionsFromFlashImage`, which
only unit tests call, has none.
-/
namespace Verif
open MemSim

/-- Using a pointer, `offset` bytes into a block from `malloc`, for an access of `n` bytes. See libCrashDebug/src/MemorySim.c:577-605. -/
def aligned (offset n : Nat) : M σ Unit := if offset % n = 0 then pure () else M.ub .misaligned

namespace MemSim

/-- `read8/16/32`, libCrashDebug/src/MemorySim.c:577-590. -/
def readS (n : Nat) (address : U32) : M Sim Nat := do
  let p ← getDataPointer address n READING true
  aligned p.2 n
  let bs ← hostRead p n
  pure (leVal bs)

/-- `write8/16/32`, libCrashDebug/src/MemorySim.c:592-605. -/
def writeS (n : Nat) (address : U32) (value : Nat) : M Sim Unit := do
  let p ← getDataPointer address n WRITING true
  aligned p.2 n
  hostWrite p (leBytes n value)

/-- `load32` / `load8`, libCrashDebug/src/MemorySim.c:323-331. -/
def loadS (address : U32) (bs : List U8) : M Sim Unit := do
  let p ← getDataPointer address bs.length LOADING false
  aligned p.2 bs.length
  hostWrite p bs

/-- The byte loop of `MemorySim_LoadFromFlashImage`, libCrashDebug/src/MemorySim.c:318-320. -/
def loadBytesS : (n : Nat) → (address : U32) → (src : List U8) → M Sim Unit
  | 0, _, _ => pure ()
  | _ + 1, _, [] => M.ub .outOfBounds
  | n + 1, address, b :: src => do
    loadS address [b]
    loadBytesS n (address + 1) src

/-- The word loop of `MemorySim_LoadFromFlashImage`, libCrashDebug/src/MemorySim.c:311-316, followed by the byte loop. -/
def loadWordsS : (src : List U8) → (n : Nat) → (address : U32) → M Sim Unit
  | b0 :: b1 :: b2 :: b3 :: rest, n, address =>
    if 4 < n then do
      loadS address [b0, b1, b2, b3]
      loadWordsS rest (n - 4) (address + 4)
    else loadBytesS n address (b0 :: b1 :: b2 :: b3 :: rest)
  | src, n, address => if 4 < n then M.ub .outOfBounds else loadBytesS n address src

/-- `MemorySim_LoadFromFlashImage`, libCrashDebug/src/MemorySim.c:305-321. `source` is the offset of `pFlashImage` in the block that it
points into; line 307 converts it to `uint32_t*` whatever the size. -/
def loadFromFlashImageS (baseAddress : U32) (source : Nat) (image : List U8) (flashImageSize : U32) : M Sim Unit := do
  aligned source 4
  loadWordsS image flashImageSize.toNat baseAddress

end MemSim

namespace IMemory

/-- `IMemory_Read8/16/32`, include/IMemory.h:39-52. -/
def readS (w : Width) (a : U32) : M Sim (BitVec w.bits) := do return BitVec.ofNat w.bits (← MemSim.readS w.bytes a)

/-- `IMemory_Write8/16/32`, include/IMemory.h:54-67. -/
def writeS (w : Width) (a : U32) (v : BitVec w.bits) : M Sim Unit := MemSim.writeS w.bytes a v.toNat

end IMemory

namespace Elf

/-- `loadIfFlashLoadableEntry`, libCrashDebug/src/ElfLoad.c:122-143; the data is at `p_offset` of the file's buffer. -/
def loadIfFlashLoadableEntryS (blob : List U8) (blobSize : Nat) (phdr : List U8) (entryLoadCount : U32) : M Sim U32 := do
  let loadable ← isFlashLoadableEntry phdr
  if loadable then do
    let offset ← field phdr 4 4
    let filesz ← field phdr 16 4
    let offset : U32 := BitVec.ofNat 32 offset
    let filesz : U32 := BitVec.ofNat 32 filesz
    let data ← M.tryCatch (fetchSizedByteArray blob blobSize offset filesz)
      (fun e => M.throw e.code (asc "ELF failed to load entry from file at offsets " ++ fmtD offset ++ asc " to " ++
        fmtD (offset + filesz - 1) ++ asc "."))
    let paddr ← field phdr 12 4
    let paddr : U32 := BitVec.ofNat 32 paddr
    createRegion paddr filesz
    loadFromFlashImageS paddr offset.toNat data filesz
    makeRegionReadOnly paddr
    pure (entryLoadCount + 1)
  else pure entryLoadCount

/-- The loop of `loadFlashLoadableEntries`, libCrashDebug/src/ElfLoad.c:105-119; line 109 converts to `Elf32_Phdr*`. -/
def loadEntriesS (blob : List U8) (blobSize : Nat) (phentsize : Nat) :
    (n i : Nat) → (offset : U32) → (entryLoadCount : U32) → M Sim U32
  | 0, _, _, count => pure count
  | n + 1, i, offset, count => do
    let phdr ← M.tryCatch (fetchSizedByteArray blob blobSize offset 32)
      (fun e => M.throw e.code (asc "ELF page header entry " ++ fmtU i ++ asc " is at an invalid file offset of " ++
        fmtU offset.toNat ++ asc "."))
    aligned offset.toNat 4
    let count ← loadIfFlashLoadableEntryS blob blobSize phdr count
    loadEntriesS blob blobSize phentsize n (i + 1) (offset + BitVec.ofNat 32 phentsize) count

/-- `loadFlashLoadableEntries`, libCrashDebug/src/ElfLoad.c:100-120. -/
def loadFlashLoadableEntriesS (blob : List U8) (blobSize : Nat) (hdr : List U8) : M Sim U32 := do
  let phoff ← field hdr 28 4
  let phentsize ← field hdr 42 2
  let phnum ← field hdr 44 2
  loadEntriesS blob blobSize phentsize phnum 0 (BitVec.ofNat 32 phoff) 0

/-- `ElfLoad_FromMemory`, libCrashDebug/src/ElfLoad.c:41-50. The file is at the start of its block, so that the `Elf32_Ehdr*` of line
59 is aligned. -/
def fromMemoryS (blob : List U8) (elfSize : Nat) : M Sim Unit := do
  let hdr ← initLoadObject blob elfSize
  validateElfHeaderContents hdr
  let count ← loadFlashLoadableEntriesS blob elfSize hdr
  if count = 0 then
    M.throw .elfFormat
      (asc "ELF contained no entries which were loadable and had a valid non-zero filesz <= to memsz.")
  else pure ()

end Elf

namespace GdbLog

/-- The loop of `secondPassHandler`, libCrashDebug/src/GdbLogParser.c:172-173. -/
def writeValuesS (address : U32) : (i : Nat) → List U32 → M Obj Unit
  | _, [] => pure ()
  | i, v :: vs => do
    onMem (IMemory.writeS .w32 (address + BitVec.ofNat 32 (i * 4)) v)
    writeValuesS address (i + 1) vs

/-- `secondPassHandler`, libCrashDebug/src/GdbLogParser.c:167-174. -/
def secondPassHandlerS : Results → M Obj Unit
  | .memory a vs => writeValuesS a 0 vs
  | _ => pure ()

/-- `GdbLogParse`, libCrashDebug/src/GdbLogParser.c:90-109. -/
def parseS (name : Str) : M Host Unit := do
  match ← Host.fopen name with
  | none => M.throwMsg .file (asc "Failed to open \"" ++ name ++ asc "\" GDB log.")
  | some f => M.tryCatch (do
      initPSPandMSP
      parseLines firstPassHandler f.bytes
      rewindLogFile f
      parseLines secondPassHandlerS f.bytes
      Host.fclose) (fun e => do
      Host.fclose
      M.rethrow e)

end GdbLog

namespace CommandLine

/-- `loadBinFile`, libCrashDebug/src/CrashDebugCommandLine.c:299-311. The file is at the start of its block. -/
def loadBinFileS (fd : FileData) : M Prog Unit := do
  let base := (← M.get).baseAddress
  M.tryCatch (do
      onMemory (Host.onMem (createRegion base (BitVec.ofInt 32 fd.dataSize)))
      onMemory (Host.onMem (loadFromFlashImageS base 0 fd.data (BitVec.ofInt 32 fd.dataSize)))
      onMemory (Host.onMem (makeRegionReadOnly base)))
    (fun e => M.throw e.code (asc "Failed to load read-only code into memory region at address 0x" ++ fmt08X base ++ asc "."))

/-- `loadImageFile`, libCrashDebug/src/CrashDebugCommandLine.c:232-255. -/
def loadImageFileS : M Prog Unit := do
  let p ← M.get
  match p.elf with
  | some name => do
    let fd ← loadFileData name
    M.tryCatch (do
      onMemory (Host.onMem (Elf.fromMemoryS fd.data fd.dataSize.toNat))
      freeP) (fun e => do freeP; M.rethrow e)
  | none =>
    match p.bin with
    | some name => do
      let fd ← loadFileData name
      M.tryCatch (do loadBinFileS fd; freeP) (fun e => do freeP; M.rethrow e)
    | none => M.ub .nullDeref

/-- `loadDumpFile`, libCrashDebug/src/CrashDebugCommandLine.c:313-327. -/
def loadDumpFileS : M Prog Unit := do
  match (← M.get).dump with
  | none => M.ub .nullDeref
  | some name => do
    match ← getFileType name with
    | .gdbLog => onMemory (GdbLog.parseS name)
    | .crashCatcherHex => onMemory (Dump.readHex name)
    | .crashCatcherBin => onMemory (Dump.readBinary name)

/-- The `__try` block of `CrashDebugCommandLine_Init`, libCrashDebug/src/CrashDebugCommandLine.c:111-117. -/
def initBodyS (argc : Int) (argv : List Str) : M Prog Unit := do
  clear
  parseArguments argc argv .first
  throwIfRequiredArgumentNotSpecified
  initMemory
  loadImageFileS
  loadDumpFileS
  parseArguments argc argv .second

/-- `CrashDebugCommandLine_Init`, libCrashDebug/src/CrashDebugCommandLine.c:107-128. -/
def initS (argc : Int) (argv : List Str) : M Prog Unit :=
  M.tryCatch (initBodyS argc argv) (fun e => do
    displayExceptionMessage e
    print copyrightNotice
    print usage
    uninitMemory
    M.modify fun p => { p with memory := false }
    M.rethrow e)

end CommandLine

namespace Platform

/-- `Platform_MemRead32/16/8`, libCrashDebug/src/mriPlatform.c:219-247. -/
def memReadS (w : Width) (a : U32) : M Plat (BitVec w.bits) := do
  match ← tryMem (IMemory.readS w a) with
  | some v => pure v
  | none => do
    countFault
    pure 0

/-- `Platform_MemWrite32/16/8`, libCrashDebug/src/mriPlatform.c:249-271. -/
def memWriteS (w : Width) (a : U32) (v : BitVec w.bits) : M Plat Unit := do
  match ← tryMem (IMemory.writeS w a v) with
  | some _ => pure ()
  | none => countFault

/-- `__try { … IMemory_Read32 … } __catch`. See libCrashDebug/src/mriPlatform.c:389-393, 422-427, 468-473, 518-523. -/
def tryReadS (a : U32) : M Plat (Option U32) := tryMem (IMemory.readS .w32 a)

/-- The printing of a fault address, libCrashDebug/src/mriPlatform.c:434-445 and 482-493. -/
def sayAddressS (value : U32) (register : U32) : M Plat Unit := do
  if value &&& (1 <<< 7) ≠ 0 then
    match ← tryReadS register with
    | some a => do
      say (asc "\n    Fault Address: ")
      say (hexValue a)
    | none => pure ()
  else pure ()

/-- `displayMemFaultCauseToGdbConsole`, libCrashDebug/src/mriPlatform.c:412-456. -/
def displayMemFaultS : M Plat Unit := do
  match ← tryReadS CFSR with
  | none => pure ()
  | some cfsr =>
    let v := cfsr &&& 0xFF
    if v = 0 then pure ()
    else do
      say (asc "\n**MPU Fault**")
      say (asc "\n  Status Register: ")
      say (hexValue v)
      sayAddressS v MMFAR
      sayIf v (1 <<< 5) (asc "\n    FP Lazy Preservation")
      sayIf v (1 <<< 4) (asc "\n    Stacking Error")
      sayIf v (1 <<< 3) (asc "\n    Unstacking Error")
      sayIf v (1 <<< 1) (asc "\n    Data Access")
      sayIf v 1 (asc "\n    Instruction Fetch")

/-- `displayBusFaultCauseToGdbConsole`, libCrashDebug/src/mriPlatform.c:458-506. -/
def displayBusFaultS : M Plat Unit := do
  match ← tryReadS CFSR with
  | none => pure ()
  | some cfsr =>
    let v := (cfsr >>> 8) &&& 0xFF
    if v = 0 then pure ()
    else do
      say (asc "\n**Bus Fault**")
      say (asc "\n  Status Register: ")
      say (hexValue v)
      sayAddressS v BFAR
      sayIf v (1 <<< 5) (asc "\n    FP Lazy Preservation")
      sayIf v (1 <<< 4) (asc "\n    Stacking Error")
      sayIf v (1 <<< 3) (asc "\n    Unstacking Error")
      sayIf v (1 <<< 2) (asc "\n    Imprecise Data Access")
      sayIf v (1 <<< 1) (asc "\n    Precise Data Access")
      sayIf v 1 (asc "\n    Instruction Prefetch")

/-- `displayUsageFaultCauseToGdbConsole`, libCrashDebug/src/mriPlatform.c:508-542. -/
def displayUsageFaultS : M Plat Unit := do
  match ← tryReadS CFSR with
  | none => pure ()
  | some cfsr =>
    let v := (cfsr >>> 16) &&& 0xFFFF
    if v = 0 then pure ()
    else do
      say (asc "\n**Usage Fault**")
      say (asc "\n  Status Register: ")
      say (hexValue v)
      sayIf v (1 <<< 9) (asc "\n    Divide by Zero")
      sayIf v (1 <<< 8) (asc "\n    Unaligned Access")
      sayIf v (1 <<< 3) (asc "\n    Coprocessor Access")
      sayIf v (1 <<< 2) (asc "\n    Invalid Exception Return State")
      sayIf v (1 <<< 1) (asc "\n    Invalid State")
      sayIf v 1 (asc "\n    Undefined Instruction")

/-- `displayHardFaultCauseToGdbConsole`, libCrashDebug/src/mriPlatform.c:381-410. -/
def displayHardFaultS : M Plat Unit := do
  say (asc "\n**Hard Fault**")
  match ← tryReadS HFSR with
  | none => pure ()
  | some v => do
    say (asc "\n  Status Register: ")
    say (hexValue v)
    sayIf v (1 <<< 31) (asc "\n    Debug Event")
    sayIf v (1 <<< 1) (asc "\n    Vector Table Read")
    if v &&& (1 <<< 30) ≠ 0 then do
      say (asc "\n    Forced")
      displayMemFaultS
      displayBusFaultS
      displayUsageFaultS
    else pure ()

/-- `Platform_DisplayFaultCauseToGdbConsole`, libCrashDebug/src/mriPlatform.c:355-379. -/
def displayFaultCauseS : M Plat Unit := do
  let n ← exceptionNumber
  if n = 3 then do displayHardFaultS; say (asc "\n")
  else if n = 4 then do displayMemFaultS; say (asc "\n")
  else if n = 5 then do displayBusFaultS; say (asc "\n")
  else if n = 6 then do displayUsageFaultS; say (asc "\n")
  else pure ()

end Platform
end Verif
