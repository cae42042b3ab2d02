import Verif.Model.Host
import Verif.Model.Comm
/-
Model of libCrashDebug/src/mriPlatform.c (line numbers refer to that file unless stated otherwise): what the debug monitor
core of mri calls. mri itself is a submodule that is not in /repo; its `Buffer` and GDB console functions are modelled here
from their use in libCrashDebug/tests (see DESIGN.md).
-/
namespace Verif.Platform
open Verif MemSim

/-! ### mri's packet buffer and console (trusted) -/

/-- mri's `Buffer`: the bytes between its start and its end, and the current position. See the `Buffer*` of
libCrashDebug/src/mriPlatform.c:575-632. -/
structure Buf where
  data : Str
  pos : Nat := 0

/-- mri's `Buffer_WriteChar`: writing past the end raises. See libCrashDebug/src/mriPlatform.c:593, 595. -/
def writeChar (c : U8) : M Buf Unit := fun b =>
  if b.pos < b.data.length then .ok () { data := b.data.set b.pos c, pos := b.pos + 1 }
  else .throw ⟨.bufferOverrun, []⟩ b

/-- mri's `Buffer_ReadChar`: reading past the end raises. See libCrashDebug/src/mriPlatform.c:632. -/
def readChar : M Buf U8 := fun b =>
  match b.data[b.pos]? with
  | some c => .ok c { b with pos := b.pos + 1 }
  | none => .throw ⟨.bufferOverrun, []⟩ b

/-- One lower-case hexadecimal digit (mri's `NibbleToHexChar`). See libCrashDebug/src/mriPlatform.c:592, 604. -/
def hexDigitLower (n : Nat) : U8 := if n < 10 then BitVec.ofNat 8 (0x30 + n) else BitVec.ofNat 8 (0x57 + n)

/-- mri's `Buffer_WriteByteAsHex`. See libCrashDebug/src/mriPlatform.c:592, 604. -/
def writeByteAsHex (b : U8) : M Buf Unit := do
  writeChar (hexDigitLower (b.toNat / 16))
  writeChar (hexDigitLower (b.toNat % 16))

/-- mri's `HexCharToNibble`. See libCrashDebug/src/mriPlatform.c:632. -/
def hexNibble (c : U8) : M Buf Nat :=
  if 0x30 ≤ c.toNat ∧ c.toNat ≤ 0x39 then pure (c.toNat - 0x30)
  else if 0x61 ≤ c.toNat ∧ c.toNat ≤ 0x66 then pure (c.toNat - 0x57)
  else if 0x41 ≤ c.toNat ∧ c.toNat ≤ 0x46 then pure (c.toNat - 0x37)
  else M.throw .invalidHexDigit

/-- mri's `Buffer_ReadByteAsHex`. See libCrashDebug/src/mriPlatform.c:632. -/
def readByteAsHex : M Buf U8 := do
  let hi ← hexNibble (← readChar)
  let lo ← hexNibble (← readChar)
  pure (BitVec.ofNat 8 (16 * hi + lo))

/-- The value as mri's `WriteHexValueToGdbConsole` prints it: `0x` and two digits for each byte from the first non-zero one
on (at least one byte). See libCrashDebug/src/mriPlatform.c:395, 432, 440, 480, 488, 528. -/
def hexValue (v : U32) : Str :=
  let digits := fun n => (List.range n).reverse.flatMap fun i =>
    [hexDigitLower (v.toNat / 2 ^ (8 * i) % 256 / 16), hexDigitLower (v.toNat / 2 ^ (8 * i) % 16)]
  asc "0x" ++ digits (if v.toNat < 2 ^ 8 then 1 else if v.toNat < 2 ^ 16 then 2 else if v.toNat < 2 ^ 24 then 3 else 4)

/-! ### The platform's state -/

/-- The globals of lines 143-148 and what they point to. `mem`, `ctx`, `comm` are what `g_pMemory`, `g_pContext` and
`g_pComm` point to; `faults` is `g_memoryFaultEncountered`, `wait` is `g_shouldWaitForGdbConnect`; `code` is
`g_exceptionCode` of include/try_catch.h (`none` = `noException`), which the handlers below leave set; `buf` is the one
`Buffer` of mri, over `g_packetBuffer`; `console` is the text sent to the GDB console. Simplification: sending text to the
console does not fail. -/
structure Plat where
  mem : Sim
  ctx : Regs
  comm : Comm.Comm
  faults : Nat := 0
  wait : Bool := true
  code : Option Exc := none
  buf : Buf
  console : Str := []

/-- Code that works on the communication channel. See libCrashDebug/src/mriPlatform.c:175-182. -/
def onComm (m : M Comm.Comm α) : M Plat α := M.zoom Plat.comm (fun c p => { p with comm := c }) m

/-- Code that works on the packet buffer. See libCrashDebug/src/mriPlatform.c:575-632. -/
def onBuf (m : M Buf α) : M Plat α := M.zoom Plat.buf (fun b p => { p with buf := b }) m

/-- Code that works on the simulator. See libCrashDebug/src/mriPlatform.c:220-270. -/
def onMem (m : M Sim α) : M Plat α := M.zoom Plat.mem (fun s p => { p with mem := s }) m

/-- `__try x = m; __catch …` for an access to the simulator: the result, or `none` when the handler is entered. `__try`
clears the exception code; the handlers of this file do not (include/try_catch.h:64-82). -/
def tryMem (m : M Sim α) : M Plat (Option α) := fun p =>
  match m p.mem with
  | .ok v s => .ok (some v) { p with mem := s, code := none }
  | .throw e s => .ok none { p with mem := s, code := some e.code }
  | .ub r => .ub r

/-- `g_memoryFaultEncountered++`; the variable is an `int`. See libCrashDebug/src/mriPlatform.c:225, 235, 245, 254, 262, 270. -/
def countFault : M Plat Unit := fun p =>
  if p.faults + 1 < 2 ^ 31 then .ok () { p with faults := p.faults + 1 } else .ub .signedOverflow

/-- `mriPlatform_Init`, libCrashDebug/src/mriPlatform.c:166-173. `__mriInit("")` is mri's. -/
def init : M Plat Unit := M.modify fun p => { p with faults := 0 }

/-- `mriPlatform_setWaitForGdbConnect`, libCrashDebug/src/mriPlatform.c:188-191. -/
def setWaitForGdbConnect (setting : Bool) : M Plat Unit := M.modify fun p => { p with wait := setting }

/-- `Platform_GetPacketBufferSize`, libCrashDebug/src/mriPlatform.c:205-208 (line 146). -/
def packetBufferSize : Nat := 16 * 1024

/-- `Platform_DisableSingleStep`, libCrashDebug/src/mriPlatform.c:548-550. -/
def disableSingleStep : M Plat Unit := pure ()
/-- `Platform_EnableSingleStep`, libCrashDebug/src/mriPlatform.c:544-546. -/
def enableSingleStep : M Plat Unit := pure ()
/-- `Platform_EnteringDebugger`, libCrashDebug/src/mriPlatform.c:210-213. -/
def enteringDebugger : M Plat Unit := disableSingleStep
/-- `Platform_LeavingDebugger`, libCrashDebug/src/mriPlatform.c:215-217. -/
def leavingDebugger : M Plat Unit := pure ()

/-- `Platform_MemRead32/16/8`, libCrashDebug/src/mriPlatform.c:219-247. -/
def memRead (w : Width) (a : U32) : M Plat (BitVec w.bits) := do
  match ← tryMem (IMemory.read w a) with
  | some v => pure v
  | none => do
    countFault
    pure 0

/-- `Platform_MemWrite32/16/8`, libCrashDebug/src/mriPlatform.c:249-271. -/
def memWrite (w : Width) (a : U32) (v : BitVec w.bits) : M Plat Unit := do
  match ← tryMem (IMemory.write w a v) with
  | some _ => pure ()
  | none => countFault

/-- `Platform_CommHasReceiveData`, libCrashDebug/src/mriPlatform.c:273-276. The callee ends with the exception code clear. -/
def commHasReceiveData : M Plat Bool := do
  let b ← onComm Comm.hasReceiveData
  M.modify fun p => { p with code := none }
  pure b
/-- `Platform_CommReceiveChar`, libCrashDebug/src/mriPlatform.c:278-281. -/
def commReceiveChar : M Plat Int := onComm Comm.receiveChar
/-- `Platform_CommSendChar`, libCrashDebug/src/mriPlatform.c:283-286. -/
def commSendChar (character : Int) : M Plat Unit := onComm (Comm.sendChar character)
/-- `Platform_CommCausedInterrupt`, libCrashDebug/src/mriPlatform.c:288-291. -/
def commCausedInterrupt : M Plat Bool := pure false
/-- `Platform_CommClearInterrupt`, libCrashDebug/src/mriPlatform.c:293-295. -/
def commClearInterrupt : M Plat Unit := pure ()
/-- `Platform_CommShouldWaitForGdbConnect`, libCrashDebug/src/mriPlatform.c:297-300. -/
def commShouldWaitForGdbConnect : M Plat Bool := do return (← M.get).wait
/-- `Platform_CommSharingWithApplication`, libCrashDebug/src/mriPlatform.c:302-305. -/
def commSharingWithApplication : M Plat Bool := pure false
/-- `Platform_CommPrepareToWaitForGdbConnection`, libCrashDebug/src/mriPlatform.c:307-309. -/
def commPrepareToWaitForGdbConnection : M Plat Unit := pure ()
/-- `Platform_CommIsWaitingForGdbToConnect`, libCrashDebug/src/mriPlatform.c:311-314. The callee clears the exception code if it
polls. -/
def commIsWaitingForGdbToConnect : M Plat Bool := do
  let connected := (← M.get).comm.connected
  let b ← onComm Comm.isGdbConnected
  M.modify fun p => if connected then p else { p with code := none }
  pure !b
/-- `Platform_CommWaitForReceiveDataToStop`, libCrashDebug/src/mriPlatform.c:316-318. -/
def commWaitForReceiveDataToStop : M Plat Unit := pure ()

/-- The signals used by libCrashDebug/src/mriPlatform.c:320-348. -/
inductive Signal
  | SIGINT | SIGSEGV | SIGBUS | SIGILL | SIGTRAP | SIGSTOP
  deriving DecidableEq, Repr

/-- `getCurrentlyExecutingExceptionNumber`, libCrashDebug/src/mriPlatform.c:350-353. -/
def exceptionNumber : M Plat U32 := do return (← M.get).ctx.psr &&& 0xFF

/-- `Platform_DetermineCauseOfException`, libCrashDebug/src/mriPlatform.c:320-348. -/
def determineCauseOfException : M Plat Signal := do
  let n ← exceptionNumber
  if n = 2 then pure .SIGINT
  else if n = 3 then pure .SIGSEGV
  else if n = 4 then pure .SIGSEGV
  else if n = 5 then pure .SIGBUS
  else if n = 6 then pure .SIGILL
  else if n = 12 then pure .SIGTRAP
  else pure .SIGSTOP

/-- libCrashDebug/src/mriPlatform.c:137-140. -/
def CFSR : U32 := 0xE000ED28
/-- libCrashDebug/src/mriPlatform.c:138. -/
def HFSR : U32 := 0xE000ED2C
/-- libCrashDebug/src/mriPlatform.c:139. -/
def MMFAR : U32 := 0xE000ED34
/-- libCrashDebug/src/mriPlatform.c:140. -/
def BFAR : U32 := 0xE000ED38

/-- mri's `WriteStringToGdbConsole`. See libCrashDebug/src/mriPlatform.c:378-541. -/
def say (t : Str) : M Plat Unit := M.modify fun p => { p with console := p.console ++ t }

/-- `if (value & bit) WriteStringToGdbConsole(text)`. See libCrashDebug/src/mriPlatform.c:396-405, 446-455, 494-505, 530-541. -/
def sayIf (value bit : U32) (t : Str) : M Plat Unit :=
  if value &&& bit ≠ 0 then say t else pure ()

/-- `__try { … IMemory_Read32 … } __catch`. See libCrashDebug/src/mriPlatform.c:389-393, 422-427, 468-473, 518-523. -/
def tryRead (a : U32) : M Plat (Option U32) := tryMem (IMemory.read .w32 a)

/-- The printing of a fault address, libCrashDebug/src/mriPlatform.c:434-445 and 482-493. -/
def sayAddress (value : U32) (register : U32) : M Plat Unit := do
  if value &&& (1 <<< 7) ≠ 0 then
    match ← tryRead register with
    | some a => do
      say (asc "\n    Fault Address: ")
      say (hexValue a)
    | none => pure ()
  else pure ()

/-- `displayMemFaultCauseToGdbConsole`, libCrashDebug/src/mriPlatform.c:412-456. -/
def displayMemFault : M Plat Unit := do
  match ← tryRead CFSR with
  | none => pure ()
  | some cfsr =>
    let v := cfsr &&& 0xFF
    if v = 0 then pure ()
    else do
      say (asc "\n**MPU Fault**")
      say (asc "\n  Status Register: ")
      say (hexValue v)
      sayAddress v MMFAR
      sayIf v (1 <<< 5) (asc "\n    FP Lazy Preservation")
      sayIf v (1 <<< 4) (asc "\n    Stacking Error")
      sayIf v (1 <<< 3) (asc "\n    Unstacking Error")
      sayIf v (1 <<< 1) (asc "\n    Data Access")
      sayIf v 1 (asc "\n    Instruction Fetch")

/-- `displayBusFaultCauseToGdbConsole`, libCrashDebug/src/mriPlatform.c:458-506. -/
def displayBusFault : M Plat Unit := do
  match ← tryRead CFSR with
  | none => pure ()
  | some cfsr =>
    let v := (cfsr >>> 8) &&& 0xFF
    if v = 0 then pure ()
    else do
      say (asc "\n**Bus Fault**")
      say (asc "\n  Status Register: ")
      say (hexValue v)
      sayAddress v BFAR
      sayIf v (1 <<< 5) (asc "\n    FP Lazy Preservation")
      sayIf v (1 <<< 4) (asc "\n    Stacking Error")
      sayIf v (1 <<< 3) (asc "\n    Unstacking Error")
      sayIf v (1 <<< 2) (asc "\n    Imprecise Data Access")
      sayIf v (1 <<< 1) (asc "\n    Precise Data Access")
      sayIf v 1 (asc "\n    Instruction Prefetch")

/-- `displayUsageFaultCauseToGdbConsole`, libCrashDebug/src/mriPlatform.c:508-542. -/
def displayUsageFault : M Plat Unit := do
  match ← tryRead CFSR with
  | none => pure ()
  | some cfsr =>
    let v := (cfsr >>> 16) &&& 0xFFFF
    if v = 0 then pure ()
    else do
      say (asc "\n**Usage Fault**")
      say (asc "\n  Status Register: ")
      say (hexValue v)
      sayIf v (1 <<< 9) (asc "\n    Divide by Zero")
      sayIf v (1 <<< 8) (asc "\n    Unaligned Access")
      sayIf v (1 <<< 3) (asc "\n    Coprocessor Access")
      sayIf v (1 <<< 2) (asc "\n    Invalid Exception Return State")
      sayIf v (1 <<< 1) (asc "\n    Invalid State")
      sayIf v 1 (asc "\n    Undefined Instruction")

/-- `displayHardFaultCauseToGdbConsole`, libCrashDebug/src/mriPlatform.c:381-410. -/
def displayHardFault : M Plat Unit := do
  say (asc "\n**Hard Fault**")
  match ← tryRead HFSR with
  | none => pure ()
  | some v => do
    say (asc "\n  Status Register: ")
    say (hexValue v)
    sayIf v (1 <<< 31) (asc "\n    Debug Event")
    sayIf v (1 <<< 1) (asc "\n    Vector Table Read")
    if v &&& (1 <<< 30) ≠ 0 then do
      say (asc "\n    Forced")
      displayMemFault
      displayBusFault
      displayUsageFault
    else pure ()

/-- `Platform_DisplayFaultCauseToGdbConsole`, libCrashDebug/src/mriPlatform.c:355-379. -/
def displayFaultCause : M Plat Unit := do
  let n ← exceptionNumber
  if n = 3 then do displayHardFault; say (asc "\n")
  else if n = 4 then do displayMemFault; say (asc "\n")
  else if n = 5 then do displayBusFault; say (asc "\n")
  else if n = 6 then do displayUsageFault; say (asc "\n")
  else pure ()

/-- `Platform_IsSingleStepping`, libCrashDebug/src/mriPlatform.c:552-556. -/
def isSingleStepping : M Plat Bool := pure false
/-- `Platform_SetProgramCounter`, libCrashDebug/src/mriPlatform.c:558-562. -/
def setProgramCounter (_newPC : U32) : M Plat Unit := pure ()
/-- `Platform_AdvanceProgramCounterToNextInstruction`, libCrashDebug/src/mriPlatform.c:564-567. -/
def advanceProgramCounter : M Plat Unit := pure ()
/-- `Platform_WasProgramCounterModifiedByUser`, libCrashDebug/src/mriPlatform.c:569-573. -/
def wasProgramCounterModifiedByUser : M Plat Bool := pure true

/-- `Platform_WasMemoryFaultEncountered`, libCrashDebug/src/mriPlatform.c:575-580. -/
def wasMemoryFaultEncountered : M Plat Nat := do
  let n := (← M.get).faults
  M.modify fun p => { p with faults := 0 }
  pure n

/-- `writeBytesToBufferAsHex`, libCrashDebug/src/mriPlatform.c:598-605. -/
def writeBytesToBufferAsHex : Str → M Buf Unit
  | [] => pure ()
  | b :: bs => do
    writeByteAsHex b
    writeBytesToBufferAsHex bs

/-- The bytes of an array of `uint32_t` (little-endian host). See libCrashDebug/src/mriPlatform.c:598-611. -/
def bytesOf (ws : List U32) : Str := ws.flatMap fun w => leBytes 4 w.toNat

/-- `sendRegisterForTResponse`, libCrashDebug/src/mriPlatform.c:590-596. -/
def sendRegisterForTResponse (registerOffset : U8) (registerValue : U32) : M Buf Unit := do
  writeByteAsHex registerOffset
  writeChar 0x3A
  writeBytesToBufferAsHex (leBytes 4 registerValue.toNat)
  writeChar 0x3B

/-- Reading an element of `g_pContext->R`. See libCrashDebug/src/mriPlatform.c:584-587. -/
def regAt (i : Nat) : M Plat U32 := fun p =>
  match p.ctx.r[i]? with
  | some v => .ok v p
  | none => .ub .outOfBounds

/-- `Platform_WriteTResponseRegistersToBuffer`, libCrashDebug/src/mriPlatform.c:582-588. -/
def writeTResponseRegisters : M Plat Unit := do
  onBuf (sendRegisterForTResponse 12 (← regAt 12))
  onBuf (sendRegisterForTResponse 13 (← regAt 13))
  onBuf (sendRegisterForTResponse 14 (← regAt 14))
  onBuf (sendRegisterForTResponse 15 (← regAt 15))

/-- `hasFPURegisters`, libCrashDebug/src/mriPlatform.c:614-617. -/
def hasFPURegisters (c : Regs) : Bool := c.flags &&& FLAGS_FLOATING_POINT ≠ 0

/-- `Platform_CopyContextToBuffer`, libCrashDebug/src/mriPlatform.c:607-612. -/
def copyContextToBuffer : M Plat Unit := do
  let c := (← M.get).ctx
  onBuf (writeBytesToBufferAsHex (bytesOf c.r))
  if hasFPURegisters c then onBuf (writeBytesToBufferAsHex (bytesOf c.fpr)) else pure ()

/-- `readBytesFromBufferAsHex`, libCrashDebug/src/mriPlatform.c:626-633: `n` more bytes, `acc` being those read so far. After
each byte the target array is its old contents `ws` with the bytes read so far stored over its beginning. -/
def readBytesFromBufferAsHex (store : List U32 → Plat → Plat) (ws : List U32) : (n : Nat) → (acc : Str) → M Plat Unit
  | 0, _ => pure ()
  | n + 1, acc => do
    let b ← onBuf readByteAsHex
    M.modify (store (overlay ws (acc ++ [b])))
    readBytesFromBufferAsHex store ws n (acc ++ [b])

/-- Storing into `g_pContext->R`. See libCrashDebug/src/mriPlatform.c:621. -/
def storeR (ws : List U32) (p : Plat) : Plat := { p with ctx := { p.ctx with r := ws } }
/-- Storing into `g_pContext->FPR`. See libCrashDebug/src/mriPlatform.c:623. -/
def storeFPR (ws : List U32) (p : Plat) : Plat := { p with ctx := { p.ctx with fpr := ws } }

/-- `Platform_CopyContextFromBuffer`, libCrashDebug/src/mriPlatform.c:619-624. -/
def copyContextFromBuffer : M Plat Unit := do
  let c := (← M.get).ctx
  readBytesFromBufferAsHex storeR c.r (4 * c.r.length) []
  if hasFPURegisters c then readBytesFromBufferAsHex storeFPR c.fpr (4 * c.fpr.length) [] else pure ()

/-- `Platform_GetDeviceMemoryMapXml`, libCrashDebug/src/mriPlatform.c:640-643. -/
def getDeviceMemoryMapXml : M Plat Str := onMem getMemoryMapXML

/-- `Platform_GetDeviceMemoryMapXmlSize`, libCrashDebug/src/mriPlatform.c:635-638. -/
def getDeviceMemoryMapXmlSize : M Plat Nat := do return (← onMem getMemoryMapXML).length

/-- `g_targetXML`, libCrashDebug/src/mriPlatform.c:58-85. -/
def targetXML : Str := asc (
  "<?xml version=\"1.0\"?>\n" ++
  "<!DOCTYPE feature SYSTEM \"gdb-target.dtd\">\n" ++
  "<target>\n" ++
  "<feature name=\"org.gnu.gdb.arm.m-profile\">\n" ++
  "<reg name=\"r0\" bitsize=\"32\"/>\n" ++
  "<reg name=\"r1\" bitsize=\"32\"/>\n" ++
  "<reg name=\"r2\" bitsize=\"32\"/>\n" ++
  "<reg name=\"r3\" bitsize=\"32\"/>\n" ++
  "<reg name=\"r4\" bitsize=\"32\"/>\n" ++
  "<reg name=\"r5\" bitsize=\"32\"/>\n" ++
  "<reg name=\"r6\" bitsize=\"32\"/>\n" ++
  "<reg name=\"r7\" bitsize=\"32\"/>\n" ++
  "<reg name=\"r8\" bitsize=\"32\"/>\n" ++
  "<reg name=\"r9\" bitsize=\"32\"/>\n" ++
  "<reg name=\"r10\" bitsize=\"32\"/>\n" ++
  "<reg name=\"r11\" bitsize=\"32\"/>\n" ++
  "<reg name=\"r12\" bitsize=\"32\"/>\n" ++
  "<reg name=\"sp\" bitsize=\"32\" type=\"data_ptr\"/>\n" ++
  "<reg name=\"lr\" bitsize=\"32\"/>\n" ++
  "<reg name=\"pc\" bitsize=\"32\" type=\"code_ptr\"/>\n" ++
  "<reg name=\"xpsr\" bitsize=\"32\" regnum=\"25\"/>\n" ++
  "</feature>\n" ++
  "<feature name=\"org.gnu.gdb.arm.m-system\">\n" ++
  "<reg name=\"msp\" bitsize=\"32\" regnum=\"26\"/>\n" ++
  "<reg name=\"psp\" bitsize=\"32\" regnum=\"27\"/>\n" ++
  "</feature>\n" ++
  "</target>\n")

/-- `g_targetFpuXML`, libCrashDebug/src/mriPlatform.c:87-133. -/
def targetFpuXML : Str := asc (
  "<?xml version=\"1.0\"?>\n" ++
  "<!DOCTYPE feature SYSTEM \"gdb-target.dtd\">\n" ++
  "<target>\n" ++
  "<feature name=\"org.gnu.gdb.arm.m-profile\">\n" ++
  "<reg name=\"r0\" bitsize=\"32\"/>\n" ++
  "<reg name=\"r1\" bitsize=\"32\"/>\n" ++
  "<reg name=\"r2\" bitsize=\"32\"/>\n" ++
  "<reg name=\"r3\" bitsize=\"32\"/>\n" ++
  "<reg name=\"r4\" bitsize=\"32\"/>\n" ++
  "<reg name=\"r5\" bitsize=\"32\"/>\n" ++
  "<reg name=\"r6\" bitsize=\"32\"/>\n" ++
  "<reg name=\"r7\" bitsize=\"32\"/>\n" ++
  "<reg name=\"r8\" bitsize=\"32\"/>\n" ++
  "<reg name=\"r9\" bitsize=\"32\"/>\n" ++
  "<reg name=\"r10\" bitsize=\"32\"/>\n" ++
  "<reg name=\"r11\" bitsize=\"32\"/>\n" ++
  "<reg name=\"r12\" bitsize=\"32\"/>\n" ++
  "<reg name=\"sp\" bitsize=\"32\" type=\"data_ptr\"/>\n" ++
  "<reg name=\"lr\" bitsize=\"32\"/>\n" ++
  "<reg name=\"pc\" bitsize=\"32\" type=\"code_ptr\"/>\n" ++
  "<reg name=\"xpsr\" bitsize=\"32\" regnum=\"25\"/>\n" ++
  "</feature>\n" ++
  "<feature name=\"org.gnu.gdb.arm.m-system\">\n" ++
  "<reg name=\"msp\" bitsize=\"32\" regnum=\"26\"/>\n" ++
  "<reg name=\"psp\" bitsize=\"32\" regnum=\"27\"/>\n" ++
  "</feature>\n" ++
  "<feature name=\"org.gnu.gdb.arm.vfp\">\n" ++
  "<reg name=\"d0\" bitsize=\"64\" type=\"ieee_double\"/>\n" ++
  "<reg name=\"d1\" bitsize=\"64\" type=\"ieee_double\"/>\n" ++
  "<reg name=\"d2\" bitsize=\"64\" type=\"ieee_double\"/>\n" ++
  "<reg name=\"d3\" bitsize=\"64\" type=\"ieee_double\"/>\n" ++
  "<reg name=\"d4\" bitsize=\"64\" type=\"ieee_double\"/>\n" ++
  "<reg name=\"d5\" bitsize=\"64\" type=\"ieee_double\"/>\n" ++
  "<reg name=\"d6\" bitsize=\"64\" type=\"ieee_double\"/>\n" ++
  "<reg name=\"d7\" bitsize=\"64\" type=\"ieee_double\"/>\n" ++
  "<reg name=\"d8\" bitsize=\"64\" type=\"ieee_double\"/>\n" ++
  "<reg name=\"d9\" bitsize=\"64\" type=\"ieee_double\"/>\n" ++
  "<reg name=\"d10\" bitsize=\"64\" type=\"ieee_double\"/>\n" ++
  "<reg name=\"d11\" bitsize=\"64\" type=\"ieee_double\"/>\n" ++
  "<reg name=\"d12\" bitsize=\"64\" type=\"ieee_double\"/>\n" ++
  "<reg name=\"d13\" bitsize=\"64\" type=\"ieee_double\"/>\n" ++
  "<reg name=\"d14\" bitsize=\"64\" type=\"ieee_double\"/>\n" ++
  "<reg name=\"d15\" bitsize=\"64\" type=\"ieee_double\"/>\n" ++
  "<reg name=\"fpscr\" bitsize=\"32\" type=\"int\" group=\"float\"/>\n" ++
  "</feature>\n" ++
  "</target>\n")

/-- `Platform_GetTargetXmlSize`, libCrashDebug/src/mriPlatform.c:645-651. -/
def getTargetXmlSize : M Plat Nat := do
  if hasFPURegisters (← M.get).ctx then pure targetFpuXML.length else pure targetXML.length

/-- `Platform_GetTargetXml`, libCrashDebug/src/mriPlatform.c:653-659. -/
def getTargetXml : M Plat Str := do
  if hasFPURegisters (← M.get).ctx then pure targetFpuXML else pure targetXML

/-- `Platform_SetHardwareBreakpoint`, libCrashDebug/src/mriPlatform.c:661-664. -/
def setHardwareBreakpoint (_address _kind : U32) : M Plat Unit := pure ()
/-- `Platform_ClearHardwareBreakpoint`, libCrashDebug/src/mriPlatform.c:666-669. -/
def clearHardwareBreakpoint (_address _kind : U32) : M Plat Unit := pure ()
/-- `Platform_SetHardwareWatchpoint`, libCrashDebug/src/mriPlatform.c:671-674. -/
def setHardwareWatchpoint (_address _size _type : U32) : M Plat Unit := pure ()
/-- `Platform_ClearHardwareWatchpoint`, libCrashDebug/src/mriPlatform.c:676-679. -/
def clearHardwareWatchpoint (_address _size _type : U32) : M Plat Unit := pure ()
/-- `Platform_TypeOfCurrentInstruction`, libCrashDebug/src/mriPlatform.c:681-685: always `MRI_PLATFORM_INSTRUCTION_OTHER`. -/
def typeOfCurrentInstruction : M Plat Unit := pure ()
/-- `Platform_GetSemihostCallParameters`, libCrashDebug/src/mriPlatform.c:687-693: all zero. -/
def getSemihostCallParameters : M Plat (List U32) := pure [0, 0, 0, 0]
/-- `Platform_SetSemihostCallReturnAndErrnoValues`, libCrashDebug/src/mriPlatform.c:695-698. -/
def setSemihostCallReturnAndErrnoValues (_returnValue _err : Int) : M Plat Unit := pure ()
/-- `Semihost_IsDebuggeeMakingSemihostCall`, libCrashDebug/src/mriPlatform.c:700-704. -/
def isDebuggeeMakingSemihostCall : M Plat Bool := pure false
/-- `Semihost_HandleSemihostRequest`, libCrashDebug/src/mriPlatform.c:706-710. -/
def handleSemihostRequest : M Plat Bool := pure false
/-- `__mriPlatform_EnteringDebuggerHook` and `__mriPlatform_LeavingDebuggerHook`, libCrashDebug/src/mriPlatform.c:712-718. -/
def enteringDebuggerHook : M Plat Unit := pure ()
/-- libCrashDebug/src/mriPlatform.c:716-718. -/
def leavingDebuggerHook : M Plat Unit := pure ()

/-- `mriPlatform_Run`, libCrashDebug/src/mriPlatform.c:175-182: `RunLoop stop dbg p o` says that the loop, started with `p`,
ends with outcome `o`. `stop` is the `shouldStopRun` of the `IComm` it is given, `dbg` is mri's `__mriDebugException`; they may
do anything. -/
inductive RunLoop (stop : M Plat Bool) (dbg : M Plat Unit) : Plat → Out Plat Unit → Prop
  | raised : dbg p = .throw e p1 → RunLoop stop dbg p (.throw e p1)
  | broken : dbg p = .ub r → RunLoop stop dbg p (.ub r)
  | stopRaised : dbg p = .ok () p1 → stop p1 = .throw e p2 → RunLoop stop dbg p (.throw e p2)
  | stopBroken : dbg p = .ok () p1 → stop p1 = .ub r → RunLoop stop dbg p (.ub r)
  | stop : dbg p = .ok () p1 → stop p1 = .ok true p2 → RunLoop stop dbg p (.ok () p2)
  | again : dbg p = .ok () p1 → stop p1 = .ok false p2 → RunLoop stop dbg p2 o → RunLoop stop dbg p o

end Verif.Platform
