import Verif.Tests.Harness
import Verif.Model.Platform
/-
The tests of mriPlatform.c in the model. The project's tests drive it through mri, which is not in /repo: a test sends
packets and compares all that was transmitted. What a packet or an answer owes to mriPlatform.c is compared here: the
console texts, the signal and the registers of the stop reply, the memory and the registers read and written, the three
XML texts. Tests of packets to which mriPlatform.c contributes nothing are left out (breakpointTest, watchpointTest,
continueTest, stepTest, otherTest, semihostTest). Generated by tools/exctests.py from tools/exctests_hand.txt (this part)
and mriPlatformExceptionTest.cpp.
-/
namespace Verif.Tests.Platform
open Verif MemSim
open Verif.Platform

/-- mriPlatformBaseTest.h, lines 44-50. -/
def INITIAL_SP : U32 := 0x10008000
def INITIAL_LR : U32 := 0x00000000
def INITIAL_PC : U32 := 0x10004000

/-- No allocation fails. -/
def heap0 : Heap := { fails := fun _ => false }

/-- `setup` (mriPlatformBaseTest.h, lines 62-102) followed by `setIPSR(code)`. -/
def start (code : U32) : Plat :=
  { mem :=
      match createRegionsFromFlashImage (leBytes 4 0x10008000 ++ leBytes 4 0x10004001) 8 (MemSim.init heap0) with
      | .ok _ s => s
      | _ => MemSim.init heap0
    ctx :=
      { flags := 0
        r := (List.range 13).map (fun i => 0x11111111 * BitVec.ofNat 32 i) ++
          [INITIAL_SP, INITIAL_LR, INITIAL_PC, 0x01000000, 0xa5a5a5a5, 0x5a5a5a5a]
        psr := 0x01000000 ||| code
        fpr := List.replicate 33 0 }
    comm := { poll := fun _ => some true, input := fun _ => .eof, fails := fun _ => false }
    wait := false
    buf := { data := List.replicate packetBufferSize 0 } }

/-- The packet buffer, up to the current position, has this text. -/
def packetIs (t : String) : Step Plat := holds fun p => p.buf.data.take p.buf.pos = asc t

def clearBuffer : Step Plat := sets fun p => { p with buf := { data := List.replicate packetBufferSize 0 } }

/-- `setFaultRegister`, mriPlatformExceptionTest.cpp, lines 33-37. -/
def setFaultRegister (a v : U32) : Step Plat := does (onMem do createRegion a 4; write32 a v)

def hex8 (v : U32) : String := String.ofList (((leBytes 4 v.toNat).flatMap fun b =>
  [hexDigitLower (b.toNat / 16), hexDigitLower (b.toNat % 16)]).map (fun c => Char.ofNat c.toNat))

/-- The registers of `appendExpectedTPacket`, lines 357-375. -/
def tRegisters (v : List U32) : String :=
  String.join (List.zipWith (fun n x => n ++ ":" ++ hex8 x ++ ";") ["0c", "0d", "0e", "0f"] v)

/-- A test of mriPlatformExceptionTest.cpp: the fault registers, what is printed on GDB's console, the signal and the
registers of the T packet; the program counter stays as it was. -/
def report (code : U32) (registers : List (U32 × U32)) (texts : List String) (sig : Signal) (regs : List U32) : Bool :=
  passes (registers.map (fun x => setFaultRegister x.1 x.2) ++
    [gives commShouldWaitForGdbConnect false, does displayFaultCause,
     holds fun p => p.console = asc (String.join texts), gives determineCauseOfException sig,
     does writeTResponseRegisters, packetIs (tRegisters regs), holds fun p => p.ctx.r[15]? = some INITIAL_PC,
     does (onMem uninit), holds fun p => p.mem.heap.live = 0]) (start code)

/-! ### mriPlatformInitTest.cpp -/

/- `ValidateSuccessfulInit_NoRegistersModifiedInContext` (without mri's `IsFirstException` and `WasSuccessfullyInit`). -/
#guard passes
  [sets fun p => { p with faults := 5, ctx := { p.ctx with r := (List.range 19).map fun i => 0x11111111 * BitVec.ofNat 32 i } },
   does Verif.Platform.init, holds fun p => p.ctx.r = (List.range 19).map fun i => 0x11111111 * BitVec.ofNat 32 i,
   gives wasMemoryFaultEncountered 0] (start 12)

/-! ### registerTest.cpp -/

def regs15 : List U32 := (List.range 15).map fun i => 0x11111111 * BitVec.ofNat 32 i

/- `ReadRegisters`. -/
#guard passes
  [sets fun p => { p with ctx := { p.ctx with r := regs15 ++ 0xFFFFFFFE :: p.ctx.r.drop 16 } },
   gives determineCauseOfException .SIGTRAP, does writeTResponseRegisters,
   packetIs (tRegisters [0xCCCCCCCC, 0xDDDDDDDD, 0xEEEEEEEE, 0xFFFFFFFE]), clearBuffer, does copyContextToBuffer,
   packetIs ("00000000111111112222222233333333" ++ "44444444555555556666666677777777" ++
     "8888888899999999aaaaaaaabbbbbbbb" ++ "ccccccccddddddddeeeeeeeefeffffff" ++ "00000001a5a5a5a55a5a5a5a")] (start 12)

def floats : String :=
  "0000000001000000020000000300000004000000050000000600000007000000" ++
  "08000000090000000a0000000b0000000c0000000d0000000e0000000f000000" ++
  "1000000011000000120000001300000014000000150000001600000017000000" ++
  "18000000190000001a0000001b0000001c0000001d0000001e00000000000000" ++ "0df0adba"

def fprs : List U32 := (List.range 31).map (BitVec.ofNat 32) ++ [0, 0xBAADF00D]

/- `ReadIntegerAndFloatRegisters`. -/
#guard passes
  [sets fun p => { p with ctx := { p.ctx with flags := FLAGS_FLOATING_POINT, r := regs15 ++ 0xFFFFFFFE :: p.ctx.r.drop 16,
                                              fpr := fprs } },
   does copyContextToBuffer,
   packetIs ("00000000111111112222222233333333" ++ "44444444555555556666666677777777" ++
     "8888888899999999aaaaaaaabbbbbbbb" ++ "ccccccccddddddddeeeeeeeefeffffff" ++ "00000001a5a5a5a55a5a5a5a" ++
     floats)] (start 12)

def received : String :=
  "00000000111111112222222233333333" ++ "44444444555555556666666677777777" ++ "8888888899999999aaaaaaaabbbbbbbb" ++
  "ccccccccddddddddeeeeeeeefeffffff" ++ "ffffffff4545454554545454"

def filled : Step Plat := sets fun p => { p with ctx := { p.ctx with r := List.replicate 16 0xa5a5a5a5 ++ p.ctx.r.drop 16 } }

/- `WriteRegisters`. -/
#guard passes
  [filled, does writeTResponseRegisters, packetIs (tRegisters [0xA5A5A5A5, 0xA5A5A5A5, 0xA5A5A5A5, 0xA5A5A5A5]),
   sets fun p => { p with buf := { data := asc received } }, does copyContextFromBuffer,
   holds fun p => p.ctx.r = regs15 ++ [0xFFFFFFFE, 0xFFFFFFFF, 0x45454545, 0x54545454]] (start 12)

/- `WriteIntegerAndFloatRegisters`. -/
#guard passes
  [filled, sets fun p => { p with ctx := { p.ctx with flags := FLAGS_FLOATING_POINT },
                                  buf := { data := asc (received ++ floats) } },
   does copyContextFromBuffer,
   holds fun p => p.ctx.r = regs15 ++ [0xFFFFFFFE, 0xFFFFFFFF, 0x45454545, 0x54545454] && p.ctx.fpr = fprs] (start 12)

/-! ### memoryTest.cpp: mri reads and writes with the widest access that fits -/

/- `ReadByte`, `ReadHalfWord`, `ReadWord`. -/
#guard passes [does (onMem (write8 0x10007FFF 0x5a)), gives (memRead .w8 0x10007FFF) 0x5a, gives wasMemoryFaultEncountered 0]
  (start 12)
#guard passes [does (onMem (write16 0x10007FFE 0xF00D)), gives (memRead .w16 0x10007FFE) 0xF00D,
  gives wasMemoryFaultEncountered 0] (start 12)
#guard passes [does (onMem (write32 0x10007FFC 0xBAADF00D)), gives (memRead .w32 0x10007FFC) 0xBAADF00D,
  gives wasMemoryFaultEncountered 0] (start 12)
/- `WriteByte`, `WriteHalfWord`, `WriteWord`. -/
#guard passes [does (memWrite .w8 0x10007FFF 0x5A), gives wasMemoryFaultEncountered 0,
  gives (onMem (read8 0x10007FFF)) 0x5A] (start 12)
#guard passes [does (memWrite .w16 0x10007FFE 0xF00D), gives wasMemoryFaultEncountered 0,
  gives (onMem (read16 0x10007FFE)) 0xF00D] (start 12)
#guard passes [does (memWrite .w32 0x10007FFC 0xBAADF00D), gives wasMemoryFaultEncountered 0,
  gives (onMem (read32 0x10007FFC)) 0xBAADF00D] (start 12)
/- `ReadByte_InvalidAddress_ShouldSendErrorBack`, and the half word and the word. -/
#guard passes [does (memRead .w8 INITIAL_SP), gives wasMemoryFaultEncountered 1] (start 12)
#guard passes [does (memRead .w16 INITIAL_SP), gives wasMemoryFaultEncountered 1] (start 12)
#guard passes [does (memRead .w32 INITIAL_SP), gives wasMemoryFaultEncountered 1] (start 12)
/- `ReadBytes_InvalidAddressForLastByte_ShouldSendPartialDataBack`. -/
#guard passes ((List.range 7).flatMap (fun i => [gives (memRead .w8 (0x10007FF9 + BitVec.ofNat 32 i)) 0,
  gives wasMemoryFaultEncountered 0]) ++ [does (memRead .w8 INITIAL_SP), gives wasMemoryFaultEncountered 1]) (start 12)
/- `WriteByte_InvalidAddress_ShouldSendErrorBack`, and the half word and the word. -/
#guard passes [does (memWrite .w8 INITIAL_SP 0x5A), gives wasMemoryFaultEncountered 1] (start 12)
#guard passes [does (memWrite .w16 INITIAL_SP 0xADBA), gives wasMemoryFaultEncountered 1] (start 12)
#guard passes [does (memWrite .w32 INITIAL_SP 0x0DF0ADBA), gives wasMemoryFaultEncountered 1] (start 12)

/-! ### queryTest.cpp -/

/- `qSupported_ReturnsExpectedOptionsAndCorrectPacketSizeOf16k`. -/
#guard packetBufferSize = 0x4000

def xmlM0 : Str := asc
  ("<?xml version=\"1.0\"?>\n" ++
   "<!DOCTYPE feature SYSTEM \"gdb-target.dtd\">\n" ++
   "<target>\n" ++
   "<feature name=\"org.gnu.gdb.arm.m-profile\">\n" ++
   "<reg name=\"r0\" bitsize=\"32\"/>\n" ++
   "<reg name=\"r1\" bitsize=\"32\"/>\n" ++
   "<reg name=\"r2\" bitsize=\"32\"/>\n" ++
   "<reg name=\"r3\" bitsize=\"32\"/>\n" ++
   "<reg name=\"r4\" bitsize=\"32\"/>\n" ++
   "<reg name=\"r5\" bitsize=\"32\"/>\n" ++
   "<reg name=\"r6\" bitsize=\"32\"/>\n" ++
   "<reg name=\"r7\" bitsize=\"32\"/>\n" ++
   "<reg name=\"r8\" bitsize=\"32\"/>\n" ++
   "<reg name=\"r9\" bitsize=\"32\"/>\n" ++
   "<reg name=\"r10\" bitsize=\"32\"/>\n" ++
   "<reg name=\"r11\" bitsize=\"32\"/>\n" ++
   "<reg name=\"r12\" bitsize=\"32\"/>\n" ++
   "<reg name=\"sp\" bitsize=\"32\" type=\"data_ptr\"/>\n" ++
   "<reg name=\"lr\" bitsize=\"32\"/>\n" ++
   "<reg name=\"pc\" bitsize=\"32\" type=\"code_ptr\"/>\n" ++
   "<reg name=\"xpsr\" bitsize=\"32\" regnum=\"25\"/>\n" ++
   "</feature>\n" ++
   "<feature name=\"org.gnu.gdb.arm.m-system\">\n" ++
   "<reg name=\"msp\" bitsize=\"32\" regnum=\"26\"/>\n" ++
   "<reg name=\"psp\" bitsize=\"32\" regnum=\"27\"/>\n" ++
   "</feature>\n" ++
   "</target>\n")

def xmlM4F : Str := asc
  ("<?xml version=\"1.0\"?>\n" ++
   "<!DOCTYPE feature SYSTEM \"gdb-target.dtd\">\n" ++
   "<target>\n" ++
   "<feature name=\"org.gnu.gdb.arm.m-profile\">\n" ++
   "<reg name=\"r0\" bitsize=\"32\"/>\n" ++
   "<reg name=\"r1\" bitsize=\"32\"/>\n" ++
   "<reg name=\"r2\" bitsize=\"32\"/>\n" ++
   "<reg name=\"r3\" bitsize=\"32\"/>\n" ++
   "<reg name=\"r4\" bitsize=\"32\"/>\n" ++
   "<reg name=\"r5\" bitsize=\"32\"/>\n" ++
   "<reg name=\"r6\" bitsize=\"32\"/>\n" ++
   "<reg name=\"r7\" bitsize=\"32\"/>\n" ++
   "<reg name=\"r8\" bitsize=\"32\"/>\n" ++
   "<reg name=\"r9\" bitsize=\"32\"/>\n" ++
   "<reg name=\"r10\" bitsize=\"32\"/>\n" ++
   "<reg name=\"r11\" bitsize=\"32\"/>\n" ++
   "<reg name=\"r12\" bitsize=\"32\"/>\n" ++
   "<reg name=\"sp\" bitsize=\"32\" type=\"data_ptr\"/>\n" ++
   "<reg name=\"lr\" bitsize=\"32\"/>\n" ++
   "<reg name=\"pc\" bitsize=\"32\" type=\"code_ptr\"/>\n" ++
   "<reg name=\"xpsr\" bitsize=\"32\" regnum=\"25\"/>\n" ++
   "</feature>\n" ++
   "<feature name=\"org.gnu.gdb.arm.m-system\">\n" ++
   "<reg name=\"msp\" bitsize=\"32\" regnum=\"26\"/>\n" ++
   "<reg name=\"psp\" bitsize=\"32\" regnum=\"27\"/>\n" ++
   "</feature>\n" ++
   "<feature name=\"org.gnu.gdb.arm.vfp\">\n" ++
   "<reg name=\"d0\" bitsize=\"64\" type=\"ieee_double\"/>\n" ++
   "<reg name=\"d1\" bitsize=\"64\" type=\"ieee_double\"/>\n" ++
   "<reg name=\"d2\" bitsize=\"64\" type=\"ieee_double\"/>\n" ++
   "<reg name=\"d3\" bitsize=\"64\" type=\"ieee_double\"/>\n" ++
   "<reg name=\"d4\" bitsize=\"64\" type=\"ieee_double\"/>\n" ++
   "<reg name=\"d5\" bitsize=\"64\" type=\"ieee_double\"/>\n" ++
   "<reg name=\"d6\" bitsize=\"64\" type=\"ieee_double\"/>\n" ++
   "<reg name=\"d7\" bitsize=\"64\" type=\"ieee_double\"/>\n" ++
   "<reg name=\"d8\" bitsize=\"64\" type=\"ieee_double\"/>\n" ++
   "<reg name=\"d9\" bitsize=\"64\" type=\"ieee_double\"/>\n" ++
   "<reg name=\"d10\" bitsize=\"64\" type=\"ieee_double\"/>\n" ++
   "<reg name=\"d11\" bitsize=\"64\" type=\"ieee_double\"/>\n" ++
   "<reg name=\"d12\" bitsize=\"64\" type=\"ieee_double\"/>\n" ++
   "<reg name=\"d13\" bitsize=\"64\" type=\"ieee_double\"/>\n" ++
   "<reg name=\"d14\" bitsize=\"64\" type=\"ieee_double\"/>\n" ++
   "<reg name=\"d15\" bitsize=\"64\" type=\"ieee_double\"/>\n" ++
   "<reg name=\"fpscr\" bitsize=\"32\" type=\"int\" group=\"float\"/>\n" ++
   "</feature>\n" ++
   "</target>\n")

/- `qXfer_TargetXML_ReturnsExpectedOutputForCortexM0`. -/
#guard passes [gives getTargetXml xmlM0, gives getTargetXmlSize xmlM0.length] (start 12)

/- `qXfer_TargetXML_FPUFlagSet_ReturnsExpectedOutputForCortexM4F`. -/
#guard passes [sets fun p => { p with ctx := { p.ctx with flags := FLAGS_FLOATING_POINT } }, gives getTargetXml xmlM4F,
  gives getTargetXmlSize xmlM4F.length] (start 12)

def mapXML : Str := asc
  ("<?xml version=\"1.0\"?>" ++
   "<!DOCTYPE memory-map PUBLIC \"+//IDN gnu.org//DTD GDB Memory Map V1.0//EN\" \"http://sourceware.org/gdb/gdb-memory-map.dtd\">" ++
   "<memory-map>" ++
   "<memory type=\"flash\" start=\"0x0\" length=\"0x8\"> <property name=\"blocksize\">1</property></memory>" ++
   "<memory type=\"ram\" start=\"0x10000000\" length=\"0x8000\"></memory>" ++
   "</memory-map>")

/- `qXfer_MemoryMap_ReturnsTwoRegions`. -/
#guard passes [gives getDeviceMemoryMapXmlSize mapXML.length, gives getDeviceMemoryMapXml mapXML] (start 12)

/-! ### mriPlatformExceptionTest.cpp -/

/- `SetExceptionCodeToNMI_ShouldReturn_SIGINT_TPacket`, line 42. -/
#guard report 2 [] []
    .SIGINT [0xCCCCCCCC, INITIAL_SP, INITIAL_LR, INITIAL_PC]

/- `SetExceptionCodeToHardFault_ShouldReturn_SIGSEGV_TPacket`, line 54. -/
#guard report 3 [] ["\n**Hard Fault**", "\n"]
    .SIGSEGV [0xCCCCCCCC, INITIAL_SP, INITIAL_LR, INITIAL_PC]

/- `SetExceptionCodeToHardFault_StatusRegisterSetTo0_VerifyOutput`, line 68. -/
#guard report 3 [(HFSR, 0)] ["\n**Hard Fault**", "\n  Status Register: ", "0x00", "\n"]
    .SIGSEGV [0xCCCCCCCC, INITIAL_SP, INITIAL_LR, INITIAL_PC]

/- `SetExceptionCodeToHardFault_DebugEvent_VerifyOutput`, line 85. -/
#guard report 3 [(HFSR, (1 <<< 31))] ["\n**Hard Fault**", "\n  Status Register: ", "0x80000000", "\n    Debug Event", "\n"]
    .SIGSEGV [0xCCCCCCCC, INITIAL_SP, INITIAL_LR, INITIAL_PC]

/- `SetExceptionCodeToHardFault_VectorTableReadError_VerifyOutput`, line 103. -/
#guard report 3 [(HFSR, (1 <<< 1))] ["\n**Hard Fault**", "\n  Status Register: ", "0x02", "\n    Vector Table Read", "\n"]
    .SIGSEGV [0xCCCCCCCC, INITIAL_SP, INITIAL_LR, INITIAL_PC]

/- `SetExceptionCodeToMemManageFault_ShouldReturn_SIGSEGV_TPacket`, line 121. -/
#guard report 4 [] ["\n"]
    .SIGSEGV [0xCCCCCCCC, INITIAL_SP, INITIAL_LR, INITIAL_PC]

/- `SetExceptionCodeToMemManageFault_StatusTo0_VerifyOutput`, line 134. -/
#guard report 4 [(CFSR, 0)] ["\n"]
    .SIGSEGV [0xCCCCCCCC, INITIAL_SP, INITIAL_LR, INITIAL_PC]

/- `SetExceptionCodeToMemManageFault_MMARValid_VerifyOutput`, line 148. -/
#guard report 4 [(CFSR, (1 <<< 7)), (MMFAR, 0xBAADFEED)] ["\n**MPU Fault**", "\n  Status Register: ", "0x80", "\n    Fault Address: ", "0xbaadfeed", "\n"]
    .SIGSEGV [0xCCCCCCCC, INITIAL_SP, INITIAL_LR, INITIAL_PC]

/- `SetExceptionCodeToMemManageFault_MMARValidButMMFARAccessThrows_VerifyOutput`, line 168. -/
#guard report 4 [(CFSR, (1 <<< 7))] ["\n**MPU Fault**", "\n  Status Register: ", "0x80", "\n"]
    .SIGSEGV [0xCCCCCCCC, INITIAL_SP, INITIAL_LR, INITIAL_PC]

/- `SetExceptionCodeToMemManageFault_FPLazyStatePreservation_VerifyOutput`, line 185. -/
#guard report 4 [(CFSR, (1 <<< 5))] ["\n**MPU Fault**", "\n  Status Register: ", "0x20", "\n    FP Lazy Preservation", "\n"]
    .SIGSEGV [0xCCCCCCCC, INITIAL_SP, INITIAL_LR, INITIAL_PC]

/- `SetExceptionCodeToMemManageFault_StackingError_VerifyOutput`, line 203. -/
#guard report 4 [(CFSR, (1 <<< 4))] ["\n**MPU Fault**", "\n  Status Register: ", "0x10", "\n    Stacking Error", "\n"]
    .SIGSEGV [0xCCCCCCCC, INITIAL_SP, INITIAL_LR, INITIAL_PC]

/- `SetExceptionCodeToMemManageFault_UnstackingError_VerifyOutput`, line 221. -/
#guard report 4 [(CFSR, (1 <<< 3))] ["\n**MPU Fault**", "\n  Status Register: ", "0x08", "\n    Unstacking Error", "\n"]
    .SIGSEGV [0xCCCCCCCC, INITIAL_SP, INITIAL_LR, INITIAL_PC]

/- `SetExceptionCodeToMemManageFault_DataAccess_VerifyOutput`, line 239. -/
#guard report 4 [(CFSR, (1 <<< 1))] ["\n**MPU Fault**", "\n  Status Register: ", "0x02", "\n    Data Access", "\n"]
    .SIGSEGV [0xCCCCCCCC, INITIAL_SP, INITIAL_LR, INITIAL_PC]

/- `SetExceptionCodeToMemManageFault_InstructionFetch_VerifyOutput`, line 257. -/
#guard report 4 [(CFSR, (1 <<< 0))] ["\n**MPU Fault**", "\n  Status Register: ", "0x01", "\n    Instruction Fetch", "\n"]
    .SIGSEGV [0xCCCCCCCC, INITIAL_SP, INITIAL_LR, INITIAL_PC]

/- `SetExceptionCodeToHardFault_ForceToMemManageFault_StackingError_VerifyOutput`, line 275. -/
#guard report 3 [(HFSR, (1 <<< 30)), (CFSR, (1 <<< 4))] ["\n**Hard Fault**", "\n  Status Register: ", "0x40000000", "\n    Forced", "\n**MPU Fault**", "\n  Status Register: ", "0x10", "\n    Stacking Error", "\n"]
    .SIGSEGV [0xCCCCCCCC, INITIAL_SP, INITIAL_LR, INITIAL_PC]

/- `SetExceptionCodeToBusFault_ShouldReturn_SIGBUS_TPacket`, line 298. -/
#guard report 5 [] ["\n"]
    .SIGBUS [0xCCCCCCCC, INITIAL_SP, INITIAL_LR, INITIAL_PC]

/- `SetExceptionCodeToBusFault_StatusTo0_VerifyOutput`, line 311. -/
#guard report 5 [(CFSR, 0)] ["\n"]
    .SIGBUS [0xCCCCCCCC, INITIAL_SP, INITIAL_LR, INITIAL_PC]

/- `SetExceptionCodeToBusFault_BFARValid_VerifyOutput`, line 325. -/
#guard report 5 [(CFSR, (1 <<< (7 + 8))), (BFAR, 0xBAADFEED)] ["\n**Bus Fault**", "\n  Status Register: ", "0x80", "\n    Fault Address: ", "0xbaadfeed", "\n"]
    .SIGBUS [0xCCCCCCCC, INITIAL_SP, INITIAL_LR, INITIAL_PC]

/- `SetExceptionCodeToBusFault_BARValidButBFARAccessThrows_VerifyOutput`, line 345. -/
#guard report 5 [(CFSR, (1 <<< (7 + 8)))] ["\n**Bus Fault**", "\n  Status Register: ", "0x80", "\n"]
    .SIGBUS [0xCCCCCCCC, INITIAL_SP, INITIAL_LR, INITIAL_PC]

/- `SetExceptionCodeToBusFault_FPLazyStatePreservation_VerifyOutput`, line 362. -/
#guard report 5 [(CFSR, (1 <<< (5 + 8)))] ["\n**Bus Fault**", "\n  Status Register: ", "0x20", "\n    FP Lazy Preservation", "\n"]
    .SIGBUS [0xCCCCCCCC, INITIAL_SP, INITIAL_LR, INITIAL_PC]

/- `SetExceptionCodeToBusFault_StackingError_VerifyOutput`, line 380. -/
#guard report 5 [(CFSR, (1 <<< (4 + 8)))] ["\n**Bus Fault**", "\n  Status Register: ", "0x10", "\n    Stacking Error", "\n"]
    .SIGBUS [0xCCCCCCCC, INITIAL_SP, INITIAL_LR, INITIAL_PC]

/- `SetExceptionCodeToBusFault_UnstackingError_VerifyOutput`, line 398. -/
#guard report 5 [(CFSR, (1 <<< (3 + 8)))] ["\n**Bus Fault**", "\n  Status Register: ", "0x08", "\n    Unstacking Error", "\n"]
    .SIGBUS [0xCCCCCCCC, INITIAL_SP, INITIAL_LR, INITIAL_PC]

/- `SetExceptionCodeToBusFault_ImpreciseAccess_VerifyOutput`, line 416. -/
#guard report 5 [(CFSR, (1 <<< (2 + 8)))] ["\n**Bus Fault**", "\n  Status Register: ", "0x04", "\n    Imprecise Data Access", "\n"]
    .SIGBUS [0xCCCCCCCC, INITIAL_SP, INITIAL_LR, INITIAL_PC]

/- `SetExceptionCodeToBusFault_PreciseAccess_VerifyOutput`, line 434. -/
#guard report 5 [(CFSR, (1 <<< (1 + 8)))] ["\n**Bus Fault**", "\n  Status Register: ", "0x02", "\n    Precise Data Access", "\n"]
    .SIGBUS [0xCCCCCCCC, INITIAL_SP, INITIAL_LR, INITIAL_PC]

/- `SetExceptionCodeToBusFault_InstructionPrefetch_VerifyOutput`, line 452. -/
#guard report 5 [(CFSR, (1 <<< (0 + 8)))] ["\n**Bus Fault**", "\n  Status Register: ", "0x01", "\n    Instruction Prefetch", "\n"]
    .SIGBUS [0xCCCCCCCC, INITIAL_SP, INITIAL_LR, INITIAL_PC]

/- `SetExceptionCodeToHardFault_ForceToBusFault_StackingError_VerifyOutput`, line 470. -/
#guard report 3 [(HFSR, (1 <<< 30)), (CFSR, (1 <<< (4 + 8)))] ["\n**Hard Fault**", "\n  Status Register: ", "0x40000000", "\n    Forced", "\n**Bus Fault**", "\n  Status Register: ", "0x10", "\n    Stacking Error", "\n"]
    .SIGSEGV [0xCCCCCCCC, INITIAL_SP, INITIAL_LR, INITIAL_PC]

/- `SetExceptionCodeToUsageFault_ShouldReturn_SIGILL_TPacket`, line 493. -/
#guard report 6 [] ["\n"]
    .SIGILL [0xCCCCCCCC, INITIAL_SP, INITIAL_LR, INITIAL_PC]

/- `SetExceptionCodeToUsageFault_StatusTo0_VerifyOutput`, line 506. -/
#guard report 6 [(CFSR, 0)] ["\n"]
    .SIGILL [0xCCCCCCCC, INITIAL_SP, INITIAL_LR, INITIAL_PC]

/- `SetExceptionCodeToUsageFault_DivideByZero_VerifyOutput`, line 520. -/
#guard report 6 [(CFSR, (1 <<< (9 + 16)))] ["\n**Usage Fault**", "\n  Status Register: ", "0x0200", "\n    Divide by Zero", "\n"]
    .SIGILL [0xCCCCCCCC, INITIAL_SP, INITIAL_LR, INITIAL_PC]

/- `SetExceptionCodeToUsageFault_Unaligned_VerifyOutput`, line 538. -/
#guard report 6 [(CFSR, (1 <<< (8 + 16)))] ["\n**Usage Fault**", "\n  Status Register: ", "0x0100", "\n    Unaligned Access", "\n"]
    .SIGILL [0xCCCCCCCC, INITIAL_SP, INITIAL_LR, INITIAL_PC]

/- `SetExceptionCodeToUsageFault_CoprocessorAccess_VerifyOutput`, line 556. -/
#guard report 6 [(CFSR, (1 <<< (3 + 16)))] ["\n**Usage Fault**", "\n  Status Register: ", "0x08", "\n    Coprocessor Access", "\n"]
    .SIGILL [0xCCCCCCCC, INITIAL_SP, INITIAL_LR, INITIAL_PC]

/- `SetExceptionCodeToUsageFault_InvalidPC_VerifyOutput`, line 574. -/
#guard report 6 [(CFSR, (1 <<< (2 + 16)))] ["\n**Usage Fault**", "\n  Status Register: ", "0x04", "\n    Invalid Exception Return State", "\n"]
    .SIGILL [0xCCCCCCCC, INITIAL_SP, INITIAL_LR, INITIAL_PC]

/- `SetExceptionCodeToUsageFault_InvalidState_VerifyOutput`, line 592. -/
#guard report 6 [(CFSR, (1 <<< (1 + 16)))] ["\n**Usage Fault**", "\n  Status Register: ", "0x02", "\n    Invalid State", "\n"]
    .SIGILL [0xCCCCCCCC, INITIAL_SP, INITIAL_LR, INITIAL_PC]

/- `SetExceptionCodeToUsageFault_UndefinedInstruction_VerifyOutput`, line 610. -/
#guard report 6 [(CFSR, (1 <<< (0 + 16)))] ["\n**Usage Fault**", "\n  Status Register: ", "0x01", "\n    Undefined Instruction", "\n"]
    .SIGILL [0xCCCCCCCC, INITIAL_SP, INITIAL_LR, INITIAL_PC]

/- `SetExceptionCodeToHardFault_ForceToUsageFault_UnalignedAccess_VerifyOutput`, line 628. -/
#guard report 3 [(HFSR, (1 <<< 30)), (CFSR, (1 <<< (8 + 16)))] ["\n**Hard Fault**", "\n  Status Register: ", "0x40000000", "\n    Forced", "\n**Usage Fault**", "\n  Status Register: ", "0x0100", "\n    Unaligned Access", "\n"]
    .SIGSEGV [0xCCCCCCCC, INITIAL_SP, INITIAL_LR, INITIAL_PC]

/- `SetExceptionCodeToHardFault_ForceToUsageFault_UnalignedAccess_WithGdbWaitVerifyNoOutput`, line 651. -/
#guard passes [does (setWaitForGdbConnect true), gives commShouldWaitForGdbConnect true] (start 3)

/- `SetExceptionCodeToDebugMonitorTrap_ShouldReturn_SIGTRAP_TPacket`, line 665. -/
#guard report 12 [] []
    .SIGTRAP [0xCCCCCCCC, INITIAL_SP, INITIAL_LR, INITIAL_PC]

end Verif.Tests.Platform
