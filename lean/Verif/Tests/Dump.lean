import Verif.Tests.Harness
import Verif.Model.Dump
/-
libCrashDebug/tests/CrashCatcherDumpTests.h in the model, one check per DUMP_TEST, in the order of the file, each for
the binary reader (CrashCatcherBinaryDumpTests.cpp) and for the hex reader (CrashCatcherHexDumpTests.cpp); then the
tests of CrashCatcherHexDumpTests.cpp itself. The tests leave the exception PSR of the file uninitialised where they do
not set it; it is 0 here.
-/
namespace Verif.Tests.Dump
open Verif MemSim Dump

/-- `initRegisterContext`, DumpBaseTest.h:74-83. -/
def regs0 : Regs := { r := List.replicate 19 0xDEADBEEF }

def words (ws : List U32) : Str := ws.flatMap fun w => leBytes 4 w.toNat

/-- `DumpFileTop` with `initFileTop`, DumpBaseTest.h:30-36, 85-94. -/
structure Top where
  minor : U8 := 0
  flags : U32 := 0
  r : List U32 := List.replicate 19 0xDEADBEEF
  psr : U32 := 0

def Top.bytes (t : Top) : Str := [0x63, 0x43, 3, t.minor] ++ words [t.flags] ++ words t.r ++ words [t.psr]

/-- `DumpFileTopVersion2` with `initFileTopVersion2`, DumpBaseTest.h:43-49, 96-105. -/
structure Top2 where
  flags : U32 := 0
  r : List U32 := List.replicate 17 0xDEADBEEF
  psr : U32 := 0

def Top2.bytes (t : Top2) : Str := [0x63, 0x43, 2, 0] ++ words [t.flags] ++ words t.r ++ words [t.psr]

/-- `createTestDumpFile` of CrashCatcherHexDumpTests.cpp:29-43. -/
def hexOf (bs : Str) : Str := bs.flatMap fun b => hexFixed 2 b.toNat

def hostWith (opens : Nat → Str → Option File) : Host :=
  { mem := init { fails := fun _ => false }, ctx := regs0, files := { opens := opens } }

/-- `teardown`, DumpBaseTest.h:107-117: the registers are as expected, nothing is left open or allocated. -/
def teardown (expected : Regs) : List (Step Host) :=
  [holds fun h => h.ctx = expected, holds fun h => h.files.live = 0, does (Host.onMem uninit),
   holds fun h => h.mem.heap.live = 0]

/-- One test on the file `bytes`, with both readers. -/
def test (bytes : Str) (steps : M Host Unit → List (Step Host)) (expected : Regs) : Bool :=
  passes (steps (readBinary (asc "x.dmp")) ++ teardown expected) (hostWith fun _ _ => some (File.of bytes)) &&
  passes (steps (readHex (asc "x.dmp")) ++ teardown expected) (hostWith fun _ _ => some (File.of (hexOf bytes)))

def mapHead : String := "<?xml version=\"1.0\"?>" ++
  "<!DOCTYPE memory-map PUBLIC \"+//IDN gnu.org//DTD GDB Memory Map V1.0//EN\" \"http://sourceware.org/gdb/gdb-memory-map.dtd\">" ++
  "<memory-map>"

/-- `STRCMP_EQUAL(xml, MemorySim_GetMemoryMapXML(m_pMem))`, with what all of them begin with left out. -/
def mapIs (s : String) : Step Host := gives (Host.onMem getMemoryMapXML) (asc mapHead ++ asc s)

/-- `validateNoMemoryRegionsCreated`, DumpBaseTest.h:133-141. -/
def noRegions : Step Host := mapIs "</memory-map>"

def reads (a v : U32) : Step Host := gives (Host.onMem (read32 a)) v

def failAllocation (i : Nat) : Step Host := sets fun h =>
  let n := h.mem.heap.next
  { h with mem := { h.mem with heap := { h.mem.heap with fails := fun k => k + 1 = n + i } } }

/-- R0 to R15 of the tests: `i * 0x11111111`. -/
def r16 : List U32 := (List.range 16).map fun i => BitVec.ofNat 32 i * 0x11111111
def r19 : List U32 := r16 ++ [0xF00DF00D, 0x45454545, 0x54545454]
def r17 : List U32 := r16 ++ [0xF00DF00D]
def fpr : List U32 := (List.range 32).map (BitVec.ofNat 32) ++ [0xBAADF00D]

/- `InvalidLogFilename_ShouldThrowFileException`. -/
#guard passes ([throwsMsg (readBinary (asc "invalidDumpFilename.dmp")) .file
    "Failed to open the \"invalidDumpFilename.dmp\" dump file."] ++ teardown regs0) (hostWith fun _ _ => none) = true ∧
  passes ([throwsMsg (readHex (asc "invalidDumpFilename.dmp")) .file
    "Failed to open the \"invalidDumpFilename.dmp\" dump file."] ++ teardown regs0) (hostWith fun _ _ => none)

/- `InvalidSignature_ShouldThrowFileFormatException`. -/
#guard test ({ minor := 1 } : Top).bytes (fun read => [throwsMsg read .fileFormat
    "The dump file didn't start with the expected 4-byte signature."]) regs0

/- `FailSignatureRead_ShouldThrowFileFormatException`: every read fails, so nothing is read. -/
#guard test [] (fun read => [throwsMsg read .fileFormat
    "The dump file was too short to contain the 4-byte signature."]) regs0

/- `FileTooShortForFlags_ShouldThrowFileFormatException`. -/
#guard test (({} : Top).bytes.take 7) (fun read => [throwsMsg read .fileFormat
    "The dump file was too short to contain the flags."]) regs0

/- `FileTooShortForExceptionPSR_ShouldThrowFileFormatException`. -/
#guard test (({} : Top).bytes.take (88 - 1)) (fun read => [throwsMsg read .fileFormat
    "The dump file was too short to contain the exception PSR."]) regs0

/- `FileTooShortForIntegerRegisters_ShouldThrowFileFormatException`. -/
#guard test (({} : Top).bytes.take (88 - 5)) (fun read => [throwsMsg read .fileFormat
    "The dump file was too short to contain the integer registers."]) regs0

/- `DumpContainingRegistersOnly_VerifyRegistersReadAndEmptyMemoryRegions`. -/
#guard test ({ r := r19, psr := 0xBAADFEED } : Top).bytes (fun read => [does read, noRegions])
    { r := r19, psr := 0xBAADFEED }

/- `Version2DumpContainingRegistersOnly_VerifyRegistersReadDefaultMSPandPSPAndEmptyMemoryRegions`. -/
#guard test ({ r := r17, psr := 0xBAADFEED } : Top2).bytes (fun read => [does read, noRegions])
    { r := r17 ++ [DEFAULT_SP_VALUE, DEFAULT_SP_VALUE], psr := 0xBAADFEED }

/- `DumpContainingFloatRegistersToo_VerifyRegistersReadAndEmptyMemoryRegions`. -/
#guard test (({ flags := 1, r := r19, psr := 0xBAADFEED } : Top).bytes ++ words fpr)
    (fun read => [does read, noRegions]) { flags := 1, r := r19, psr := 0xBAADFEED, fpr := fpr }

/- `Version2DumpContainingFloatRegistersToo_VerifyRegistersDefaultsForMSPandPSPReadAndEmptyMemoryRegions`. -/
#guard test (({ flags := 1, r := r17, psr := 0xBAADFEED } : Top2).bytes ++ words fpr)
    (fun read => [does read, noRegions])
    { flags := 1, r := r17 ++ [DEFAULT_SP_VALUE, DEFAULT_SP_VALUE], psr := 0xBAADFEED, fpr := fpr }

/- `FileTooShortForFloatRegisters_ShouldThrowFileFormatException`. -/
#guard test (({ flags := 1 } : Top).bytes ++ (words (List.replicate 33 0)).take (4 * 33 - 1))
    (fun read => [throwsMsg read .fileFormat
      "The dump file was too short to contain the floating point registers."]) { regs0 with flags := 1 }

/-- The file of the tests with one memory region. -/
def oneRegion : Str := ({} : Top).bytes ++ words [0x10000000, 0x10000004, 0x11111111]

/- `DumpContainingOneMemoryRegionOf1Word_VerifyMemoryContents`. -/
#guard test oneRegion (fun read => [does read,
    mapIs "<memory type=\"ram\" start=\"0x10000000\" length=\"0x4\"></memory></memory-map>",
    reads 0x10000000 0x11111111]) regs0

/- `FailAllocationForRegion_VerifyEmptyMemoryAndExceptionThrown`. -/
#guard test oneRegion (fun read => [failAllocation 1, throwsMsg read .outOfMemory
    "The dump file failed to load RAM memory region at 0x10000000 - 0x10000004.", noRegions]) regs0

/- `DumpContainingTruncatedMemoryRegionDescription_ExceptionShouldBeThrownAndNoMemoryRegionsCreated`. -/
#guard test (oneRegion.take (100 - 4 - 1)) (fun read => [throwsMsg read .fileFormat
    "The dump file contained a truncated memory region header.", noRegions]) regs0

/- `DumpContainingTruncatedMemoryRegionData_ExceptionShouldBeThrown_PartiallyCompletedMemoryRegion`. -/
#guard test (oneRegion.take (100 - 1)) (fun read => [throwsMsg read .fileFormat
    "The dump file failed to load RAM memory region at 0x10000000 - 0x10000004.",
    mapIs "<memory type=\"ram\" start=\"0x10000000\" length=\"0x4\"></memory></memory-map>",
    reads 0x10000000 0x00111111]) regs0

/- `DumpContainingTwoMemoryRegionsOf1Word_VerifyMemoryContents`. -/
#guard test (oneRegion ++ words [0x20000000, 0x20000004, 0x22222222]) (fun read => [does read,
    mapIs ("<memory type=\"ram\" start=\"0x10000000\" length=\"0x4\"></memory>" ++
      "<memory type=\"ram\" start=\"0x20000000\" length=\"0x4\"></memory></memory-map>"),
    reads 0x10000000 0x11111111, reads 0x20000000 0x22222222]) regs0

/- `DumpContainingOneMemoryRegionsFollowedByStackOverflowError_VerifyMemoryContentsAndExceptionThrown`. -/
#guard test (oneRegion ++ words [STACK_SENTINEL]) (fun read => [throwsMsg read .stackOverflow
    "The dump file ended with an indication that CrashCatcher detected a stack overflow.",
    mapIs "<memory type=\"ram\" start=\"0x10000000\" length=\"0x4\"></memory></memory-map>",
    reads 0x10000000 0x11111111]) regs0

/-- The text of the hex tests, CrashCatcherHexDumpTests.cpp:57-63. -/
def hexText (last : String) : Str := asc ("63430300\r\n" ++ "00000000\r\n" ++ "00000000111111112222222233333333\n" ++
  "44444444555555556666666677777777\r" ++ "8888888899999999AAAAAAAABBBBBBBB\n\r" ++
  "CCCCCCCCDDDDDDDDEEEEEEEEFFFFFFFF\r\n" ++ last)

def hexTest (text : Str) (steps : M Host Unit → List (Step Host)) (expected : Regs) : Bool :=
  passes (steps (readHex (asc "x.dmp")) ++ teardown expected) (hostWith fun _ _ => some (File.of text))

/- `DumpContainingNewlinesBetweenHexDigits_VerifyRegistersReadAndEmptyMemoryRegions`. -/
#guard hexTest (hexText "0DF00DF04545454554545454EDFEADBA") (fun read => [does read, noRegions])
    { r := r19, psr := 0xBAADFEED }

/- `SameTestAsPreviousButWithLowercaseHexDigits`. -/
#guard hexTest (asc ("63430300\r\n" ++ "00000000\r\n" ++ "00000000111111112222222233333333\n" ++
  "44444444555555556666666677777777\r" ++ "8888888899999999aaaaaaaabbbbbbbb\n\r" ++
  "ccccccccddddddddeeeeeeeeffffffff\r\n" ++ "0df00df04545454554545454edfeadba")) (fun read => [does read, noRegions])
    { r := r19, psr := 0xBAADFEED }

/- `DumpContainingOneTooFewHexDigits_VerifyExceptionThrown`. -/
#guard hexTest (hexText "0DF00DF04545454554545454EDFEADB") (fun read => [throws read .fileFormat, noRegions])
    { r := r19, psr := 0x00ADFEED }

/- `DumpContainingNonHexDigitInLastByte_VerifyExceptionThrown`. -/
#guard hexTest (hexText "0DF00DF04545454554545454EDFEADBG") (fun read => [throws read .fileFormat, noRegions])
    { r := r19, psr := 0x00ADFEED }

end Verif.Tests.Dump
