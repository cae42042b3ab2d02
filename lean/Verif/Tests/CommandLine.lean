import Verif.Tests.Elf
import Verif.Model.CommandLine
/-
libCrashDebug/tests/CrashDebugCommandLineTests.cpp in the model, one check per TEST, in the order of the file. Generated
by tools/cmdtests.py.
-/
namespace Verif.Tests.CommandLine
open Verif MemSim CommandLine
open Verif.Tests.Elf (Ehdr Phdr)

/-- `sizeof(g_dumpDataV2)` and `sizeof(g_dumpDataV3)` count the terminating NUL, so the files have it. -/
def gdbV2 : Str := asc (
  "0x10000000:\t0x11111111\t0x22222222\t0x33333333\t0x44444444\n" ++
  "r0             0x5a5a5a5a\t0\n" ++
  "r1             0x11111111\n" ++
  "r2             0x22222222\n" ++
  "r3             0x33333333\n" ++
  "r4             0x44444444\n" ++
  "r5             0x55555555\n" ++
  "r6             0x66666666\n" ++
  "r7             0x77777777\n" ++
  "r8             0x88888888\n" ++
  "r9             0x99999999\n" ++
  "r10            0xAAAAAAAA\n" ++
  "r11            0xbbbbbbbb\n" ++
  "r12            0xcccccccc\n" ++
  "sp             0xdddddddd\n" ++
  "lr             0xeeeeeeee\n" ++
  "pc             0xffffffff\n" ++
  "xpsr           0xf00df00d\n") ++ [0]
def gdbV3 : Str := asc (
  "0x10000000:\t0x11111111\t0x22222222\t0x33333333\t0x44444444\n" ++
  "r0             0x5a5a5a5a\t0\n" ++
  "r1             0x11111111\n" ++
  "r2             0x22222222\n" ++
  "r3             0x33333333\n" ++
  "r4             0x44444444\n" ++
  "r5             0x55555555\n" ++
  "r6             0x66666666\n" ++
  "r7             0x77777777\n" ++
  "r8             0x88888888\n" ++
  "r9             0x99999999\n" ++
  "r10            0xAAAAAAAA\n" ++
  "r11            0xbbbbbbbb\n" ++
  "r12            0xcccccccc\n" ++
  "sp             0xdddddddd\n" ++
  "lr             0xeeeeeeee\n" ++
  "pc             0xffffffff\n" ++
  "xpsr           0xf00df00d\n" ++
  "msp            0xa5a5a5a5\n" ++
  "psp            0xbcbcbcbc\n") ++ [0]
def hexV2 : Str := asc (
  "63430200\r\n" ++
  "00000000\r\n" ++
  "5a5a5a5a111111112222222233333333\r\n" ++
  "44444444555555556666666677777777\r\n" ++
  "8888888899999999AAAAAAAABBBBBBBB\r\n" ++
  "CCCCCCCC\r\n" ++
  "DDDDDDDD\r\n" ++
  "EEEEEEEEFFFFFFFF0DF00DF0\r\n" ++
  "03000000\r\n" ++
  "0000001010000010\r\n" ++
  "11111111222222223333333344444444\r\n")
def hexV3 : Str := asc (
  "63430300\r\n" ++
  "00000000\r\n" ++
  "5a5a5a5a111111112222222233333333\r\n" ++
  "44444444555555556666666677777777\r\n" ++
  "8888888899999999AAAAAAAABBBBBBBB\r\n" ++
  "CCCCCCCC\r\n" ++
  "DDDDDDDD\r\n" ++
  "EEEEEEEEFFFFFFFF0DF00DF0\r\n" ++
  "A5A5A5A5BCBCBCBC03000000\r\n" ++
  "0000001010000010\r\n" ++
  "11111111222222223333333344444444\r\n")
def binV2 : Str := [0x63, 0x43, 0x02, 0x00, 0x00, 0x00, 0x00, 0x00, 0x5a, 0x5a, 0x5a, 0x5a, 0x11, 0x11, 0x11, 0x11, 0x22, 0x22,
  0x22, 0x22, 0x33, 0x33, 0x33, 0x33, 0x44, 0x44, 0x44, 0x44, 0x55, 0x55, 0x55, 0x55, 0x66, 0x66, 0x66, 0x66,
  0x77, 0x77, 0x77, 0x77, 0x88, 0x88, 0x88, 0x88, 0x99, 0x99, 0x99, 0x99, 0xAA, 0xAA, 0xAA, 0xAA, 0xBB, 0xBB,
  0xBB, 0xBB, 0xCC, 0xCC, 0xCC, 0xCC, 0xDD, 0xDD, 0xDD, 0xDD, 0xEE, 0xEE, 0xEE, 0xEE, 0xFF, 0xFF, 0xFF, 0xFF,
  0x0D, 0xF0, 0x0D, 0xF0, 0x03, 0x00, 0x00, 0x00, 0x00, 0x00, 0x00, 0x10, 0x10, 0x00, 0x00, 0x10, 0x11, 0x11,
  0x11, 0x11, 0x22, 0x22, 0x22, 0x22, 0x33, 0x33, 0x33, 0x33, 0x44, 0x44, 0x44, 0x44]
def binV3 : Str := [0x63, 0x43, 0x03, 0x00, 0x00, 0x00, 0x00, 0x00, 0x5a, 0x5a, 0x5a, 0x5a, 0x11, 0x11, 0x11, 0x11, 0x22, 0x22,
  0x22, 0x22, 0x33, 0x33, 0x33, 0x33, 0x44, 0x44, 0x44, 0x44, 0x55, 0x55, 0x55, 0x55, 0x66, 0x66, 0x66, 0x66,
  0x77, 0x77, 0x77, 0x77, 0x88, 0x88, 0x88, 0x88, 0x99, 0x99, 0x99, 0x99, 0xAA, 0xAA, 0xAA, 0xAA, 0xBB, 0xBB,
  0xBB, 0xBB, 0xCC, 0xCC, 0xCC, 0xCC, 0xDD, 0xDD, 0xDD, 0xDD, 0xEE, 0xEE, 0xEE, 0xEE, 0xFF, 0xFF, 0xFF, 0xFF,
  0x0D, 0xF0, 0x0D, 0xF0, 0xA5, 0xA5, 0xA5, 0xA5, 0xBC, 0xBC, 0xBC, 0xBC, 0x03, 0x00, 0x00, 0x00, 0x00, 0x00,
  0x00, 0x10, 0x10, 0x00, 0x00, 0x10, 0x11, 0x11, 0x11, 0x11, 0x22, 0x22, 0x22, 0x22, 0x33, 0x33, 0x33, 0x33,
  0x44, 0x44, 0x44, 0x44]

/-- `initElfFile`, lines 236-243. -/
def elfFile (e : Ehdr := {}) (p : Phdr := {}) : Str := e.bytes ++ p.bytes ++ leBytes 4 0x10000004 ++ leBytes 4 0x00000100

/-- `createTestFiles`, lines 196-234. -/
def testFiles (elf : Str) : List (String × Str) :=
  [("image.bin", leBytes 4 0x10000004 ++ leBytes 4 0x00000100), ("image.elf", elf), ("gdb_v2.txt", gdbV2),
   ("crash_v2.txt", hexV2), ("crash_v2.dmp", binV2), ("gdb_v3.txt", gdbV3), ("crash_v3.txt", hexV3),
   ("crash_v3.dmp", binV3)]

/-- `setup`: the structure is filled with 0xFF before `CrashDebugCommandLine_Init`. `how` is what the test does to the
files, `fail` the allocation that fails (0: none). -/
def start (elf : Str) (how : File → Option File) (fail : Nat) : Prog :=
  { elf := some [0xFF], bin := some [0xFF], dump := some [0xFF], baseAddress := 0xFFFFFFFF
    host :=
      { mem := MemSim.init { fails := fun k => k + 1 = fail }
        ctx := { flags := 0xFFFFFFFF, r := List.replicate 19 0xFFFFFFFF, psr := 0xFFFFFFFF,
                 fpr := List.replicate 33 0xFFFFFFFF }
        files :=
          { opens := fun _ name =>
              match (testFiles elf).find? (fun e => asc e.1 = name) with
              | some e => how (File.of e.2)
              | none => none } } }

/-- `teardown`: the registers are as expected; nothing is left open or allocated. -/
def teardown (r : List U32) : List (Step Prog) :=
  [holds fun p => p.host.ctx.r = r, does CommandLine.uninit, holds fun p => p.host.files.live = 0,
   holds fun p => p.host.mem.heap.live = 0]

def test (args : List String) (steps : M Prog Unit → List (Step Prog)) (r : List U32) (elf : Str := [])
    (how : File → Option File := some) (fail : Nat := 0) : Bool :=
  passes (steps (CommandLine.init args.length (args.map asc)) ++ teardown r) (start elf how fail)

/-- `__try_and_catch( CrashDebugCommandLine_Init(...) ); validateExceptionThrownAndUsageStringDisplayed(c, msg);`: the
last three texts on stderr are the error, the copyright notice and the usage. -/
def refused (init : M Prog Unit) (c : Exc) (msg : String) : List (Step Prog) :=
  [throwsMsg init c msg, holds fun p => p.err = asc "ERROR: " ++ asc msg ++ asc "\n" ++ copyrightNotice ++ usage,
   holds fun _ => (copyrightNotice.take 6 = asc "\nCrash") && (usage.take 6 = asc "Usage:")]

/-- `CHECK(m_commandLine.pMemory == NULL);`. -/
def noMemory : Step Prog := holds fun p => p.memory = false

def reads (a v : U32) : Step Prog := gives (onMemory (Host.onMem (read32 a))) v

/-- The registers of the dumps; `m`, `p` are MSP and PSP. -/
def regs (m p : U32) : List U32 :=
  [0x5A5A5A5A, 0x11111111, 0x22222222, 0x33333333, 0x44444444, 0x55555555, 0x66666666,
   0x77777777, 0x88888888, 0x99999999, 0xAAAAAAAA, 0xBBBBBBBB, 0xCCCCCCCC,
   0xDDDDDDDD, 0xEEEEEEEE, 0xFFFFFFFF, 0xF00DF00D,
   m, p]
def none19 : List U32 := List.replicate 19 0

/- `NoParameters_ShouldThrow`, line 287. -/
#guard test []
    (fun init => refused init .invalidArgument "Must provide --bin or --elf command line option." ++ [
      noMemory])
    none19

/- `NotDoubleSlashArgument_ShouldThrowAsNotAllowedForThisApp`, line 294. -/
#guard test ["image.bin"]
    (fun init => refused init .invalidArgument "Command line options must start with \"--\"." ++ [
      noMemory])
    none19

/- `InvalidCommandLineFlag_ShouldThrow`, line 303. -/
#guard test ["--foo"]
    (fun init => refused init .invalidArgument "\"--foo\" isn't a valid command line option." ++ [
      noMemory])
    none19

/- `JustImageFilename_ShouldThrowAsDumpFilenameIsRequiredToo`, line 312. -/
#guard test ["--bin", "image.bin", "0x0"]
    (fun init => refused init .invalidArgument "Must provide --dump command line option." ++ [
      noMemory])
    none19

/- `LeaveOffImageFilenameAndBaseAddress_ShouldThrow`, line 323. -/
#guard test ["--dump", "gdb_v2.txt", "--bin"]
    (fun init => refused init .invalidArgument "The --bin command line option requires filename and base address." ++ [
      noMemory])
    none19

/- `LeaveOffBaseAddress_ShouldThrow`, line 334. -/
#guard test ["--dump", "gdb_v2.txt", "--bin", "image.bin"]
    (fun init => refused init .invalidArgument "The --bin command line option requires filename and base address." ++ [
      noMemory])
    none19

/- `LeaveOffDumpFilename_ShouldThrow`, line 346. -/
#guard test ["--bin", "image.bin", "0x0", "--dump"]
    (fun init => refused init .invalidArgument "The --dump command line option requires filename." ++ [
      noMemory])
    none19

/- `ValidImageAndVersion2DumpFilenames_ValidateMemoryAndRegisters`, line 358. -/
#guard test ["--bin", "image.bin", "0x0", "--dump", "gdb_v2.txt"]
    (fun init => [does init] ++ [
      reads 0x00000000 0x10000004,
      reads 0x00000004 0x00000100,
      reads 0x10000000 0x11111111,
      reads 0x10000004 0x22222222,
      reads 0x10000008 0x33333333,
      reads 0x1000000c 0x44444444])
    (regs DEFAULT_SP_VALUE DEFAULT_SP_VALUE)

/- `ValidImageAndVersion3DumpFilenames_ValidateMemoryAndRegisters`, line 394. -/
#guard test ["--bin", "image.bin", "0x0", "--dump", "gdb_v3.txt"]
    (fun init => [does init] ++ [
      reads 0x00000000 0x10000004,
      reads 0x00000004 0x00000100,
      reads 0x10000000 0x11111111,
      reads 0x10000004 0x22222222,
      reads 0x10000008 0x33333333,
      reads 0x1000000c 0x44444444])
    (regs 0xa5a5a5a5 0xbcbcbcbc)

/- `ValidImageAndVersion2DumpFilenames_DifferentBaseAddress_ValidateMemoryAndRegisters`, line 430. -/
#guard test ["--bin", "image.bin", "0x4000", "--dump", "gdb_v2.txt"]
    (fun init => [does init] ++ [
      reads 0x00004000 0x10000004,
      reads 0x00004004 0x00000100,
      reads 0x10000000 0x11111111,
      reads 0x10000004 0x22222222,
      reads 0x10000008 0x33333333,
      reads 0x1000000c 0x44444444])
    (regs DEFAULT_SP_VALUE DEFAULT_SP_VALUE)

/- `ValidImageAndVersion3DumpFilenames_DifferentBaseAddress_ValidateMemoryAndRegisters`, line 466. -/
#guard test ["--bin", "image.bin", "0x4000", "--dump", "gdb_v3.txt"]
    (fun init => [does init] ++ [
      reads 0x00004000 0x10000004,
      reads 0x00004004 0x00000100,
      reads 0x10000000 0x11111111,
      reads 0x10000004 0x22222222,
      reads 0x10000008 0x33333333,
      reads 0x1000000c 0x44444444])
    (regs 0xa5a5a5a5 0xbcbcbcbc)

/- `ValidImageAndCrashCatcherVersion2HexDumpFilenames_ValidateMemoryAndRegisters`, line 502. -/
#guard test ["--bin", "image.bin", "0x0", "--dump", "crash_v2.txt"]
    (fun init => [does init] ++ [
      reads 0x00000000 0x10000004,
      reads 0x00000004 0x00000100,
      reads 0x10000000 0x11111111,
      reads 0x10000004 0x22222222,
      reads 0x10000008 0x33333333,
      reads 0x1000000c 0x44444444])
    (regs DEFAULT_SP_VALUE DEFAULT_SP_VALUE)

/- `ValidImageAndCrashCatcherVersion3HexDumpFilenames_ValidateMemoryAndRegisters`, line 538. -/
#guard test ["--bin", "image.bin", "0x0", "--dump", "crash_v3.txt"]
    (fun init => [does init] ++ [
      reads 0x00000000 0x10000004,
      reads 0x00000004 0x00000100,
      reads 0x10000000 0x11111111,
      reads 0x10000004 0x22222222,
      reads 0x10000008 0x33333333,
      reads 0x1000000c 0x44444444])
    (regs 0xa5a5a5a5 0xbcbcbcbc)

/- `ValidImageAndVersion2CrashCatcherBinaryDumpFilenames_ValidateMemoryAndRegisters`, line 574. -/
#guard test ["--bin", "image.bin", "0x0", "--dump", "crash_v2.dmp"]
    (fun init => [does init] ++ [
      reads 0x00000000 0x10000004,
      reads 0x00000004 0x00000100,
      reads 0x10000000 0x11111111,
      reads 0x10000004 0x22222222,
      reads 0x10000008 0x33333333,
      reads 0x1000000c 0x44444444])
    (regs DEFAULT_SP_VALUE DEFAULT_SP_VALUE)

/- `ValidImageAndVersion3CrashCatcherBinaryDumpFilenames_ValidateMemoryAndRegisters`, line 610. -/
#guard test ["--bin", "image.bin", "0x0", "--dump", "crash_v3.dmp"]
    (fun init => [does init] ++ [
      reads 0x00000000 0x10000004,
      reads 0x00000004 0x00000100,
      reads 0x10000000 0x11111111,
      reads 0x10000004 0x22222222,
      reads 0x10000008 0x33333333,
      reads 0x1000000c 0x44444444])
    (regs 0xa5a5a5a5 0xbcbcbcbc)

/- `FailImageFileOpen_ShouldThrow`, line 646. -/
#guard test ["--bin", "image.bin", "0x0", "--dump", "gdb_v3.txt"]
    (fun init => refused init .file "Failed to open \"image.bin\".")
    none19 (how := fun _ => none)

/- `FailImageFileSeekInGetFileSize_ShouldThrow`, line 659. -/
#guard test ["--bin", "image.bin", "0x0", "--dump", "gdb_v3.txt"]
    (fun init => refused init .file "Failed to get file size of \"image.bin\".")
    none19 (how := fun f => some { f with seekEndFails := true, seekSetFails := true })

/- `FailImageFileBufferAllocation_ShouldThrow`, line 672. -/
#guard test ["--bin", "image.bin", "0x0", "--dump", "gdb_v3.txt"]
    (fun init => refused init .outOfMemory "Failed to allocate 8 bytes for reading \"image.bin\".")
    none19 (fail := 1)

/- `FailImageFileRead_ShouldThrow`, line 685. -/
#guard test ["--bin", "image.bin", "0x0", "--dump", "gdb_v3.txt"]
    (fun init => refused init .file "Failed to read \"image.bin\".")
    none19 (how := fun f => some { f with bytes := [] })

/- `FailMemoryRegionAllocation_ShouldThrow`, line 698. -/
#guard test ["--bin", "image.bin", "0", "--dump", "gdb_v3.txt"]
    (fun init => refused init .outOfMemory "Failed to load read-only code into memory region at address 0x00000000.")
    none19 (fail := 2)

/- `InvalidDumpFilename_ShouldThrow`, line 711. -/
#guard test ["--bin", "image.bin", "0x0", "--dump", "invalidFilename.dmp"]
    (fun init => refused init .file "Failed to open \"invalidFilename.dmp\".")
    none19

/- `ValidElfAndVersion2DumpFilenames_ValidateMemoryAndRegisters`, line 723. -/
#guard test ["--elf", "image.elf", "--dump", "gdb_v2.txt"]
    (fun init => [does init] ++ [
      reads 0x00000000 0x10000004,
      reads 0x00000004 0x00000100,
      reads 0x10000000 0x11111111,
      reads 0x10000004 0x22222222,
      reads 0x10000008 0x33333333,
      reads 0x1000000c 0x44444444])
    (regs DEFAULT_SP_VALUE DEFAULT_SP_VALUE) (elf := elfFile {} {})

/- `ValidElfAndVersion3DumpFilenames_ValidateMemoryAndRegisters`, line 759. -/
#guard test ["--elf", "image.elf", "--dump", "gdb_v3.txt"]
    (fun init => [does init] ++ [
      reads 0x00000000 0x10000004,
      reads 0x00000004 0x00000100,
      reads 0x10000000 0x11111111,
      reads 0x10000004 0x22222222,
      reads 0x10000008 0x33333333,
      reads 0x1000000c 0x44444444])
    (regs 0xa5a5a5a5 0xbcbcbcbc) (elf := elfFile {} {})

/- `LeaveOffElfFilename_ShouldThrow`, line 795. -/
#guard test ["--dump", "gdb_v2.txt", "--elf"]
    (fun init => refused init .invalidArgument "The --elf command line option requires filename." ++ [
      noMemory])
    none19 (elf := elfFile {} {})

/- `InvalidElfSignature_ShouldThrow`, line 807. -/
#guard test ["--elf", "image.elf", "--dump", "gdb_v2.txt"]
    (fun init => refused init .elfFormat "ELF header doesn't start with expected magic ELF identifier." ++ [
      noMemory])
    none19 (elf := elfFile { mag0 := 0x80 } {})

/- `ValidElfAndVersion2DumpFilenames_DifferentBaseAddress_ValidateMemoryAndRegisters`, line 821. -/
#guard test ["--elf", "image.elf", "--dump", "gdb_v2.txt"]
    (fun init => [does init] ++ [
      reads 0x00004000 0x10000004,
      reads 0x00004004 0x00000100,
      reads 0x10000000 0x11111111,
      reads 0x10000004 0x22222222,
      reads 0x10000008 0x33333333,
      reads 0x1000000c 0x44444444])
    (regs DEFAULT_SP_VALUE DEFAULT_SP_VALUE) (elf := elfFile {} { paddr := 0x4000 })

/- `ValidElfAndVersion3DumpFilenames_DifferentBaseAddress_ValidateMemoryAndRegisters`, line 858. -/
#guard test ["--elf", "image.elf", "--dump", "gdb_v3.txt"]
    (fun init => [does init] ++ [
      reads 0x00004000 0x10000004,
      reads 0x00004004 0x00000100,
      reads 0x10000000 0x11111111,
      reads 0x10000004 0x22222222,
      reads 0x10000008 0x33333333,
      reads 0x1000000c 0x44444444])
    (regs 0xA5A5A5A5 0xBCBCBCBC) (elf := elfFile {} { paddr := 0x4000 })

/- `LeaveOffBaseAddressSizeRedirectAddress_ShouldThrow`, line 895. -/
#guard test ["--bin", "image.bin", "0x0", "--dump", "gdb_v3.txt", "--alias"]
    (fun init => refused init .invalidArgument "The --alias command line option requires baseAddress, size, and redirectAddress." ++ [
      noMemory])
    none19

/- `LeaveOffSizeRedirectAddress_ShouldThrow`, line 909. -/
#guard test ["--bin", "image.bin", "0x0", "--dump", "gdb_v3.txt", "--alias", "0xA0000000"]
    (fun init => refused init .invalidArgument "The --alias command line option requires baseAddress, size, and redirectAddress." ++ [
      noMemory])
    none19

/- `LeaveOffRedirectAddress_ShouldThrow`, line 924. -/
#guard test ["--bin", "image.bin", "0x0", "--dump", "gdb_v3.txt", "--alias", "0xA0000000", "8"]
    (fun init => refused init .invalidArgument "The --alias command line option requires baseAddress, size, and redirectAddress." ++ [
      noMemory])
    none19

/- `AttemptToAliasToUnknownRegion_ShouldThrow`, line 940. -/
#guard test ["--bin", "image.bin", "0x0", "--dump", "gdb_v3.txt", "--alias", "0xA0000000", "128", "0xBAADBEEF"]
    (fun init => refused init .busError "Failed to create alias of 0xA0000000 to 0xBAADBEEF of size 128." ++ [
      noMemory])
    (regs 0xa5a5a5a5 0xbcbcbcbc)

/- `UsingAliasesWithLargeSizesToBeTruncated_ValidateMemoryAndRegisters`, line 976. -/
#guard test ["--bin", "image.bin", "0x0", "--dump", "gdb_v3.txt", "--alias", "0xA0000000", "128", "0x0", "--alias", "0xB0000000", "128", "0x10000000"]
    (fun init => [does init] ++ [
      reads 0xA0000000 0x10000004,
      reads 0xA0000004 0x00000100,
      reads 0x00000000 0x10000004,
      reads 0x00000004 0x00000100,
      reads 0xB0000000 0x11111111,
      reads 0xB0000004 0x22222222,
      reads 0xB0000008 0x33333333,
      reads 0xB000000c 0x44444444,
      reads 0x10000000 0x11111111,
      reads 0x10000004 0x22222222,
      reads 0x10000008 0x33333333,
      reads 0x1000000c 0x44444444])
    (regs 0xa5a5a5a5 0xbcbcbcbc)

end Verif.Tests.CommandLine
