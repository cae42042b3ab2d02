import Verif.Model.MemorySim
import Verif.Model.IMemory
/-
What the loaders work on: the simulated memory, the register context and the host's files.
-/
namespace Verif
open MemSim

/-- A file of the host as the program can observe it after `fopen`. `bytes` is what reading from the start yields until end of
file or the first read error (after which nothing more is read). The other fields are the outcomes of `fseek(SEEK_END)`, `ftell`
and of going back to the start. See libCrashDebug/src/CrashCatcherDump.c:97, libCrashDebug/src/GdbLogParser.c:113,
libCrashDebug/src/CrashDebugCommandLine.c:268, 333. -/
structure File where
  bytes : Str
  seekEndFails : Bool := false
  tell : Int
  seekSetFails : Bool := false

/-- A well-behaved file. See libCrashDebug/src/CrashCatcherDump.c:97. -/
def File.of (bytes : Str) : File := { bytes := bytes, tell := bytes.length }

/-- The host's file system: what the n-th `fopen` of a name returns (`none` = NULL), how many `fopen`s were made and how many
files are open. See libCrashDebug/src/CrashCatcherDump.c:97, libCrashDebug/src/GdbLogParser.c:113,
libCrashDebug/src/CrashDebugCommandLine.c:268, 333. -/
structure Files where
  opens : Nat → Str → Option File
  next : Nat := 0
  live : Int := 0

/-- `struct RegisterContext`, include/mriPlatform.h:78-84. `r` has 19 entries, `fpr` has 33. -/
structure Regs where
  flags : U32 := 0
  r : List U32 := List.replicate 19 0
  psr : U32 := 0
  fpr : List U32 := List.replicate 33 0
  deriving DecidableEq, Repr

/-- include/mriPlatform.h:34-39. -/
def regSP : Nat := 13
/-- include/mriPlatform.h:35. -/
def regLR : Nat := 14
/-- include/mriPlatform.h:36. -/
def regPC : Nat := 15
/-- include/mriPlatform.h:37. -/
def regXPSR : Nat := 16
/-- include/mriPlatform.h:38. -/
def regMSP : Nat := 17
/-- include/mriPlatform.h:39. -/
def regPSP : Nat := 18
/-- include/mriPlatform.h:87. -/
def DEFAULT_SP_VALUE : U32 := 0xBAADBAAD
/-- `CRASH_CATCHER_FLAGS_FLOATING_POINT` of CrashCatcher.h (submodule not in /repo). -/
def FLAGS_FLOATING_POINT : U32 := 1

/-- The loaders' surroundings. See the arguments of libCrashDebug/src/GdbLogParser.c:90 and
libCrashDebug/src/CrashCatcherDump.c:60. -/
structure Host where
  mem : Sim
  ctx : Regs := {}
  files : Files

namespace Host

/-- Code that works on the simulator. See libCrashDebug/src/CrashCatcherDump.c:60-75, libCrashDebug/src/GdbLogParser.c:90-110. -/
def onMem (m : M Sim α) : M Host α := M.zoom Host.mem (fun s h => { h with mem := s }) m

/-- `fopen`. See libCrashDebug/src/CrashCatcherDump.c:97, libCrashDebug/src/GdbLogParser.c:113,
libCrashDebug/src/CrashDebugCommandLine.c:268, 333. -/
def fopen (name : Str) : M Host (Option File) := fun h =>
  match h.files.opens h.files.next name with
  | none => .ok none { h with files := { h.files with next := h.files.next + 1 } }
  | some f => .ok (some f) { h with files := { h.files with next := h.files.next + 1, live := h.files.live + 1 } }

/-- `fclose`. See libCrashDebug/src/CrashCatcherDump.c:238, libCrashDebug/src/GdbLogParser.c:101, 106,
libCrashDebug/src/CrashDebugCommandLine.c:284, 290, 337. -/
def fclose : M Host Unit := M.modify fun h => { h with files := { h.files with live := h.files.live - 1 } }

end Host

/-- Hexadecimal, exactly `n` digits, upper case: `%08X` for `n = 8`. See libCrashDebug/src/CrashCatcherDump.c:205,
libCrashDebug/src/CrashDebugCommandLine.c:217, 309. -/
def hexFixed : (n : Nat) → Nat → Str
  | 0, _ => []
  | n + 1, v => hexFixed n (v / 16) ++ [hexDigitUpper (v % 16)]

/-- `%08X` of a `uint32_t`. See libCrashDebug/src/CrashCatcherDump.c:205, libCrashDebug/src/CrashDebugCommandLine.c:217, 309. -/
def fmt08X (x : U32) : Str := hexFixed 8 x.toNat

/-- Storing bytes over the beginning of a `uint32_t` in memory. See libCrashDebug/src/CrashCatcherDump.c:79. -/
def overlayWord (w : U32) (bs : List U8) : U32 :=
  BitVec.ofNat 32 (leVal (bs.take 4 ++ (leBytes 4 w.toNat).drop bs.length))

/-- Storing bytes over the beginning of a `uint32_t` array in memory. See libCrashDebug/src/CrashCatcherDump.c:79. -/
def overlay : List U32 → List U8 → List U32
  | [], _ => []
  | w :: ws, bs => overlayWord w bs :: overlay ws (bs.drop 4)

end Verif
