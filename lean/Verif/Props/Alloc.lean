import Verif.Lemmas.OomLoad
import Verif.Props.Main
/-
C75: failing allocations.
-/
namespace Verif.Props
open Verif MemSim Spec

/-- A heap on which only allocation number `k` fails. -/
def failsAt (k : Nat) : Heap := { fails := fun j => j = k }

/-- The exception an execution ended with, if any. -/
def raised : Out σ α → Option Exc
  | .throw e _ => some e.code
  | _ => none

/-- C75. Every call of the memory simulator, in every state, ends normally only if all its allocations succeeded and
raises the out-of-memory exception if and only if one of its allocations failed. -/
theorem C75_simulator_calls (c : Call) (s : Sim) : ReportsFailures Sim.heap s.heap (c.run s) := (rep_call c).reports s

/-- Concrete cases: an allocation of a call fails, and one that comes after it. -/
example :
    raised (Call.run (.setBreakpoint 0x1000 2) { demo with heap := failsAt 0 }) = some .outOfMemory ∧
    raised (Call.run (.setBreakpoint 0x1000 2) { demo with heap := failsAt 1 }) = none := ⟨rfl, rfl⟩
example :
    raised (Call.run (.createRegion 0x1000 2) { demo with heap := failsAt 1 }) = some .outOfMemory ∧
    raised (Call.run (.createRegion 0x1000 2) { demo with heap := failsAt 2 }) = none := ⟨rfl, rfl⟩
example : SomeFailed (failsAt 1) { failsAt 1 with next := 2 } := ⟨1, by decide⟩

/-- C75. The same for loading an ELF file. -/
theorem C75_elf (image : List U8) (size : Nat) (s : Sim) :
    ReportsFailures Sim.heap s.heap (Elf.fromMemory image size s) := (Elf.rep_fromMemory image size).reports s

/-- C75. The same for loading a dump. -/
theorem C75_dump (name : Str) (h : Host) :
    ReportsFailures (fun h : Host => h.mem.heap) h.mem.heap (Dump.readBinary name h) ∧
    ReportsFailures (fun h : Host => h.mem.heap) h.mem.heap (Dump.readHex name h) :=
  ⟨(Dump.rep_file _ name).reports h, (Dump.rep_file _ name).reports h⟩

/-- C75. The same for parsing a GDB log. -/
theorem C75_gdb_log (name : Str) (h : Host) :
    ReportsFailures (fun h : Host => h.mem.heap) h.mem.heap (GdbLog.parse name h) := (GdbLog.rep_parse name).reports h

/-- C75. The same for the whole start-up. -/
theorem C75_start_up (n : Int) (args : List Str) (p : CommandLine.Prog) :
    ReportsFailures (fun p : CommandLine.Prog => p.host.mem.heap) p.host.mem.heap (CommandLine.init n args p) :=
  (CommandLine.rep_init n args).reports p

/-- `progExample` with another heap. -/
def progHeap (h : Heap) : CommandLine.Prog := { progExample with host := { progExample.host with mem := MemSim.init h } }

/-- Concrete cases: the buffer for the image cannot be allocated; a region of the dump cannot be created; all goes well. -/
example : raised (CommandLine.init 4 argsElf (progHeap (failsAt 0))) = some .outOfMemory := by decide +kernel
example : raised (CommandLine.init 4 argsElf (progHeap (failsAt 5))) = some .outOfMemory := by decide +kernel
example : raised (CommandLine.init 4 argsElf (progHeap (failsAt 100))) = none := by decide +kernel

end Verif.Props
