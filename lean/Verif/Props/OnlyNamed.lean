import Verif.Lemmas.OnlyNamed
import Verif.Props.Whole
/-
C85: only the files named on the command line matter.
-/
namespace Verif.Props
open Verif MemSim Spec CommandLine Platform Main

/-- C85. Start-up does the same on two file systems that agree on the image and the dump named on the command line, whatever
other files there are, whatever is in files named by options that a later option or `--elf` overrides, and whatever these
files hold at other times: it ends in the same way, with the same message, memory and registers. -/
theorem C85_start_up_reads_only_named_files {args : List Str} {g : Nat → Str → Option File} {p : Prog} (h : SameNamedFiles args g p) :
    startUp args (reopened g p) = seenThrough (reopened g) (startUp args p) := startUp_same h

theorem platform_reopened (w : World) (g : Nat → Str → Option File) (p : Prog) : platform w (reopened g p) = platform w p := rfl

theorem session_reopened {w : World} {stop : M Plat Bool} {g : Nat → Str → Option File} {p : Prog} {o : Out Plat Unit} (h : Session w stop p o) :
    Session w stop (reopened g p) o := by
  cases h with
  | raised h => exact .raised h
  | broken h => exact .broken h
  | run h1 h2 => exact .run h1 h2

theorem uninit_reopened (g : Nat → Str → Option File) : Comm (reopened g) CommandLine.uninit := by
  intro p
  unfold CommandLine.uninit uninitMemory
  rw [M.bind_apply, M.bind_apply, M.get_apply, M.get_apply]
  simp only
  rw [show (reopened g p).memory = p.memory from rfl]
  cases p.memory <;> rfl

theorem handler_reopened (w : World) (g : Nat → Str → Option File) (c : Exc) : Comm (reopened g) (Main.handler w c) := by
  unfold Main.handler
  split
  · exact Comm.bind (uninit_reopened g) fun _ => Comm.pure _
  · exact Comm.bind (Comm.modify fun _ => rfl) fun _ => Comm.bind (uninit_reopened g) fun _ => Comm.pure _

theorem runs_via {w : World} {stop : M Plat Bool} {name : Str} {words : List Str} {g : Nat → Str → Option File}
    {p : Prog} {o : Out Prog Int} (h1 : startUp words (reopened g p) = seenThrough (reopened g) (startUp words p))
    (hr : Runs w stop name words p o) : Runs w stop name words (reopened g p) (seenThrough (reopened g) o) := by
  have again : ∀ {o}, CommandLine.init (((name :: words).length : Int) - 1) ((name :: words).drop 1) p = o →
      CommandLine.init (((name :: words).length : Int) - 1) ((name :: words).drop 1) (reopened g p) = seenThrough (reopened g) o := by
    intro o e
    rw [runs_init] at e ⊢
    rw [h1, e]
  cases hr with
  | startUpRaised e =>
    rw [← handler_reopened w g]
    exact .startUpRaised (again e)
  | startUpBroken e => exact .startUpBroken (again e)
  | raised e hs =>
    rw [← handler_reopened w g]
    exact .raised (again e) (session_reopened hs)
  | broken e hs => exact .broken (again e) (session_reopened hs)
  | stale e hs hc =>
    rw [← handler_reopened w g]
    exact .stale (again e) (session_reopened hs) hc
  | done e hs hc =>
    rw [← (Comm.bind (uninit_reopened g) fun _ => Comm.pure _ : Comm (reopened g) (do CommandLine.uninit; pure (0 : Int)))]
    exact .done (again e) (session_reopened hs) hc

/-- C85. The same for a whole run of the program, with any debug monitor. -/
theorem C85_program_reads_only_named_files {w : World} {stop : M Plat Bool} {name : Str} {words : List Str} {g : Nat → Str → Option File}
    {p : Prog} {o : Out Prog Int} (h : SameNamedFiles words g p) (hr : Runs w stop name words p o) :
    Runs w stop name words (reopened g p) (seenThrough (reopened g) o) :=
  runs_via (startUp_same h) hr

/-- The files of `progExample`, plus a file "x", and the raw image "b" replaced: a command line that names "b", but is
overridden by `--elf`, does not notice. -/
def otherFiles : Nat → Str → Option File := fun i n =>
  if n = [0x78] ∨ n = [0x62] then some (File.of [7, 7]) else if n = [0x65] ∧ i ≠ 0 then none else (diskExample.lookup n).map File.of

/-- `--bin b 0x100 --ELF e --dump d` -/
def argsBoth : List Str := [asc "--bin", [0x62], asc "0x100"] ++ argsElf
theorem spelledBoth : Spelled argsBoth (.bin [0x62] (asc "0x100") :: optsElf) :=
  .cons (o := .bin _ _) (spells .bin (by decide +kernel)) spelledElf

theorem sameNamed : SameNamedFiles argsBoth otherFiles progExample := by
  intro os hs
  cases spelled_unique spelledBoth hs
  refine ⟨fun n hn => ?_, fun d hd i hi => ?_⟩
  · cases (show some [0x65] = some n from hn); rfl
  · cases (show some [0x64] = some d from hd); rfl

/-- C85 applies to this command line and these file systems, and start-up succeeds on both. -/
example : ∃ q, startUp argsBoth progExample = .ok () q ∧ startUp argsBoth (reopened otherFiles progExample) = .ok () (reopened otherFiles q) := by
  obtain ⟨q, h1, -⟩ := C72_start_up_loads (p := progExample) (n := [0x65]) (d := [0x64]) (bytes := elfExample) (text := encode startDump)
    spelledBoth rfl rfl rfl (fun _ => rfl) (fun _ => rfl)
    ⟨by decide +kernel, by decide +kernel, by decide +kernel, by rw [elfExample_blocks]; simp, elfExample_blocks.symm⟩
    (.inl rfl) startDump_wf (disjoint_ranges (by decide)) (by unfold Fits; decide) (fun _ => rfl)
  exact ⟨q, h1, by rw [C85_start_up_reads_only_named_files sameNamed, h1]; rfl⟩

end Verif.Props
