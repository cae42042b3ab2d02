import Verif.Spec.CommandLine
import Verif.Spec.Platform
import Verif.Model.Main
/- Specification for C121: using CrashDebug again in the same process. -/
namespace Verif.Spec
open Verif CommandLine Main Platform

/-- What the world outside will answer from now on is the same for both: the same files are opened, the same allocations fail. -/
structure SameAhead (p p' : Prog) : Prop where
  files : ∀ k n, p'.host.files.opens (p'.host.files.next + k) n = p.host.files.opens (p.host.files.next + k) n
  heap : ∀ k, p'.host.mem.heap.fails (p'.host.mem.heap.next + k) = p.host.mem.heap.fails (p.host.mem.heap.next + k)

/-- Going from `p` to `q` and going from `p'` to `q'` is the same in all that can be observed: what was selected, the registers,
the memory (if there is any), what was printed, and how many files and blocks were left open or allocated. What follows
will be answered alike, too. -/
structure SameLeft (p q p' q' : Prog) : Prop where
  elf : q'.elf = q.elf
  bin : q'.bin = q.bin
  dump : q'.dump = q.dump
  base : q'.baseAddress = q.baseAddress
  handle : q'.memory = q.memory
  registers : q'.host.ctx = q.host.ctx
  memory : q.memory = true → q'.host.mem.regions = q.host.mem.regions ∧ q'.host.mem.hits = q.host.mem.hits ∧ q'.host.mem.xml = q.host.mem.xml
  said : ∃ t, q.err = p.err ++ t ∧ q'.err = p'.err ++ t
  files : q'.host.files.live - p'.host.files.live = q.host.files.live - p.host.files.live
  blocks : q'.host.mem.heap.live - p'.host.mem.heap.live = q.host.mem.heap.live - p.host.mem.heap.live
  ahead : SameAhead q q'

/-- Two runs, from `p` and from `p'`, end in the same way. -/
def SameEnd (p p' : Prog) : Out Prog Unit → Out Prog Unit → Prop
  | .ok _ q, .ok _ q' => SameLeft p q p' q'
  | .throw e q, .throw e' q' => e' = e ∧ SameLeft p q p' q'
  | .ub r, .ub r' => r' = r
  | _, _ => False

/-- Two debug sessions that stand alike: all that the debug monitor and GDB can get to see is the same. -/
structure SameSession (pl pl' : Plat) : Prop where
  registers : pl'.ctx = pl.ctx
  regions : pl'.mem.regions = pl.mem.regions
  hits : pl'.mem.hits = pl.mem.hits
  map : pl'.mem.xml = pl.mem.xml
  channel : pl'.comm = pl.comm
  faults : pl'.faults = pl.faults
  wait : pl'.wait = pl.wait
  code : pl'.code = pl.code
  packet : pl'.buf = pl.buf
  console : pl'.console = pl.console

/-- What a process may have done with CrashDebug before: `Used p q` says that `q` is reached from `p` by starting up with any
command lines, successfully or not, by debugging, and by releasing what was loaded, in any order and any number of times.
`mriPlatform_setWaitForGdbConnect` is for tests only (libCrashDebug/src/mriPlatform.c:184-187); its setting lasts, so it is not
called. The other variables of that file are set again by `mriPlatform_Init`. -/
inductive Used (p : Prog) : Prog → Prop
  | fresh : Used p p
  | started {q q' : Prog} (args : List Str) (u : Used p q) (h : startUp args q = .ok () q') : Used p q'
  | refused {q q' : Prog} (args : List Str) {e : Exn} (u : Used p q) (h : startUp args q = .throw e q') : Used p q'
  | debugged {q : Prog} (w : World) {cs : List PCall} {pl : Plat} (u : Used p q) (h : PHist (platform w q) cs pl)
      (t : ∀ b, PCall.setWait b ∉ cs) : Used p (back q pl)
  | released {q q' : Prog} (u : Used p q) (h : CommandLine.uninit q = .ok () q') : Used p q'

end Verif.Spec
