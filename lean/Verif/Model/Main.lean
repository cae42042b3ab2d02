import Verif.Model.CommandLine
import Verif.Model.Platform
/-
Model of main/main.c.
-/
namespace Verif.Main
open Verif Platform CommandLine

/-- What `main` works with but does not define: mri's `__mriInit("")` and `__mriDebugException()`, which may do anything;
standard input and output; mri's packet buffer; the numbers of the exceptions (they are offsets from mri's
`mriMaxException`, include/try_catch.h:23-38). -/
structure World where
  mriInit : M Plat Unit
  debugException : M Plat Unit
  comm : Comm.Comm
  buf : Buf
  number : Exc → Int

/-- The platform's variables when the session starts (`main`, line 29-31; libCrashDebug/src/mriPlatform.c:144-149): it works on
`commandLine.context` and `commandLine.pMemory`. No exception is pending after a successful start-up. -/
def platform (w : World) (p : Prog) : Plat := { mem := p.host.mem, ctx := p.host.ctx, comm := w.comm, buf := w.buf }

/-- What start-up loaded, as the session left it. See main/main.c:24, 28-31. -/
def back (p : Prog) (q : Plat) : Prog := { p with host := { p.host with mem := q.mem, ctx := q.ctx } }

/-- main/main.c:29 and 30: `StandardIComm_Init`, `mriPlatform_Init`. -/
def prepare (w : World) : M Plat Unit := do
  onComm Comm.init
  Platform.init
  w.mriInit

/-- main/main.c:29-31: `Session w stop p o` says that the session on what was loaded into `p` ends with outcome `o`. For the
standard channel `stop` is `standardStop`. -/
inductive Session (w : World) (stop : M Plat Bool) (p : Prog) : Out Plat Unit → Prop
  | raised : prepare w (platform w p) = .throw e q → Session w stop p (.throw e q)
  | broken : prepare w (platform w p) = .ub r → Session w stop p (.ub r)
  | run : prepare w (platform w p) = .ok () q → RunLoop stop w.debugException q o → Session w stop p o

/-- `shouldStopRun` of the channel that `main` uses. See main/main.c:29, 31. -/
def standardStop : M Plat Bool := onComm Comm.shouldStopRun

/-- `getExceptionCode()` in the handler when `e` was raised while the code `pending` was set (`setExceptionCode`,
include/try_catch.h:124-127, keeps the larger number). -/
def seen (w : World) (pending : Option Exc) (e : Exc) : Exc :=
  match pending with
  | none => e
  | some c => if w.number e > w.number c then e else c

/-- The handler of `main`, main/main.c:33-47, and what follows it, lines 48-51. `StandardIComm_Uninit` does nothing. -/
def handler (w : World) (c : Exc) : M Prog Int := do
  if c = .file ∨ c = .elfFormat ∨ c = .invalidArgument then pure ()
  else print (asc "Encountered unexpected error: " ++ asc (toString (w.number c)) ++ asc "\n")
  CommandLine.uninit
  pure (-1)

/-- `main`, main/main.c:20-52: `MainRun w stop argc argv p o` says that `main` ends with outcome `o` (the returned value, and the
state it leaves). The handler is also entered when the block completes with an exception code set (`__catch`). -/
inductive MainRun (w : World) (stop : M Plat Bool) (argc : Int) (argv : List Str) (p : Prog) : Out Prog Int → Prop
  | startUpRaised : CommandLine.init (argc - 1) (argv.drop 1) p = .throw e p1 →
      MainRun w stop argc argv p (handler w e.code p1)
  | startUpBroken : CommandLine.init (argc - 1) (argv.drop 1) p = .ub r → MainRun w stop argc argv p (.ub r)
  | raised : CommandLine.init (argc - 1) (argv.drop 1) p = .ok () p1 → Session w stop p1 (.throw e q) →
      MainRun w stop argc argv p (handler w (seen w q.code e.code) (back p1 q))
  | broken : CommandLine.init (argc - 1) (argv.drop 1) p = .ok () p1 → Session w stop p1 (.ub r) →
      MainRun w stop argc argv p (.ub r)
  | stale : CommandLine.init (argc - 1) (argv.drop 1) p = .ok () p1 → Session w stop p1 (.ok () q) → q.code = some c →
      MainRun w stop argc argv p (handler w c (back p1 q))
  | done : CommandLine.init (argc - 1) (argv.drop 1) p = .ok () p1 → Session w stop p1 (.ok () q) → q.code = none →
      MainRun w stop argc argv p ((do CommandLine.uninit; pure 0) (back p1 q))

end Verif.Main
