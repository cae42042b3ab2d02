import Verif.Model.Main
import Verif.Spec.CommandLine
import Verif.Spec.Outcome
import Verif.Spec.Platform
/-
How a run of the program goes, in terms of start-up and session.
-/
namespace Verif.Spec
open Verif Platform CommandLine Main

/-- The program, run with these words after its name. -/
def Runs (w : World) (stop : M Plat Bool) (name : Str) (words : List Str) (p : Prog) (o : Out Prog Int) : Prop :=
  MainRun w stop ((name :: words).length) (name :: words) p o

/-- Errors which start-up has already explained. -/
def explained (c : Exc) : Bool := c == .file || c == .elfFormat || c == .invalidArgument

/-- What the program adds to stderr when it fails with this code. -/
def complaint (w : World) (c : Exc) : Str :=
  if explained c then [] else asc "Encountered unexpected error: " ++ asc (toString (w.number c)) ++ asc "\n"

/-- The debug monitor gets at the program being debugged by platform calls only: however the code `m` ends, it ends where some
history of platform calls leads, and if something goes wrong in it then in one of these calls. Which calls it makes may
depend on everything it has seen so far. And it asks for the memory faults it caused in time: the count, an `int`, never
gets near its limit. -/
def ByPlatform (m : M Plat α) : Prop := ∀ p, p.faults + 1 < 2 ^ 31 →
  (∃ cs q, PHist p cs q ∧ Ends (m p) q ∧ q.faults + 1 < 2 ^ 31) ∨
  ∃ (cs : List PCall) (q : Plat) (c : PCall) (r : UB), PHist p cs q ∧ q.faults + 1 < 2 ^ 31 ∧ c.run q = .ub r ∧ m p = .ub r

/-- Nothing of the simulator is left, if there was one. -/
def Released (p : Prog) : Prop := p.memory = true → p.host.mem.regions = [] ∧ p.host.mem.xml = none

end Verif.Spec
