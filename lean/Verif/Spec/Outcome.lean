import Verif.Spec.History
/-
Ways to talk about what a piece of code does, whatever its outcome.
-/
namespace Verif.Spec
open Verif MemSim

/-- The code ends in state `s`, normally or with an exception. -/
def Ends (o : Out σ α) (s : σ) : Prop := (∃ a, o = .ok a s) ∨ ∃ e, o = .throw e s

/-- The code has a defined outcome: it returns normally, or raises one of the given exceptions. -/
def Defined (o : Out σ α) (codes : List Exc) : Prop :=
  (∃ a s, o = .ok a s) ∨ ∃ e s, o = .throw e s ∧ e.code ∈ codes

/-- No break/watchpoint is set, and the counter of watchpoint hits is within `int`. This is the state of affairs while
files are loaded, before the debugger connects. -/
def Unwatched (s : Sim) : Prop := (∀ r ∈ s.regions, r.watch = []) ∧ s.hits < 2 ^ 31

instance (s : Sim) : Decidable (Unwatched s) := inferInstanceAs (Decidable (_ ∧ _))

/-- `s'` is reached from `s` by calls of the simulator's API that satisfy `P`. -/
def ByCalls (P : Call → Prop) (s s' : Sim) : Prop := ∃ cs, (∀ c ∈ cs, P c) ∧ CarefulHist s cs s'

/-- Creating a region, or writing. -/
def createsOrWrites : Call → Prop
  | .createRegion .. => True
  | .write .. => True
  | _ => False

end Verif.Spec
