import Verif.Model.MemorySim
/-
The unit tests of /repo, run in the model. They are no part of the proofs: they are there to check the model against
the only ground truth about the code's behaviour that can be had without building it, the expectations that the
project's own tests state. A test is a list of steps from a starting state; it passes when every step does what it says.
-/
namespace Verif.Tests
open Verif

/-- A step of a test: `none` when it does not do what the test expects. -/
abbrev Step (σ : Type) := σ → Option σ

/-- The code returns. -/
def does (m : M σ α) : Step σ := fun s =>
  match m s with
  | .ok _ s' => some s'
  | _ => none

/-- `CHECK_EQUAL(v, m)`: the code returns this value. -/
def gives [DecidableEq α] (m : M σ α) (v : α) : Step σ := fun s =>
  match m s with
  | .ok a s' => if a = v then some s' else none
  | _ => none

/-- `__try_and_catch( m ); validateExceptionThrown(c);`: the code raises this exception. -/
def throws (m : M σ α) (c : Exc) : Step σ := fun s =>
  match m s with
  | .throw e s' => if e.code = c then some s' else none
  | _ => none

/-- As `throws`, followed by `STRCMP_EQUAL(msg, getExceptionMessage());`. -/
def throwsMsg (m : M σ α) (c : Exc) (msg : String) : Step σ := fun s =>
  match m s with
  | .throw e s' => if e.code = c ∧ e.msg = asc msg then some s' else none
  | _ => none

/-- The state is as expected. -/
def holds (p : σ → Bool) : Step σ := fun s => if p s then some s else none

/-- The test's own action. -/
def sets (f : σ → σ) : Step σ := fun s => some (f s)

/-- The test passes. -/
def passes : List (Step σ) → σ → Bool
  | [], _ => true
  | t :: ts, s => match t s with
    | none => false
    | some s' => passes ts s'

end Verif.Tests
