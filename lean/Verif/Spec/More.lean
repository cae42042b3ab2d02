import Verif.Spec.Arrange
/-
What of one session is also found in another.
-/
namespace Verif.Spec
open Verif

/-- Whatever can be read in the first session can be read in the second, and is the same there; whatever can be written in the
first can be written in the second. -/
structure AlsoIn (p p' : Platform.Plat) : Prop where
  reads : ∀ (w : Width) (a : U32) v r, Platform.memRead w a p = .ok v r → r.faults = p.faults →
    ∃ r', Platform.memRead w a p' = .ok v r' ∧ r'.faults = p'.faults
  writes : ∀ (w : Width) (a : U32) v r, Platform.memWrite w a v p = .ok () r → r.faults = p.faults →
    ∃ r', Platform.memWrite w a v p' = .ok () r' ∧ r'.faults = p'.faults

end Verif.Spec
