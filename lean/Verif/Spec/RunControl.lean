import Verif.Spec.Platform
/-
Requests to run the crashed program.
-/
namespace Verif.Spec
open Verif Platform

/-- The call asks to go on with the crashed program or to step it, to stop it somewhere, to answer its semihost requests, or to
change where it goes on; or it asks about any of this. -/
def RunsProgram : PCall → Bool
  | .enableStep | .disableStep | .isStepping | .setPC _ | .advancePC | .pcModified => true
  | .setBreak _ _ | .clearBreak _ _ | .setWatch _ _ _ | .clearWatch _ _ _ => true
  | .instructionType | .semihostParameters | .semihostReturn _ _ | .isSemihost | .handleSemihost => true
  | .entering | .leaving | .enteringHook | .leavingHook => true
  | .commCaused | .commClear | .commSharing | .commPrepare | .commWaitToStop => true
  | _ => false

/-- What the debug monitor is told about the running of the program: it is not being stepped, it makes no semihost call and none
is handled, it does not share the channel, no interrupt has come from the channel, and the program counter need not be advanced
(it counts as chosen by the user). -/
structure Halted (p : Plat) : Prop where
  stepping : isSingleStepping p = .ok false p
  semihost : isDebuggeeMakingSemihostCall p = .ok false p
  handled : handleSemihostRequest p = .ok false p
  parameters : getSemihostCallParameters p = .ok [0, 0, 0, 0] p
  shared : commSharingWithApplication p = .ok false p
  interrupt : commCausedInterrupt p = .ok false p
  chosen : wasProgramCounterModifiedByUser p = .ok true p

end Verif.Spec
