import Verif.Model.CommWindows
import Verif.Spec.Comm
/-
Histories of the communication channel of the Windows program.
-/
namespace Verif.Spec
open Verif Comm

/-- The call, made in `c` by the Windows program, has that result and leaves the channel as `c'`. -/
def WStep : CEvent → Comm → Comm → Prop
  | .hasData r, c, c' => Windows.hasReceiveData c = .ok r c'
  | .received v, c, c' => Windows.receiveChar c = .ok v c'
  | .receiveFailed, c, c' => ∃ e, Windows.receiveChar c = .throw e c'
  | .sent v, c, c' => Windows.sendChar v c = .ok () c'
  | .sendFailed v, c, c' => ∃ e, Windows.sendChar v c = .throw e c'
  | .connected r, c, c' => Windows.isGdbConnected c = .ok r c'
  | .stop r, c, c' => shouldStopRun c = .ok r c'

/-- The events happen one after the other. -/
inductive WHist : Comm → List CEvent → Comm → Prop
  | nil (c : Comm) : WHist c [] c
  | cons {c c1 c2 : Comm} {e : CEvent} {es : List CEvent} (h : WStep e c c1) (t : WHist c1 es c2) : WHist c (e :: es) c2

/-- What reading standard input should yield on Windows: the byte as a `char` (signed), and an exception at the end of the
input. -/
def expectedWindows : ReadResult → Option Int
  | .error => none
  | .eof => none
  | .byte b => some (if b.toNat < 128 then b.toNat else (b.toNat : Int) - 256)

end Verif.Spec
