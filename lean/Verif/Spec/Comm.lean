import Verif.Model.Comm
/-
Histories of the communication channel as its user sees them: calls with their results.
-/
namespace Verif.Spec
open Verif Comm

/-- A call with its result. -/
inductive CEvent
  | hasData (r : Bool)
  | received (c : Int)
  | receiveFailed
  | sent (c : Int)
  | sendFailed (c : Int)
  | connected (r : Bool)
  | stop (r : Bool)
  deriving DecidableEq

/-- The call, made in `c`, has that result and leaves the channel as `c'`. -/
def CStep : CEvent → Comm → Comm → Prop
  | .hasData r, c, c' => hasReceiveData c = .ok r c'
  | .received v, c, c' => receiveChar c = .ok v c'
  | .receiveFailed, c, c' => ∃ e, receiveChar c = .throw e c'
  | .sent v, c, c' => sendChar v c = .ok () c'
  | .sendFailed v, c, c' => ∃ e, sendChar v c = .throw e c'
  | .connected r, c, c' => isGdbConnected c = .ok r c'
  | .stop r, c, c' => shouldStopRun c = .ok r c'

/-- The events happen one after the other. -/
inductive CHist : Comm → List CEvent → Comm → Prop
  | nil (c : Comm) : CHist c [] c
  | cons {c c1 c2 : Comm} {e : CEvent} {es : List CEvent} (h : CStep e c c1) (t : CHist c1 es c2) : CHist c (e :: es) c2

/-- Whether the next look at standard input finds something to read. -/
def readable (c : Comm) : Bool := c.poll c.polls == some true

/-- The results of the reads of standard input made in a history, in order; `none` is a failed one. -/
def receptions : List CEvent → List (Option Int)
  | [] => []
  | .received v :: es => some v :: receptions es
  | .receiveFailed :: es => none :: receptions es
  | _ :: es => receptions es

/-- The characters sent in a history, in order. -/
def transmissions : List CEvent → List Int
  | [] => []
  | .sent v :: es => v :: transmissions es
  | _ :: es => transmissions es

/-- What reading standard input should yield: the byte as a `char` (signed), 0 at the end of the input. -/
def expected : ReadResult → Option Int
  | .error => none
  | .eof => some 0
  | .byte b => some (if b.toNat < 128 then b.toNat else (b.toNat : Int) - 256)

end Verif.Spec
