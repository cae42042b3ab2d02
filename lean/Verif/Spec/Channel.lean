import Verif.Spec.Platform
import Verif.Spec.Comm
/-
Vocabulary for what a debug session, seen as a history of platform calls, does on the channel to GDB.
-/
namespace Verif.Spec
open Verif

/-- The characters the calls send to GDB, in order. -/
def sends : List PCall → List Int
  | [] => []
  | .commSend v :: cs => v :: sends cs
  | _ :: cs => sends cs

/-- How many of the calls receive a character. -/
def receives : List PCall → Nat
  | [] => 0
  | .commReceive :: cs => receives cs + 1
  | _ :: cs => receives cs

/-- The bytes that reach standard output when the characters are sent one after the other, the first of them being the
`n`-th write: those whose write does not fail. -/
def reaching (fails : Nat → Bool) : Nat → List Int → Str
  | _, [] => []
  | n, v :: vs => (if fails n then [] else [BitVec.ofInt 8 v]) ++ reaching fails (n + 1) vs

/-- The last setting made by the calls, if any. -/
def lastWait (b : Bool) : List PCall → Bool
  | [] => b
  | .setWait b' :: cs => lastWait b' cs
  | _ :: cs => lastWait b cs

end Verif.Spec
