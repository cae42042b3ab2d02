import Verif.Model.Doubles.PrintfSpy
import Verif.Spec.Doubles
/-
Vocabulary for the recording of what is printed.
-/
namespace Verif.Spec
open Verif Doubles

/-- The calls a test makes, directly or through the code it tests. -/
inductive SpyOp
  | hook (bufferSize : Nat)
  | unhook
  | print (to : Stream) (text : Str)
  deriving DecidableEq

/-- What each call does; its result is not kept. -/
def SpyOp.run : SpyOp → M Spy Unit
  | .hook n => spyHook n
  | .unhook => spyUnhook
  | .print to text => do let _ ← hookPrint to text

/-- Printing texts, one after the other. -/
def prints (ps : List (Stream × Str)) : List SpyOp := ps.map fun p => .print p.1 p.2

/-- Of the texts printed to the stream whose number, from 0, is `i` modulo 4: the last one. -/
def slot (to : Stream) (ps : List (Stream × Str)) (i : Nat) : Option Str :=
  ((ps.zipIdx.filter fun p => p.1.1 = to ∧ p.2 % 4 = i).getLast?).map (·.1.2)

end Verif.Spec
