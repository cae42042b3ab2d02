import Verif.Spec.MemSim
import Verif.Spec.Platform
/-
The bytes of the simulated memory as GDB writes them during a session.
-/
namespace Verif.Spec
open Verif MemSim Platform

/-- The call is a memory write which the memory map `s` lets through, and it gives byte number `off` of region number `i` the
value `b`. (A write through an alias goes to the region the alias leads to.) -/
def Puts (s : Sim) (c : PCall) (i off : Nat) (b : U8) : Prop :=
  ∃ (w : Width) (a : U32) (v : BitVec w.bits) (r : Region) (o : Nat), c = .memWrite w a v ∧ Target s a w.bytes i r o ∧
    r.isReadOnly = false ∧ o ≤ off ∧ off < o + w.bytes ∧ b = byteOf v (off - o)

/-- `b` is what the last of the calls that gave that byte a value gave it. -/
def LastPut (s : Sim) (cs : List PCall) (i off : Nat) (b : U8) : Prop :=
  ∃ before c after, cs = before ++ c :: after ∧ Puts s c i off b ∧ ∀ c' ∈ after, ∀ b', ¬ Puts s c' i off b'

/-- None of the calls gave that byte a value. -/
def NeverPut (s : Sim) (cs : List PCall) (i off : Nat) : Prop := ∀ c ∈ cs, ∀ b, ¬ Puts s c i off b

end Verif.Spec
