import Verif.Spec.Platform
/-
Words for C64 in terms of platform calls: sequences of calls with nothing in between, and the calls that begin a `__try`
block of their own (which clears the exception code).
-/
namespace Verif.Spec
open Verif Platform

/-- `Straight p cs q`: the calls `cs`, made one after the other from `p`, end in `q`; nothing happens between them. -/
inductive Straight : Plat → List PCall → Plat → Prop
  | nil (p : Plat) : Straight p [] p
  | cons {p p1 q : Plat} {c : PCall} {cs : List PCall} (h : PStep c p p1) (t : Straight p1 cs q) : Straight p (c :: cs) q

/-- Reading or writing memory. -/
def IsAccess : PCall → Bool
  | .memRead .. => true
  | .memWrite .. => true
  | _ => false

/-- The calls that try something: memory accesses, the fault report, and looking for input. -/
def Tries : PCall → Bool
  | .memRead .. => true
  | .memWrite .. => true
  | .displayFault => true
  | .commHasData => true
  | .commIsWaiting => true
  | _ => false

end Verif.Spec
