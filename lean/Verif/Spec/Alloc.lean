import Verif.Model.CommandLine
/-
Failing allocations and how they show.
-/
namespace Verif.Spec
open Verif MemSim

/-- One of the allocations made between `h` and `h'` failed. -/
def SomeFailed (h h' : Heap) : Prop := ∃ k, h.next ≤ k ∧ k < h'.next ∧ h.fails k = true

/-- Code that was started with the heap `h` (`heap` tells where the heap is in the state) ends normally only if all its
allocations succeeded, and raises the out-of-memory exception if and only if one failed. -/
def ReportsFailures (heap : σ → Heap) (h : Heap) : Out σ α → Prop
  | .ok _ s' => ¬ SomeFailed h (heap s')
  | .throw e s' => e.code = .outOfMemory ↔ SomeFailed h (heap s')
  | .ub _ => True

end Verif.Spec
