import Verif.Spec.History
import Verif.Model.MemPtr
/-
C113: what the caller of the simulator gets to see, for the simulator as it is, with pointers, and for an ordered list of regions.
-/
namespace Verif.Spec
open Verif MemSim MemPtr

/-- What a caller gets back. -/
inductive Ans
  | done
  | number (n : Nat)
  | text (t : Str)
  | bytes (bs : List U8)
  deriving DecidableEq, Repr

/-- What a caller does: call a function of the simulator; ask for a pointer to simulated memory and read, or write, through it. -/
inductive Act
  | call (c : Call)
  | peek (a n : U32)
  | poke (a n : U32) (bs : List U8)

/-- The simulator as an ordered list of regions (Model/MemorySim.lean). -/
def Act.onList : Act → M Sim Ans
  | .call (.read w a) => do let v ← IMemory.read w a; pure (.number v.toNat)
  | .call .memoryMap => do let t ← MemSim.getMemoryMapXML; pure (.text t)
  | .call (.readCount a) => do let v ← MemSim.getFlashReadCount a; pure (.number v.toNat)
  | .call .wasHit => do let v ← MemSim.wasWatchpointEncountered; pure (.number v)
  | .call c => do c.run; pure .done
  | .peek a n => do
    let p ← MemSim.mapForRead a n
    let bs ← MemSim.hostRead p n.toNat
    pure (.bytes bs)
  | .poke a n bs => do
    let p ← MemSim.mapForWrite a n
    MemSim.hostWrite p bs
    pure .done

/-- The simulator with its pointers (Model/MemPtr.lean). -/
def Act.onPointers : Act → M PSim Ans
  | .call (.createRegion b n) => do MemPtr.createRegion b n; pure .done
  | .call (.createAlias a r n) => do MemPtr.createAlias a r n; pure .done
  | .call (.makeReadOnly b) => do MemPtr.makeRegionReadOnly b; pure .done
  | .call (.load b img n) => do MemPtr.loadFromFlashImage b img n; pure .done
  | .call (.flashImage img n) => do MemPtr.createRegionsFromFlashImage img n; pure .done
  | .call (.read w a) => do let v ← MemPtr.readN w.bytes a; pure (.number (BitVec.ofNat w.bits v).toNat)
  | .call (.write w a v) => do MemPtr.writeN w.bytes a v.toNat; pure .done
  | .call .memoryMap => do let t ← MemPtr.getMemoryMapXML; pure (.text t)
  | .call (.mapForWrite a n) => do let _ ← MemPtr.mapForWrite a n; pure .done
  | .call (.mapForRead a n) => do let _ ← MemPtr.mapForRead a n; pure .done
  | .call (.readCount a) => do let v ← MemPtr.getFlashReadCount a; pure (.number v.toNat)
  | .call (.setBreakpoint a n) => do MemPtr.setWatchpoint a n WATCHPOINT_BREAKPOINT; pure .done
  | .call (.clearBreakpoint a n) => do MemPtr.clearWatchpoint a n WATCHPOINT_BREAKPOINT; pure .done
  | .call (.setWatchpoint a n t) => do MemPtr.setWatchpoint a n t; pure .done
  | .call (.clearWatchpoint a n t) => do MemPtr.clearWatchpoint a n t; pure .done
  | .call .wasHit => do let v ← MemPtr.wasWatchpointEncountered; pure (.number v)
  | .call .uninit => do MemPtr.uninit; pure .done
  | .peek a n => do
    let p ← MemPtr.mapForRead a n
    let bs ← MemPtr.hostRead p n.toNat
    pure (.bytes bs)
  | .poke a n bs => do
    let p ← MemPtr.mapForWrite a n
    MemPtr.hostWrite p bs
    pure .done

/-- How a call ends: it returns, raises an exception, or its behaviour is undefined. -/
inductive Outcome
  | returned (a : Ans)
  | raised (e : Exn)
  | undefined (u : UB)
  deriving DecidableEq, Repr

/-- What a caller gets to see who does these things one after the other, until something is undefined. -/
def outcomes (f : Act → M σ Ans) : List Act → σ → List Outcome
  | [], _ => []
  | c :: cs, s =>
    match f c s with
    | .ok a s' => .returned a :: outcomes f cs s'
    | .throw e s' => .raised e :: outcomes f cs s'
    | .ub u => [.undefined u]

/-- The state after these things are done, if nothing is undefined. -/
def after (f : Act → M σ Ans) : List Act → σ → Option σ
  | [], s => some s
  | c :: cs, s =>
    match f c s with
    | .ok _ s' => after f cs s'
    | .throw _ s' => after f cs s'
    | .ub _ => none

/-- The same heap, for the list of regions, which does not say what the blocks hold. -/
def heapOf (st : Store) : Heap := { fails := st.fails, next := st.next, live := st.live }

end Verif.Spec
