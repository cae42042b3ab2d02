import Verif.Spec.MemSim
/-
Histories of simulator API calls. A call may raise an exception; the caller carries on with the state it left behind.
-/
namespace Verif.Spec
open Verif MemSim

/-- The public operations of include/MemorySim.h and include/IMemory.h. -/
inductive Call
  | createRegion (base size : U32)
  | createAlias (alias redirect size : U32)
  | makeReadOnly (base : U32)
  | load (base : U32) (image : List U8) (size : U32)
  | flashImage (image : List U8) (size : U32)
  | read (w : Width) (a : U32)
  | write (w : Width) (a : U32) (v : BitVec w.bits)
  | memoryMap
  | mapForWrite (a n : U32)
  | mapForRead (a n : U32)
  | readCount (a : U32)
  | setBreakpoint (a n : U32)
  | clearBreakpoint (a n : U32)
  | setWatchpoint (a n type : U32)
  | clearWatchpoint (a n type : U32)
  | wasHit
  | uninit

/-- What each call does; its result is not kept. -/
def Call.run : Call → M Sim Unit
  | .createRegion b n => MemSim.createRegion b n
  | .createAlias a r n => MemSim.createAlias a r n
  | .makeReadOnly b => makeRegionReadOnly b
  | .load b img n => loadFromFlashImage b img n
  | .flashImage img n => createRegionsFromFlashImage img n
  | .read w a => do let _ ← IMemory.read w a
  | .write w a v => IMemory.write w a v
  | .memoryMap => do let _ ← getMemoryMapXML
  | .mapForWrite a n => do let _ ← MemSim.mapForWrite a n
  | .mapForRead a n => do let _ ← MemSim.mapForRead a n
  | .readCount a => do let _ ← getFlashReadCount a
  | .setBreakpoint a n => setHardwareBreakpoint a n
  | .clearBreakpoint a n => clearHardwareBreakpoint a n
  | .setWatchpoint a n t => setHardwareWatchpoint a n t
  | .clearWatchpoint a n t => clearHardwareWatchpoint a n t
  | .wasHit => do let _ ← wasWatchpointEncountered
  | .uninit => MemSim.uninit

/-- `Step c s s'`: the call returns, normally or with an exception, in state `s'`. -/
def Step (c : Call) (s s' : Sim) : Prop := (∃ u, c.run s = .ok u s') ∨ ∃ e, c.run s = .throw e s'

/-- `Hist s cs s'`: the calls `cs`, made one after the other from `s`, end in `s'`. -/
inductive Hist : Sim → List Call → Sim → Prop
  | nil (s : Sim) : Hist s [] s
  | cons {s s1 s2 : Sim} {c : Call} {cs : List Call} (h : Step c s s1) (t : Hist s1 cs s2) : Hist s (c :: cs) s2

/-- The rules a caller must respect for the simulator's data structures to stay consistent: no alias of an alias; the
image buffer handed over is as long as said; the read count is not asked for where marking memory read-only ran out of
memory before. -/
def Careful (c : Call) (s : Sim) : Prop :=
  match c with
  | .createAlias _ rd _ => ∀ k q, FirstCover s.regions rd 1 k q → q.isAlias = false
  | .load _ img n => n.toNat ≤ img.length
  | .flashImage img n => n.toNat ≤ img.length
  | .readCount a => ∀ i r off, Target s a 2 i r off → r.isReadOnly = true → r.readCounts ≠ none
  | _ => True

/-- A history each of whose calls satisfies `P` in the state in which it is made. -/
inductive HistWith (P : Call → Sim → Prop) : Sim → List Call → Sim → Prop
  | nil (s : Sim) : HistWith P s [] s
  | cons {s s1 s2 : Sim} {c : Call} {cs : List Call} (hc : P c s) (h : Step c s s1) (t : HistWith P s1 cs s2) :
      HistWith P s (c :: cs) s2

/-- A history that respects the rules. -/
abbrev CarefulHist := HistWith Careful

/-- Does the call put an image into memory, or discard all regions? -/
def loadsOrClears : Call → Bool
  | .load .. => true
  | .flashImage .. => true
  | .uninit => true
  | _ => false

/-- The call does not mark memory read-only whose reads are already being counted. -/
def Fresh (c : Call) (s : Sim) : Prop :=
  match c with
  | .makeReadOnly b => ∀ i r, Reaches s b 1 i → s.regions[i]? = some r → r.readCounts = none
  | .flashImage .. => ∀ i r, Reaches s 0 1 i → s.regions[i]? = some r → r.readCounts = none
  | _ => True

/-- The call marks memory read-only whose reads are already being counted, and gets new counters: nobody holds the old ones
any more. -/
def Loses (c : Call) (s : Sim) : Prop :=
  match c with
  | .makeReadOnly b => ∃ i r, Reaches s b 1 i ∧ s.regions[i]? = some r ∧ r.readCounts.isSome ∧ s.heap.fails s.heap.next = false
  | _ => False

/-- No flash image is put where reads are being counted. -/
def FlashApart (c : Call) (s : Sim) : Prop :=
  match c with
  | .flashImage .. => Fresh c s
  | _ => True

/-- `Losing s cs s' k`: the history `cs` leads from `s` to `s'`, and `k` of its calls lose counters. -/
inductive Losing : Sim → List Call → Sim → Nat → Prop
  | nil (s : Sim) : Losing s [] s 0
  | keeps {s s1 s2 : Sim} {c : Call} {cs : List Call} {k : Nat} (hc : FlashApart c s) (hl : ¬ Loses c s) (h : Step c s s1)
      (t : Losing s1 cs s2 k) : Losing s (c :: cs) s2 k
  | loses {s s1 s2 : Sim} {c : Call} {cs : List Call} {k : Nat} (hc : FlashApart c s) (hl : Loses c s) (h : Step c s s1)
      (t : Losing s1 cs s2 k) : Losing s (c :: cs) s2 (k + 1)

/-- Marking memory read-only, if that is what the call does, does not run out of memory. -/
def Marked (c : Call) (s : Sim) : Prop :=
  match c with
  | .makeReadOnly b => ∀ s', makeRegionReadOnly b s ≠ .throw ⟨.outOfMemory, []⟩ s'
  | .flashImage img n => s.regions = [] ∨ ∀ s', createRegionsFromFlashImage img n s ≠ .throw ⟨.outOfMemory, []⟩ s'
  | _ => True

/-- Run a history (`none` if it reaches undefined behaviour). -/
def exec : List Call → Sim → Option Sim
  | [], s => some s
  | c :: cs, s =>
    match c.run s with
    | .ok _ s' => exec cs s'
    | .throw _ s' => exec cs s'
    | .ub _ => none

theorem exec_hist {cs : List Call} {s s' : Sim} (h : exec cs s = some s') : Hist s cs s' := by
  induction cs generalizing s with
  | nil => simp [exec] at h; exact h ▸ .nil s
  | cons c cs ih =>
    unfold exec at h
    split at h
    · rename_i e; exact .cons (.inl ⟨_, e⟩) (ih h)
    · rename_i e; exact .cons (.inr ⟨_, e⟩) (ih h)
    · cases h

/-- A heap in which every allocation succeeds. -/
def goodHeap : Heap := { fails := fun _ => false }

/-- A small simulator used as a concrete case beside the theorems: flash of 8 bytes at 0x1000 with contents, RAM of 16
bytes at 0x20000000 with some writes, an alias at 0x8000 into the RAM, a breakpoint in flash, watchpoints in RAM. -/
def demoCalls : List Call :=
  [.createRegion 0x1000 8, .createRegion 0x20000000 16,
   .load 0x1000 [1, 2, 3, 4, 5, 6, 7, 8] 8, .makeReadOnly 0x1000,
   .write .w32 0x20000004 0xCAFEBABE,
   .createAlias 0x8000 0x20000004 14,
   .setBreakpoint 0x1002 2, .setWatchpoint 0x20000000 8 3, .setWatchpoint 0x20000004 4 2, .read .w16 0x1000]

/-- The state that `demoCalls` leads to (shown in `Props/Demo.lean`). -/
def demo : Sim :=
  { regions :=
      [{ baseAddress := 0x1000, size := 8, data := [1, 2, 3, 4, 5, 6, 7, 8],
         watch := [⟨WATCHPOINT_BREAKPOINT, 0x1002, 0x1004⟩], watchAlloc := 1,
         readCounts := some [1, 0, 0, 0], isReadOnly := true },
       { baseAddress := 0x20000000, size := 16,
         data := [0, 0, 0, 0, 0xBE, 0xBA, 0xFE, 0xCA, 0, 0, 0, 0, 0, 0, 0, 0],
         watch := [⟨3, 0x20000000, 0x20000008⟩, ⟨2, 0x20000004, 0x20000008⟩], watchAlloc := 2 },
       { baseAddress := 0x8000, size := 12, data := [0, 0, 0, 0, 0, 0, 0, 0, 0, 0, 0, 0, 0, 0],
         redirectAddress := 0x20000004, redirect := some 1, isAlias := true }],
    hits := 0, xml := none, heap := { fails := fun _ => false, next := 10, live := 9 } }

end Verif.Spec

namespace Verif.Spec
open Verif MemSim

/-- Run a history, checking every call before it is made. -/
def execWith (chk : Call → Sim → Bool) : List Call → Sim → Option Sim
  | [], s => some s
  | c :: cs, s =>
    if chk c s then
      match c.run s with
      | .ok _ s' => execWith chk cs s'
      | .throw _ s' => execWith chk cs s'
      | .ub _ => none
    else none

theorem execWith_hist {P : Call → Sim → Prop} {chk : Call → Sim → Bool} (hp : ∀ c s, chk c s = true → P c s)
    {cs : List Call} {s s' : Sim} (h : execWith chk cs s = some s') : HistWith P s cs s' := by
  induction cs generalizing s with
  | nil => simp [execWith] at h; exact h ▸ .nil s
  | cons c cs ih =>
    unfold execWith at h
    split at h
    · rename_i hk
      split at h
      · rename_i e; exact .cons (hp _ _ hk) (.inl ⟨_, e⟩) (ih h)
      · rename_i e; exact .cons (hp _ _ hk) (.inr ⟨_, e⟩) (ih h)
      · cases h
    · cases h

/-- A simple sufficient check for `Careful`. -/
def carefulChk (c : Call) (s : Sim) : Bool :=
  match c with
  | .createAlias .. => s.regions.all fun r => !r.isAlias
  | .load _ img n => n.toNat ≤ img.length
  | .flashImage img n => n.toNat ≤ img.length
  | .readCount _ => false
  | _ => true

theorem carefulChk_ok (c : Call) (s : Sim) (h : carefulChk c s = true) : Careful c s := by
  cases c <;> simp_all [carefulChk, Careful]
  intro k q hq
  exact h q (List.mem_of_getElem? hq.1)

/-- A simple sufficient check for `Fresh`. -/
def freshChk (c : Call) (s : Sim) : Bool :=
  match c with
  | .makeReadOnly _ => s.regions.all fun r => r.readCounts.isNone
  | .flashImage .. => s.regions.all fun r => r.readCounts.isNone
  | _ => true

theorem freshChk_ok (c : Call) (s : Sim) (h : freshChk c s = true) : Fresh c s := by
  cases c <;> simp_all [freshChk, Fresh] <;> exact fun i r _ hr => h r (List.mem_of_getElem? hr)

end Verif.Spec
