import Verif.Spec.History
/-
Vocabulary for break/watchpoints, hit counts and read counts.
-/
namespace Verif.Spec
open Verif MemSim

/-- The watchpoint (not breakpoint) `w` counts an access of the given kind (`WATCHPOINT_READ` or
`WATCHPOINT_WRITE`) to the `n` bytes from
address `x` on: its kind includes the access kind and its range contains the access. -/
def hitBy (w : Watchpoint) (x n : Nat) (kind : U32) : Bool :=
  decide (w.type ≠ WATCHPOINT_BREAKPOINT) && decide (w.type &&& kind ≠ 0) &&
  decide (w.startAddress.toNat ≤ x) && decide (x + n ≤ w.endAddress.toNat)

/-- The watchpoint counts an access of the given kind that begins at `x`, when where the access ends is not looked at. -/
def hitFrom (w : Watchpoint) (x : Nat) (kind : U32) : Bool :=
  decide (w.type ≠ WATCHPOINT_BREAKPOINT) && decide (w.type &&& kind ≠ 0) && decide (w.startAddress.toNat ≤ x)

/-- The entry `w` is a breakpoint that stops a read of the `n` bytes from address `x` on: it contains the access, and the
access is 16 bits wide. -/
def stopBy (w : Watchpoint) (x n : Nat) : Bool :=
  decide (w.type = WATCHPOINT_BREAKPOINT) && decide (n = 2) &&
  decide (w.startAddress.toNat ≤ x) && decide (x + n ≤ w.endAddress.toNat)

/-- The call names the break/watchpoint `w` of region number `i`, in order to set it. -/
def Sets (c : Call) (s : Sim) (i : Nat) (w : Watchpoint) : Prop :=
  ∃ a n t r off, (c = .setWatchpoint a n t ∨ c = .setBreakpoint a n ∧ t = WATCHPOINT_BREAKPOINT) ∧
    Target s a n.toNat i r off ∧
    w = ⟨t, r.baseAddress + BitVec.ofNat 32 off, r.baseAddress + BitVec.ofNat 32 off + n⟩

/-- The call names the break/watchpoint `w` of region number `i`, in order to clear it; or it is uninit. -/
def Clears (c : Call) (s : Sim) (i : Nat) (w : Watchpoint) : Prop :=
  c = .uninit ∨
  ∃ a n t r off, (c = .clearWatchpoint a n t ∨ c = .clearBreakpoint a n ∧ t = WATCHPOINT_BREAKPOINT) ∧
    Target s a n.toNat i r off ∧
    w = ⟨t, r.baseAddress + BitVec.ofNat 32 off, r.baseAddress + BitVec.ofNat 32 off + n⟩

/-- In the history there is a successful call that sets `w`, and none later that clears it. -/
inductive LastSet (i : Nat) (w : Watchpoint) : Sim → List Call → Sim → Prop
  | here {s s1 s2 : Sim} {c : Call} {cs : List Call} {u : Unit} (hs : Sets c s i w) (h : c.run s = .ok u s1)
      (t : HistWith (fun c s => ¬ Clears c s i w) s1 cs s2) : LastSet i w s (c :: cs) s2
  | later {s s1 s2 : Sim} {c : Call} {cs : List Call} (h : Step c s s1) (t : LastSet i w s1 cs s2) :
      LastSet i w s (c :: cs) s2

/-- `w` is in force in region number `i`. -/
def Active (s : Sim) (i : Nat) (w : Watchpoint) : Prop := ∃ r, s.regions[i]? = some r ∧ w ∈ r.watch

/-- The access, if any, that the call makes ends below the top of the address space, in the region it goes to. -/
def BelowTop (c : Call) (s : Sim) : Prop :=
  match c with
  | .read w a => ∀ i r off, Target s a w.bytes i r off → r.baseAddress.toNat + off + w.bytes < 2 ^ 32
  | .write w a _ => ∀ i r off, Target s a w.bytes i r off → r.baseAddress.toNat + off + w.bytes < 2 ^ 32
  | _ => True

/-- The number of hits a call produces: an access, the number of watchpoints that count it (for a read which a breakpoint
stops: those that come before that breakpoint in address order); any other call, none. -/
def HitsIn (c : Call) (s : Sim) (k : Nat) : Prop :=
  match c with
  | .read w a =>
    (¬ Mapped s a w.bytes → k = 0) ∧
    ∀ i r off, Target s a w.bytes i r off →
      k = (r.watch.takeWhile fun p => !stopBy p (r.baseAddress.toNat + off) w.bytes).countP
        (hitBy · (r.baseAddress.toNat + off) w.bytes WATCHPOINT_READ)
  | .write w a _ =>
    (¬ Mapped s a w.bytes → k = 0) ∧
    ∀ i r off, Target s a w.bytes i r off →
      k = if r.isReadOnly then 0 else r.watch.countP (hitBy · (r.baseAddress.toNat + off) w.bytes WATCHPOINT_WRITE)
  | _ => k = 0

/-- A history that respects the rules, does not ask for the hit count, stays below the top of the address space, and
produces `k` hits in all. -/
inductive HitSum : Sim → List Call → Sim → Nat → Prop
  | nil (s : Sim) : HitSum s [] s 0
  | cons {s s1 s2 : Sim} {c : Call} {cs : List Call} {k n : Nat} (hc : Careful c s) (hw : c ≠ .wasHit) (hb : BelowTop c s)
      (hk : HitsIn c s k) (h : Step c s s1) (t : HitSum s1 cs s2 n) : HitSum s (c :: cs) s2 (k + n)

/-- The call reads halfword number `h` of region number `i` with 16-bit access (or asks for a host pointer in order to). -/
def ReadsHalf (i h : Nat) (c : Call) (s : Sim) : Prop :=
  ∃ a r off, (c = .read .w16 a ∨ ∃ n : U32, c = .mapForRead a n ∧ n.toNat = 2) ∧ Target s a 2 i r off ∧ off / 2 = h

/-- The call marks region number `i` read-only (again), or discards it. -/
def Remarks (i : Nat) (c : Call) (s : Sim) : Prop :=
  c = .uninit ∨ (∃ b, c = .makeReadOnly b ∧ Reaches s b 1 i) ∨ (∃ img n, c = .flashImage img n ∧ Reaches s 0 1 i)

/-- A history that respects the rules, does not mark region `i` again and reads its halfword `h` exactly `k` times. -/
inductive NumReads (i h : Nat) : Sim → List Call → Sim → Nat → Prop
  | nil (s : Sim) : NumReads i h s [] s 0
  | reads {s s1 s2 : Sim} {c : Call} {cs : List Call} {k : Nat} (hc : Careful c s) (hr : ReadsHalf i h c s)
      (st : Step c s s1) (t : NumReads i h s1 cs s2 k) : NumReads i h s (c :: cs) s2 (k + 1)
  | other {s s1 s2 : Sim} {c : Call} {cs : List Call} {k : Nat} (hc : Careful c s) (hr : ¬ ReadsHalf i h c s)
      (hm : ¬ Remarks i c s) (st : Step c s s1) (t : NumReads i h s1 cs s2 k) : NumReads i h s (c :: cs) s2 k

/-- Everything in the two simulators agrees, except which break/watchpoints are set. -/
def AgreeButWatch (s s' : Sim) : Prop :=
  s'.hits = s.hits ∧ s'.xml = s.xml ∧ s'.regions.length = s.regions.length ∧
  ∀ (j : Nat) (r r' : Region), s.regions[j]? = some r → s'.regions[j]? = some r' →
    ({ r' with watch := r.watch, watchAlloc := r.watchAlloc } : Region) = r

end Verif.Spec
