import Verif.Model.IMemory
/-
Vocabulary for stating properties of the memory simulator. It mentions the data a simulator holds (regions with address,
size, contents, break/watchpoints, counters) but none of the functions of the model.
-/
namespace Verif.Spec
open Verif MemSim

/-- The `n` bytes from address `a` on all lie inside region `r` (plain arithmetic, no wrap-around). -/
def Covers (r : Region) (a : U32) (n : Nat) : Prop :=
  r.baseAddress.toNat ≤ a.toNat ∧ a.toNat + n ≤ r.baseAddress.toNat + r.size.toNat

instance : Decidable (Covers r a n) := inferInstanceAs (Decidable (_ ∧ _))

/-- Some region or alias contains the whole access. -/
def Mapped (s : Sim) (a : U32) (n : Nat) : Prop := ∃ r ∈ s.regions, Covers r a n

instance : Decidable (Mapped s a n) := inferInstanceAs (Decidable (∃ r ∈ s.regions, Covers r a n))

/-- Region number `k`, which is `q`, is the first created one that contains the access. -/
def FirstCover (rs : List Region) (a : U32) (n : Nat) (k : Nat) (q : Region) : Prop :=
  rs[k]? = some q ∧ Covers q a n ∧ ∀ j < k, ∀ p, rs[j]? = some p → ¬ Covers p a n

/-- The access goes to the bytes of region number `i`, which is the ordinary region `r`, from offset `off` on: either `r`
is the first region that contains the access, or that region is an alias which leads to `r`. -/
def Target (s : Sim) (a : U32) (n : Nat) (i : Nat) (r : Region) (off : Nat) : Prop :=
  ∃ k q, FirstCover s.regions a n k q ∧
    if q.isAlias then
      q.redirect = some i ∧ s.regions[i]? = some r ∧
      off + r.baseAddress.toNat = (a.toNat - q.baseAddress.toNat) + q.redirectAddress.toNat
    else k = i ∧ q = r ∧ off = a.toNat - r.baseAddress.toNat

/-- The access is handed to region number `i`: the first region that contains it, or the one that region is an alias of. -/
def Reaches (s : Sim) (a : U32) (n : Nat) (i : Nat) : Prop :=
  ∃ k q, FirstCover s.regions a n k q ∧ if q.isAlias then q.redirect = some i else k = i

/-- An ordinary region's parts have the sizes they should have. -/
def PlainOK (r : Region) : Prop :=
  r.data.length = r.size.toNat ∧
  (match r.readCounts with
   | none => True
   | some cs => cs.length = r.size.toNat / 2 ∧ r.isReadOnly = true) ∧
  r.watch.Pairwise (fun w w' => w.startAddress.toNat ≤ w'.startAddress.toNat) ∧
  r.watch.Nodup ∧
  r.watch.length ≤ r.watchAlloc

/-- An alias leads to an ordinary region and does not reach beyond it. -/
def AliasOK (rs : List Region) (q : Region) : Prop :=
  match q.redirect with
  | none => False
  | some i =>
    match rs[i]? with
    | none => False
    | some r => r.isAlias = false ∧ r.baseAddress.toNat ≤ q.redirectAddress.toNat ∧
        q.redirectAddress.toNat + q.size.toNat ≤ r.baseAddress.toNat + r.size.toNat ∧
        q.readCounts = none ∧ q.watch = [] ∧ q.watchAlloc = 0

/-- The simulator's data structures are consistent. `Lemmas/History.lean` shows that every history of API calls that
respects two rules (no alias of an alias, no failed read-only marking) stays in these states. -/
def Sound (s : Sim) : Prop :=
  ∀ r ∈ s.regions, if r.isAlias then AliasOK s.regions r else PlainOK r

/-- Every read-only region has its read counters. -/
def Counted (s : Sim) : Prop :=
  ∀ r ∈ s.regions, r.isAlias = false → r.isReadOnly = true → r.readCounts ≠ none

/-- The hit counter (an `int`) is far enough from overflowing for one more access. -/
def HitRoom (s : Sim) : Prop := ∀ r ∈ s.regions, s.hits + r.watch.length < 2 ^ 31

instance : Decidable (PlainOK r) := by
  unfold PlainOK
  have : Decidable (match r.readCounts with
   | none => True
   | some cs => cs.length = r.size.toNat / 2 ∧ r.isReadOnly = true) := by
    cases r.readCounts <;> infer_instance
  infer_instance

instance : Decidable (AliasOK rs q) := by
  unfold AliasOK
  split
  · infer_instance
  · split <;> infer_instance

instance : Decidable (Sound s) := by unfold Sound; infer_instance
instance : Decidable (Counted s) := by unfold Counted; infer_instance
instance : Decidable (HitRoom s) := by unfold HitRoom; infer_instance

/-- Byte number `i` of a value, little-endian numbering. -/
def byteOf {n : Nat} (v : BitVec n) (i : Nat) : U8 := v.extractLsb' (8 * i) 8

end Verif.Spec

namespace Verif.Spec
open Verif MemSim


/-- Same outcome, with the state it leaves transformed. -/
def mapState (f : σ → σ) : Out σ α → Out σ α
  | .ok a s => .ok a (f s)
  | .throw e s => .throw e (f s)
  | .ub r => .ub r

/-- Two regions have no address in common with the range. -/
def Apart (r : Region) (a : U32) (n : Nat) : Prop :=
  a.toNat + n ≤ r.baseAddress.toNat ∨ r.baseAddress.toNat + r.size.toNat ≤ a.toNat

instance : Decidable (Apart r a n) := inferInstanceAs (Decidable (_ ∨ _))

/-- Region number `k`, which is `q`, contains the range and no region created before it touches the range. -/
def Owns (rs : List Region) (a : U32) (n : Nat) (k : Nat) (q : Region) : Prop :=
  rs[k]? = some q ∧ Covers q a n ∧ ∀ j < k, ∀ p, rs[j]? = some p → Apart p a n

end Verif.Spec
