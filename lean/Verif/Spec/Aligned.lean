import Verif.Spec.Arrange
/-
Accesses of several bytes and accesses to these bytes one at a time.
-/
namespace Verif.Spec
open Verif

/-- All blocks begin and end at multiples of `n`, and the aliases lead to multiples of `n`. -/
structure CutAt (n : Nat) (blks dump shows : List (U32 × List U8)) (aliases : List (U32 × U32 × U32)) : Prop where
  blocks : ∀ b ∈ blks ++ dump ++ shows, n ∣ b.1.toNat ∧ n ∣ b.2.length
  targets : ∀ x ∈ aliases, n ∣ x.2.2.toNat

/-- The byte at an address is read without a fault. -/
def ReadsByte (p : Platform.Plat) (a : U32) (b : U8) : Prop :=
  ∃ p', Platform.memRead .w8 a p = .ok b p' ∧ p'.faults = p.faults

/-- The byte at an address can be written without a fault. -/
def TakesByte (p : Platform.Plat) (a : U32) : Prop :=
  ∀ b : U8, ∃ p', Platform.memWrite .w8 a b p = .ok () p' ∧ p'.faults = p.faults

/-- An access of the width `w` at the address `a` succeeds if its bytes can be accessed one at a time: if each of them can be
read, then so can all at once, and this yields these bytes, the lowest first; if each of them can be written, so can all at
once. -/
structure Whole (p : Platform.Plat) (w : Width) (a : U32) : Prop where
  reads : (∀ j < w.bytes, ∃ b, ReadsByte p (a + BitVec.ofNat 32 j) b) →
    ∃ v p', Platform.memRead w a p = .ok v p' ∧ p'.faults = p.faults ∧
      ∀ i < w.bytes, ReadsByte p (a + BitVec.ofNat 32 i) (byteOf v i)
  writes : (∀ j < w.bytes, TakesByte p (a + BitVec.ofNat 32 j)) →
    ∀ v, ∃ p', Platform.memWrite w a v p = .ok () p' ∧ p'.faults = p.faults

/-- Between any two blocks there is an address that belongs to neither. -/
def Gaps (bs : List (U32 × List U8)) : Prop :=
  bs.Pairwise fun b c => b.1.toNat + b.2.length < c.1.toNat ∨ c.1.toNat + c.2.length < b.1.toNat

instance : Decidable (Gaps bs) := inferInstanceAs (Decidable (List.Pairwise _ _))

/-- Accesses of the width `w` at the address `a` and accesses to its bytes agree: if one of its bytes can be read, then all of them
can be read and so can `w` at once, and this yields the bytes, the lowest first; the same for writing. -/
structure NotCut (p : Platform.Plat) (w : Width) (a : U32) : Prop where
  reads : ∀ j < w.bytes, ∀ b, ReadsByte p (a + BitVec.ofNat 32 j) b →
    ∃ v p', Platform.memRead w a p = .ok v p' ∧ p'.faults = p.faults ∧
      ∀ i < w.bytes, ReadsByte p (a + BitVec.ofNat 32 i) (byteOf v i)
  writes : ∀ j < w.bytes, TakesByte p (a + BitVec.ofNat 32 j) →
    (∀ v, ∃ p', Platform.memWrite w a v p = .ok () p' ∧ p'.faults = p.faults) ∧ ∀ i < w.bytes, TakesByte p (a + BitVec.ofNat 32 i)

end Verif.Spec
