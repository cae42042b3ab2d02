import Verif.Spec.Dump
/-
C93: memory of the crashed program where the image is.
-/
namespace Verif.Spec
open Verif

/-- The block has a byte where one of the image's blocks has one. -/
def Clashes (image : List (U32 × List U8)) (r : U32 × List U8) : Prop :=
  ∃ a, (byteIn r a).isSome ∧ ∃ b ∈ image, (byteIn b a).isSome

/-- A word at this address lies inside one of the image's blocks. -/
def WordInside (image : List (U32 × List U8)) (a : U32) : Prop :=
  ∃ b ∈ image, b.1.toNat ≤ a.toNat ∧ a.toNat + 4 ≤ b.1.toNat + b.2.length

end Verif.Spec
