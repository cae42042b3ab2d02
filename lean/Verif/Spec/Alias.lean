import Verif.Spec.CommandLine
import Verif.Spec.Elf
import Verif.Spec.Platform
/-
What `--alias` options show of the memory that image and dump put there.
-/
namespace Verif.Spec
open Verif MemSim

/-- With these blocks in memory, the alias `x` (its address, its size, the address it leads to) shows the block `b`: the bytes
of the block it leads into, from the place it leads to, as far as alias and block go. -/
def AliasShows (mem : List (U32 × List U8)) (x : U32 × U32 × U32) (b : U32 × List U8) : Prop :=
  ∃ r ∈ mem, r.1.toNat ≤ x.2.2.toNat ∧ x.2.2.toNat < r.1.toNat + r.2.length ∧
    b = (x.1, (r.2.drop (x.2.2.toNat - r.1.toNat)).take x.2.1.toNat)

/-- GDB cannot tell the alias from the memory it leads to: anywhere inside the block `b` which the alias `x` shows, a read or
write through the alias has the outcome of that read or write of the memory itself. -/
def SeesThrough (p : Platform.Plat) (x : U32 × U32 × U32) (b : U32 × List U8) : Prop :=
  ∀ (w : Width) (o : Nat), o + w.bytes ≤ b.2.length →
    Platform.memRead w (x.1 + BitVec.ofNat 32 o) p = Platform.memRead w (x.2.2 + BitVec.ofNat 32 o) p ∧
    ∀ v, Platform.memWrite w (x.1 + BitVec.ofNat 32 o) v p = Platform.memWrite w (x.2.2 + BitVec.ofNat 32 o) v p

end Verif.Spec
