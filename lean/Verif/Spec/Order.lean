import Verif.Spec.MemSim
import Verif.Model.Platform
/- Specification for C122: the byte order of the host. -/
namespace Verif.Spec
open MemSim

/-- `v'` has the bytes of `v` in the opposite order. -/
def Reversed {w : Width} (v v' : BitVec w.bits) : Prop := ∀ i < w.bytes, byteOf v' i = byteOf v (w.bytes - 1 - i)

/-- The same outcome, but for the value, which has its bytes in the opposite order. -/
def ReversedEnd {w : Width} : Out Sim (BitVec w.bits) → Out Sim (BitVec w.bits) → Prop
  | .ok v s, .ok v' s' => Reversed v v' ∧ s' = s
  | .throw e s, .throw e' s' => e' = e ∧ s' = s
  | .ub r, .ub r' => r' = r
  | _, _ => False

open Platform

/-- Two lists of registers of the same length, those of the second with their bytes in the opposite order. -/
inductive AllReversed : List U32 → List U32 → Prop
  | nil : AllReversed [] []
  | cons {v v' : U32} {ws ws' : List U32} (h : Reversed (w := .w32) v v') (t : AllReversed ws ws') : AllReversed (v :: ws) (v' :: ws')

/-- The same session, but for the registers: those of `c` have their bytes in the opposite order in `c'`. -/
structure RegsReversed (c c' : Regs) : Prop where
  r : AllReversed c.r c'.r
  fpr : AllReversed c.fpr c'.fpr
  flags : c'.flags = c.flags

/-- Both calls end in the same way and leave the same packet (the first with the registers `c`, the second with `c'`). -/
def SamePacket (c c' : Regs) : Out Plat Unit → Out Plat Unit → Prop
  | .ok _ p, .ok _ p' => p.ctx = c ∧ p' = { p with ctx := c' }
  | .throw e p, .throw e' p' => e' = e ∧ p.ctx = c ∧ p' = { p with ctx := c' }
  | .ub r, .ub r' => r' = r
  | _, _ => False

/-- The same session, but for the bytes of the registers, which are in the opposite order in the second. -/
def SessionReversed (p p' : Plat) : Prop := ∃ c', p' = { p with ctx := c' } ∧ RegsReversed p.ctx c'

/-- Both calls end in the same way, in such sessions. -/
def EndsReversed : Out Plat Unit → Out Plat Unit → Prop
  | .ok _ p, .ok _ p' => SessionReversed p p'
  | .throw e p, .throw e' p' => e' = e ∧ SessionReversed p p'
  | .ub r, .ub r' => r' = r
  | _, _ => False

end Verif.Spec
