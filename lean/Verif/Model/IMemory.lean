import Verif.Model.MemorySim
/-
Model of include/IMemory.h: the width-indexed access interface that dispatches to MemorySim's vtable
(libCrashDebug/src/MemorySim.c:90).
-/
namespace Verif
open MemSim

/-- Access widths offered by include/IMemory.h:22-31. -/
inductive Width | w8 | w16 | w32
  deriving DecidableEq, Repr

/-- include/IMemory.h:22-31. -/
def Width.bytes : Width → Nat
  | .w8 => 1 | .w16 => 2 | .w32 => 4
/-- include/IMemory.h:22-31. -/
def Width.bits : Width → Nat
  | .w8 => 8 | .w16 => 16 | .w32 => 32

namespace IMemory

/-- `IMemory_Read8/16/32`, include/IMemory.h:39-52. -/
def read : (w : Width) → U32 → M Sim (BitVec w.bits)
  | .w8, a => read8 a
  | .w16, a => read16 a
  | .w32, a => read32 a

/-- `IMemory_Write8/16/32`, include/IMemory.h:54-67. -/
def write : (w : Width) → U32 → BitVec w.bits → M Sim Unit
  | .w8, a, v => write8 a v
  | .w16, a, v => write16 a v
  | .w32, a, v => write32 a v

end IMemory
end Verif
