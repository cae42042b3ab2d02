import Verif.Model.IMemory
import Verif.Model.Elf
/-
The simulator's accesses, and the check of ELF headers, on a host with either byte order. Elsewhere the model is of a little-endian host.
-/
namespace Verif
namespace MemSim

/-- The value of the bytes at a host address, when the host has its most significant byte first (`big`) or last. See
libCrashDebug/src/MemorySim.c:577-590. -/
def valueOn (big : Bool) (bs : List U8) : Nat := if big then leVal bs.reverse else leVal bs

/-- The bytes a value of `n` bytes is stored as. See libCrashDebug/src/MemorySim.c:592-605. -/
def bytesOn (big : Bool) (n v : Nat) : List U8 := if big then (leBytes n v).reverse else leBytes n v

/-- `read8/16/32`, libCrashDebug/src/MemorySim.c:577-590. -/
def readO (big : Bool) (n : Nat) (address : U32) : M Sim Nat := do
  let p ← getDataPointer address n READING true
  let bs ← hostRead p n
  pure (valueOn big bs)

/-- `write8/16/32`, libCrashDebug/src/MemorySim.c:592-605. -/
def writeO (big : Bool) (n : Nat) (address : U32) (value : Nat) : M Sim Unit := do
  let p ← getDataPointer address n WRITING true
  hostWrite p (bytesOn big n value)

/-- The word loop of `MemorySim_LoadFromFlashImage`, libCrashDebug/src/MemorySim.c:311-316, followed by the byte loop: each word is
read from the image as a `uint32_t` and stored as one by `load32` (323-326). -/
def loadWordsO (big : Bool) : (src : List U8) → (n : Nat) → (address : U32) → M Sim Unit
  | b0 :: b1 :: b2 :: b3 :: rest, n, address =>
    if 4 < n then do
      loadN address (bytesOn big 4 (valueOn big [b0, b1, b2, b3]))
      loadWordsO big rest (n - 4) (address + 4)
    else loadBytes n address (b0 :: b1 :: b2 :: b3 :: rest)
  | src, n, address => if 4 < n then M.ub .outOfBounds else loadBytes n address src

/-- `MemorySim_LoadFromFlashImage`, libCrashDebug/src/MemorySim.c:305-321. -/
def loadFromFlashImageO (big : Bool) (baseAddress : U32) (image : List U8) (flashImageSize : U32) : M Sim Unit :=
  loadWordsO big image flashImageSize.toNat baseAddress

end MemSim

namespace IMemory
open MemSim (Sim)

/-- `IMemory_Read8/16/32`, include/IMemory.h:39-52. -/
def readO (big : Bool) (w : Width) (a : U32) : M Sim (BitVec w.bits) := do return BitVec.ofNat w.bits (← MemSim.readO big w.bytes a)

/-- `IMemory_Write8/16/32`, include/IMemory.h:54-67. -/
def writeO (big : Bool) (w : Width) (a : U32) (v : BitVec w.bits) : M Sim Unit := MemSim.writeO big w.bytes a v.toNat

end IMemory

namespace Elf
open MemSim

/-- Reading an `n`-byte field at offset `off` of the structure `p` points to (libCrashDebug/src/ElfPriv.h:95-124). -/
def fieldO (big : Bool) (p : List U8) (off n : Nat) : M Sim Nat :=
  if off + n ≤ p.length then pure (valueOn big ((p.drop off).take n)) else M.ub .outOfBounds

/-- `validateElfHeaderContents`, libCrashDebug/src/ElfLoad.c:78-98. -/
def validateElfHeaderO (big : Bool) (hdr : List U8) : M Sim Unit := do
  let magic ← bytesOf hdr 4
  if magic ≠ [0x7F, 0x45, 0x4C, 0x46] then
    M.throw .elfFormat (asc "ELF header doesn't start with expected magic ELF identifier.")
  else do
  let cls ← fieldO big hdr 4 1
  if cls ≠ 1 then M.throw .elfFormat (asc "ELF header doesn't contain 32-bit flag.")
  else do
  let data ← fieldO big hdr 5 1
  if data ≠ 1 then M.throw .elfFormat (asc "ELF header doesn't contain little endian flag.")
  else do
  let type ← fieldO big hdr 16 2
  if type ≠ 2 then M.throw .elfFormat (asc "ELF header doesn't contain executable flag.")
  else do
  let phoff ← fieldO big hdr 28 4
  if phoff = 0 then M.throw .elfFormat (asc "ELF header contains an invalid offset of 0 for the page headers.")
  else do
  let phnum ← fieldO big hdr 44 2
  if phnum = 0 then M.throw .elfFormat (asc "ELF header contains an invalid page header entry count of 0.")
  else do
  let phentsize ← fieldO big hdr 42 2
  if phentsize < 32 then
    M.throw .elfFormat (asc "ELF header contains a page header entry size of " ++ fmtU phentsize ++
      asc ", which is smaller than the expected size of 32.")
  else pure ()

end Elf
end Verif
