import Verif.Model.Order
import Verif.Model.Platform
/-
The registers sent to GDB by a host with either byte order.
-/
namespace Verif.Platform
open Verif MemSim

/-- The bytes of an array of `uint32_t`. See libCrashDebug/src/mriPlatform.c:598-611. -/
def bytesOfO (big : Bool) (ws : List U32) : Str := ws.flatMap fun w => bytesOn big 4 w.toNat

/-- `Platform_CopyContextToBuffer`, libCrashDebug/src/mriPlatform.c:607-612. -/
def copyContextToBufferO (big : Bool) : M Plat Unit := do
  let c := (← M.get).ctx
  onBuf (writeBytesToBufferAsHex (bytesOfO big c.r))
  if hasFPURegisters c then onBuf (writeBytesToBufferAsHex (bytesOfO big c.fpr)) else pure ()

/-- `sendRegisterForTResponse`, libCrashDebug/src/mriPlatform.c:590-596. -/
def sendRegisterO (big : Bool) (registerOffset : U8) (registerValue : U32) : M Buf Unit := do
  writeByteAsHex registerOffset
  writeChar 0x3A
  writeBytesToBufferAsHex (bytesOn big 4 registerValue.toNat)
  writeChar 0x3B

/-- `Platform_WriteTResponseRegistersToBuffer`, libCrashDebug/src/mriPlatform.c:582-588. -/
def writeTResponseRegistersO (big : Bool) : M Plat Unit := do
  onBuf (sendRegisterO big 12 (← regAt 12))
  onBuf (sendRegisterO big 13 (← regAt 13))
  onBuf (sendRegisterO big 14 (← regAt 14))
  onBuf (sendRegisterO big 15 (← regAt 15))

/-- Storing bytes over the beginning of a `uint32_t` in memory. See libCrashDebug/src/mriPlatform.c:626-633. -/
def overlayWordO (big : Bool) (w : U32) (bs : List U8) : U32 :=
  BitVec.ofNat 32 (valueOn big (bs.take 4 ++ (bytesOn big 4 w.toNat).drop bs.length))

/-- Storing bytes over the beginning of a `uint32_t` array in memory. See libCrashDebug/src/mriPlatform.c:626-633. -/
def overlayO (big : Bool) : List U32 → List U8 → List U32
  | [], _ => []
  | w :: ws, bs => overlayWordO big w bs :: overlayO big ws (bs.drop 4)

/-- `readBytesFromBufferAsHex`, libCrashDebug/src/mriPlatform.c:626-633, as in Model/Platform.lean. -/
def readBytesO (big : Bool) (store : List U32 → Plat → Plat) (ws : List U32) : (n : Nat) → (acc : Str) → M Plat Unit
  | 0, _ => pure ()
  | n + 1, acc => do
    let b ← onBuf readByteAsHex
    M.modify (store (overlayO big ws (acc ++ [b])))
    readBytesO big store ws n (acc ++ [b])

/-- `Platform_CopyContextFromBuffer`, libCrashDebug/src/mriPlatform.c:619-624. -/
def copyContextFromBufferO (big : Bool) : M Plat Unit := do
  let c := (← M.get).ctx
  readBytesO big storeR c.r (4 * c.r.length) []
  if hasFPURegisters c then readBytesO big storeFPR c.fpr (4 * c.fpr.length) [] else pure ()

end Verif.Platform
