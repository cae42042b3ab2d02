import Verif.Model.Doubles.Console
/-
Model of libCrashDebug/mocks/mockIComm.cpp (the lines cited are of that file): the channel the tests use in place of that of
libCrashDebug/src/StandardIComm.c.
-/
namespace Verif.Doubles
open Verif

/-- The variables of libCrashDebug/mocks/mockIComm.cpp:66-77. Of a `RecvBuffer` (lines 29-63) what is kept is the characters
from `m_pCurr` to `m_pEnd`. Of the pointers `g_pAlloc1`, `g_pAlloc2` and `g_pAllocChecksum` what is kept is whether they are
NULL. `live` counts the blocks on the heap. -/
structure Chan where
  stopRun : Bool := true
  buf0 : Str := []
  buf1 : Str := []
  index : Nat := 0
  alloc1 : Bool := false
  alloc2 : Bool := false
  allocSum : Bool := false
  delay : Int := 0
  sent : Option Capture := none
  connected : Bool := true
  live : Int := 0

/-- `RecvBuffer::init`, libCrashDebug/mocks/mockIComm.cpp:37-42. -/
def recvInit (p : Str) : Str := p.takeWhile (· ≠ 0#8)

/-- The buffer `g_receiveBuffers[i]`. See libCrashDebug/mocks/mockIComm.cpp:68. -/
def Chan.buf (i : Nat) (s : Chan) : Str := if i = 0 then s.buf0 else s.buf1

/-- `isReceiveBufferEmpty`, libCrashDebug/mocks/mockIComm.cpp:127-132. -/
def isReceiveBufferEmpty (s : Chan) : Bool := if 2 ≤ s.index then true else (s.buf s.index).length == 0

/-- `hasReceiveData`, libCrashDebug/mocks/mockIComm.cpp:109-125. -/
def chanHasData : M Chan Bool := fun s =>
  if s.delay > 0 then .ok false { s with delay := s.delay - 1 }
  else if isReceiveBufferEmpty s then .ok false (if s.index < 2 then { s with index := s.index + 1 } else s)
  else .ok true s

/-- `waitForReceiveData`, libCrashDebug/mocks/mockIComm.cpp:140-145, for at most `fuel` calls of `hasReceiveData`; the loop may
be endless. -/
def waitForReceiveData : Nat → M Chan Unit
  | 0 => M.ub .outOfFuel
  | fuel + 1 => do if ← chanHasData then pure () else waitForReceiveData fuel

/-- `RecvBuffer::getNextChar`, libCrashDebug/mocks/mockIComm.cpp:44-52, of `g_receiveBuffers[g_receiveIndex]`. -/
def getNextChar : M Chan Int := fun s =>
  if 2 ≤ s.index then .ub .outOfBounds
  else match s.buf s.index with
    | [] => .ub .assertFailed
    | c :: cs => .ok c.toInt (if s.index = 0 then { s with buf0 := cs } else { s with buf1 := cs })

/-- `receiveChar`, libCrashDebug/mocks/mockIComm.cpp:134-138. -/
def chanReceive (fuel : Nat) : M Chan Int := do
  waitForReceiveData fuel
  getNextChar

/-- `sendChar`, libCrashDebug/mocks/mockIComm.cpp:147-151. -/
def chanSend (character : Int) : M Chan Unit := M.modify fun s => { s with sent := Capture.put (BitVec.ofInt 8 character) s.sent }
/-- `shouldStopRun`, libCrashDebug/mocks/mockIComm.cpp:153-156. -/
def chanShouldStop : M Chan Bool := fun s => .ok s.stopRun s
/-- `isGdbConnected`, libCrashDebug/mocks/mockIComm.cpp:158-161. -/
def chanConnected : M Chan Bool := fun s => .ok s.connected s

/-- `mockIComm_SetShouldStopRunFlag`, libCrashDebug/mocks/mockIComm.cpp:166-169. -/
def setShouldStopRunFlag (b : Bool) : M Chan Unit := M.modify fun s => { s with stopRun := b }

/-- `g_emptyPacket`, libCrashDebug/mocks/mockIComm.cpp:67. -/
def emptyPacket : Str := asc "$#00"

/-- `mockIComm_InitReceiveData`, libCrashDebug/mocks/mockIComm.cpp:172-181. -/
def initReceiveData (data1 : Str) (data2 : Option Str) : M Chan Unit := M.modify fun s =>
  { s with buf0 := recvInit data1, buf1 := recvInit (data2.getD emptyPacket), index := 0, delay := 0 }

/-- `countPoundSigns`, libCrashDebug/mocks/mockIComm.cpp:217-226, of a string that ends at the first NUL. -/
def countPoundSigns (p : Str) : Nat := (p.takeWhile (· ≠ 0#8)).countP (· = 0x23#8)

/-- `NibbleToHexChar`, libCrashDebug/mocks/mockIComm.cpp:25-26. -/
def nibbleToHexChar (n : U8) : U8 := if n.toNat < 10 then 0x30#8 + n else 0x57#8 + n

/-- `*pDest++ = c` into a block of `len` bytes of which those in the list are written. See
libCrashDebug/mocks/mockIComm.cpp:236, 243-244, 251. -/
def putIn (len : Nat) (c : U8) : M Str Unit := fun d => if d.length < len then .ok () (d ++ [c]) else .ub .outOfBounds

/-- The loop of `copyChecksummedData`, libCrashDebug/mocks/mockIComm.cpp:228-252, with `checksum`. -/
def copyChecksummedData (len : Nat) : Str → U8 → M Str Unit
  | [], _ => putIn len 0#8
  | c :: cs, sum =>
    if c = 0#8 then putIn len 0#8
    else do
      putIn len c
      if c = 0x24#8 then copyChecksummedData len cs 0#8
      else if c = 0x23#8 then do
        putIn len (nibbleToHexChar ((sum >>> 4) &&& 0xF#8))
        putIn len (nibbleToHexChar (sum &&& 0xF#8))
        copyChecksummedData len cs sum
      else copyChecksummedData len cs (sum + c)

/-- `allocateAndCopyChecksummedData`, libCrashDebug/mocks/mockIComm.cpp:209-215: the bytes of the block. Simplification:
`malloc` succeeds. -/
def allocateAndCopyChecksummedData (data : Str) : M Chan Str := fun s =>
  let len := (data.takeWhile (· ≠ 0#8)).length + 2 * countPoundSigns data + 1
  match copyChecksummedData len data 0 [] with
  | .ok _ d => .ok d { s with live := s.live + 1 }
  | .throw e _ => .throw e s
  | .ub r => .ub r

/-- `free` of a pointer that may be NULL. See libCrashDebug/mocks/mockIComm.cpp:204-205, 276, 290-292. -/
def freed (p : Bool) (s : Chan) : Chan := if p then { s with live := s.live - 1 } else s

/-- `freeReceiveAllocations`, libCrashDebug/mocks/mockIComm.cpp:202-207. -/
def freeReceiveAllocations : M Chan Unit := M.modify fun s =>
  { freed s.alloc2 (freed s.alloc1 s) with alloc1 := false, alloc2 := false }

/-- `mockIComm_InitReceiveChecksummedData`, libCrashDebug/mocks/mockIComm.cpp:184-200. -/
def initReceiveChecksummedData (data1 : Str) (data2 : Option Str) : M Chan Unit := do
  freeReceiveAllocations
  let p1 ← allocateAndCopyChecksummedData data1
  M.modify fun s => { s with alloc1 := true, buf0 := recvInit p1 }
  match data2 with
  | some d => do
    let p2 ← allocateAndCopyChecksummedData d
    M.modify fun s => { s with alloc2 := true, buf1 := recvInit p2 }
  | none => M.modify fun s => { s with buf1 := recvInit emptyPacket }
  M.modify fun s => { s with index := 0, delay := 0 }

/-- `mockIComm_DelayReceiveData`, libCrashDebug/mocks/mockIComm.cpp:254-257. -/
def delayReceiveData (n : Int) : M Chan Unit := M.modify fun s => { s with delay := n }

/-- `commUninitTransmitDataBuffer`, libCrashDebug/mocks/mockIComm.cpp:302-308. -/
def uninitTransmitDataBuffer : M Chan Unit := M.modify fun s => { freed s.sent.isSome s with sent := none }

/-- `mockIComm_InitTransmitDataBuffer`, libCrashDebug/mocks/mockIComm.cpp:259-265. Simplification: `malloc` succeeds. -/
def initTransmitDataBuffer (size : Nat) : M Chan Unit := do
  uninitTransmitDataBuffer
  M.modify fun s => { s with sent := some ⟨size, []⟩, live := s.live + 1 }

/-- `mockIComm_GetTransmittedData`, libCrashDebug/mocks/mockIComm.cpp:267-271; the result is what is in the buffer before the
NUL put at its end. -/
def getTransmittedData : M Chan Str := fun s =>
  match s.sent with
  | none => .ub .nullDeref
  | some b => .ok b.text s

/-- `mockIComm_ChecksumData`, libCrashDebug/mocks/mockIComm.cpp:274-279. -/
def checksumData (data : Str) : M Chan Str := do
  M.modify fun s => { freed s.allocSum s with allocSum := false }
  let p ← allocateAndCopyChecksummedData data
  M.modify fun s => { s with allocSum := true }
  pure p

/-- `mockIComm_SetIsGdbConnectedFlag`, libCrashDebug/mocks/mockIComm.cpp:282-285. -/
def setIsGdbConnectedFlag (b : Bool) : M Chan Unit := M.modify fun s => { s with connected := b }

/-- `mockIComm_Uninit`, libCrashDebug/mocks/mockIComm.cpp:288-300. -/
def chanUninit : M Chan Unit := do
  M.modify fun s =>
    { freed s.allocSum (freed s.alloc2 (freed s.alloc1 s)) with
      alloc1 := false, alloc2 := false, allocSum := false, buf0 := [], buf1 := [] }
  uninitTransmitDataBuffer
  M.modify fun s => { s with connected := true }

end Verif.Doubles
