import Verif.Tests.Harness
import Verif.Model.Doubles.Console
import Verif.Model.Doubles.Icomm
/-
libCrashDebug/tests/mockICommTests.cpp and mockConsoleTests.cpp in the model, one check per TEST, in the order of the files. At
the end of each the double is taken down and all its blocks must be free.
-/
namespace Verif.Tests.Channels
open Verif Verif.Doubles

def chan (steps : List (Step Chan)) : Bool :=
  passes (steps ++ [does chanUninit, fun s => if s.live = 0 then some s else none]) {}

/-- `while (IComm_HasReceiveData(..)) *p++ = IComm_ReceiveChar(..)`, and the text collected. -/
def drain : Nat → M Chan Str
  | 0 => M.ub .outOfFuel
  | n + 1 => do
    if ← chanHasData then do
      let c ← chanReceive 10
      let cs ← drain n
      pure (BitVec.ofInt 8 c :: cs)
    else pure []

/-- The same as a `do` loop. -/
def drainDo : M Chan Str := do
  let c ← chanReceive 10
  let cs ← drain 20
  pure (BitVec.ofInt 8 c :: cs)

def collects (t : String) : Step Chan := gives (drain 20) (asc t)

/-- What a C string function makes of the result. -/
def cstr (m : M Chan Str) : M Chan Str := do return (← m).takeWhile (· ≠ 0)

/- `IComm_HasRecieveData_Empty`. -/
#guard chan [does (initReceiveData [] none), gives chanHasData false]
/- `IComm_HasRecieveData_NotEmpty`. -/
#guard chan [does (initReceiveData (asc "$") none), gives chanHasData true]
/- `IComm_HasRecieveData_NotEmpty_ButDelayResponseByTwoCalls`. -/
#guard chan [does (initReceiveData (asc "$") none), does (delayReceiveData 2), gives chanHasData false, gives chanHasData false,
  gives chanHasData true]
/- `IComm_RecieveChar_NotEmpty`. -/
#guard chan [does (initReceiveData (asc "$") none), gives (chanReceive 10) 0x24]
/- `IComm_HasReceiveData_SwitchToEmptyGdbPacket`. -/
#guard chan [does (initReceiveData [] none), gives chanHasData false, gives chanHasData true, collects "$#00"]
/- `IComm_ReceiveChar_SwitchToEmptyGdbPacket`. -/
#guard chan [does (initReceiveData [] none), gives drainDo (asc "$#00")]
/- `mockIComm_ReceiveEmptyGdbPacket`. -/
#guard chan [does (initReceiveData (asc "$#00") none), collects "$#00"]
/- `mockIComm_Receive_OneGdbPacketAndSwitchToEmptyPacket`. -/
#guard chan [does (initReceiveData (asc "$packet1#00") none), collects "$packet1#00", collects "$#00", gives chanHasData false]
/- `mockIComm_Receive_TwoGdbPackets`. -/
#guard chan [does (initReceiveData (asc "$packet1#00") (some (asc "$packet2#ff"))), collects "$packet1#00", collects "$packet2#ff",
  gives chanHasData false]
/- `mockIComm_Receive_OneGdbPacketsWithCalculatedCRCAndSwitchToEmptyPacket`. -/
#guard chan [does (initReceiveChecksummedData (asc "$packet1#") none), collects "$packet1#a9", collects "$#00", gives chanHasData false]
/- `mockIComm_Receive_TwoGdbPacketsWithCalculatedCRC`. -/
#guard chan [does (initReceiveChecksummedData (asc "$packet1#") (some (asc "$packet2#"))), collects "$packet1#a9",
  collects "$packet2#aa", gives chanHasData false]
/- `ChecksumEmptyPacketData`. -/
#guard chan [gives (cstr (checksumData (asc "$#"))) (asc "$#00")]
/- `TransmitAndCapture1Byte`. -/
#guard chan [does (initTransmitDataBuffer 2), does (chanSend 0x2D), gives getTransmittedData (asc "-")]
/- `TransmitAndCapturePacketData`. -/
#guard chan [does (initTransmitDataBuffer 4), does (chanSend 0x24), does (chanSend 0x23), does (chanSend 0x30), does (chanSend 0x30),
  gives (cstr (checksumData (asc "$#"))) (asc "$#00"), gives getTransmittedData (asc "$#00")]
/- `TransmitAndCapture2BytesWithOverflow`. -/
#guard chan [does (initTransmitDataBuffer 2), does (chanSend 0x2D), does (chanSend 0x2B), does (chanSend 0x2A),
  gives getTransmittedData (asc "-+")]
/- `TransmitAndFailToCompareByData`. -/
#guard chan [does (initTransmitDataBuffer 2), does (chanSend 0x2D), gives (do return (← getTransmittedData) == asc "+") false]
/- `ShouldStopRun_SetToReturnFalse`. -/
#guard chan [does (setShouldStopRunFlag false), gives chanShouldStop false]
/- `ShouldStopRun_SetToReturnTrue`. -/
#guard chan [does (setShouldStopRunFlag true), gives chanShouldStop true]
/- `IsGdbConnected_ShouldDefaultToReturnTrue`. -/
#guard chan [gives chanConnected true]
/- `IsGdbConnected_SetToReturnFalse`. -/
#guard chan [does (setIsGdbConnectedFlag false), gives chanConnected false]
/- `IsGdbConnected_SetToReturnTrue`. -/
#guard chan [does (setIsGdbConnectedFlag true), gives chanConnected true]

def cons (steps : List (Step Cons)) : Bool :=
  passes (steps ++ [does consUninit, fun s => if s.live = 0 then some s else none]) {}

/- `HasStdinDataToRead_SetToReturn0_Verify`. -/
#guard cons [does (hasSetReturn 0), gives consHasData 0]
/- `HasStdinDataToRead_SetToReturn1_Verify`. -/
#guard cons [does (hasSetReturn 1), gives consHasData 1]
/- `HasStdinDataToRead_SetToThrow_VerifyException`. -/
#guard cons [does (hasSetException (some .file)), throws consHasData .file]
/- `ReadStdIn_ShouldDefaultToEmptyBufferAndReturnZero`. -/
#guard cons [gives consRead 0]
/- `ReadStdIn_SetToReturnOneChar_VerifyOneChar`. -/
#guard cons [does (readSetBuffer (asc "a") 1), gives consRead 0x61]
/- `ReadStdIn_SetToReturnTwoChars_VerifyTwoChars`. -/
#guard cons [does (readSetBuffer (asc "az") 2), gives consRead 0x61, gives consRead 0x7A]
/- `ReadStdIn_SetToReturnOneChar_VerifyBufferOverrunReturnZero`. -/
#guard cons [does (readSetBuffer (asc "az") 1), gives consRead 0x61, gives consRead 0]
/- `ReadStdIn_SetToThrow_VerifyException`. -/
#guard cons [does (readSetException (some .file)), throws consRead .file]
/- `WriteStdOut_SetToThrow_VerifyException`. -/
#guard cons [does (writeSetException (some .file)), throws (consWrite 0x61) .file]
/- `WriteStdOut_CaptureOneCharToOneCharBuffer`. -/
#guard cons [does (setCaptureBufferSize 1), does (consWrite 0x61), gives getCapturedText (asc "a")]
/- `WriteStdOut_CaptureTwoCharsToTwoCharBuffer`. -/
#guard cons [does (setCaptureBufferSize 2), does (consWrite 0x61), does (consWrite 0x7A), gives getCapturedText (asc "az")]
/- `WriteStdOut_AttemptToCaptureTwoCharsToOneCharBuffer_ShouldJustCaptureFirstChar`. -/
#guard cons [does (setCaptureBufferSize 1), does (consWrite 0x7A), does (consWrite 0x61), gives getCapturedText (asc "z")]

end Verif.Tests.Channels
