import Verif.Tests.Harness
import Verif.Model.Comm
/-
libCrashDebug/tests/StandardICommTests.cpp in the model, in the order of the file. The tests replace the console functions
by mocks; here the outcome of `select`, `read` and `write` is chosen instead.
-/
namespace Verif.Tests.Comm
open Verif
open Verif.Comm

/-- `setup`: nothing to read, all writes succeed. -/
def start : Comm := { connected := true, poll := fun _ => some false, input := fun _ => .eof, fails := fun _ => false }

def test (steps : List (Step Comm)) : Bool := passes (does Verif.Comm.init :: steps) start

def readable (b : Option Bool) : Step Comm := sets fun c => { c with poll := fun _ => b }
def typed (b : ReadResult) : Step Comm := sets fun c => { c with input := fun _ => b }

/- `ShouldStopRun_AlwaysReturnFALSE`. -/
#guard test [gives shouldStopRun false]
/- `HasReceiveData_ThrowException_ShouldReturnFalse`. -/
#guard test [readable none, gives hasReceiveData false]
/- `HasReceiveData_Return1_ShouldReturnTrue`. -/
#guard test [readable (some true), gives hasReceiveData true]
/- `HasReceiveData_Return0_ShouldReturnFalse`. -/
#guard test [readable (some false), gives hasReceiveData false]
/- `ReceiveChar_ThrowException_VerifyExceptionThrown`. -/
#guard test [typed .error, throws receiveChar .file]
/- `ReceiveChar_ReadSingleChar`. -/
#guard test [typed (.byte 0x61), gives receiveChar 0x61]
/- `SendChar_ThrowException_VerifyExceptionThrown`. -/
#guard test [sets fun c => { c with fails := fun _ => true }, throws (sendChar 0x7A) .file]
/- `SendChar_VerifySuccessfullySentBytes`. -/
#guard test [does (sendChar 0x78), does (sendChar 0x79), does (sendChar 0x7A), holds fun c => c.sent = asc "xyz"]
/- `IsGdbConnected_ShouldReturnFalse`. -/
#guard test [gives isGdbConnected false]
/- `IsGdbConnected_ShouldReturnTrueOnceHasRecieveData`. -/
#guard test [gives isGdbConnected false, readable (some true), gives isGdbConnected true]
/- `IsGdbConnected_ShouldReturnTrueOnceOneByteHasBeenRead`. -/
#guard test [gives isGdbConnected false, typed (.byte 0x2B), gives isGdbConnected false, gives receiveChar 0x2B,
  gives isGdbConnected true]

end Verif.Tests.Comm
