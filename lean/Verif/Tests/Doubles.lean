import Verif.Tests.Harness
import Verif.Model.Doubles.Inject
import Verif.Model.Doubles.PrintfSpy
/-
libmocks/tests/FileFailureInjectTest.cpp, MallocFailureInjectTest.cpp and printfSpyTest.cpp in the model, one check per TEST, in
the order of the files. Where a file operation reaches the C library that is all that is checked.
-/
namespace Verif.Tests.Doubles
open Verif Verif.Doubles

def files (steps : List (Step Files)) : Bool := passes steps {}

/- `SuccessfulFOpen`. -/
#guard files [gives callFopen .libc]
/- `FailFOpen`. -/
#guard files [does (fopenSetReturn none), gives callFopen (.mock none), does fopenRestore]
/- `IgnoreCloseWithInvalidPointer`. -/
#guard files [does fcloseIgnore, gives callFclose (.mock 0), does fcloseRestore]
/- `SuccessfulFSeek`. -/
#guard files [gives callFseek .libc]
/- `FailFSeek`. -/
#guard files [does (fseekSetReturn (-1)), does (fseekSetCallsBeforeFailure 0), gives callFseek (.mock (-1)), does fseekRestore]
/- `FailSecondFSeek`. -/
#guard files [does (fseekSetReturn (-1)), does (fseekSetCallsBeforeFailure 1), gives callFseek .libc, gives callFseek (.mock (-1)), does fseekRestore]
/- `SuccessfulFTell`. -/
#guard files [gives callFtell .libc]
/- `FailFTell`. -/
#guard files [does (ftellFail (-1)), gives callFtell (.mock (-1)), does ftellRestore]
/- `SuccessfulFWrite`. -/
#guard files [gives callFwrite .libc]
/- `FailFWrite`. -/
#guard files [does (fwriteFail 0), gives callFwrite (.mock 0), does fwriteRestore]
/- `SuccessfulFRead`. -/
#guard files [gives callFread .libc]
/- `FailFRead`. -/
#guard files [does (freadFail 0), gives callFread (.mock 0), does freadRestore]
/- `FailSecondOutOfThreeFReads`. -/
#guard files [does (freadFail 0), does (freadToFail 2), gives callFread .libc, gives callFread (.mock 0), gives callFread .libc, does freadRestore]

/-- `fgets(buffer, sizeof(buffer), NULL)` into a buffer of 16 bytes, followed by `STRCMP_EQUAL(line, buffer)`. -/
def getsLine (line : String) : Step Files := fun s =>
  match callFgets 16 16 s with
  | .ok (.mock (some b)) t => if b.takeWhile (· ≠ 0) = asc line then some t else none
  | _ => none

/- `SetFgetsData_OneLine`. -/
#guard files [does (fgetsSetData [asc "Line1"]), getsLine "Line1", gives (callFgets 16 16) (.mock none)]
/- `SetFgetsData_TwoLines`. -/
#guard files [does (fgetsSetData [asc "Line1", asc "Line2"]), getsLine "Line1", getsLine "Line2", gives (callFgets 16 16) (.mock none)]
/- `SetFgetsData_OneLine_MakeSureThatDataRewindsAfterEOF`. -/
#guard files [does (fgetsSetData [asc "Line1"]), getsLine "Line1", gives (callFgets 16 16) (.mock none), getsLine "Line1"]

def mallocs (steps : List (Step Malloc)) : Bool := passes steps { real := fun _ => true }

/- `FailFirstMalloc`. -/
#guard mallocs [does (failAllocation 1), gives alloc false]
/- `FailSecondMalloc`. -/
#guard mallocs [does (failAllocation 2), gives alloc true, gives alloc false]
/- `FailFirstRealloc`. -/
#guard mallocs [does (failAllocation 1), gives alloc false]
/- `FailSecondReallocOutOfThree`. -/
#guard mallocs [does (failAllocation 2), gives alloc true, gives alloc false, gives alloc true]
/- `VerifyDefaultsSucceed`. -/
#guard mallocs [gives alloc true, gives alloc true]

def spy (steps : List (Step Spy)) : Bool := passes steps {}
def text (s : String) : Option Str := some (asc s)
def print (s : String) : Step Spy := does (hookPrint .out (asc s))
def eprint (s : String) : Step Spy := does (hookPrint .err (asc s))

/-- `printfCheck`. -/
def printed (length : Nat) (shown : String) (s : String) : List (Step Spy) :=
  [gives (hookPrint .out (asc s)) length, gives getLastOutput (text shown), gives getPreviousOutput none, gives getCallCount 1]

/- `BufferSize0`. -/
#guard spy (does (spyHook 0) :: printed 13 "" "Hello World!\n")
/- `BufferSize1`. -/
#guard spy (does (spyHook 1) :: printed 13 "H" "Hello World!\n")
/- `BufferSizeMinus1`. -/
#guard spy (does (spyHook 12) :: printed 13 "Hello World!" "Hello World!\n")
/- `BufferSizeExact`. -/
#guard spy (does (spyHook 13) :: printed 13 "Hello World!\n" "Hello World!\n")
/- `BufferSizePlus1`. -/
#guard spy (does (spyHook 14) :: printed 13 "Hello World!\n" "Hello World!\n")
/- `WithFormatting`. -/
#guard spy (does (spyHook 10) :: printed 12 "Hello Worl" "Hello World\n")
/- `TwoCall`. -/
#guard spy [does (spyHook 10), print "Line 1\r\n", print "Line 2\r\n", gives getCallCount 2, gives getLastOutput (text "Line 2\r\n"),
  gives getPreviousOutput (text "Line 1\r\n")]
/- `SendFourLinesToStdOut`. -/
#guard spy [does (spyHook 10), print "Line 1\r\n", print "Line 2\r\n", print "Line 3\r\n", print "Line 4\r\n",
  gives (getNthOutput 1) (text "Line 4\r\n"), gives (getNthOutput 2) (text "Line 3\r\n"),
  gives (getNthOutput 3) (text "Line 2\r\n"), gives (getNthOutput 4) (text "Line 1\r\n")]
/- `SendOneLineToStdErr`. -/
#guard spy [does (spyHook 10), eprint "Line 1\r\n", gives getLastOutput none, gives getLastErrorOutput (text "Line 1\r\n"),
  gives getPreviousErrorOutput none]
/- `SendTwoLinesToStdErr`. -/
#guard spy [does (spyHook 10), eprint "Line 1\r\n", eprint "Line 2\r\n", gives getLastOutput none, gives getPreviousOutput none,
  gives getLastErrorOutput (text "Line 2\r\n"), gives getPreviousErrorOutput (text "Line 1\r\n")]
/- `SendFourLinesToStdErr`. -/
#guard spy [does (spyHook 10), eprint "Line 1\r\n", eprint "Line 2\r\n", eprint "Line 3\r\n", eprint "Line 4\r\n",
  gives (getNthErrorOutput 1) (text "Line 4\r\n"), gives (getNthErrorOutput 2) (text "Line 3\r\n"),
  gives (getNthErrorOutput 3) (text "Line 2\r\n"), gives (getNthErrorOutput 4) (text "Line 1\r\n")]

end Verif.Tests.Doubles
