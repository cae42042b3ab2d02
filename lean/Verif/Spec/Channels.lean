import Verif.Model.Doubles.Icomm
import Verif.Spec.Doubles
/-
Vocabulary for the console and the channel that the tests use.
-/
namespace Verif.Spec
open Verif Doubles

/-- The call is made, and its result or exception is not kept. -/
def settled (m : M σ α) : M σ Unit := fun s =>
  match m s with
  | .ok _ s' => .ok () s'
  | .throw _ s' => .ok () s'
  | .ub r => .ub r

/-! ### The console -/

/-- The calls of the console and of the routines that control it. -/
inductive COp
  | uninit
  | hasThrows (e : Option Exc) | hasReturns (r : Int) | hasData
  | readThrows (e : Option Exc) | typed (buffer : Str) (size : Nat) | read
  | writeThrows (e : Option Exc) | capture (size : Nat) | write (c : Int) | captured
  deriving DecidableEq

/-- What each call does. -/
def COp.run : COp → M Cons Unit
  | .uninit => consUninit
  | .hasThrows e => hasSetException e
  | .hasReturns r => hasSetReturn r
  | .hasData => settled consHasData
  | .readThrows e => readSetException e
  | .typed b n => readSetBuffer b n
  | .read => settled consRead
  | .writeThrows e => writeSetException e
  | .capture n => setCaptureBufferSize n
  | .write c => settled (consWrite c)
  | .captured => settled getCapturedText

/-- The exception that a read raises after the calls, if that was `e` before. -/
def readExc : Option Exc → List COp → Option Exc
  | e, [] => e
  | _, .uninit :: os => readExc none os
  | _, .readThrows e :: os => readExc e os
  | e, _ :: os => readExc e os

/-- Likewise for a write. -/
def writeExc : Option Exc → List COp → Option Exc
  | e, [] => e
  | _, .uninit :: os => writeExc none os
  | _, .writeThrows e :: os => writeExc e os
  | e, _ :: os => writeExc e os

/-- Likewise for asking whether there is something to read. -/
def hasExc : Option Exc → List COp → Option Exc
  | e, [] => e
  | _, .uninit :: os => hasExc none os
  | _, .hasThrows e :: os => hasExc e os
  | e, _ :: os => hasExc e os

/-- What asking whether there is something to read returns after the calls, if that was `r` before. -/
def hasAnswer : Int → List COp → Int
  | r, [] => r
  | _, .uninit :: os => hasAnswer 0 os
  | _, .hasReturns r :: os => hasAnswer r os
  | r, _ :: os => hasAnswer r os

/-- The call sets what there is to read. -/
def COp.setsInput : COp → Bool
  | .uninit => true
  | .typed .. => true
  | _ => false

/-- The call sets where what is written is kept. -/
def COp.setsCapture : COp → Bool
  | .uninit => true
  | .capture _ => true
  | _ => false

/-- How many of the calls are reads that raise no exception, if a read raises `e` before. -/
def readsDone : Option Exc → List COp → Nat
  | _, [] => 0
  | _, .readThrows e :: os => readsDone e os
  | e, .read :: os => (if e = none then 1 else 0) + readsDone e os
  | e, _ :: os => readsDone e os

/-- The characters written by those calls that raise no exception, if a write raises `e` before. -/
def consWritten : Option Exc → List COp → Str
  | _, [] => []
  | _, .writeThrows e :: os => consWritten e os
  | e, .write c :: os => (if e = none then [BitVec.ofInt 8 c] else []) ++ consWritten e os
  | e, _ :: os => consWritten e os

/-- How many of the calls set the size of the buffer for what is written where there is such a buffer already, set since the last
`ConsoleMock_Uninit`. -/
def recaptured : Bool → List COp → Nat
  | _, [] => 0
  | _, .uninit :: os => recaptured false os
  | b, .capture _ :: os => (if b then 1 else 0) + recaptured true os
  | b, _ :: os => recaptured b os

/-! ### The channel -/

/-- The calls of the channel and of the routines that control it. -/
inductive ChOp
  | uninit
  | data (d1 : Str) (d2 : Option Str) | checksummed (d1 : Str) (d2 : Option Str) | delay (n : Int)
  | poll | receive (fuel : Nat)
  | transmit (size : Nat) | send (c : Int) | transmitted
  | sumOf (d : Str)
  | setStop (b : Bool) | setConnected (b : Bool)
  deriving DecidableEq

/-- What each call does. -/
def ChOp.run : ChOp → M Chan Unit
  | .uninit => chanUninit
  | .data d1 d2 => initReceiveData d1 d2
  | .checksummed d1 d2 => initReceiveChecksummedData d1 d2
  | .delay n => delayReceiveData n
  | .poll => settled chanHasData
  | .receive fuel => settled (chanReceive fuel)
  | .transmit n => initTransmitDataBuffer n
  | .send c => chanSend c
  | .transmitted => settled getTransmittedData
  | .sumOf d => settled (checksumData d)
  | .setStop b => setShouldStopRunFlag b
  | .setConnected b => setIsGdbConnectedFlag b

/-- The call receives a character. -/
def ChOp.isReceive : ChOp → Bool
  | .receive _ => true
  | _ => false

/-- The call sets where what is sent is kept. -/
def ChOp.setsTransmit : ChOp → Bool
  | .uninit => true
  | .transmit _ => true
  | _ => false

/-- The characters sent. -/
def sentBy (os : List ChOp) : Str := os.filterMap fun o => match o with
  | .send c => some (BitVec.ofInt 8 c)
  | _ => none

/-- The sum, modulo 256, of the characters after the last `$`, those that are `#` left out. -/
def packetSum (before : Str) : U8 := ((before.reverse.takeWhile (· ≠ 0x24#8)).filter (· ≠ 0x23#8)).foldr (· + ·) 0#8

/-- The lower-case hexadecimal digit for a number below 16. -/
def sumDigit (n : Nat) : U8 := (asc "0123456789abcdef")[n]?.getD 0

/-- The text with two hexadecimal digits put after each `#`: those of the sum of what comes before it. -/
def withSums (d : Str) : Str :=
  (List.range d.length).flatMap fun i =>
    let c := d[i]?.getD 0
    if c = 0x23#8 then [c, sumDigit ((packetSum (d.take i)).toNat / 16), sumDigit ((packetSum (d.take i)).toNat % 16)] else [c]

/-- The characters there are to receive after the call, if it sets them: the two texts given, one after the other, or `$#00` in place
of the second. -/
def incoming : ChOp → Option Str
  | .uninit => some []
  | .data d1 d2 => some (cString d1 ++ (d2.map cString).getD (asc "$#00"))
  | .checksummed d1 d2 => some (withSums (cString d1) ++ (d2.map fun d => withSums (cString d)).getD (asc "$#00"))
  | _ => none

/-- The first of the two texts given. -/
def firstText : ChOp → Option Str
  | .data d1 _ => some (cString d1)
  | .checksummed d1 _ => some (withSums (cString d1))
  | _ => none

/-- The call sets a delay. -/
def ChOp.isDelay : ChOp → Bool
  | .delay _ => true
  | _ => false

/-- What the channel answers to whether the run should stop, if that was `b` before the calls. -/
def stopFlag : Bool → List ChOp → Bool
  | b, [] => b
  | _, .setStop b :: os => stopFlag b os
  | b, _ :: os => stopFlag b os

/-- What the channel answers to whether GDB is connected, if that was `b` before the calls. -/
def connectedFlag : Bool → List ChOp → Bool
  | b, [] => b
  | _, .uninit :: os => connectedFlag true os
  | _, .setConnected b :: os => connectedFlag b os
  | b, _ :: os => connectedFlag b os

end Verif.Spec
