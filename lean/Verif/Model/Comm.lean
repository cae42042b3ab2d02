import Verif.Model.Base
/-
Model of libCrashDebug/src/StandardIComm.c and of the Posix console functions in main/MockDefaults.c.
-/
namespace Verif.Comm
open Verif

/-- What `read(STDIN_FILENO, &c, 1)` can do: fail (-1), report end of file (0), or deliver a byte (1). See
main/MockDefaults.c:110. -/
inductive ReadResult
  | error
  | eof
  | byte (b : U8)
  deriving DecidableEq, Repr

/-- `g_comm` (libCrashDebug/src/StandardIComm.c:30-34; `connected` is `hasGdbConnected`) and the outside world: `poll n` is
what the n-th `select` reports (`none` = -1, else whether standard input is readable), `input n` what the n-th `read`
does, `fails n` whether the n-th `write` fails; the counters say how many were made. `sent` is what was written. -/
structure Comm where
  connected : Bool := false
  poll : Nat → Option Bool
  input : Nat → ReadResult
  fails : Nat → Bool
  polls : Nat := 0
  reads : Nat := 0
  writes : Nat := 0
  sent : Str := []

/-- `Console_HasStdInDataToRead`, main/MockDefaults.c:91-103. -/
def hasStdInDataToRead : M Comm Bool := fun c =>
  match c.poll c.polls with
  | none => .throw ⟨.file, []⟩ { c with polls := c.polls + 1 }
  | some b => .ok b { c with polls := c.polls + 1 }

/-- `Console_ReadStdIn`, main/MockDefaults.c:105-114. At end of file `c` keeps its initial value 0. `char` is signed (x86). -/
def readStdIn : M Comm Int := fun c =>
  match c.input c.reads with
  | .error => .throw ⟨.file, []⟩ { c with reads := c.reads + 1 }
  | .eof => .ok 0 { c with reads := c.reads + 1 }
  | .byte b => .ok b.toInt { c with reads := c.reads + 1 }

/-- `Console_WriteStdOut`, main/MockDefaults.c:116-124. -/
def writeStdOut (character : Int) : M Comm Unit := fun c =>
  if c.fails c.writes then .throw ⟨.file, []⟩ { c with writes := c.writes + 1 }
  else .ok () { c with writes := c.writes + 1, sent := c.sent ++ [BitVec.ofInt 8 character] }

/-- `StandardIComm_Init`, libCrashDebug/src/StandardIComm.c:38-43. -/
def init : M Comm Unit := M.modify fun c => { c with connected := false }

/-- `hasReceiveData`, libCrashDebug/src/StandardIComm.c:53-67. The handler clears the exception code. -/
def hasReceiveData : M Comm Bool := M.tryCatch hasStdInDataToRead (fun _ => pure false)

/-- `receiveChar`, libCrashDebug/src/StandardIComm.c:69-75. -/
def receiveChar : M Comm Int := do
  let c ← readStdIn
  M.modify fun s => { s with connected := true }
  pure c

/-- `sendChar`, libCrashDebug/src/StandardIComm.c:77-80. -/
def sendChar (character : Int) : M Comm Unit := writeStdOut character

/-- `shouldStopRun`, libCrashDebug/src/StandardIComm.c:82-85. -/
def shouldStopRun : M Comm Bool := pure false

/-- `isGdbConnected`, libCrashDebug/src/StandardIComm.c:87-91. -/
def isGdbConnected : M Comm Bool := do
  if (← M.get).connected then pure true else hasReceiveData

end Verif.Comm
