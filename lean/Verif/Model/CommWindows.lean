import Verif.Model.Comm
/-
Model of the Windows console functions in main/MockDefaults.c, and of libCrashDebug/src/StandardIComm.c on top of them.
-/
namespace Verif.Comm.Windows
open Verif Comm

/- The state is that of `Comm`. Of the outside world, `poll n` is what the n-th `PeekNamedPipe` does (`none`: it fails, else
whether bytes are available), `input n` what the n-th `ReadFile` does (`error`: it returns FALSE, `eof`: it returns TRUE with
no byte read), and `fails n` says whether the n-th `WriteFile` returns FALSE or writes nothing. Simplification: the handles that
`initStdIo` (lines 38-47) obtains are part of the outside world; where they are invalid the calls fail. -/

/-- `Console_HasStdInDataToRead`, main/MockDefaults.c:49-56. When `PeekNamedPipe` fails, `bytesAvailable` keeps its initial
value 0. -/
def hasStdInDataToRead : M Comm Bool := fun c =>
  match c.poll c.polls with
  | none => .ok false { c with polls := c.polls + 1 }
  | some b => .ok b { c with polls := c.polls + 1 }

/-- `Console_ReadStdIn`, main/MockDefaults.c:58-71. -/
def readStdIn : M Comm Int := fun c =>
  match c.input c.reads with
  | .error => .throw ⟨.file, []⟩ { c with reads := c.reads + 1 }
  | .eof => .throw ⟨.file, []⟩ { c with reads := c.reads + 1 }
  | .byte b => .ok b.toInt { c with reads := c.reads + 1 }

/-- `Console_WriteStdOut`, main/MockDefaults.c:73-83. -/
def writeStdOut (character : Int) : M Comm Unit := fun c =>
  if c.fails c.writes then .throw ⟨.file, []⟩ { c with writes := c.writes + 1 }
  else .ok () { c with writes := c.writes + 1, sent := c.sent ++ [BitVec.ofInt 8 character] }

/-- `hasReceiveData`, libCrashDebug/src/StandardIComm.c:53-67. -/
def hasReceiveData : M Comm Bool := M.tryCatch hasStdInDataToRead (fun _ => pure false)

/-- `receiveChar`, libCrashDebug/src/StandardIComm.c:69-75. -/
def receiveChar : M Comm Int := do
  let c ← readStdIn
  M.modify fun s => { s with connected := true }
  pure c

/-- `sendChar`, libCrashDebug/src/StandardIComm.c:77-80. -/
def sendChar (character : Int) : M Comm Unit := writeStdOut character

/-- `isGdbConnected`, libCrashDebug/src/StandardIComm.c:87-91. -/
def isGdbConnected : M Comm Bool := do
  if (← M.get).connected then pure true else hasReceiveData

end Verif.Comm.Windows
