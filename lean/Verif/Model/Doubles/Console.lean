import Verif.Model.Base
/-
Model of libCrashDebug/mocks/mockConsole.c (the lines cited are of that file): the console the tests use in place of that of
main/MockDefaults.c.
-/
namespace Verif.Doubles
open Verif

/-- A buffer that collects characters: how many it has room for, besides the NUL, and those in it. See
libCrashDebug/mocks/mockConsole.c:23-25. -/
structure Capture where
  size : Nat
  text : Str := []
  deriving DecidableEq

/-- Storing a character if there is room: lines 105-106, and mocks/mockIComm.cpp:149-150. Without a buffer both pointers are
NULL, so nothing is stored. -/
def Capture.put (c : U8) : Option Capture → Option Capture
  | none => none
  | some b => some (if b.text.length < b.size then { b with text := b.text ++ [c] } else b)

/-- The variables of libCrashDebug/mocks/mockConsole.c:17-25. An exception is `none` where the variable is `noException`.
`input` is the memory from `pBuffer` on, `pos` and `fin` are `g_pReadStdInCurr` and `g_pReadStdInEnd` relative to it. `live`
counts the buffers on the heap. -/
structure Cons where
  hasThrows : Option Exc := none
  hasReturn : Int := 0
  readThrows : Option Exc := none
  input : Str := []
  pos : Nat := 0
  fin : Nat := 0
  writeThrows : Option Exc := none
  captured : Option Capture := none
  live : Int := 0

/-- `ConsoleMock_Uninit`, libCrashDebug/mocks/mockConsole.c:28-37. -/
def consUninit : M Cons Unit := M.modify fun s =>
  { live := if s.captured.isSome then s.live - 1 else s.live }

/-- `ConsoleMock_HasStdInDataToRead_SetException`, libCrashDebug/mocks/mockConsole.c:40-43. -/
def hasSetException (e : Option Exc) : M Cons Unit := M.modify fun s => { s with hasThrows := e }
/-- `ConsoleMock_HasStdInDataToRead_SetReturn`, libCrashDebug/mocks/mockConsole.c:46-49. -/
def hasSetReturn (r : Int) : M Cons Unit := M.modify fun s => { s with hasReturn := r }
/-- `ConsoleMock_ReadStdIn_SetException`, libCrashDebug/mocks/mockConsole.c:52-55. -/
def readSetException (e : Option Exc) : M Cons Unit := M.modify fun s => { s with readThrows := e }
/-- `ConsoleMock_ReadStdIn_SetBuffer`, libCrashDebug/mocks/mockConsole.c:58-62. -/
def readSetBuffer (buffer : Str) (size : Nat) : M Cons Unit := M.modify fun s => { s with input := buffer, pos := 0, fin := size }
/-- `ConsoleMock_WriteStdOut_SetException`, libCrashDebug/mocks/mockConsole.c:64-67. -/
def writeSetException (e : Option Exc) : M Cons Unit := M.modify fun s => { s with writeThrows := e }
/-- `ConsoleMock_WriteStdOut_SetCaptureBufferSize`, libCrashDebug/mocks/mockConsole.c:69-74: the old buffer is not freed.
Simplification: `malloc` succeeds. -/
def setCaptureBufferSize (size : Nat) : M Cons Unit := M.modify fun s => { s with captured := some ⟨size, []⟩, live := s.live + 1 }
/-- `ConsoleMock_WriteStdOut_GetCapturedText`, libCrashDebug/mocks/mockConsole.c:76-80; the result is what is in the buffer
before the NUL put at its end. -/
def getCapturedText : M Cons Str := fun s =>
  match s.captured with
  | none => .ub .nullDeref
  | some b => .ok b.text s

/-- `Console_HasStdInDataToRead`, libCrashDebug/mocks/mockConsole.c:84-89. -/
def consHasData : M Cons Int := fun s =>
  match s.hasThrows with
  | some e => .throw ⟨e, []⟩ s
  | none => .ok s.hasReturn s

/-- `Console_ReadStdIn`, libCrashDebug/mocks/mockConsole.c:91-99. -/
def consRead : M Cons Int := fun s =>
  match s.readThrows with
  | some e => .throw ⟨e, []⟩ s
  | none =>
    if s.pos < s.fin then
      match s.input[s.pos]? with
      | none => .ub .outOfBounds
      | some c => .ok c.toInt { s with pos := s.pos + 1 }
    else .ok 0 s

/-- `Console_WriteStdOut`, libCrashDebug/mocks/mockConsole.c:101-107. -/
def consWrite (character : Int) : M Cons Unit := fun s =>
  match s.writeThrows with
  | some e => .throw ⟨e, []⟩ s
  | none => .ok () { s with captured := Capture.put (BitVec.ofInt 8 character) s.captured }

end Verif.Doubles
