import Verif.Model.Base
/-
Model of libmocks/src/printfSpy.c (the lines cited are of that file): the hooks that record what is printed.
-/
namespace Verif.Doubles
open Verif

/-- Where `fprintf` prints to. See libmocks/src/printfSpy.c:67-74. -/
inductive Stream
  | out | err | other
  deriving DecidableEq

/-- The variables of libmocks/src/printfSpy.c:21-27: the four buffers for each stream (`none` is NULL, else the C string in it),
`g_bufferSize`, `g_callCount`, `g_bufferIndex`, and whether the hooks of lines 26-27 point to the mocks. `live` counts the
buffers on the heap. -/
structure Spy where
  out : List (Option Str) := [none, none, none, none]
  err : List (Option Str) := [none, none, none, none]
  size : Nat := 0
  calls : Nat := 0
  index : Nat := 0
  hooked : Bool := false
  live : Int := 0

/-- `_AllocateAndInitBuffers`, libmocks/src/printfSpy.c:31-35. Simplification: `BufferSize + 1` does not wrap around. -/
def allocateAndInitBuffers (bufferSize : Nat) (s : Spy) : Spy := { s with size := bufferSize + 1, index := 0 }

/-- `_FreeBuffer`, libmocks/src/printfSpy.c:37-49. -/
def freeBuffer (s : Spy) : Spy :=
  { s with out := [none, none, none, none], err := [none, none, none, none], size := 0, index := 0,
           live := s.live - (s.out.countP Option.isSome + s.err.countP Option.isSome : Nat) }

/-- `_nextIndex`, libmocks/src/printfSpy.c:51-54 (`OUTPUT_COUNT` is 4, line 19). -/
def nextIndex (s : Spy) : Nat := (s.index + 1) % 2 ^ 64 % 4

/-- `_prevIndex`, libmocks/src/printfSpy.c:56-59; `size_t` wraps around. -/
def prevIndex (n : Nat) (s : Spy) : Nat := (s.index + (2 ^ 64 - n)) % 2 ^ 64 % 4

/-- Storing into one of the four buffers of a stream, which is allocated if it does not exist, libmocks/src/printfSpy.c:78-88.
`vsnprintf` stores at most `g_bufferSize - 1` characters. Simplification: `malloc` succeeds (else the `assert` of line 81
fires), and the text printed has no NUL in it. -/
def store (bufs : List (Option Str)) (text : Str) (s : Spy) : List (Option Str) × Int :=
  (bufs.set s.index (some (text.take (s.size - 1))), if bufs[s.index]? = some none then s.live + 1 else s.live)

/-- `mock_common`, libmocks/src/printfSpy.c:61-91, given the text that the format and its arguments amount to. The result is
what `vsnprintf` returns. -/
def mockCommon (to : Stream) (text : Str) : M Spy Nat := fun s =>
  match to with
  | .out => .ok text.length { s with out := (store s.out text s).1, live := (store s.out text s).2, index := nextIndex s, calls := s.calls + 1 }
  | .err => .ok text.length { s with err := (store s.err text s).1, live := (store s.err text s).2, index := nextIndex s, calls := s.calls + 1 }
  | .other => .ub .assertFailed

/-- A call of `hook_printf` or `hook_fprintf`; `mock_printf` and `mock_fprintf`, libmocks/src/printfSpy.c:93-105. Without the
hooks the C library prints. -/
def hookPrint (to : Stream) (text : Str) : M Spy Nat := fun s =>
  if s.hooked then mockCommon to text s else .ok text.length s

/-- `printfSpy_Unhook`, libmocks/src/printfSpy.c:132-136, and `restoreHookFunctionPointers`, lines 113-117. -/
def spyUnhook : M Spy Unit := M.modify fun s => freeBuffer { s with hooked := false }

/-- `printfSpy_Hook`, libmocks/src/printfSpy.c:123-130, and `setHookFunctionPointers`, lines 107-111. -/
def spyHook (bufferSize : Nat) : M Spy Unit := do
  spyUnhook
  M.modify (allocateAndInitBuffers bufferSize)
  M.modify fun s => { s with calls := 0, hooked := true }

/-- `printfSpy_GetNthOutput`, libmocks/src/printfSpy.c:138-142. -/
def getNthOutput (n : Nat) : M Spy (Option Str) := fun s =>
  if n ≤ 4 then .ok ((s.out[prevIndex n s]?).getD none) s else .ub .assertFailed
/-- `printfSpy_GetLastOutput`, libmocks/src/printfSpy.c:144-147. -/
def getLastOutput : M Spy (Option Str) := getNthOutput 1
/-- `printfSpy_GetPreviousOutput`, libmocks/src/printfSpy.c:149-152. -/
def getPreviousOutput : M Spy (Option Str) := getNthOutput 2
/-- `printfSpy_GetNthErrorOutput`, libmocks/src/printfSpy.c:154-158. -/
def getNthErrorOutput (n : Nat) : M Spy (Option Str) := fun s =>
  if n ≤ 4 then .ok ((s.err[prevIndex n s]?).getD none) s else .ub .assertFailed
/-- `printfSpy_GetLastErrorOutput`, libmocks/src/printfSpy.c:160-163. -/
def getLastErrorOutput : M Spy (Option Str) := getNthErrorOutput 1
/-- `printfSpy_GetPreviousErrorOutput`, libmocks/src/printfSpy.c:165-168. -/
def getPreviousErrorOutput : M Spy (Option Str) := getNthErrorOutput 2
/-- `printfSpy_GetCallCount`, libmocks/src/printfSpy.c:170-173. -/
def getCallCount : M Spy Nat := do return (← M.get).calls

end Verif.Doubles
