import Verif.Model.Base
/-
Model of libmocks/src/MallocFailureInject.c and libmocks/src/FileFailureInject.c: the hooks by which tests make allocations
and file operations fail.
-/
namespace Verif.Doubles
open Verif

/-! ### libmocks/src/MallocFailureInject.c -/

/-- `hook_malloc`, `hook_realloc` (libmocks/src/MallocFailureInject.c:20-21; they are always set together, so one flag says
whether they point to the mocks), `g_allocationToFail` (line 24), and the C library: `real n` says whether the n-th allocation
that reaches it succeeds. -/
structure Malloc where
  hooked : Bool := false
  toFail : U32 := 0
  real : Nat → Bool
  passed : Nat := 0

/-- `malloc`, `realloc` of the C library: whether a block is returned. See libmocks/src/MallocFailureInject.c:28-36. -/
def libcAlloc : M Malloc Bool := fun s => .ok (s.real s.passed) { s with passed := s.passed + 1 }

/-- `shouldThisAllocationBeFailed`, libmocks/src/MallocFailureInject.c:43-46. -/
def shouldThisAllocationBeFailed : M Malloc Bool := fun s =>
  if s.toFail ≠ 0 then .ok (s.toFail - 1 == 0) { s with toFail := s.toFail - 1 } else .ok false s

/-- `mock_malloc` and `mock_realloc`, libmocks/src/MallocFailureInject.c:48-62. -/
def mockAlloc : M Malloc Bool := do
  if ← shouldThisAllocationBeFailed then pure false else libcAlloc

/-- A call of `hook_malloc` or `hook_realloc`: whether it returns a block. `defaultMalloc` and `defaultRealloc`
(libmocks/src/MallocFailureInject.c:28-36) are the C library's functions. -/
def alloc : M Malloc Bool := do
  if (← M.get).hooked then mockAlloc else libcAlloc

/-- `MallocFailureInject_FailAllocation`, libmocks/src/MallocFailureInject.c:68-73. -/
def failAllocation (allocationToFail : U32) : M Malloc Unit :=
  M.modify fun s => { s with hooked := true, toFail := allocationToFail }

/-- `MallocFailureInject_Restore`, libmocks/src/MallocFailureInject.c:75-79. -/
def restoreMalloc : M Malloc Unit := M.modify fun s => { s with hooked := false }

/-! ### libmocks/src/FileFailureInject.c -/

/-- What a hooked file function does: it calls the C library's function, or returns a value of its own. See
libmocks/src/FileFailureInject.c:22-27. -/
inductive Via (α : Type)
  | libc
  | mock (r : α)
  deriving DecidableEq

/-- The hooks and the variables of libmocks/src/FileFailureInject.c:21-39. `fopen`, `ftell` and `fwrite` are the values that
`mock_fopen`, `mock_ftell` and `mock_fwrite` return, where these are hooked in; for `fopen`, `none` is NULL and files are
numbers. `lines` are the lines of `fgetsSetData`, `curr` is `g_ppFgetsCurr` as an index. -/
structure Files where
  fopen : Option (Option Nat) := none
  closeIgnored : Bool := false
  seekHooked : Bool := false
  seekReturn : Int := 0
  seekCallsToPass : Int := 0
  ftell : Option Int := none
  fwrite : Option Nat := none
  readHooked : Bool := false
  readReturn : Nat := 0
  readToFail : Int := 0
  getsHooked : Bool := false
  lines : List Str := []
  curr : Nat := 0

/-- `fopenSetReturn`, libmocks/src/FileFailureInject.c:45-49. -/
def fopenSetReturn (r : Option Nat) : M Files Unit := M.modify fun s => { s with fopen := some r }
/-- `hook_fopen`; `mock_fopen`, libmocks/src/FileFailureInject.c:51-54. -/
def callFopen : M Files (Via (Option Nat)) := fun s =>
  match s.fopen with
  | none => .ok .libc s
  | some r => .ok (.mock r) s
/-- `fopenRestore`, libmocks/src/FileFailureInject.c:57-60. -/
def fopenRestore : M Files Unit := M.modify fun s => { s with fopen := none }

/-- `fcloseIgnore`, libmocks/src/FileFailureInject.c:64-67. -/
def fcloseIgnore : M Files Unit := M.modify fun s => { s with closeIgnored := true }
/-- `hook_fclose`; `mock_fclose`, libmocks/src/FileFailureInject.c:69-72. -/
def callFclose : M Files (Via Int) := fun s => .ok (if s.closeIgnored then .mock 0 else .libc) s
/-- `fcloseRestore`, libmocks/src/FileFailureInject.c:76-79. -/
def fcloseRestore : M Files Unit := M.modify fun s => { s with closeIgnored := false }

/-- `fseekSetReturn`, libmocks/src/FileFailureInject.c:83-87. -/
def fseekSetReturn (r : Int) : M Files Unit := M.modify fun s => { s with seekReturn := r, seekHooked := true }
/-- `hook_fseek`; `mock_fseek`, libmocks/src/FileFailureInject.c:89-98. -/
def callFseek : M Files (Via Int) := fun s =>
  if !s.seekHooked then .ok .libc s
  else if s.seekCallsToPass > 0 then .ok .libc { s with seekCallsToPass := s.seekCallsToPass - 1 }
  else .ok (.mock s.seekReturn) s
/-- `fseekSetCallsBeforeFailure`, libmocks/src/FileFailureInject.c:101-104. -/
def fseekSetCallsBeforeFailure (n : Int) : M Files Unit := M.modify fun s => { s with seekCallsToPass := n }
/-- `fseekRestore`, libmocks/src/FileFailureInject.c:107-110. -/
def fseekRestore : M Files Unit := M.modify fun s => { s with seekHooked := false }

/-- `ftellFail`, libmocks/src/FileFailureInject.c:114-118. -/
def ftellFail (r : Int) : M Files Unit := M.modify fun s => { s with ftell := some r }
/-- `hook_ftell`; `mock_ftell`, libmocks/src/FileFailureInject.c:120-123. -/
def callFtell : M Files (Via Int) := fun s =>
  match s.ftell with
  | none => .ok .libc s
  | some r => .ok (.mock r) s
/-- `ftellRestore`, libmocks/src/FileFailureInject.c:126-129. -/
def ftellRestore : M Files Unit := M.modify fun s => { s with ftell := none }

/-- `fwriteFail`, libmocks/src/FileFailureInject.c:133-137. -/
def fwriteFail (r : Nat) : M Files Unit := M.modify fun s => { s with fwrite := some r }
/-- `hook_fwrite`; `mock_fwrite`, libmocks/src/FileFailureInject.c:139-142. -/
def callFwrite : M Files (Via Nat) := fun s =>
  match s.fwrite with
  | none => .ok .libc s
  | some r => .ok (.mock r) s
/-- `fwriteRestore`, libmocks/src/FileFailureInject.c:145-148. -/
def fwriteRestore : M Files Unit := M.modify fun s => { s with fwrite := none }

/-- `freadFail`, libmocks/src/FileFailureInject.c:152-157 (`FAIL_ALL_CALLS` is -1, line 18). -/
def freadFail (r : Nat) : M Files Unit := M.modify fun s => { s with readReturn := r, readToFail := -1, readHooked := true }
/-- `freadRestore`, libmocks/src/FileFailureInject.c:180-184. -/
def freadRestore : M Files Unit := M.modify fun s => { s with readHooked := false, readToFail := 0 }
/-- `hook_fread`; `mock_fread`, libmocks/src/FileFailureInject.c:159-171. -/
def callFread : M Files (Via Nat) := fun s =>
  if !s.readHooked then .ok .libc s
  else if s.readToFail > 0 then
    if s.readToFail - 1 = 0 then .ok (.mock s.readReturn) { s with readHooked := false, readToFail := 0 }
    else .ok .libc { s with readToFail := s.readToFail - 1 }
  else .ok (.mock s.readReturn) s
/-- `freadToFail`, libmocks/src/FileFailureInject.c:174-177. -/
def freadToFail (n : Int) : M Files Unit := M.modify fun s => { s with readToFail := n }

/-- `fgetsSetData`, libmocks/src/FileFailureInject.c:188-194. -/
def fgetsSetData (lines : List Str) : M Files Unit := M.modify fun s => { s with getsHooked := true, lines := lines, curr := 0 }
/-- What `strncpy(str, line, size); str[size-1] = '\0'` leaves in the first `size` bytes of `str`. See
libmocks/src/FileFailureInject.c:206-207. -/
def copied (line : Str) (size : Nat) : Str := ((line.take size ++ List.replicate (size - line.length) 0).take (size - 1)) ++ [0]
/-- `hook_fgets`; `mock_fgets`, libmocks/src/FileFailureInject.c:196-209: the bytes stored in `str`, or `none` for NULL. `room`
is the number of bytes at `str`. -/
def callFgets (room : Nat) (size : Int) : M Files (Via (Option Str)) := fun s =>
  if !s.getsHooked then .ok .libc s
  else match s.lines[s.curr]? with
    | none => .ok (.mock none) { s with curr := 0 }
    | some line =>
      if 0 < size ∧ size ≤ room then .ok (.mock (some (copied line size.toNat))) { s with curr := s.curr + 1 }
      else .ub .outOfBounds
/-- `fgetsRestore`, libmocks/src/FileFailureInject.c:211-217. -/
def fgetsRestore : M Files Unit := M.modify fun s => { s with getsHooked := false, lines := [], curr := 0 }

end Verif.Doubles
