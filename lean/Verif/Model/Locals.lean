/-
Local variables and `longjmp`.

A `longjmp` leaves the value of some local variables open: those of the function that called `setjmp`, if they are not `volatile` and have
been changed since (C11 7.13.2.1 paragraph 3). `__throw` is a `longjmp`, `__try` a `setjmp` (include/try_catch.h). The other files of the
model let variables keep their values. Here every function with a `__try` is given as far as its variables are concerned: what is set,
what is used, what may raise an exception. Conditions are left out, so that both branches are possible, and so are the values.
-/
namespace Verif.Locals

/-- The variables (and parameters) of the functions below. -/
inductive Var
  | returnValue | pComm | commandLine | hasData | object | regionOrSentinel | bytesRead | pLogFile | pPgmHeader | i | pData | retVal | value
  | status | address | pRegion | pRedirect | redirectAddress | baseAddress | size | maxSize | endRAM | baseRAM | argc | argv | fileData
  | pFile | pBuffer | fileSize | pFilename
  deriving DecidableEq

/-- What a statement does to variables. -/
inductive Stmt
  /-- Assigns all of the variable, or initialises it. -/
  | set (x : Var)
  /-- Assigns a part of it, such as a member of a `struct`. -/
  | change (x : Var)
  /-- Looks at its value. -/
  | use (x : Var)
  /-- Calls something that may raise an exception, and that may change these variables, whose addresses it has. -/
  | call (xs : List Var)
  | throw
  | ret
  | skip
  | seq (a b : Stmt)
  /-- One of the two. -/
  | either (a b : Stmt)
  /-- Any number of times. -/
  | loop (a : Stmt)
  /-- `__try a __catch b` -/
  | tryCatch (a b : Stmt)

infixr:60 " ;; " => Stmt.seq

/-- The variables changed since the last `setjmp`, and those whose value is open. -/
structure St where
  changed : Var → Prop
  unknown : Var → Prop

/-- How a statement ends: at its end, with `return`, with a `longjmp`, or with undefined behaviour. -/
inductive Res
  | fin (s : St)
  | ret
  | jump (s : St)
  | bad

/-- Statements of a function in which the variables in `vol` are `volatile`, from one state to a result. See C11 7.13.2.1 paragraph 3 and
include/try_catch.h:64-103. A `return` out of the body of `__try` counts as bad: it would leave `g_pExceptionHandlers` pointing to a
variable that is gone (include/try_catch.h:68-70). The handler may also run after a body that did not raise anything: `__catch` looks at
`g_exceptionCode` (include/try_catch.h:82). -/
inductive Run (vol : List Var) : Stmt → St → Res → Prop
  | set : Run vol (.set x) s (.fin ⟨fun y => y = x ∨ s.changed y, fun y => y ≠ x ∧ s.unknown y⟩)
  | change : Run vol (.change x) s (.fin ⟨fun y => y = x ∨ s.changed y, s.unknown⟩)
  | use : ¬ s.unknown x → Run vol (.use x) s (.fin s)
  | useBad : s.unknown x → Run vol (.use x) s .bad
  | call {c : Var → Prop} : (∀ y, c y → y ∈ xs) → Run vol (.call xs) s (.fin ⟨fun y => c y ∨ s.changed y, s.unknown⟩)
  | callJump {c : Var → Prop} : (∀ y, c y → y ∈ xs) → Run vol (.call xs) s (.jump ⟨fun y => c y ∨ s.changed y, s.unknown⟩)
  | throw : Run vol .throw s (.jump s)
  | ret : Run vol .ret s .ret
  | skip : Run vol .skip s (.fin s)
  | seq : Run vol a s (.fin s1) → Run vol b s1 r → Run vol (.seq a b) s r
  | seqEnd : Run vol a s r → (∀ s1, r ≠ .fin s1) → Run vol (.seq a b) s r
  | left : Run vol a s r → Run vol (.either a b) s r
  | right : Run vol b s r → Run vol (.either a b) s r
  | loopEnd : Run vol (.loop a) s (.fin s)
  | loopGo : Run vol a s (.fin s1) → Run vol (.loop a) s1 r → Run vol (.loop a) s r
  | loopOut : Run vol a s r → (∀ s1, r ≠ .fin s1) → Run vol (.loop a) s r
  | tryDone : Run vol a ⟨fun _ => False, s.unknown⟩ (.fin s1) →
      Run vol (.tryCatch a b) s (.fin ⟨fun y => s1.changed y ∨ s.changed y, s1.unknown⟩)
  | tryLate : Run vol a ⟨fun _ => False, s.unknown⟩ (.fin s1) → Run vol b ⟨fun y => s1.changed y ∨ s.changed y, s1.unknown⟩ r →
      Run vol (.tryCatch a b) s r
  | tryCaught : Run vol a ⟨fun _ => False, s.unknown⟩ (.jump s1) →
      Run vol b ⟨fun y => s1.changed y ∨ s.changed y, fun y => s1.unknown y ∨ (s1.changed y ∧ y ∉ vol)⟩ r → Run vol (.tryCatch a b) s r
  | tryRet : Run vol a ⟨fun _ => False, s.unknown⟩ .ret → Run vol (.tryCatch a b) s .bad
  | tryBad : Run vol a ⟨fun _ => False, s.unknown⟩ .bad → Run vol (.tryCatch a b) s .bad

/-- A function: its `volatile` variables, those that are not initialised where they are declared, and its statements. Arguments are set
from the start. -/
structure Fn where
  vol : List Var
  fresh : List Var
  body : Stmt

/-- On entry only the variables without initialiser are open. -/
def Fn.entry (f : Fn) : St := ⟨fun _ => False, fun x => x ∈ f.fresh⟩

open Var Stmt

/-- An assignment of what a call returns, `x = f(…)`: if the call raises an exception, `x` is not changed. See
libCrashDebug/src/mriPlatform.c:223. -/
def Stmt.result (x : Var) : Stmt := .call [] ;; .set x

/-- `main`, main/main.c:20-52. `CrashDebugCommandLine_Init` clears all of `commandLine` before anything else
(libCrashDebug/src/CrashDebugCommandLine.c:111); `mriPlatform_Init` keeps its address. -/
def main : Fn where
  vol := [returnValue, pComm]
  fresh := [commandLine]
  body :=
    set returnValue ;; set pComm ;;
    tryCatch (set commandLine ;; call [commandLine] ;; result pComm ;; use commandLine ;; call [commandLine] ;; use pComm ;; call [commandLine])
      (set returnValue) ;;
    use pComm ;; use commandLine ;; use returnValue ;; ret

/-- `hasReceiveData`, libCrashDebug/src/StandardIComm.c:53-67. -/
def hasReceiveData : Fn where
  vol := [hasData]
  fresh := []
  body := set hasData ;; tryCatch (result hasData) ret ;; use hasData ;; ret

/-- `CrashCatcherDump_ReadBinary` and `CrashCatcherDump_ReadHex`, libCrashDebug/src/CrashCatcherDump.c:60-75 and 245-260. `initObject`
(lines 82-93) clears all of the object before anything else; all functions have its address. -/
def readDump : Fn where
  vol := []
  fresh := [object]
  body :=
    tryCatch (set object ;; call [object] ;; use object ;; call [object] ;; use object ;; change object)
      (use object ;; change object ;; throw)

/-- `readNextMemoryRegion`, libCrashDebug/src/CrashCatcherDump.c:185-210. The part of `regionOrSentinel` that is looked at has been read
from the file. `createAndLoadMemoryRegion` has its address, but does not change it (lines 217-232). -/
def readNextMemoryRegion : Fn where
  vol := []
  fresh := [bytesRead, regionOrSentinel]
  body :=
    set regionOrSentinel ;; call [regionOrSentinel] ;; set bytesRead ;; use bytesRead ;; use regionOrSentinel ;;
    either throw (use bytesRead ;; either ret (use bytesRead ;; either throw skip)) ;;
    tryCatch (use regionOrSentinel ;; call []) (use regionOrSentinel ;; throw) ;;
    ret

/-- `GdbLogParse`, libCrashDebug/src/GdbLogParser.c:90-109. -/
def gdbLogParse : Fn where
  vol := [pLogFile]
  fresh := []
  body :=
    set pLogFile ;;
    tryCatch (result pLogFile ;; call [] ;; use pLogFile ;; call [] ;; use pLogFile ;; call [] ;; use pLogFile ;; call [] ;; use pLogFile)
      (use pLogFile ;; either (use pLogFile) skip ;; throw)

/-- `initLoadObject`, libCrashDebug/src/ElfLoad.c:52-62. -/
def initLoadObject : Fn where
  vol := []
  fresh := [object]
  body := set object ;; change object ;; tryCatch (use object ;; call [] ;; change object) throw ;; use object ;; ret

/-- `loadFlashLoadableEntries`, libCrashDebug/src/ElfLoad.c:100-120. -/
def loadFlashLoadableEntries : Fn where
  vol := [pPgmHeader, i]
  fresh := []
  body :=
    set pPgmHeader ;; set i ;; set i ;;
    loop (use i ;; tryCatch (result pPgmHeader) (use i ;; throw) ;; use pPgmHeader ;; call [] ;; use i ;; set i) ;;
    use i

/-- `loadIfFlashLoadableEntry`, libCrashDebug/src/ElfLoad.c:122-143. -/
def loadIfFlashLoadableEntry : Fn where
  vol := [pData]
  fresh := []
  body :=
    set pData ;; use pPgmHeader ;; either ret skip ;;
    tryCatch (use pPgmHeader ;; result pData) (use pPgmHeader ;; throw) ;;
    use pPgmHeader ;; call [] ;; use pPgmHeader ;; use pData ;; call [] ;; use pPgmHeader ;; call []

/-- `Platform_MemRead32`, `16` and `8`, libCrashDebug/src/mriPlatform.c:219-247. -/
def memRead : Fn where
  vol := []
  fresh := []
  body := set retVal ;; tryCatch (use address ;; result retVal) skip ;; use retVal ;; ret

/-- `Platform_MemWrite32`, `16` and `8`, libCrashDebug/src/mriPlatform.c:249-271. -/
def memWrite : Fn where
  vol := []
  fresh := []
  body := tryCatch (use address ;; use value ;; call []) skip

/-- `displayHardFaultCauseToGdbConsole`, libCrashDebug/src/mriPlatform.c:381-410. -/
def displayHardFault : Fn where
  vol := [status]
  fresh := []
  body :=
    set status ;; call [] ;; tryCatch (result status) ret ;; call [] ;; use status ;; call [] ;;
    use status ;; either (call []) skip ;; use status ;; either (call []) skip ;; use status ;; either (call [] ;; call [] ;; call [] ;; call []) skip

/-- `displayMemFaultCauseToGdbConsole` and `displayBusFaultCauseToGdbConsole`, libCrashDebug/src/mriPlatform.c:412-456 and 458-506; the
latter reads the register twice (lines 470-471). -/
def displayMemOrBusFault : Fn where
  vol := [status]
  fresh := [address]
  body :=
    set status ;; tryCatch (result status ;; either (result status) skip) ret ;; use status ;; either ret skip ;;
    call [] ;; call [] ;; use status ;; call [] ;;
    use status ;; either (tryCatch (result address ;; call [] ;; use address ;; call []) skip) skip ;;
    loop (use status ;; either (call []) skip)

/-- `displayUsageFaultCauseToGdbConsole`, libCrashDebug/src/mriPlatform.c:508-542. -/
def displayUsageFault : Fn where
  vol := [status]
  fresh := []
  body :=
    set status ;; tryCatch (result status) ret ;; use status ;; either ret skip ;; call [] ;; call [] ;; use status ;; call [] ;;
    loop (use status ;; either (call []) skip)

/-- `MemorySim_CreateRegion`, libCrashDebug/src/MemorySim.c:170-188. -/
def createRegion : Fn where
  vol := [pRegion]
  fresh := []
  body :=
    set pRegion ;;
    tryCatch (result pRegion ;; use pRegion ;; use baseAddress ;; use pRegion ;; use size ;; use size ;; call [] ;; use pRegion ;; use pRegion ;; call [])
      (use pRegion ;; throw)

/-- `MemorySim_CreateAlias`, libCrashDebug/src/MemorySim.c:209-237. `findMatchingRegion` may change `redirectAddress` (line 255). -/
def createAlias : Fn where
  vol := [pRegion]
  fresh := [maxSize]
  body :=
    set pRegion ;; set pRedirect ;;
    tryCatch (result pRegion ;; use pRegion ;; use baseAddress ;; use pRegion ;; use redirectAddress ;; use redirectAddress ;;
        call [redirectAddress] ;; set pRedirect ;; use pRedirect ;; use pRegion ;; set maxSize ;; use size ;; use maxSize ;;
        either (use pRegion ;; use maxSize) (use pRegion ;; use size) ;; use pRegion ;; use pRedirect ;; use size ;; call [] ;; use pRegion ;;
        use pRegion ;; use pRegion ;; use pRedirect ;; use pRegion ;; call [])
      (use pRegion ;; throw)

/-- `MemorySim_CreateRegionsFromFlashImage`, libCrashDebug/src/MemorySim.c:278-303. -/
def createRegionsFromFlashImage : Fn where
  vol := []
  fresh := [endRAM, baseRAM]
  body :=
    use size ;; either throw skip ;; call [] ;; call [] ;;
    tryCatch (call [] ;; set endRAM ;; use endRAM ;; set baseRAM ;; use baseRAM ;; use endRAM ;; call []) throw

/-- `CrashDebugCommandLine_Init`, libCrashDebug/src/CrashDebugCommandLine.c:107-128. -/
def commandLineInit : Fn where
  vol := [argc, argv]
  fresh := []
  body :=
    tryCatch (use argc ;; use argv ;; call [] ;; call [] ;; call [] ;; call [] ;; call [] ;; use argc ;; use argv ;; call []) (call [] ;; throw)

/-- `parseAliasOption`, libCrashDebug/src/CrashDebugCommandLine.c:200-223. -/
def parseAliasOption : Fn where
  vol := []
  fresh := [baseAddress, size, redirectAddress]
  body :=
    use argc ;; either throw skip ;;
    either (set baseAddress ;; set size ;; set redirectAddress ;;
      tryCatch (use baseAddress ;; use redirectAddress ;; use size ;; call []) (use baseAddress ;; use redirectAddress ;; use size ;; throw)) skip ;;
    ret

/-- `loadImageFile`, libCrashDebug/src/CrashDebugCommandLine.c:232-255. -/
def loadImageFile : Fn where
  vol := [fileData]
  fresh := []
  body :=
    set fileData ;;
    tryCatch (either (result fileData ;; use fileData ;; call []) (result fileData ;; call [fileData]) ;; use fileData)
      (use fileData ;; throw)

/-- `loadFileData`, libCrashDebug/src/CrashDebugCommandLine.c:257-297. -/
def loadFileData : Fn where
  vol := [pFile, pBuffer, fileSize]
  fresh := [fileData]
  body :=
    set pFile ;; set pBuffer ;; set fileSize ;;
    tryCatch (set bytesRead ;; use pFilename ;; set pFile ;; use pFile ;; either (use pFilename ;; throw) skip ;;
        tryCatch (use pFile ;; result fileSize) (use pFilename ;; throw) ;;
        use fileSize ;; set pBuffer ;; use pBuffer ;; either (use fileSize ;; use pFilename ;; throw) skip ;;
        use pBuffer ;; use fileSize ;; use pFile ;; set bytesRead ;; use bytesRead ;; use fileSize ;; either (use pFilename ;; throw) skip ;;
        use pFile)
      (use pBuffer ;; use pFile ;; either (use pFile) skip ;; throw) ;;
    use pBuffer ;; change fileData ;; use fileSize ;; set fileData ;; use fileData ;; ret

/-- `loadBinFile`, libCrashDebug/src/CrashDebugCommandLine.c:299-311. -/
def loadBinFile : Fn where
  vol := []
  fresh := []
  body := tryCatch (use fileData ;; call [] ;; use fileData ;; call [] ;; call []) throw

/-- All functions with a `__try` but `main` and the two that read dumps. See main/main.c:26, libCrashDebug/src/StandardIComm.c:57,
libCrashDebug/src/CrashCatcherDump.c:198, libCrashDebug/src/GdbLogParser.c:94, libCrashDebug/src/ElfLoad.c:58, 107, 129,
libCrashDebug/src/mriPlatform.c:222-267, 390-519, libCrashDebug/src/MemorySim.c:175-288 and
libCrashDebug/src/CrashDebugCommandLine.c:109-301. -/
def others : List Fn :=
  [hasReceiveData, readNextMemoryRegion, gdbLogParse, initLoadObject, loadFlashLoadableEntries, loadIfFlashLoadableEntry, memRead, memWrite,
   displayHardFault, displayMemOrBusFault, displayUsageFault, createRegion, createAlias, createRegionsFromFlashImage, commandLineInit,
   parseAliasOption, loadImageFile, loadFileData, loadBinFile]

end Verif.Locals
