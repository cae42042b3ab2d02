import Verif.Model.Base
/-
Model of include/try_catch.h and libcommon/src/try_catch.c: the `__try`/`__catch`/`__throw` macros with their three global
variables, for every program that can be written with them. (The rest of the model uses `M.tryCatch`, the structured
reading of the macros; `Props/TryCatch.lean` shows for which programs the two agree.)
-/
namespace Verif.TryCatch
open Verif

/-- The global variables of libcommon/src/try_catch.c:16-18 and the rest of the program's state. `handlers` is the list
that starts at `g_pExceptionHandlers`, each entry standing for the `jmp_buf` of one activation of `__try`; `fresh` names
the next such activation. `code` is `g_exceptionCode`, `msg` is `g_exceptionMessage`. -/
structure G (σ : Type) where
  handlers : List Nat := []
  fresh : Nat := 0
  code : Int := 0
  msg : Str := []
  user : σ

/-- Programs. Ordinary statements and conditions may look at `getExceptionCode()` (the `Int` argument). Functions are
called by number. See include/try_catch.h:64-105. -/
inductive Cmd (σ : Type)
  | act (f : Int → σ → σ)
  | seq (p q : Cmd σ)
  | ite (c : Int → σ → Bool) (p q : Cmd σ)
  | loop (c : Int → σ → Bool) (p : Cmd σ)
  | call (f : Nat)
  | throw (k : Int → σ → Int)
  | throwMsg (k : Int → σ → Int) (m : Int → Str → σ → Str)
  | clear
  | tryCatch (body handler : Cmd σ)

/-- `__rethrow`, include/try_catch.h:105. -/
def Cmd.rethrow : Cmd σ := .throw fun c _ => c

/-- How running a program ends: it falls off its end, it does `longjmp` to the activation of `__try` with the given name, or
it stops the process because there is no handler (include/try_catch.h:87-91). -/
inductive Res (σ : Type)
  | fin (s : G σ)
  | jump (to : Nat) (s : G σ)
  | died (s : G σ)

/-- `setExceptionCode`, include/try_catch.h:124-127. -/
def setCode (k : Int) (s : G σ) : G σ := { s with code := if k > s.code then k else s.code }

/-- `__throw`, include/try_catch.h:84-97. -/
def doThrow (k : Int) (s : G σ) : Res σ :=
  match (setCode k s).handlers with
  | [] => .died (setCode k s)
  | t :: _ => .jump t (setCode k s)

/-- What `__try` does before its body, include/try_catch.h:64-76. -/
def enter (s : G σ) : G σ := { s with handlers := s.fresh :: s.handlers, fresh := s.fresh + 1, code := 0, msg := [] }

/-- What `__catch` does after the body, include/try_catch.h:78-82: `exceptionHandler.pPrevious` was saved at the entry `s`. -/
def leave (s s1 : G σ) : G σ := { s1 with handlers := s.handlers }

/-- Control arrives at the `__catch` of the activation `t` of `__try`: off the end of the body, or by a `longjmp` to it. See
include/try_catch.h:64-82. -/
def Arrives (t : Nat) (r : Res σ) (s1 : G σ) : Prop := r = .fin s1 ∨ r = .jump t s1

/-- `Run env p s r`: running `p` in state `s` ends as `r`, where `env` gives the bodies of the functions. The message buffer
has 1024 bytes (`__throw_msg`, include/try_catch.h:99-103). -/
inductive Run (env : Nat → Cmd σ) : Cmd σ → G σ → Res σ → Prop
  | act : Run env (.act f) s (.fin { s with user := f s.code s.user })
  | seq : Run env p s (.fin s1) → Run env q s1 r → Run env (.seq p q) s r
  | seqJump : Run env p s (.jump t s1) → Run env (.seq p q) s (.jump t s1)
  | seqDied : Run env p s (.died s1) → Run env (.seq p q) s (.died s1)
  | iteTrue : c s.code s.user = true → Run env p s r → Run env (.ite c p q) s r
  | iteFalse : c s.code s.user = false → Run env q s r → Run env (.ite c p q) s r
  | loopEnd : c s.code s.user = false → Run env (.loop c p) s (.fin s)
  | loopGo : c s.code s.user = true → Run env (.seq p (.loop c p)) s r → Run env (.loop c p) s r
  | call : Run env (env f) s r → Run env (.call f) s r
  | throw : Run env (.throw k) s (doThrow (k s.code s.user) s)
  | throwMsg : Run env (.throwMsg k m) s
      (doThrow (k s.code s.user) { s with msg := (m s.code s.msg s.user).take 1023 })
  | clear : Run env .clear s (.fin { s with code := 0 })
  | tryDone : Run env b (enter s) r1 → Arrives s.fresh r1 s1 → s1.code = 0 →
      Run env (.tryCatch b h) s (.fin (leave s s1))
  | tryCaught : Run env b (enter s) r1 → Arrives s.fresh r1 s1 → s1.code ≠ 0 → Run env h (leave s s1) r →
      Run env (.tryCatch b h) s r
  | tryPast : Run env b (enter s) (.jump t s1) → t ≠ s.fresh → Run env (.tryCatch b h) s (.jump t s1)
  | tryDied : Run env b (enter s) (.died s1) → Run env (.tryCatch b h) s (.died s1)

/-- `Platform_MemRead32/16/8` and `Platform_MemWrite32/16/8`, libCrashDebug/src/mriPlatform.c:219-271, as far as the macros
are concerned: the access raises the exception `fault u` (no exception if that is 0) or has its effect `good`; the handler
only counts. -/
def platformAccess (fault : σ → Int) (good count : σ → σ) : Cmd σ :=
  .tryCatch (.ite (fun _ u => decide (0 < fault u)) (.throw fun _ u => fault u) (.act fun _ => good)) (.act fun _ => count)

end Verif.TryCatch
