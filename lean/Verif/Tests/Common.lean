import Verif.Tests.Harness
import Verif.Model.CommandLine
import Verif.Model.TryCatch
/-
libcommon/tests in the model: GetFileSizeTest.cpp and try_catchTest.cpp, in the order of the files.
-/
namespace Verif.Tests.Common
open Verif

/-! ### GetFileSizeTest.cpp -/

/- `FailFSeek_ShouldThrow`. -/
#guard passes [throws getFileSize .file] { file := { File.of [] with seekEndFails := true } }
/- `FailFTell_ShouldThrow`. -/
#guard passes [throws getFileSize .file] { file := { File.of [] with tell := -1 } }
/- `FailSecondFSeek_ShouldThrow`. -/
#guard passes [throws getFileSize .file] { file := { File.of [] with seekSetFails := true } }
/- `RunSuccessfullyOnZeroLengthFile`. -/
#guard passes [gives getFileSize 0] { file := File.of [] }
/- `RunSuccessfullyOn5ByteFile`. -/
#guard passes [gives getFileSize 5] { file := File.of (asc "12345") }

/-! ### try_catchTest.cpp -/

open Verif.TryCatch

/-- `Run` as a function: `n` bounds the depth of calls, loops and nesting. -/
def eval (env : Nat → Cmd σ) : Nat → Cmd σ → G σ → Option (Res σ)
  | 0, _, _ => none
  | n + 1, p, s =>
    match p with
    | .act f => some (.fin { s with user := f s.code s.user })
    | .seq p q =>
      match eval env n p s with
      | some (.fin s1) => eval env n q s1
      | r => r
    | .ite c p q => if c s.code s.user then eval env n p s else eval env n q s
    | .loop c p => if c s.code s.user then eval env n (.seq p (.loop c p)) s else some (.fin s)
    | .call f => eval env n (env f) s
    | .throw k => some (doThrow (k s.code s.user) s)
    | .throwMsg k m => some (doThrow (k s.code s.user) { s with msg := (m s.code s.msg s.user).take 1023 })
    | .clear => some (.fin { s with code := 0 })
    | .tryCatch b h =>
      let arrives := fun s1 => if s1.code = 0 then some (.fin (leave s s1)) else eval env n h (leave s s1)
      match eval env n b (enter s) with
      | some (.fin s1) => arrives s1
      | some (.jump t s1) => if t = s.fresh then arrives s1 else some (.jump t s1)
      | r => r

/-- What the function says is what the relation says. -/
theorem eval_run (env : Nat → Cmd σ) (n : Nat) (p : Cmd σ) (s : G σ) (r : Res σ) (h : eval env n p s = some r) :
    Run env p s r := by
  induction n generalizing p s r with
  | zero => simp [eval] at h
  | succ n ih =>
    cases p with
    | act f => simp only [eval, Option.some.injEq] at h; subst h; exact .act
    | seq p q =>
      simp only [eval] at h
      cases hp : eval env n p s with
      | none => simp [hp] at h
      | some r1 =>
        cases r1 with
        | fin s1 => simp only [hp] at h; exact .seq (ih _ _ _ hp) (ih _ _ _ h)
        | jump t s1 => simp only [hp, Option.some.injEq] at h; subst h; exact .seqJump (ih _ _ _ hp)
        | died s1 => simp only [hp, Option.some.injEq] at h; subst h; exact .seqDied (ih _ _ _ hp)
    | ite c p q =>
      simp only [eval] at h
      by_cases hc : c s.code s.user = true
      · rw [if_pos hc] at h; exact .iteTrue hc (ih _ _ _ h)
      · rw [if_neg hc] at h; exact .iteFalse (by simpa using hc) (ih _ _ _ h)
    | loop c p =>
      simp only [eval] at h
      by_cases hc : c s.code s.user = true
      · rw [if_pos hc] at h; exact .loopGo hc (ih _ _ _ h)
      · rw [if_neg hc, Option.some.injEq] at h; subst h; exact .loopEnd (by simpa using hc)
    | call f => simp only [eval] at h; exact .call (ih _ _ _ h)
    | throw k => simp only [eval, Option.some.injEq] at h; subst h; exact .throw
    | throwMsg k m => simp only [eval, Option.some.injEq] at h; subst h; exact .throwMsg
    | clear => simp only [eval, Option.some.injEq] at h; subst h; exact .clear
    | tryCatch b hd =>
      have arr : ∀ r1 s1, eval env n b (enter s) = some r1 → Arrives s.fresh r1 s1 →
          (if s1.code = 0 then some (Res.fin (leave s s1)) else eval env n hd (leave s s1)) = some r →
          Run env (.tryCatch b hd) s r := by
        intro r1 s1 hb ha hr
        by_cases hc : s1.code = 0
        · rw [if_pos hc, Option.some.injEq] at hr; subst hr; exact .tryDone (ih _ _ _ hb) ha hc
        · rw [if_neg hc] at hr; exact .tryCaught (ih _ _ _ hb) ha hc (ih _ _ _ hr)
      simp only [eval] at h
      cases hb : eval env n b (enter s) with
      | none => simp [hb] at h
      | some r1 =>
        cases r1 with
        | fin s1 => simp only [hb] at h; exact arr _ _ hb (.inl rfl) h
        | jump t s1 =>
          simp only [hb] at h
          by_cases ht : t = s.fresh
          · rw [if_pos ht] at h; subst ht; exact arr _ _ hb (.inr rfl) h
          · rw [if_neg ht, Option.some.injEq] at h; subst h; exact .tryPast (ih _ _ _ hb) ht
        | died s1 => simp only [hb, Option.some.injEq] at h; subst h; exact .tryDied (ih _ _ _ hb)

/-- include/try_catch.h:23-24, `mriMaxException` being some number of mri's. -/
def undefinedException : Int := 100 + 1
def unpredictableException : Int := 100 + 2

/-- `m_exceptionThrown` and the local `value` of some tests. -/
structure Vars where
  thrown : Bool := false
  value : Int := -2

abbrev P := Cmd Vars

def flagExceptionHit : P := .act fun _ v => { v with thrown := true }
def throwNoException : P := .act fun _ v => v
def throwUndefinedException : P := .throw fun _ _ => undefinedException
def throwUnpredictableException : P := .throw fun _ _ => unpredictableException
def throwUndefinedAndUnpredictableExceptions : P := .tryCatch throwUndefinedException throwUnpredictableException
def throwUnpredictableAndUndefinedExceptions : P := .tryCatch throwUnpredictableException throwUndefinedException
def rethrowUndefinedException : P := .seq (.tryCatch throwUndefinedException .rethrow) throwUnpredictableException
def setValue : P := .act fun _ v => { v with value := 0 }
def throwMsg (t : String) : P := .throwMsg (fun _ _ => undefinedException) (fun _ _ _ => asc t)

/-- Run `p`; then `validateException(code)`, the message and `value` are as expected, and no handler is left. -/
def ends (p : P) (code : Int) (msg : String := "") : Bool :=
  match eval (fun _ => .clear) 50 p { user := {} } with
  | some (.fin s) => s.code = code && s.user.thrown = (code ≠ 0) && s.user.value = -2 && s.msg = asc msg &&
      s.handlers.isEmpty
  | _ => false

/- `NoException`. -/
#guard ends (.tryCatch throwNoException flagExceptionHit) 0
/- `undefinedException`. -/
#guard ends (.tryCatch throwUndefinedException flagExceptionHit) undefinedException
/- `EscalatingExceptions`. -/
#guard ends (.tryCatch throwUndefinedAndUnpredictableExceptions flagExceptionHit) unpredictableException
/- `NonEscalatingExceptions`. -/
#guard ends (.tryCatch throwUnpredictableAndUndefinedExceptions flagExceptionHit) unpredictableException
/- `CatchFirstThrow`. -/
#guard ends (.tryCatch (.seq throwUndefinedException throwUnpredictableException) flagExceptionHit) undefinedException
/- `CatchSecondThrow`. -/
#guard ends (.tryCatch (.seq throwNoException throwUnpredictableException) flagExceptionHit) unpredictableException
/- `ThrowAndSkipAssignment`. -/
#guard ends (.tryCatch (.seq throwUndefinedException setValue) flagExceptionHit) undefinedException
/- `RethrowUndefinedException`. -/
#guard ends (.tryCatch rethrowUndefinedException flagExceptionHit) undefinedException
/- `RethrowUndefinedExceptionAndSkipAssignment`. -/
#guard ends (.tryCatch (.seq rethrowUndefinedException setValue) flagExceptionHit) undefinedException
/- `throwWithSimpleMessage`. -/
#guard ends (.tryCatch (throwMsg "throw message") flagExceptionHit) undefinedException "throw message"
/- `throwWithFormattedMessage`. -/
#guard ends (.tryCatch (throwMsg ("throw message #" ++ toString (1 : Nat))) flagExceptionHit) undefinedException
  "throw message #1"
/- `throwWithLongestMessage`. -/
#guard ends (.tryCatch (throwMsg (String.ofList (List.replicate 1023 '_'))) flagExceptionHit) undefinedException
  (String.ofList (List.replicate 1023 '_'))
/- `throwWithTooLongMessageShoudTruncate`. -/
#guard ends (.tryCatch (throwMsg (String.ofList (List.replicate 1024 '_'))) flagExceptionHit) undefinedException
  (String.ofList (List.replicate 1023 '_'))
/- `subsequentTryClearsExceptionMessage`. -/
#guard ends (.seq (.tryCatch (throwMsg "throw message") flagExceptionHit)
  (.seq (.act fun _ v => { v with thrown := false }) (.tryCatch throwNoException flagExceptionHit))) 0

end Verif.Tests.Common
