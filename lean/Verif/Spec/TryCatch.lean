import Verif.Model.TryCatch
/-
What exceptions should mean: the structured reading, with no global exception code and no handler list. `Does` says what a
program does when `raise` goes to the innermost enclosing handler and a handler runs exactly when its block raised.
-/
namespace Verif.Spec
open Verif TryCatch

/-- A program completes, or raises an exception with a code. Either way it leaves a state and a message text. -/
inductive Effect (σ : Type)
  | done (u : σ) (m : Str)
  | raised (code : Int) (u : σ) (m : Str)

/-- `Does env p cur u m e`: in state `u`, with message text `m`, `p` has the effect `e`. Inside a handler `cur` is the code
of the exception being handled. Entering a try block empties the message text. -/
inductive Does (env : Nat → Cmd σ) : Cmd σ → Int → σ → Str → Effect σ → Prop
  | act : Does env (.act f) cur u m (.done (f cur u) m)
  | seq : Does env p cur u m (.done u1 m1) → Does env q cur u1 m1 e → Does env (.seq p q) cur u m e
  | seqRaised : Does env p cur u m (.raised c u1 m1) → Does env (.seq p q) cur u m (.raised c u1 m1)
  | iteTrue : b cur u = true → Does env p cur u m e → Does env (.ite b p q) cur u m e
  | iteFalse : b cur u = false → Does env q cur u m e → Does env (.ite b p q) cur u m e
  | loopEnd : b cur u = false → Does env (.loop b p) cur u m (.done u m)
  | loopGo : b cur u = true → Does env (.seq p (.loop b p)) cur u m e → Does env (.loop b p) cur u m e
  | call : Does env (env f) cur u m e → Does env (.call f) cur u m e
  | throw : Does env (.throw k) cur u m (.raised (k cur u) u m)
  | throwMsg : Does env (.throwMsg k t) cur u m (.raised (k cur u) u ((t cur m u).take 1023))
  | clear : Does env .clear cur u m (.done u m)
  | tryDone : Does env b 0 u [] (.done u1 m1) → Does env (.tryCatch b h) cur u m (.done u1 m1)
  | tryCaught : Does env b 0 u [] (.raised c u1 m1) → Does env h c u1 m1 e → Does env (.tryCatch b h) cur u m e

/-- Does not look at the exception code. -/
def Blind (f : Int → σ → α) : Prop := ∀ c c' u, f c u = f c' u

/-- Ordinary statements only: nothing is raised, caught or cleared. -/
inductive Quiet : Cmd σ → Prop
  | act : Quiet (.act f)
  | seq : Quiet p → Quiet q → Quiet (.seq p q)
  | ite : Quiet p → Quiet q → Quiet (.ite c p q)
  | loop : Quiet p → Quiet (.loop c p)

mutual
/-- Programs that use the macros as intended. The exception code is only looked at in handlers; what is thrown is not
`noException`; every handler ends by raising again or by clearing the code (`Tail`). -/
inductive Plain : Cmd σ → Prop
  | act : Blind f → Plain (.act f)
  | seq : Plain p → Plain q → Plain (.seq p q)
  | ite : Blind c → Plain p → Plain q → Plain (.ite c p q)
  | loop : Blind c → Plain p → Plain (.loop c p)
  | call : Plain (.call f)
  | throw : Blind k → (∀ c u, 0 < k c u) → Plain (.throw k)
  | throwMsg : Blind k → (∀ c u, 0 < k c u) → (∀ c c' t u, m c t u = m c' t u) → Plain (.throwMsg k m)
  | clear : Plain .clear
  | tryCatch : Plain b → Handles h → Plain (.tryCatch b h)
/-- Handlers: some ordinary statements, then one of the proper endings; the ending may be chosen by a condition. -/
inductive Handles : Cmd σ → Prop
  | seq : Quiet q → Tail t → Handles (.seq q t)
  | tail : Tail t → Handles t
  | ite : Handles p → Handles q → Handles (.ite c p q)
/-- The proper endings of a handler: raise an exception whose code is not below the one being handled (in particular
`__rethrow`), or clear the code and carry on. -/
inductive Tail : Cmd σ → Prop
  | throw : (∀ c u, 0 < c → c ≤ k c u) → Tail (.throw k)
  | throwMsg : (∀ c u, 0 < c → c ≤ k c u) → Tail (.throwMsg k m)
  | clear : Tail .clear
  | clearThen : Plain p → Tail (.seq .clear p)
end

/-- A run of the real macros ended the way the structured reading says: normally with no exception pending, or on its way to a
handler (or out of the program, if there is none) with the exception's code, state and message. -/
def Shows : Effect σ → Res σ → Prop
  | .done u m, r => ∃ s', r = .fin s' ∧ s'.code = 0 ∧ s'.user = u ∧ s'.msg = m
  | .raised c u m, r => 0 < c ∧ ∃ s', ((∃ t, r = .jump t s') ∨ r = .died s') ∧ s'.code = c ∧ s'.user = u ∧ s'.msg = m

end Verif.Spec
