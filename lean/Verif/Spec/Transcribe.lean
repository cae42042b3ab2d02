import Verif.Spec.TryCatch
/-
How C functions that use the `__try`/`__catch`/`__throw` macros are written down in this model, where an exception is an outcome
(`Out.throw`) and not a jump with global variables.
-/
namespace Verif.Spec
open Verif TryCatch

/-- `Transcribes code env p m`: the C code `p` is written as `m` in the model. `code` gives the number of each exception. These are
the uses of the macros in the modelled code: a handler cleans up and rethrows, or raises the exception again with another message.
(The handlers of mriPlatform.c are not like this; there the model has the global variable.) -/
inductive Transcribes (code : Exc → Int) (env : Nat → Cmd σ) : Cmd σ → M σ Unit → Prop
  | act {f : σ → σ} : Transcribes code env (.act fun _ => f) (M.modify f)
  | seq {p q : Cmd σ} {a b : M σ Unit} (hp : Transcribes code env p a) (hq : Transcribes code env q b) :
      Transcribes code env (.seq p q) (do a; b)
  | ite {c : σ → Bool} {p q : Cmd σ} {a b : M σ Unit} (hp : Transcribes code env p a) (hq : Transcribes code env q b) :
      Transcribes code env (.ite (fun _ => c) p q) (do if c (← M.get) then a else b)
  | loop {c : σ → Bool} {p : Cmd σ} {a m : M σ Unit} (hp : Transcribes code env p a)
      (hm : ∀ s, m s = if c s then (do a; m) s else .ok () s) : Transcribes code env (.loop (fun _ => c) p) m
  | call {f : Nat} {a : M σ Unit} (h : Transcribes code env (env f) a) : Transcribes code env (.call f) a
  | throw {k : Exc} : Transcribes code env (.throw fun _ _ => code k) (M.throw k)
  | throwMsg {k : Exc} {t : σ → Str} :
      Transcribes code env (.throwMsg (fun _ _ => code k) fun _ _ => t) (do M.throwMsg k (t (← M.get)))
  | cleanUp {p : Cmd σ} {a : M σ Unit} {f : σ → σ} (hp : Transcribes code env p a) :
      Transcribes code env (.tryCatch p (.seq (.act fun _ => f) .rethrow)) (M.tryCatch a fun e => do M.modify f; M.rethrow e)
  | explain {p : Cmd σ} {a : M σ Unit} {t : σ → Str} (hp : Transcribes code env p a) :
      Transcribes code env (.tryCatch p (.throwMsg (fun c _ => c) fun _ _ => t))
        (M.tryCatch a fun e => do M.throwMsg e.code (t (← M.get)))

/-- The C code ended as the model says: normally, or on its way to the innermost handler (out of the program, if there is none)
with the exception's number and message in the global variables. -/
def Matches (code : Exc → Int) (r : Res σ) : Out σ Unit → Prop
  | .ok _ u => ∃ s', r = .fin s' ∧ s'.code = 0 ∧ s'.user = u ∧ s'.msg = []
  | .throw e u => ∃ s', ((∃ t, r = .jump t s') ∨ r = .died s') ∧ s'.code = code e.code ∧ s'.user = u ∧ s'.msg = e.msg
  | .ub _ => False

end Verif.Spec
