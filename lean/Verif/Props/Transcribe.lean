import Verif.Props.TryCatch
import Verif.Spec.Transcribe
/-
C67: the way the model writes exceptions agrees with the macros.
-/
namespace Verif.Props
open Verif TryCatch Spec

variable {σ : Type} {env : Nat → Cmd σ} {code : Exc → Int}

theorem transcribes_plain (hc : ∀ k, 0 < code k) {p : Cmd σ} {m : M σ Unit} (h : Transcribes code env p m) : Plain p := by
  induction h with
  | act => exact .act fun _ _ _ => rfl
  | seq _ _ h1 h2 => exact .seq h1 h2
  | ite _ _ h1 h2 => exact .ite (fun _ _ _ => rfl) h1 h2
  | loop _ _ h1 => exact .loop (fun _ _ _ => rfl) h1
  | call => exact .call
  | throw => exact .throw (fun _ _ _ => rfl) fun _ _ => hc _
  | throwMsg => exact .throwMsg (fun _ _ _ => rfl) (fun _ _ => hc _) fun _ _ _ _ => rfl
  | cleanUp _ h1 => exact .tryCatch h1 (.seq .act (.throw fun _ _ _ => Int.le_refl _))
  | explain _ h1 => exact .tryCatch h1 (.tail (.throwMsg fun _ _ _ => Int.le_refl _))

/-- The structured reading of transcribed code is what the model computes. -/
def Agrees (code : Exc → Int) : Effect σ → Out σ Unit → Prop
  | .done u m, o => o = .ok () u ∧ m = []
  | .raised c u m, o => ∃ k, c = code k ∧ o = .throw ⟨k, m⟩ u

theorem transcribes_does {p : Cmd σ} {cur : Int} {u : σ} {t : Str} {e : Effect σ} (hd : Does env p cur u t e) :
    ∀ {m : M σ Unit}, Transcribes code env p m → t = [] → Agrees code e (m u) := by
  induction hd with
  | act => intro m h ht; cases h; exact ⟨rfl, ht⟩
  | seq _ _ ih1 ih2 =>
    intro m h ht
    cases h with
    | seq hp hq =>
      obtain ⟨h1, h2⟩ := ih1 hp ht
      have := ih2 hq h2
      rw [M.bind_apply, h1]
      exact this
  | seqRaised _ ih1 =>
    intro m h ht
    cases h with
    | seq hp hq =>
      obtain ⟨k, h1, h2⟩ := ih1 hp ht
      exact ⟨k, h1, by rw [M.bind_apply, h2]⟩
  | iteTrue hb _ ih =>
    intro m h ht
    cases h with
    | ite hp hq =>
      rw [M.bind_apply]
      simp only [M.get_apply, hb, if_true]
      exact ih hp ht
  | iteFalse hb _ ih =>
    intro m h ht
    cases h with
    | ite hp hq =>
      rw [M.bind_apply]
      simp only [M.get_apply, hb, Bool.false_eq_true, if_false]
      exact ih hq ht
  | loopEnd hb =>
    intro m h ht
    cases h with
    | loop hp hm =>
      refine ⟨?_, ht⟩
      dsimp only at hb
      rw [hm, hb, if_neg (by simp)]
  | loopGo hb _ ih =>
    intro m h ht
    cases h with
    | loop hp hm =>
      dsimp only at hb
      rw [hm, hb, if_pos rfl]
      exact ih (.seq hp (.loop hp hm)) ht
  | call _ ih =>
    intro m h ht
    cases h with
    | call h => exact ih h ht
  | throw =>
    intro m h ht
    cases h with
    | throw => exact ⟨_, rfl, by rw [ht]; rfl⟩
  | throwMsg =>
    intro m h ht
    cases h with
    | throwMsg => exact ⟨_, rfl, rfl⟩
  | clear => intro m h; cases h
  | tryDone _ ih =>
    intro m h ht
    cases h with
    | cleanUp hp =>
      obtain ⟨h1, h2⟩ := ih hp rfl
      exact ⟨by rw [M.tryCatch_apply, h1], h2⟩
    | explain hp =>
      obtain ⟨h1, h2⟩ := ih hp rfl
      exact ⟨by rw [M.tryCatch_apply, h1], h2⟩
  | tryCaught _ hh ih =>
    intro m h ht
    cases h with
    | cleanUp hp =>
      obtain ⟨k, h1, h2⟩ := ih hp rfl
      rw [M.tryCatch_apply, h2]
      cases hh with
      | seq ha hr =>
        cases ha
        cases hr
        exact ⟨k, h1, rfl⟩
      | seqRaised ha => cases ha
    | explain hp =>
      obtain ⟨k, h1, h2⟩ := ih hp rfl
      rw [M.tryCatch_apply, h2]
      cases hh
      exact ⟨k, h1, rfl⟩

/-- C67. Code that uses the macros the way the modelled code does, with any nesting, loops and calls, does what the model's
transcription of it says, wherever it is run with no exception pending: it completes with the same result, or raises the same
exception with the same message and the same state. So the exceptions of the model are the exceptions of the program. -/
theorem C67_model_agrees (hc : ∀ k, 0 < code k) (hi : ∀ k k', code k = code k' → k = k') (he : ∀ n, ∃ a, Transcribes code env (env n) a)
    {p : Cmd σ} {m : M σ Unit} (h : Transcribes code env p m) {s : G σ} (h0 : s.code = 0) (hm : s.msg = []) {r : Res σ}
    (hr : Run env p s r) : Matches code r (m s.user) ∧ ∀ o, Matches code r o → o = m s.user := by
  have hpe : ∀ n, Plain (env n) := fun n => (he n).elim fun _ h => transcribes_plain hc h
  have key : Matches code r (m s.user) := by
    have k := (run_does hpe hr).2.1 (transcribes_plain hc h) h0 0
    cases r with
    | fin s' =>
      obtain ⟨k1, k2⟩ := k
      obtain ⟨h1, h2⟩ := transcribes_does k2 h hm
      rw [h1]
      exact ⟨s', rfl, k1, rfl, h2⟩
    | jump t s' =>
      obtain ⟨k1, k2⟩ := k
      obtain ⟨x, h1, h2⟩ := transcribes_does k2 h hm
      rw [h2]
      exact ⟨s', .inl ⟨t, rfl⟩, h1, rfl, rfl⟩
    | died s' =>
      obtain ⟨k1, k2⟩ := k
      obtain ⟨x, h1, h2⟩ := transcribes_does k2 h hm
      rw [h2]
      exact ⟨s', .inr rfl, h1, rfl, rfl⟩
  refine ⟨key, ?_⟩
  generalize m s.user = o' at key
  intro o ho
  cases o with
  | ok a u =>
    obtain ⟨s1, rfl, g1, rfl, g2⟩ := ho
    cases o' with
    | ok b u' => obtain ⟨s2, e, g3, rfl, g4⟩ := key; cases e; rfl
    | throw e u' => obtain ⟨s2, (⟨t, e⟩ | e), _⟩ := key <;> cases e
    | ub r => exact key.elim
  | throw e u =>
    obtain ⟨s1, g0, g1, rfl, g2⟩ := ho
    cases o' with
    | ok b u' => obtain ⟨s2, rfl, _⟩ := key; obtain (⟨t, e⟩ | e) := g0 <;> cases e
    | throw e' u' =>
      obtain ⟨s2, k0, k1, rfl, k2⟩ := key
      have : s1 = s2 := by
        rcases g0 with ⟨t, rfl⟩ | rfl <;> rcases k0 with ⟨t', e⟩ | e <;> cases e <;> rfl
      subst this
      cases e; cases e'
      cases hi _ _ (g1.symm.trans k1)
      simp only at g2 k2
      rw [← g2, ← k2]
    | ub r => exact key.elim
  | ub r => exact ho.elim

/-- Concrete case: a function raises an exception with a message; the caller counts and rethrows; its caller replaces the message. -/
def reportEnv : Nat → Cmd Nat := fun _ => .throwMsg (fun _ _ => (Exc.file.ctorIdx : Int) + 1) (fun _ _ _ => asc "bad file")

def reportProgram : Cmd Nat :=
  .tryCatch (.tryCatch (.seq (.act fun _ u => u + 1) (.call 0)) (.seq (.act fun _ u => u * 10) .rethrow))
    (.throwMsg (fun c _ => c) fun _ _ u => asc "Failed to load dump: " ++ asc (toString u))

def reportModel : M Nat Unit :=
  M.tryCatch
    (M.tryCatch (do M.modify (· + 1); (do let _ ← M.get; M.throwMsg Exc.file (asc "bad file")))
      fun e => do M.modify (· * 10); M.rethrow e)
    fun e => do M.throwMsg e.code (asc "Failed to load dump: " ++ asc (toString (← M.get)))

example : (∀ k : Exc, 0 < (k.ctorIdx : Int) + 1) ∧ (∀ k k' : Exc, (k.ctorIdx : Int) + 1 = k'.ctorIdx + 1 → k = k') ∧
    (∀ n, ∃ a, Transcribes (fun k => (k.ctorIdx : Int) + 1) reportEnv (reportEnv n) a) ∧
    Transcribes (fun k => (k.ctorIdx : Int) + 1) reportEnv reportProgram reportModel ∧
    ∃ r, Run reportEnv reportProgram { user := 4 } r :=
  ⟨fun k => by omega, fun k k' h => by cases k <;> cases k' <;> first | rfl | (simp [Exc.ctorIdx] at h),
    fun _ => ⟨_, .throwMsg (k := .file) (t := fun _ => asc "bad file")⟩,
    .explain (t := fun u => asc "Failed to load dump: " ++ asc (toString u))
      (.cleanUp (.seq .act (.call (.throwMsg (k := .file) (t := fun _ => asc "bad file"))))),
    _, .tryCaught (.tryCaught (.seq .act (.call .throwMsg)) (.inr rfl) (by decide) (.seq .act .throw)) (.inr rfl) (by decide) .throwMsg⟩

#guard match reportModel 4 with
  | .throw e u => e == ⟨.file, asc "Failed to load dump: 50"⟩ && u == 50
  | _ => false

end Verif.Props
