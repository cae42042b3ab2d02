import Verif.Lemmas.TryCatch
/-
C64, C67, C68: the exception macros. `Run` is what the macros do (global code, message and handler list); `Does` is what
exceptions should mean.
-/
namespace Verif.Props
open Verif TryCatch Spec

variable {σ : Type} {env : Nat → Cmd σ}

/-! ### C67 -/

/-- C67, handlers nest: whatever a program does and however deep its calls are, the handler list afterwards is the one
before; an exception that leaves it goes to the innermost handler active when it was started; the process is only stopped
when no handler is active. -/
theorem C67_handlers_nest {p : Cmd σ} {s : G σ} {r : Res σ} (h : Run env p s r) :
    (∀ s', r = .fin s' → s'.handlers = s.handlers) ∧
    (∀ t s', r = .jump t s' → s.handlers.head? = some t ∧ s'.handlers = s.handlers) ∧
    (∀ s', r = .died s' → s.handlers = []) := by
  have k := run_stack h
  refine ⟨?_, ?_, ?_⟩
  · rintro s' rfl; exact k
  · rintro t s' rfl; exact ⟨k.2, k.1⟩
  · rintro s' rfl; exact k.2

/-- C67, the block's own handler runs: if the body of a try block raises, at any depth, then what the block does is what
its handler does, started with the exception's code and message and with the handler list as it was before the block. -/
theorem C67_own_handler_runs {b h : Cmd σ} {s s1 : G σ} {t : Nat} (hb : Run env b (enter s) (.jump t s1))
    (hc : s1.code ≠ 0) :
    ∃ s2, s2.code = s1.code ∧ s2.msg = s1.msg ∧ s2.user = s1.user ∧ s2.handlers = s.handlers ∧
      ∀ r, Run env (.tryCatch b h) s r ↔ Run env h s2 r :=
  ⟨leave s s1, rfl, rfl, rfl, rfl, fun r => try_iff hb (body_jump hb) hc r⟩

/-- C67, rethrow: the next outer handler gets the same code and message. -/
theorem C67_rethrow {b h : Cmd σ} {s s1 : G σ} {t : Nat} (hb : Run env b (enter (enter s)) (.jump t s1))
    (hc : 0 < s1.code) :
    ∃ s2, s2.code = s1.code ∧ s2.msg = s1.msg ∧ s2.user = s1.user ∧ s2.handlers = s.handlers ∧
      ∀ r, Run env (.tryCatch (.tryCatch b .rethrow) h) s r ↔ Run env h s2 r := by
  have inner : Run env (.tryCatch b .rethrow) (enter s) (.jump s.fresh (leave (enter s) s1)) := by
    refine (try_iff hb (body_jump hb) (by omega) _).2 ?_
    have k : Run env Cmd.rethrow (leave (enter s) s1) _ := .throw
    have e : setCode s1.code (leave (enter s) s1) = leave (enter s) s1 := by
      show { leave (enter s) s1 with code := if s1.code > s1.code then s1.code else s1.code } = leave (enter s) s1
      rw [ite_self]
      rfl
    have e2 : doThrow s1.code (leave (enter s) s1) = .jump s.fresh (leave (enter s) s1) := by
      unfold doThrow
      rw [e]
      rfl
    exact e2 ▸ k
  exact ⟨leave s (leave (enter s) s1), rfl, rfl, rfl, rfl, fun r => try_iff inner (.inr rfl) (by show s1.code ≠ 0; omega) r⟩

/-- C67, as a whole: for programs that use the macros as intended (`Plain`), with any nesting of blocks, loops and calls,
what the macros do is exactly the structured reading. -/
theorem C67_structured (he : ∀ n, Plain (env n)) {p : Cmd σ} (hp : Plain p) {s : G σ} (h0 : s.code = 0) (e : Effect σ) :
    Does env p 0 s.user s.msg e ↔ ∃ r, Run env p s r ∧ Shows e r := by
  constructor
  · intro h
    exact (does_run he h).2.1 hp s h0 rfl rfl
  · rintro ⟨r, hr, hs⟩
    have m := (run_does he hr).2.1 hp h0 0
    cases e with
    | done u t =>
      obtain ⟨s', rfl, _, rfl, rfl⟩ := hs
      exact m.2
    | raised c u t =>
      obtain ⟨_, s', (⟨t, rfl⟩ | rfl), rfl, rfl, rfl⟩ := hs
      · exact m.2
      · exact m.2

/-- Concrete case for C67: a function that raises 9 with a message, called in a block whose handler counts and rethrows,
inside a block whose handler clears the code. -/
def demoEnv : Nat → Cmd Nat := fun _ => .throwMsg (fun _ _ => 9) (fun _ _ _ => asc "bad file")

def demoProgram : Cmd Nat :=
  .tryCatch (.tryCatch (.seq (.act fun _ u => u + 1) (.call 0)) (.seq (.act fun _ u => u * 10) .rethrow))
    (.seq (.act fun c u => u + c.toNat) .clear)

example : (∀ n, Plain (demoEnv n)) ∧ Plain demoProgram ∧ Does demoEnv demoProgram 0 4 [] (.done 59 (asc "bad file")) :=
  ⟨fun _ => .throwMsg (fun _ _ _ => rfl) (fun _ _ => by decide) (fun _ _ _ _ => rfl),
    .tryCatch (.tryCatch (.seq (.act fun _ _ _ => rfl) .call) (.seq .act (.throw fun _ _ _ => Int.le_refl _)))
      (.seq .act .clear),
    .tryCaught (.tryCaught (.seq .act (.call .throwMsg)) (.seq .act .throw)) (.seq .act .clear)⟩

example : ∃ s1, Run demoEnv (.call 0) (enter (enter (σ := Nat) { user := 4 })) (.jump 1 s1) ∧ 0 < s1.code ∧ s1.code = 9 :=
  ⟨_, .call .throwMsg, by decide, rfl⟩

/-! ### C68 -/

/-- What C68 comes to: an exception `k` raised inside the handler of an exception arrives at the outer handler with the
larger of the two codes. -/
theorem C68_larger_code {b h : Cmd σ} {s s1 : G σ} {t : Nat} {k : Int} (hb : Run env b (enter (enter s)) (.jump t s1))
    (hc : 0 < s1.code) :
    ∃ s2, s2.code = max k s1.code ∧ ∀ r, Run env (.tryCatch (.tryCatch b (.throw fun _ _ => k)) h) s r ↔ Run env h s2 r := by
  have inner : Run env (.tryCatch b (.throw fun _ _ => k)) (enter s) (.jump s.fresh (setCode k (leave (enter s) s1))) := by
    refine (try_iff hb (body_jump hb) (by omega) _).2 ?_
    have k' : Run env (.throw fun _ _ => k) (leave (enter s) s1) _ := .throw
    exact k'
  have e : (setCode k (leave (enter s) s1)).code = max k s1.code := by
    show (if k > s1.code then k else s1.code) = _
    split <;> omega
  exact ⟨leave s (setCode k (leave (enter s) s1)), e, fun r => try_iff inner (.inr rfl) (by rw [e]; omega) r⟩

/-- C68, the part that holds: if the new code is not below the one being handled, the outer handler sees the new code.
Missing: smaller codes, for which the claim is false (`C68_smaller_code_witness`). -/
theorem C68_own_code_partial {b h : Cmd σ} {s s1 : G σ} {t : Nat} {k : Int} (hb : Run env b (enter (enter s)) (.jump t s1))
    (hc : 0 < s1.code) (hk : s1.code ≤ k) :
    ∃ s2, s2.code = k ∧ ∀ r, Run env (.tryCatch (.tryCatch b (.throw fun _ _ => k)) h) s r ↔ Run env h s2 r := by
  obtain ⟨s2, e, h2⟩ := C68_larger_code (h := h) (k := k) hb hc
  exact ⟨s2, by rw [e]; omega, h2⟩

/-- C68 fails for every smaller code: the outer handler sees the old exception. -/
theorem C68_smaller_code_witness {b h : Cmd σ} {s s1 : G σ} {t : Nat} {k : Int}
    (hb : Run env b (enter (enter s)) (.jump t s1)) (hk : 0 < k) (hlt : k < s1.code) :
    ∃ s2, s2.code = s1.code ∧ s2.code ≠ k ∧
      ∀ r, Run env (.tryCatch (.tryCatch b (.throw fun _ _ => k)) h) s r ↔ Run env h s2 r := by
  obtain ⟨s2, e, h2⟩ := C68_larger_code (h := h) (k := k) hb (by omega)
  exact ⟨s2, by rw [e]; omega, by rw [e]; omega, h2⟩

example : ∃ s1, Run demoEnv (.call 0) (enter (enter (σ := Nat) { user := 4 })) (.jump 1 s1) ∧ (0 : Int) < 5 ∧ 5 < s1.code :=
  ⟨_, .call .throwMsg, by decide, by decide⟩

/-! ### C64 -/

/-- The run of one platform access. -/
theorem access_run (fault : σ → Int) (good count : σ → σ) (s : G σ) :
    ∃ s', Run env (platformAccess fault good count) s (.fin s') ∧ s'.handlers = s.handlers ∧
      s'.code = (if 0 < fault s.user then fault s.user else 0) ∧
      s'.user = (if 0 < fault s.user then count s.user else good s.user) := by
  by_cases hf : 0 < fault s.user
  · have b : Run env (.ite (fun _ u => decide (0 < fault u)) (.throw fun _ u => fault u) (.act fun _ => good)) (enter s)
        (doThrow (fault s.user) (enter s)) := .iteTrue (decide_eq_true hf) .throw
    have e : (setCode (fault s.user) (enter s)).code = fault s.user := by
      show (if fault s.user > 0 then fault s.user else 0) = _
      rw [if_pos hf]
    refine ⟨_, .tryCaught b (.inr rfl) (by rw [e]; omega) .act, rfl, ?_, ?_⟩
    · rw [if_pos hf]; exact e
    · rw [if_pos hf]; rfl
  · refine ⟨_, .tryDone (.iteFalse (decide_eq_false hf) .act) (.inl rfl) rfl, rfl, ?_, ?_⟩
    · rw [if_neg hf]; rfl
    · rw [if_neg hf]; rfl

/-- C64, the part that holds: if the last platform access of the block succeeds, nothing is left of any fault swallowed
before it in the block `p`: the block's handler does not run. Missing: the last access may be the one that faults, and then
the claim is false (`C64_swallowed_fault_witness`). -/
theorem C64_forgotten_after_good_access_partial {p h : Cmd σ} {s s1 : G σ} {fault : σ → Int} {good count : σ → σ}
    (hp : Run env p (enter s) (.fin s1)) (hf : fault s1.user ≤ 0) :
    ∃ s2, s2.code = 0 ∧ s2.user = good s1.user ∧
      ∀ r, Run env (.tryCatch (.seq p (platformAccess fault good count)) h) s r ↔ r = .fin s2 := by
  obtain ⟨s', hr, _, hc, hu⟩ := access_run (env := env) fault good count s1
  rw [if_neg (by omega)] at hc hu
  exact ⟨leave s s', hc, hu, fun r => try_done_iff (.seq hp hr) (.inl rfl) hc r⟩

/-- C64 fails: whenever the last access of a block faults, the fault is swallowed, the block completes normally, and yet its
handler runs with the code of the swallowed fault. -/
theorem C64_swallowed_fault_witness {p h : Cmd σ} {s s1 : G σ} {fault : σ → Int} {good count : σ → σ}
    (hp : Run env p (enter s) (.fin s1)) (hf : 0 < fault s1.user) :
    (∃ s', Run env (.seq p (platformAccess fault good count)) (enter s) (.fin s')) ∧
    ∃ s2, s2.code = fault s1.user ∧ s2.user = count s1.user ∧
      ∀ r, Run env (.tryCatch (.seq p (platformAccess fault good count)) h) s r ↔ Run env h s2 r := by
  obtain ⟨s', hr, _, hc, hu⟩ := access_run (env := env) fault good count s1
  rw [if_pos hf] at hc hu
  exact ⟨⟨_, .seq hp hr⟩, leave s s', hc, hu, fun r => try_iff (.seq hp hr) (.inl rfl) (by rw [hc]; omega) r⟩

/-- C64, second half: an exception `k` raised in a block after a swallowed fault arrives with the larger of the two codes. -/
theorem C64_later_exception {p h : Cmd σ} {s s1 : G σ} {fault : σ → Int} {good count : σ → σ} {k : Int}
    (hp : Run env p (enter s) (.fin s1)) (hf : 0 < fault s1.user) :
    ∃ s2, s2.code = max k (fault s1.user) ∧
      ∀ r, Run env (.tryCatch (.seq p (.seq (platformAccess fault good count) (.throw fun _ _ => k))) h) s r ↔
        Run env h s2 r := by
  obtain ⟨s', hr, hh, hc, hu⟩ := access_run (env := env) fault good count s1
  rw [if_pos hf] at hc
  have hs1 : s1.handlers = s.fresh :: s.handlers := (C67_handlers_nest hp).1 s1 rfl
  have e : (setCode k s').code = max k (fault s1.user) := by
    show (if k > s'.code then k else s'.code) = _
    rw [hc]
    split <;> omega
  have t : Run env (.throw fun _ _ => k) s' (.jump s.fresh (setCode k s')) := by
    have t' : Run env (.throw fun _ _ => k) s' _ := .throw
    have e2 : doThrow k s' = .jump s.fresh (setCode k s') := by
      unfold doThrow
      have : (setCode k s').handlers = s.fresh :: s.handlers := hh.trans hs1
      rw [this]
    exact e2 ▸ t'
  exact ⟨leave s (setCode k s'), e, fun r => try_iff (.seq hp (.seq hr t)) (.inr rfl) (by rw [e]; omega) r⟩

/-- C64 fails for later exceptions with a smaller code: they are reported as the swallowed fault. With the codes of
include/try_catch.h:23-38 this happens to an out-of-memory exception (`mriMaxException + 3`) after a bus error
(`mriMaxException + 4`). -/
theorem C64_masked_exception_witness {env : Nat → Cmd Nat} (mriMaxException : Int) (hm : 0 ≤ mriMaxException) (h : Cmd Nat) :
    ∃ s2 : G Nat, s2.code = mriMaxException + 4 ∧
      ∀ r, Run env (.tryCatch (.seq (.act fun _ u => u)
          (.seq (platformAccess (fun _ => mriMaxException + 4) id (· + 1)) (.throw fun _ _ => mriMaxException + 3))) h)
          { user := 0 } r ↔ Run env h s2 r := by
  obtain ⟨s2, e, k⟩ := C64_later_exception (env := env) (p := .act fun _ u => u) (s := { user := 0 }) (h := h)
    (fault := fun _ => mriMaxException + 4) (good := id) (count := (· + 1)) (k := mriMaxException + 3) .act (by show 0 < _; omega)
  exact ⟨s2, by rw [e]; omega, k⟩

example : ∃ s1, Run demoEnv (platformAccess (fun _ => 7) id (· + 1)) (enter (σ := Nat) { user := 0 }) (.fin s1) ∧ s1.user = 1 :=
  let ⟨s', h, _, _, hu⟩ := access_run (env := demoEnv) (fun _ => 7) id (· + 1) (enter (σ := Nat) { user := 0 })
  ⟨s', h, hu⟩

end Verif.Props
