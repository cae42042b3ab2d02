import Verif.Spec.RunControl
/-
C104: the crashed program cannot be run.
-/
namespace Verif.Props
open Verif Spec Platform

theorem runs_nothing {c : PCall} (h : RunsProgram c = true) (p : Plat) : c.run p = .ok () p := by
  cases c <;> first | rfl | cases h

theorem runs_step {c : PCall} (h : RunsProgram c = true) {p p' : Plat} (hs : PStep c p p') : p' = p := by
  unfold PStep at hs
  rw [runs_nothing h] at hs
  rcases hs with e | ⟨e, he⟩
  · injection e with _ e; exact e.symm
  · cases he

/-- C104. Requests to run the crashed program do nothing: a history with them ends as the history without them. -/
theorem C104_requests_do_nothing {p p' : Plat} {cs : List PCall} : PHist p cs p' ↔ PHist p (cs.filter fun c => !RunsProgram c) p' := by
  constructor
  · intro h
    induction h with
    | nil p => exact .nil p
    | packet b c _ ih => exact .packet b c ih
    | @cons p p1 p2 c cs h t ih =>
      cases e : RunsProgram c with
      | true =>
        have := runs_step e h
        subst this
        simpa [List.filter_cons, e] using ih
      | false =>
        simp only [List.filter_cons, e, Bool.not_false, if_true]
        exact .cons h ih
  · intro h
    generalize hcs : (cs.filter fun c => !RunsProgram c) = ds at h
    induction h generalizing cs with
    | nil p =>
      induction cs with
      | nil => exact .nil p
      | cons c cs ih =>
        rw [List.filter_cons] at hcs
        cases e : RunsProgram c with
        | true => rw [e] at hcs; exact .cons (.inl (runs_nothing e p)) (ih (by simpa using hcs))
        | false => rw [e] at hcs; simp at hcs
    | packet b c _ ih => exact .packet b c (ih hcs)
    | @cons p p1 p2 d ds h t ih =>
      induction cs with
      | nil => cases hcs
      | cons c cs ih' =>
        rw [List.filter_cons] at hcs
        cases e : RunsProgram c with
        | true => rw [e] at hcs; exact .cons (.inl (runs_nothing e p)) (ih' (by simpa using hcs))
        | false =>
          rw [e] at hcs
          simp only [Bool.not_false, if_true, List.cons.injEq] at hcs
          obtain ⟨rfl, hcs⟩ := hcs
          exact .cons h (ih hcs)

/-- C104. Whatever was done before, the program is not being run. -/
theorem C104_halted {p p' : Plat} {cs : List PCall} (_ : PHist p cs p') : Halted p' := ⟨rfl, rfl, rfl, rfl, rfl, rfl, rfl⟩

/-- A history with such requests among others: a step, a new program counter, a breakpoint. -/
example (p : Plat) : ∃ p', PHist p [.setWait true, .enableStep, .setPC 0x100, .setBreak 0x100 2, .init] p' ∧
    PHist p [.setWait true, .init] p' ∧ p'.faults = 0 ∧ p'.wait = true :=
  ⟨_, .cons (.inl rfl) (.cons (.inl rfl) (.cons (.inl rfl) (.cons (.inl rfl) (.cons (.inl rfl) (.nil _))))),
    .cons (.inl rfl) (.cons (.inl rfl) (.nil _)), rfl, rfl⟩

end Verif.Props
