import Verif.Props.Whole
/-
C92: the same input gives the same run.
-/
namespace Verif.Props
open Verif MemSim Spec CommandLine Platform Main

/-- C92. The command line, the files, the failures of files and heap, the packets received and the behaviour of the debug monitor
determine a run: two runs that end, end alike. In particular they return the same value and print the same text. -/
theorem C92_same_input_same_run {w : World} {stop : M Plat Bool} {name : Str} {words : List Str} {p : Prog} {o o' : Out Prog Int}
    (h : Runs w stop name words p o) (h' : Runs w stop name words p o') : o = o' := by
  cases h with
  | startUpRaised e =>
    cases h' with
    | startUpRaised k => rw [e] at k; cases k; rfl
    | startUpBroken k => rw [e] at k; cases k
    | raised k _ => rw [e] at k; cases k
    | broken k _ => rw [e] at k; cases k
    | stale k _ _ => rw [e] at k; cases k
    | done k _ _ => rw [e] at k; cases k
  | startUpBroken e =>
    cases h' with
    | startUpRaised k => rw [e] at k; cases k
    | startUpBroken k => rw [e] at k; cases k; rfl
    | raised k _ => rw [e] at k; cases k
    | broken k _ => rw [e] at k; cases k
    | stale k _ _ => rw [e] at k; cases k
    | done k _ _ => rw [e] at k; cases k
  | raised e l =>
    cases h' with
    | startUpRaised k => rw [e] at k; cases k
    | startUpBroken k => rw [e] at k; cases k
    | raised k l' => rw [e] at k; cases k; cases session_unique l l'; rfl
    | broken k l' => rw [e] at k; cases k; cases session_unique l l'
    | stale k l' _ => rw [e] at k; cases k; cases session_unique l l'
    | done k l' _ => rw [e] at k; cases k; cases session_unique l l'
  | broken e l =>
    cases h' with
    | startUpRaised k => rw [e] at k; cases k
    | startUpBroken k => rw [e] at k; cases k
    | raised k l' => rw [e] at k; cases k; cases session_unique l l'
    | broken k l' => rw [e] at k; cases k; cases session_unique l l'; rfl
    | stale k l' _ => rw [e] at k; cases k; cases session_unique l l'
    | done k l' _ => rw [e] at k; cases k; cases session_unique l l'
  | stale e l c =>
    cases h' with
    | startUpRaised k => rw [e] at k; cases k
    | startUpBroken k => rw [e] at k; cases k
    | raised k l' => rw [e] at k; cases k; cases session_unique l l'
    | broken k l' => rw [e] at k; cases k; cases session_unique l l'
    | stale k l' c' => rw [e] at k; cases k; cases session_unique l l'; rw [c] at c'; cases c'; rfl
    | done k l' c' => rw [e] at k; cases k; cases session_unique l l'; rw [c] at c'; cases c'
  | done e l c =>
    cases h' with
    | startUpRaised k => rw [e] at k; cases k
    | startUpBroken k => rw [e] at k; cases k
    | raised k l' => rw [e] at k; cases k; cases session_unique l l'
    | broken k l' => rw [e] at k; cases k; cases session_unique l l'
    | stale k l' c' => rw [e] at k; cases k; cases session_unique l l'; rw [c] at c'; cases c'
    | done k l' c' => rw [e] at k; cases k; cases session_unique l l'; rfl

/-- A run that ends: GDB reads through an alias until its input is exhausted. -/
example : ∃ v q, Runs (peeking 0x50) standardStop [] argsAlias progExample (.ok v q) ∧
    ∀ o, Runs (peeking 0x50) standardStop [] argsAlias progExample o → o = .ok v q := by
  obtain ⟨p1, e, pl, h1, -, h3, -⟩ := peeks_iff (a := 0x50) (o := startUp argsAlias progExample) (by decide +kernel)
  obtain ⟨q, h4, -⟩ := handler_spec (peeking 0x50) (seen (peeking 0x50) pl.code e.code) (back p1 pl)
  have h : Runs (peeking 0x50) standardStop [] argsAlias progExample (.ok (-1) q) := by
    rw [← h4]; exact .raised (by rw [runs_init]; exact h1) h3
  exact ⟨-1, q, h, fun o ho => C92_same_input_same_run ho h⟩

end Verif.Props
