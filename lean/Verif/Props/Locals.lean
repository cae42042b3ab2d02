import Verif.Lemmas.Locals
/-
C119: variables after an error has been caught.
-/
namespace Verif.Props
open Verif.Locals Var

/-- C119, for all functions but three: none of them ever looks at a variable whose value is open, because of a caught error or because it
has not been initialised, and none returns out of a `__try`. What they call may raise an exception at any time, loops may go on for any
number of rounds and conditions may have any outcome.

Missing: `main` and the two functions that read dumps. For these the property does not hold, see `C119_main_witness` and
`C119_dump_witness`. -/
theorem C119_no_open_variable_partial : ∀ f ∈ others, ∀ r, Run f.vol f.body f.entry r → r ≠ .bad := by
  have h : ∀ f ∈ others, (check f.vol f.body ⟨[], f.fresh⟩).isSome = true := by decide +kernel
  exact fun f hf r hr => fine (h f hf) hr

/-- C119, for these three: one `volatile` is missing in each, and no more. -/
theorem C119_one_volatile : (∀ r, Run (commandLine :: main.vol) main.body main.entry r → r ≠ .bad) ∧
    ∀ r, Run (object :: readDump.vol) readDump.body readDump.entry r → r ≠ .bad :=
  ⟨fun _ hr => fine (f := { main with vol := commandLine :: main.vol }) (by decide +kernel) hr,
   fun _ hr => fine (f := { readDump with vol := object :: readDump.vol }) (by decide +kernel) hr⟩

theorem resEnded {r : Res} (h : r = .bad ∨ (∃ s, r = .jump s) ∨ r = .ret) : ∀ s, r ≠ .fin s := by
  rintro s rfl
  simp at h

/-- A call that changes nothing, and returns. -/
theorem callReturns {vol xs : List Var} {s : St} : Run vol (.call xs) s (.fin ⟨fun y => False ∨ s.changed y, s.unknown⟩) := .call fun _ h => h.elim
/-- A call that changes nothing, and raises an exception; statements after it are left out. -/
theorem callRaises {vol xs : List Var} {b : Stmt} {s : St} : Run vol (.seq (.call xs) b) s (.jump ⟨fun y => False ∨ s.changed y, s.unknown⟩) :=
  .seqEnd (.callJump fun _ h => h.elim) (resEnded (.inr (.inl ⟨_, rfl⟩)))
theorem looksOpen {vol : List Var} {b : Stmt} {s : St} {x : Var} (h : s.unknown x) : Run vol (.seq (.use x) b) s .bad :=
  .seqEnd (.useBad h) (resEnded (.inl rfl))

/-- C119 does not hold for `main`: if start-up fails, `main` looks at `commandLine` although its value is open. -/
theorem C119_main_witness : Run main.vol main.body main.entry .bad :=
  .seq .set (.seq .set (.seq (.tryCaught (.seq .set callRaises) .set) (.seq (.use (by simp [main])) (looksOpen (by simp [main])))))

/-- Nor for the functions that read dumps: if the dump cannot be opened, or anything is wrong with it, they look at `object` although its
value is open. -/
theorem C119_dump_witness : Run readDump.vol readDump.body readDump.entry .bad :=
  .tryCaught (.seq .set callRaises) (looksOpen (by simp [readDump]))

/-- An error in a log: `GdbLogParse` closes the file and passes the error on. -/
example : ∃ s, Run gdbLogParse.vol gdbLogParse.body gdbLogParse.entry (.jump s) :=
  ⟨_, .seq .set (.tryCaught (.seq (.seq callReturns .set) callRaises) (.seq (.use (by simp [gdbLogParse, Fn.entry]))
    (.seq (.left (.use (by simp [gdbLogParse, Fn.entry]))) .throw)))⟩

/-- These `volatile`s are needed: without them the functions would look at variables whose values are open. -/
theorem C119_volatile_needed : Run [] gdbLogParse.body gdbLogParse.entry .bad ∧ Run [] createRegion.body createRegion.entry .bad ∧
    Run [] loadImageFile.body loadImageFile.entry .bad ∧ Run [pFile, fileSize] loadFileData.body loadFileData.entry .bad ∧
    Run [pBuffer, fileSize] loadFileData.body loadFileData.entry .bad ∧ Run [returnValue, commandLine] main.body main.entry .bad := by
  refine ⟨?_, ?_, ?_, ?_, ?_, ?_⟩
  · exact .seq .set (.tryCaught (.seq (.seq callReturns .set) callRaises) (looksOpen (by simp)))
  · refine .seq .set (.tryCaught (.seq (.seq callReturns .set) (.seq (.use ?_) (.seq (.use ?_) (.seq (.use ?_) (.seq (.use ?_) (.seq (.use ?_) callRaises))))))
      (looksOpen (by simp))) <;> simp [createRegion, Fn.entry]
  · exact .seq .set (.tryCaught (.seqEnd (.left (.seq (.seq callReturns .set) (.seq (.use (by simp))
      (.callJump (c := fun _ => False) fun _ h => h.elim)))) (resEnded (.inr (.inl ⟨_, rfl⟩)))) (looksOpen (by simp)))
  · refine .seq .set (.seq .set (.seq .set (.seqEnd (.tryCaught (.seq .set (.seq (.use ?_) (.seq .set (.seq (.use ?_) (.seq (.right .skip)
      (.seq (.tryDone (.seq (.use ?_) (.seq callReturns .set))) (.seq (.use ?_) (.seq .set (.seq (.use ?_)
        (.seqEnd (.left (.seq (.use ?_) (.seq (.use ?_) .throw))) (resEnded (.inr (.inl ⟨_, rfl⟩))))))))))))) (looksOpen ?_)) (resEnded (.inl rfl))))) <;>
      simp [loadFileData, Fn.entry]
  · refine .seq .set (.seq .set (.seq .set (.seqEnd (.tryCaught (.seq .set (.seq (.use ?_) (.seq .set (.seq (.use ?_) (.seqEnd
      (.left (.seq (.use ?_) .throw)) (resEnded (.inr (.inl ⟨_, rfl⟩)))))))) (.seq (.use ?_) (looksOpen ?_))) (resEnded (.inl rfl))))) <;>
      simp [loadFileData, Fn.entry]
  · exact .seq .set (.seq .set (.seq (.tryCaught (.seq .set (.seq callReturns (.seq (.seq callReturns .set) (.seq (.use (by simp)) callRaises)))) .set)
      (looksOpen (by simp))))

end Verif.Props
