import Verif.Spec.Main
import Verif.Props.CommandLine
/-
The whole program: C66, C69.
-/
namespace Verif.Props
open Verif Platform CommandLine Main Spec MemSim

theorem runLoop_unique {stop : M Plat Bool} {dbg : M Plat Unit} {p : Plat} {o o' : Out Plat Unit} (h : RunLoop stop dbg p o)
    (h' : RunLoop stop dbg p o') : o = o' := by
  induction h with
  | raised h => cases h' <;> simp_all
  | broken h => cases h' <;> simp_all
  | stopRaised h h2 => cases h' <;> simp_all
  | stopBroken h h2 => cases h' <;> simp_all
  | stop h h2 => cases h' <;> simp_all
  | again h h2 h3 ih =>
    cases h' with
    | again k k2 k3 =>
      rw [h] at k; cases k
      rw [h2] at k2; cases k2
      exact ih k3
    | raised k => rw [h] at k; cases k
    | broken k => rw [h] at k; cases k
    | stopRaised k k2 => rw [h] at k; cases k; rw [h2] at k2; cases k2
    | stopBroken k k2 => rw [h] at k; cases k; rw [h2] at k2; cases k2
    | stop k k2 => rw [h] at k; cases k; rw [h2] at k2; cases k2

theorem session_unique {w : World} {stop : M Plat Bool} {p : Prog} {o o' : Out Plat Unit} (h : Session w stop p o)
    (h' : Session w stop p o') : o = o' := by
  cases h with
  | raised h => cases h' <;> simp_all
  | broken h => cases h' <;> simp_all
  | run h h2 =>
    cases h' with
    | raised k => rw [h] at k; cases k
    | broken k => rw [h] at k; cases k
    | run k k2 => rw [h] at k; cases k; exact runLoop_unique h2 k2

theorem uninit_spec (p : Prog) : ∃ q, CommandLine.uninit p = .ok () q ∧ q.err = p.err ∧ Released q := by
  by_cases h : p.memory = true
  · refine ⟨{ p with host := { p.host with mem := { p.host.mem with
        regions := []
        xml := none
        heap := { p.host.mem.heap with
          live := p.host.mem.heap.live - blocksOf p.host.mem.regions - (if p.host.mem.xml.isSome then 1 else 0) } } } }, ?_, rfl, fun _ => ⟨rfl, rfl⟩⟩
    simp [CommandLine.uninit, uninitMemory, h, onHost, Host.onMem, MemSim.uninit]
  · refine ⟨p, by simp [CommandLine.uninit, uninitMemory, h], rfl, fun h' => absurd h' h⟩

theorem handler_spec (w : World) (c : Exc) (p : Prog) : ∃ q, Main.handler w c p = .ok (-1) q ∧ q.err = p.err ++ complaint w c ∧ Released q := by
  unfold Main.handler complaint
  by_cases h : c = .file ∨ c = .elfFormat ∨ c = .invalidArgument
  · have he : explained c = true := by rcases h with rfl | rfl | rfl <;> rfl
    obtain ⟨q, h1, h2, h3⟩ := uninit_spec p
    refine ⟨q, ?_, by rw [h2, he]; simp, h3⟩
    simp only [if_pos h, M.bind_apply, M.pure_apply, h1]
  · have he : explained c = false := by
      cases c <;> simp [explained] at h ⊢
    obtain ⟨q, h1, h2, h3⟩ := uninit_spec { p with err := p.err ++ (asc "Encountered unexpected error: " ++ asc (toString (w.number c)) ++ asc "\n") }
    refine ⟨q, ?_, by rw [h2, he]; simp, h3⟩
    simp only [if_neg h, print, M.bind_apply, M.modify_apply, M.pure_apply, h1]

/-! ### C66 -/

theorem runs_init {name : Str} {words : List Str} {p : Prog} :
    CommandLine.init (((name :: words).length : Int) - 1) ((name :: words).drop 1) p = startUp words p := by
  simp [startUp]

/-- C66. When start-up fails the program returns -1; it complains unless start-up has already explained the error. -/
theorem C66_start_up_fails {w : World} {stop : M Plat Bool} {name : Str} {words : List Str} {p p1 : Prog} {e : Exn} {o : Out Prog Int}
    (h : startUp words p = .throw e p1) (hr : Runs w stop name words p o) :
    ∃ q, o = .ok (-1) q ∧ q.err = p1.err ++ complaint w e.code ∧ Released q := by
  cases hr with
  | startUpRaised k =>
    rw [runs_init, h] at k; cases k
    exact handler_spec ..
  | startUpBroken k => rw [runs_init, h] at k; cases k
  | raised k _ => rw [runs_init, h] at k; cases k
  | broken k _ => rw [runs_init, h] at k; cases k
  | stale k _ _ => rw [runs_init, h] at k; cases k
  | done k _ _ => rw [runs_init, h] at k; cases k

/-- C66. When the session raises an exception the program returns -1 and complains, unless it is one of the three explained
kinds. (The code it sees is that of the exception if no earlier one is pending; see C64 and C68.) -/
theorem C66_session_fails {w : World} {stop : M Plat Bool} {name : Str} {words : List Str} {p p1 : Prog} {e : Exn} {p2 : Plat} {o : Out Prog Int}
    (h : startUp words p = .ok () p1) (hs : Session w stop p1 (.throw e p2)) (hr : Runs w stop name words p o) :
    ∃ q c, o = .ok (-1) q ∧ q.err = p1.err ++ complaint w c ∧ Released q ∧ (p2.code = none → c = e.code) := by
  cases hr with
  | startUpRaised k => rw [runs_init, h] at k; cases k
  | startUpBroken k => rw [runs_init, h] at k; cases k
  | raised k k2 =>
    rw [runs_init, h] at k; cases k
    cases session_unique hs k2
    obtain ⟨q, h1, h2, h3⟩ := handler_spec w (seen w p2.code e.code) (back p1 p2)
    exact ⟨q, _, h1, h2, h3, fun hn => by rw [hn]; rfl⟩
  | broken k k2 => rw [runs_init, h] at k; cases k; cases session_unique hs k2
  | stale k k2 _ => rw [runs_init, h] at k; cases k; cases session_unique hs k2
  | done k k2 _ => rw [runs_init, h] at k; cases k; cases session_unique hs k2

/-- C66. When start-up and the session complete, the program returns 0 without a word, provided that no error the debugger
swallowed is still pending. -/
theorem C66_success {w : World} {stop : M Plat Bool} {name : Str} {words : List Str} {p p1 : Prog} {p2 : Plat} {o : Out Prog Int}
    (h : startUp words p = .ok () p1) (hs : Session w stop p1 (.ok () p2)) (hc : p2.code = none) (hr : Runs w stop name words p o) :
    ∃ q, o = .ok 0 q ∧ q.err = p1.err ∧ Released q := by
  cases hr with
  | startUpRaised k => rw [runs_init, h] at k; cases k
  | startUpBroken k => rw [runs_init, h] at k; cases k
  | raised k k2 => rw [runs_init, h] at k; cases k; cases session_unique hs k2
  | broken k k2 => rw [runs_init, h] at k; cases k; cases session_unique hs k2
  | stale k k2 k3 =>
    rw [runs_init, h] at k; cases k
    cases session_unique hs k2
    rw [hc] at k3; cases k3
  | done k k2 k3 =>
    rw [runs_init, h] at k; cases k
    cases session_unique hs k2
    obtain ⟨q, h1, h2, h3⟩ := uninit_spec (back p1 p2)
    exact ⟨q, by rw [M.bind_ok h1, M.pure_apply], h2, h3⟩

/-- C66. The program returns nothing but 0 and -1, and 0 only if start-up and the session completed without an exception. It
never leaves an exception unhandled. -/
theorem C66_exit_code {w : World} {stop : M Plat Bool} {name : Str} {words : List Str} {p : Prog} {o : Out Prog Int}
    (hr : Runs w stop name words p o) :
    (∃ r, o = .ub r) ∨ (∃ q, o = .ok (-1) q) ∨
      ∃ q p1 p2, o = .ok 0 q ∧ startUp words p = .ok () p1 ∧ Session w stop p1 (.ok () p2) := by
  cases hr with
  | startUpRaised k => obtain ⟨q, h, -⟩ := handler_spec w _ _; exact .inr (.inl ⟨q, h⟩)
  | startUpBroken k => exact .inl ⟨_, rfl⟩
  | raised k k2 => obtain ⟨q, h, -⟩ := handler_spec w _ _; exact .inr (.inl ⟨q, h⟩)
  | broken k k2 => exact .inl ⟨_, rfl⟩
  | stale k k2 k3 => obtain ⟨q, h, -⟩ := handler_spec w _ _; exact .inr (.inl ⟨q, h⟩)
  | done k k2 k3 =>
    rw [runs_init] at k
    obtain ⟨q, h1, -⟩ := uninit_spec _
    exact .inr (.inr ⟨q, _, _, by rw [M.bind_ok h1, M.pure_apply], k, k2⟩)

/-- C66. A start-up that succeeds prints nothing: what is on stderr after a run comes from what failed. -/
theorem C66_silent_start_up {words : List Str} {p q : Prog} (h : startUp words p = .ok () q) : q.err = p.err := by
  obtain ⟨os, n, d, f, s1, s2, -, -, -, -, -, -, k, -⟩ := startUp_ok h
  have h1 := congrArg Prog.err k.rest
  exact h1

/-- A world in which mri reads one character after the other. -/
def reading : World where
  mriInit := pure ()
  debugException := do let _ ← commReceiveChar
  comm := { poll := fun _ => some true, input := fun n => if n < 2 then .byte 0x24 else .error, fails := fun _ => false }
  buf := { data := [], pos := 0 }
  number := fun _ => 12

/-- Its session: two characters arrive, then standard input fails. -/
theorem reading_session (p : Prog) : ∃ q, Session reading standardStop p (.throw ⟨.file, []⟩ q) ∧ q.code = none :=
  ⟨_, .run rfl (.again rfl rfl (.again rfl rfl (.raised rfl))), rfl⟩

/-- Start-up succeeds, the session fails. -/
example : ∃ p1 q o, startUp argsElf progExample = .ok () p1 ∧ Session reading standardStop p1 (.throw ⟨.file, []⟩ q) ∧
    Runs reading standardStop [] argsElf progExample o := by
  obtain ⟨p1, h, -⟩ := startElf
  obtain ⟨q, hs, -⟩ := reading_session p1
  exact ⟨p1, q, _, h, hs, .raised (by rw [runs_init]; exact h) hs⟩

/-- Start-up fails. -/
example : ∃ e p1 o, startUp argsElf progNoDump = .throw e p1 ∧ Runs reading standardStop [] argsElf progNoDump o := by
  obtain ⟨e, p1, h, -⟩ := progNoDump_fails
  exact ⟨e, p1, _, h, .startUpRaised (by rw [runs_init]; exact h)⟩

/-- With a channel that says when to stop (that of the unit tests, say) the session can complete. -/
example : ∃ p1 q o, startUp argsElf progExample = .ok () p1 ∧ Session reading (pure true) p1 (.ok () q) ∧ q.code = none ∧
    Runs reading (pure true) [] argsElf progExample o := by
  obtain ⟨p1, h, -⟩ := startElf
  have hs : Session reading (pure true) p1 (.ok () _) := .run rfl (.stop rfl rfl)
  exact ⟨p1, _, _, h, hs, rfl, .done (by rw [runs_init]; exact h) hs rfl⟩

/-! ### C69 -/

/-- C69 is false of the code: with the channel the program uses the session never completes, whatever the debug monitor does
and whatever standard input delivers. -/
theorem C69_never_completes_witness (w : World) (p : Prog) (q : Plat) : ¬ Session w standardStop p (.ok () q) := by
  have key : ∀ {dbg p o}, RunLoop standardStop dbg p o → ∀ q, o ≠ .ok () q := by
    intro dbg p o h
    induction h with
    | raised h => intro q h; cases h
    | broken h => intro q h; cases h
    | stopRaised h h2 => intro q h; cases h
    | stopBroken h h2 => intro q h; cases h
    | stop h h2 => cases h2
    | again h h2 h3 ih => exact ih
  intro h
  cases h with
  | run h h2 => exact key h2 q rfl

/-- C69. The end of the input does not show as an error either: receiving a character yields 0, again and again. -/
theorem C69_end_of_input_witness (c : Comm.Comm) (h : ∀ n ≥ c.reads, c.input n = .eof) :
    ∃ c', Comm.receiveChar c = .ok 0 c' ∧ c'.connected = true ∧ ∀ n ≥ c'.reads, c'.input n = .eof := by
  refine ⟨_, by simp [Comm.receiveChar, Comm.readStdIn, h c.reads (Nat.le_refl _)]; rfl, rfl, ?_⟩
  intro n hn
  exact h n (by simp at hn; omega)

/-- C69. So a debug monitor that just receives characters runs for ever once the pipe is closed: no outcome is possible. -/
theorem C69_runs_for_ever_witness (w : World) (hi : w.mriInit = pure ()) (hd : w.debugException = do let _ ← commReceiveChar)
    (h : ∀ n ≥ w.comm.reads, w.comm.input n = .eof) (p : Prog) (o : Out Plat Unit) : ¬ Session w standardStop p o := by
  have step : ∀ p : Plat, (∀ n ≥ p.comm.reads, p.comm.input n = .eof) →
      w.debugException p = .ok () { p with comm := { p.comm with connected := true, reads := p.comm.reads + 1 } } := by
    intro p he
    simp [hd, commReceiveChar, onComm, Comm.receiveChar, Comm.readStdIn, he p.comm.reads (Nat.le_refl _)]
  have key : ∀ {p o}, RunLoop standardStop w.debugException p o → ¬ ∀ n ≥ p.comm.reads, p.comm.input n = .eof := by
    intro p o h
    induction h with
    | raised h => intro he; rw [step _ he] at h; cases h
    | broken h => intro he; rw [step _ he] at h; cases h
    | stopRaised h h2 => cases h2
    | stopBroken h h2 => cases h2
    | stop h h2 => cases h2
    | again h h2 h3 ih =>
      intro he
      rw [step _ he] at h
      cases h
      cases h2
      exact ih fun n hn => he n (Nat.le_of_succ_le hn)
  intro hs
  have hp : prepare w (platform w p) = .ok () { platform w p with comm := { w.comm with connected := false } } := by
    simp [prepare, hi, onComm, Comm.init, Platform.init, platform]
  cases hs with
  | raised k => rw [hp] at k; cases k
  | broken k => rw [hp] at k; cases k
  | run k k2 =>
    rw [hp] at k; cases k
    exact key k2 h

/-- Such a world. -/
example : ∃ w : World, w.mriInit = pure () ∧ w.debugException = (do let _ ← commReceiveChar) ∧ ∀ n ≥ w.comm.reads, w.comm.input n = .eof :=
  ⟨{ reading with comm := { reading.comm with input := fun _ => .eof } }, rfl, rfl, fun _ _ => rfl⟩

/-- C69, the part that holds: a session in which an exception reaches the loop (for example the one raised when reading
standard input fails) ends with that exception. What is missing: it does not end when standard input reaches its end, as the
witnesses show. -/
theorem C69_read_error_partial {stop : M Plat Bool} {dbg : M Plat Unit} {p p1 : Plat} {e : Exn} (h : dbg p = .throw e p1) (o : Out Plat Unit) :
    RunLoop stop dbg p o ↔ o = .throw e p1 :=
  ⟨fun h' => runLoop_unique h' (.raised h), fun h' => h' ▸ .raised h⟩

/-- Reading fails. -/
example : ∃ p p1, reading.debugException p = .throw ⟨.file, []⟩ p1 :=
  ⟨{ platform reading progExample with comm := { reading.comm with reads := 2 } }, _, rfl⟩

end Verif.Props
