import Verif.Lemmas.Whole
import Verif.Props.Session
/-
C82, C83: a whole run of the program, with a debug monitor that works by platform calls.
-/
namespace Verif.Props
open Verif MemSim Spec CommandLine Platform Main

/-! ### The loop -/

theorem by_ends {m : M Plat α} (hm : ByPlatform m) {p q : Plat} (hf : p.faults + 1 < 2 ^ 31) (h : Ends (m p) q) :
    q.faults + 1 < 2 ^ 31 ∧ owed q.mem = owed p.mem ∧ (OK p → OK q ∧ q.mem.regions.length = p.mem.regions.length) := by
  rcases hm p hf with ⟨cs, q', h1, h2, h3⟩ | ⟨cs, q', c, r, h1, h2, h3, h4⟩
  · have : q = q' := by
      rcases h with ⟨a, h⟩ | ⟨e, h⟩ <;> rw [h] at h2
      · exact (ends_ok h2).symm
      · exact (ends_throw h2).symm
    subst this
    exact ⟨h3, Platform.hist_owed h1, fun hp => ⟨hist_ok hp h1, skeleton_length (hist_skeleton hp h1)⟩⟩
  · rw [h4] at h; exact (ends_ub h).elim

theorem by_defined {m : M Plat α} (hm : ByPlatform m) {p : Plat} (hf : p.faults + 1 < 2 ^ 31) (hp : OK p)
    (hn : p.mem.regions.length ≤ 19522578) (r : UB) : m p ≠ .ub r := by
  intro h
  rcases hm p hf with ⟨cs, q', h1, h2, h3⟩ | ⟨cs, q', c, r', h1, h2, h3, h4⟩
  · rw [h] at h2; exact (ends_ub h2).elim
  · have := call_safe (c := c) (hist_ok hp h1) (by rw [skeleton_length (hist_skeleton hp h1)]; exact hn) h2
    rw [h3] at this
    exact this

theorem stop_eq (p : Plat) : standardStop p = .ok false p := rfl

theorem loop_ends {dbg : M Plat Unit} (hd : ByPlatform dbg) {p : Plat} {o : Out Plat Unit} (h : RunLoop standardStop dbg p o)
    (hf : p.faults + 1 < 2 ^ 31) {q : Plat} (hq : Ends o q) : owed q.mem = owed p.mem := by
  induction h with
  | raised h =>
    cases ends_throw hq
    exact (by_ends hd hf (.inr ⟨_, h⟩)).2.1
  | broken h => exact (ends_ub hq).elim
  | stopRaised h h2 => rw [stop_eq] at h2; cases h2
  | stopBroken h h2 => rw [stop_eq] at h2; cases h2
  | stop h h2 => rw [stop_eq] at h2; cases h2
  | again h h2 _ ih =>
    rw [stop_eq] at h2
    cases h2
    obtain ⟨k1, k2, -⟩ := by_ends hd hf (.inl ⟨_, h⟩)
    rw [ih k1 hq, k2]

theorem loop_defined {dbg : M Plat Unit} (hd : ByPlatform dbg) {p : Plat} {o : Out Plat Unit} (h : RunLoop standardStop dbg p o)
    (hf : p.faults + 1 < 2 ^ 31) (hp : OK p) (hn : p.mem.regions.length ≤ 19522578) (r : UB) : o ≠ .ub r := by
  induction h with
  | raised h => intro h; cases h
  | broken h => exact (by_defined hd hf hp hn _ h).elim
  | stopRaised h h2 => rw [stop_eq] at h2; cases h2
  | stopBroken h h2 => rw [stop_eq] at h2; cases h2
  | stop h h2 => rw [stop_eq] at h2; cases h2
  | again h h2 _ ih =>
    rw [stop_eq] at h2
    cases h2
    obtain ⟨k1, -, k2⟩ := by_ends hd hf (.inl ⟨_, h⟩)
    exact ih k1 (k2 hp).1 (by rw [(k2 hp).2]; exact hn)

/-- What the session starts with, before mri's initialisation. -/
def atStart (w : World) (p : Prog) : Plat := { platform w p with comm := { w.comm with connected := false } }

theorem prepare_eq (w : World) (p : Prog) : prepare w (platform w p) = w.mriInit (atStart w p) := by
  simp [prepare, onComm, Comm.init, Platform.init, atStart, platform]

theorem atStart_faults (w : World) (p : Prog) : (atStart w p).faults + 1 < 2 ^ 31 := by
  show 0 + 1 < 2 ^ 31
  decide

theorem session_ends {w : World} {p : Prog} {o : Out Plat Unit} (hi : ByPlatform w.mriInit) (hd : ByPlatform w.debugException)
    (h : Session w standardStop p o) {q : Plat} (hq : Ends o q) : owed q.mem = owed p.host.mem := by
  have h0 := atStart_faults w p
  cases h with
  | raised h =>
    rw [prepare_eq] at h
    cases ends_throw hq
    exact (by_ends hi h0 (.inr ⟨_, h⟩)).2.1
  | broken h => exact (ends_ub hq).elim
  | run h h2 =>
    rw [prepare_eq] at h
    obtain ⟨k1, k2, -⟩ := by_ends hi h0 (.inl ⟨_, h⟩)
    rw [loop_ends hd h2 k1 hq, k2]
    rfl

theorem session_defined {w : World} {p : Prog} {o : Out Plat Unit} (hi : ByPlatform w.mriInit) (hd : ByPlatform w.debugException)
    (h : Session w standardStop p o) (hp : OK (platform w p)) (hn : p.host.mem.regions.length ≤ 19522578) (r : UB) : o ≠ .ub r := by
  have h0 := atStart_faults w p
  have hp' : OK (atStart w p) := ⟨hp.1, hp.2, hp.3⟩
  cases h with
  | raised h => intro h; cases h
  | broken h => rw [prepare_eq] at h; exact (by_defined hi h0 hp' hn _ h).elim
  | run h h2 =>
    rw [prepare_eq] at h
    obtain ⟨k1, -, k2⟩ := by_ends hi h0 (.inl ⟨_, h⟩)
    exact loop_defined hd h2 k1 (k2 hp').1 (by rw [(k2 hp').2]; exact hn) r

/-! ### C82 -/

/-- Every run with a defined start-up and aliases that lead into loaded memory is defined. -/
theorem runs_defined {w : World} {name : Str} {words : List Str} {p : Prog} {o : Out Prog Int}
    (hi : ByPlatform w.mriInit) (hd : ByPlatform w.debugException) (he : ∀ r, startUp words p ≠ .ub r)
    (ha : ∀ os q, Spelled words os → startUp words p = .ok () q → AliasesLoaded (aliases os) q.host.mem)
    (hn : ∀ q, startUp words p = .ok () q → q.host.mem.regions.length ≤ 19522578)
    (hr : Runs w standardStop name words p o) : ∃ v q, o = .ok v q ∧ (v = 0 ∨ v = -1) := by
  rcases C66_exit_code hr with ⟨r, h⟩ | ⟨q, h⟩ | ⟨q, -, -, h, -⟩
  · exfalso
    subst h
    cases hr' : startUp words p with
    | ub r' =>
      exact he r' hr'
    | throw e q => obtain ⟨q', h, -⟩ := C66_start_up_fails hr' hr; cases h
    | ok u p1 =>
      obtain ⟨os, n, d, f, s1, s2, hs, -⟩ := startUp_ok hr'
      obtain ⟨h1, h2, -, h4⟩ := started hs hr' (ha os p1 hs hr')
      have hok : OK (platform w p1) := ⟨h1, h2, h4⟩
      generalize ho : (Out.ub r : Out Prog Int) = o at hr
      cases hr with
      | startUpRaised k => obtain ⟨q, h, -⟩ := handler_spec w _ _; rw [h] at ho; cases ho
      | startUpBroken k => rw [runs_init, hr'] at k; cases k
      | raised k k2 => obtain ⟨q, h, -⟩ := handler_spec w _ _; rw [h] at ho; cases ho
      | broken k k2 =>
        rw [runs_init, hr'] at k; cases k
        exact session_defined hi hd k2 hok (hn p1 hr') _ rfl
      | stale k k2 k3 => obtain ⟨q, h, -⟩ := handler_spec w _ _; rw [h] at ho; cases ho
      | done k k2 k3 => obtain ⟨q, h, -⟩ := uninit_spec _; rw [M.bind_ok h] at ho; cases ho
  · exact ⟨_, q, h, .inr rfl⟩
  · exact ⟨_, q, h, .inl rfl⟩

/-- C82, for a debug monitor that works by platform calls, ELF files in which nothing wraps around, aliases that lead into memory of
the image or the dump, and up to 19 522 578 blocks of memory: every run of the program that ends returns a value, whatever
the words on the command line, the files, the packets and the failures of input, output and the heap. Missing: ELF files
with wraparound and chained aliases, for which the claim is false, see the witnesses. -/
theorem C82_program_defined_partial {w : World} {name : Str} {words : List Str} {p : Prog} {o : Out Prog Int}
    (hi : ByPlatform w.mriInit) (hd : ByPlatform w.debugException)
    (he : ∀ os file, Spelled words os → lastElf os = some file → NoWraps (nextContents p.host file))
    (ha : ∀ os q, Spelled words os → startUp words p = .ok () q → AliasesLoaded (aliases os) q.host.mem)
    (hn : ∀ q, startUp words p = .ok () q → q.host.mem.regions.length ≤ 19522578)
    (hr : Runs w standardStop name words p o) : ∃ v q, o = .ok v q ∧ (v = 0 ∨ v = -1) := by
  refine runs_defined hi hd (fun r hr' => ?_) ha hn hr
  rcases C71_defined_partial words p he with ⟨u, q, h⟩ | ⟨e, q, h, -⟩ <;> rw [hr'] at h <;> cases h

/-- C82 is false of the code for an ELF file with wraparound: the program reads outside of the file's contents, whatever the
debug monitor does. -/
theorem C82_wraparound_witness (w : World) (name : Str) : Runs w standardStop name argsElf progWrap (.ub .outOfBounds) :=
  .startUpBroken (by rw [runs_init]; exact C71_wraparound_witness)

/-- A debug monitor that reads the memory at this address, once for each character. -/
def peeking (a : U32) : World where
  mriInit := pure ()
  debugException := do
    let _ ← commReceiveChar
    let (v, n) ← askedRead .w32 a
    commSendChar (if n = 0 then (v.setWidth 8).toInt else 0x45)
  comm := { poll := fun _ => some true, input := fun n => if n < 2 then .byte 0x24 else .error, fails := fun _ => false }
  buf := { data := [], pos := 0 }
  number := fun _ => 12

theorem peeking_by (a : U32) : ByPlatform (peeking a).mriInit ∧ ByPlatform (peeking a).debugException :=
  ⟨.pure _, .bind .receive fun _ => .bind (.read _ _) fun _ => .send _⟩

/-- C82 is false of the code if an alias leads into another alias: a debug monitor that reads through it makes the program
read outside of the simulated memory. -/
theorem C82_chained_alias_witness (name : Str) : Runs (peeking 0x60000000) standardStop name argsChain progExample (.ub .outOfBounds) := by
  obtain ⟨q, h1, h2⟩ := undefinedRead_iff (o := startUp argsChain progExample) (a := 0x60000000) (by decide +kernel)
  refine .broken (by rw [runs_init]; exact h1) (.run (q := atStart _ q) (by rw [prepare_eq]; rfl) (.broken ?_))
  have e : ∀ c, memRead .w32 0x60000000 { atStart (peeking 0x60000000) q with comm := c } = .ub .outOfBounds := fun c => memRead_ub h2
  have h3 : commReceiveChar (atStart (peeking 0x60000000) q) =
      .ok 0x24 { atStart (peeking 0x60000000) q with comm := { (peeking 0x60000000).comm with connected := true, reads := 1 } } := rfl
  show (commReceiveChar >>= fun _ => (memRead .w32 0x60000000 >>= _) >>= _) _ = _
  rw [M.bind_ok h3, M.bind_ub (M.bind_ub (e _))]

/-- For evaluating in the kernel: two characters are answered, then standard input fails. -/
def peeks (a : U32) (o : Out Prog Unit) : Bool :=
  match o with
  | .ok _ q =>
    decide (q.host.mem.regions.length ≤ 19522578) &&
    match (peeking a).debugException (atStart (peeking a) q) with
    | .ok _ p1 =>
      match (peeking a).debugException p1 with
      | .ok _ p2 =>
        match (peeking a).debugException p2 with
        | .throw _ p3 => decide (p3.comm.sent = [1, 1])
        | _ => false
      | _ => false
    | _ => false
  | _ => false

theorem peeks_iff {a : U32} {o : Out Prog Unit} (h : peeks a o = true) : ∃ q e pl, o = .ok () q ∧ q.host.mem.regions.length ≤ 19522578 ∧
    Session (peeking a) standardStop q (.throw e pl) ∧ pl.comm.sent = [1, 1] := by
  unfold peeks at h
  split at h
  · rename_i q
    simp only [Bool.and_eq_true, decide_eq_true_eq] at h
    obtain ⟨h1, h⟩ := h
    split at h
    · rename_i p1 e1
      split at h
      · rename_i p2 e2
        split at h
        · rename_i e p3 e3
          exact ⟨q, e, p3, rfl, h1, .run (by rw [prepare_eq]; rfl) (.again e1 rfl (.again e2 rfl (.raised e3))), of_decide_eq_true h⟩
        · cases h
      · cases h
    · cases h
  · cases h

theorem noChainAlias : NoAliasChain (aliases (.alias (asc "0x50") (asc "4") (asc "0x20000000") :: optsElf)) := by
  simp [NoAliasChain, aliases, optsElf]

theorem elfOfAlias {os : List Opt} {file : Str} (h : Spelled argsAlias os) (hl : lastElf os = some file) : file = [0x65] := by
  cases spelled_unique h spelledAlias
  cases hl
  rfl

/-- The hypotheses of C82 and C83 are met by the command line `argsAlias` and a debug monitor that answers each character with
what it reads through the alias. -/
example : ∃ v q, Runs (peeking 0x50) standardStop [] argsAlias progExample (.ok v q) ∧
    ByPlatform (peeking 0x50).mriInit ∧ ByPlatform (peeking 0x50).debugException ∧
    (∀ os q, Spelled argsAlias os → startUp argsAlias progExample = .ok () q → AliasesLoaded (aliases os) q.host.mem) ∧
    (∀ q, startUp argsAlias progExample = .ok () q → q.host.mem.regions.length ≤ 19522578) ∧
    ∀ os file, Spelled argsAlias os → lastElf os = some file →
      StartsApart (nextContents progExample.host file) ∧ NoWraps (nextContents progExample.host file) := by
  obtain ⟨p1, e, pl, h1, h2, h3, -⟩ := peeks_iff (a := 0x50) (o := startUp argsAlias progExample) (by decide +kernel)
  obtain ⟨q, h4, -⟩ := handler_spec (peeking 0x50) (seen (peeking 0x50) pl.code e.code) (back p1 pl)
  refine ⟨-1, q, ?_, (peeking_by _).1, (peeking_by _).2, ?_, ?_, ?_⟩
  · rw [← h4]; exact .raised (by rw [runs_init]; exact h1) h3
  · intro os q h hq; cases spelled_unique h spelledAlias; exact noChain_loaded spelledAlias hq noChainAlias
  · intro q h; rw [h1] at h; cases h; exact h2
  · intro os file h hl
    cases elfOfAlias h hl
    exact ⟨by decide +kernel, by decide +kernel⟩

/-! ### C83 -/

theorem uninit_live {p q : Prog} (h : CommandLine.uninit p = .ok () q) :
    q.host.files = p.host.files ∧ (p.memory = true → q.host.mem.heap.live = owed p.host.mem) ∧ (p.memory = false → q = p) := by
  cases hm : p.memory with
  | true =>
    simp [CommandLine.uninit, uninitMemory, hm, onHost, Host.onMem, MemSim.uninit] at h
    subst h
    exact ⟨rfl, fun _ => rfl, fun h => (nomatch h)⟩
  | false =>
    simp [CommandLine.uninit, uninitMemory, hm] at h
    subst h
    exact ⟨rfl, fun h => (nomatch h), fun _ => rfl⟩

theorem handler_live {w : World} {c : Exc} {p q : Prog} {v : Int} (h : Main.handler w c p = .ok v q) :
    q.host.files = p.host.files ∧ (p.memory = true → q.host.mem.heap.live = owed p.host.mem) ∧
      (p.memory = false → q.host = p.host) := by
  have key : ∀ p' : Prog, p'.host = p.host → p'.memory = p.memory → (do CommandLine.uninit; pure (-1) : M Prog Int) p' = .ok v q →
      q.host.files = p.host.files ∧ (p.memory = true → q.host.mem.heap.live = owed p.host.mem) ∧ (p.memory = false → q.host = p.host) := by
    intro p' h1 h2 h3
    obtain ⟨q', h4, -⟩ := uninit_spec p'
    rw [M.bind_ok h4] at h3
    cases h3
    obtain ⟨k1, k2, k3⟩ := uninit_live h4
    rw [← h1, ← h2]
    exact ⟨k1, k2, fun h => by rw [k3 h]⟩
  unfold Main.handler at h
  by_cases hc : c = .file ∨ c = .elfFormat ∨ c = .invalidArgument
  · rw [if_pos hc] at h
    exact key p rfl rfl h
  · rw [if_neg hc] at h
    exact key { p with err := p.err ++ (asc "Encountered unexpected error: " ++ asc (toString (w.number c)) ++ asc "\n") } rfl rfl h

/-- After a successful start-up the memory simulator exists, and what is on the heap beyond what was there before belongs to it. -/
theorem started_owed {words : List Str} {p q : Prog} (h : startUp words p = .ok () q)
    (he : ∀ os file, Spelled words os → lastElf os = some file → StartsApart (nextContents p.host file)) :
    owed q.host.mem = p.host.mem.heap.live := by
  obtain ⟨os, n, d, f, s1, s2, hs, hn, -, -, -, -, k, -, ha⟩ := startUp_ok h
  rw [ha.1]
  refine Int.sub_eq_zero.1 (k.owed (· = 0) ?_ rfl)
  cases hle : lastElf os with
  | none => exact image_owed_bin n (by rw [chosen_elf]; exact hle)
  | some m =>
    have hm : m = n := by simpa [imageFile, hle] using hn
    subst hm
    exact image_owed_elf (p := chosen os p) (by rw [chosen_elf]; exact hle) (he os m hs hle)

/-- The same for any ELF file. -/
theorem started_lost {words : List Str} {os : List Opt} {p q : Prog} (h : startUp words p = .ok () q) (hs : Spelled words os) :
    owed q.host.mem = p.host.mem.heap.live + imageLosses os p.host := by
  obtain ⟨os', n, d, f, s1, s2, hs', hn, -, hf, hw, hi, k, -, ha⟩ := startUp_ok h
  cases spelled_unique hs hs'
  rw [ha.1, createsOrWrites_owed k.dump.2.2, owed_bump]
  unfold imageLosses
  cases hle : lastElf os with
  | none =>
    have h1 := k.owed (· = 0) (image_owed_bin n (by rw [chosen_elf]; exact hle)) rfl
    rw [createsOrWrites_owed k.dump.2.2, owed_bump] at h1
    have : (chosen os p).host.mem.heap.live = p.host.mem.heap.live := rfl
    simp only at h1 ⊢
    omega
  | some m =>
    have hm : m = n := by simpa [imageFile, hle] using hn
    subst hm
    have h1 : owed s1 = p.host.mem.heap.live + 1 + sharedStarts (segmentsOf (nextContents p.host m)) :=
      image_lost_elf (p := chosen os p) (by rw [chosen_elf]; exact hle) hf hw hi
    simp only
    omega

theorem started_memory {words : List Str} {p q : Prog} (h : startUp words p = .ok () q) : q.memory = true := by
  obtain ⟨os, n, d, f, s1, s2, hs, hn, -, -, -, -, k, -⟩ := startUp_ok h
  have := congrArg Prog.memory k.rest
  exact this

/-- What is left after a run of the program. -/
theorem left_behind {w : World} {name : Str} {words : List Str} {p q : Prog} {v : Int}
    (hi : ByPlatform w.mriInit) (hd : ByPlatform w.debugException) (hr : Runs w standardStop name words p (.ok v q)) :
    (∃ e p1, startUp words p = .throw e p1 ∧ q.host = p1.host) ∨
    ∃ p1, startUp words p = .ok () p1 ∧ q.host.files = p1.host.files ∧ q.host.mem.heap.live = owed p1.host.mem := by
  generalize ho : (Out.ok v q : Out Prog Int) = o at hr
  cases hr with
  | startUpRaised k =>
    rw [runs_init] at k
    exact .inl ⟨_, _, k, (handler_live ho.symm).2.2 (C50_failed_start_up k).1⟩
  | startUpBroken k => cases ho
  | raised k k2 =>
    rw [runs_init] at k
    obtain ⟨h1, h2, -⟩ := handler_live ho.symm
    refine .inr ⟨_, k, h1, ?_⟩
    have hm := started_memory k
    rw [h2 hm]
    exact session_ends hi hd k2 (.inr ⟨_, rfl⟩)
  | broken k k2 => cases ho
  | stale k k2 k3 =>
    rw [runs_init] at k
    obtain ⟨h1, h2, -⟩ := handler_live ho.symm
    refine .inr ⟨_, k, h1, ?_⟩
    have hm := started_memory k
    rw [h2 hm]
    exact session_ends hi hd k2 (.inl ⟨_, rfl⟩)
  | done k k2 k3 => exact (C69_never_completes_witness _ _ _ k2).elim

/-- C83. Whenever the program ends, no file it opened is still open. -/
theorem C83_files_closed {w : World} {name : Str} {words : List Str} {p q : Prog} {v : Int} (hi : ByPlatform w.mriInit)
    (hd : ByPlatform w.debugException) (hr : Runs w standardStop name words p (.ok v q)) : q.host.files.live = p.host.files.live := by
  rcases left_behind hi hd hr with ⟨e, p1, h, h1⟩ | ⟨p1, h, h1, -⟩
  · rw [h1]; exact C56_files_closed (.inr ⟨e, h⟩)
  · rw [h1]; exact C56_files_closed (.inl ⟨_, h⟩)

/-- C83, unless segments of an ELF file start inside others: whenever the program ends, all the heap blocks it allocated are
released, whatever the debug monitor did during the session. Missing: such ELF files, for which the claim is false, see the
witness. -/
theorem C83_heap_released_partial {w : World} {name : Str} {words : List Str} {p q : Prog} {v : Int} (hi : ByPlatform w.mriInit)
    (hd : ByPlatform w.debugException)
    (he : ∀ os file, Spelled words os → lastElf os = some file → StartsApart (nextContents p.host file))
    (hr : Runs w standardStop name words p (.ok v q)) : q.host.mem.heap.live = p.host.mem.heap.live := by
  rcases left_behind hi hd hr with ⟨e, p1, h, h1⟩ | ⟨p1, h, -, h1⟩
  · rw [h1]; exact C50_heap_released_partial h he
  · rw [h1]; exact started_owed h he

/-- C83. For any image: whenever the program ends after a successful start-up, what it leaves on the heap is one block for each
segment of the ELF file whose start is in a segment that had been marked read-only before, and nothing else. -/
theorem C83_left_exactly {w : World} {name : Str} {words : List Str} {os : List Opt} {p p1 q : Prog} {v : Int}
    (hi : ByPlatform w.mriInit) (hd : ByPlatform w.debugException) (hs : Spelled words os) (h1 : startUp words p = .ok () p1)
    (hr : Runs w standardStop name words p (.ok v q)) : q.host.mem.heap.live = p.host.mem.heap.live + imageLosses os p.host := by
  rcases left_behind hi hd hr with ⟨e, p2, h, -⟩ | ⟨p2, h, -, h2⟩
  · rw [h1] at h; cases h
  · rw [h2]; exact started_lost h hs

/-- C83. So after a successful start-up everything is released if and only if no segment of the ELF file starts inside an earlier
one. -/
theorem C83_released_iff {w : World} {name : Str} {words : List Str} {os : List Opt} {p p1 q : Prog} {v : Int}
    (hi : ByPlatform w.mriInit) (hd : ByPlatform w.debugException) (hs : Spelled words os) (h1 : startUp words p = .ok () p1)
    (hr : Runs w standardStop name words p (.ok v q)) :
    q.host.mem.heap.live = p.host.mem.heap.live ↔ ∀ file, lastElf os = some file → StartsApart (nextContents p.host file) := by
  rw [C83_left_exactly hi hd hs h1 hr]
  unfold imageLosses
  cases hl : lastElf os with
  | none => simp
  | some file =>
    simp only [Option.some.injEq, forall_eq']
    rw [← Elf.shared_apart]
    omega

/-- An ELF file with three segments: the second starts inside the first, and the third inside the second. -/
def elfChain : Str := elfHead 3 ++ elfEntry 1 4 0x100 8 8 ++ elfEntry 1 4 0x104 8 8 ++ elfEntry 1 8 0x10A 4 4

/-- The file "e" is that. -/
def progChain : Prog :=
  { host := { mem := MemSim.init goodHeap, files := { opens := fun _ n => if n = [0x65] then some (File.of elfChain) else (diskExample.lookup n).map File.of } } }

/-- Start-up succeeds with it, a session follows, and one block is lost, not two: the second segment has not been marked when the
third one starts inside it. -/
example : ∃ p1 v q, startUp argsElf progChain = .ok () p1 ∧ Runs (peeking 0x100) standardStop [] argsElf progChain (.ok v q) ∧
    Spelled argsElf optsElf ∧ imageLosses optsElf progChain.host = 1 ∧ q.host.mem.heap.live = 1 := by
  obtain ⟨p1, e, pl, h1, -, h3, -⟩ := peeks_iff (a := 0x100) (o := startUp argsElf progChain) (by decide +kernel)
  obtain ⟨q, h4, -⟩ := handler_spec (peeking 0x100) (seen (peeking 0x100) pl.code e.code) (back p1 pl)
  have hr : Runs (peeking 0x100) standardStop [] argsElf progChain (.ok (-1) q) := by
    rw [← h4]; exact .raised (by rw [runs_init]; exact h1) h3
  have hl : imageLosses optsElf progChain.host = 1 := by decide +kernel
  refine ⟨p1, -1, q, h1, hr, spelledElf, hl, ?_⟩
  rw [C83_left_exactly (peeking_by _).1 (peeking_by _).2 spelledElf h1 hr, hl]
  rfl

/-- C83 is false of the code for an ELF file whose segments overlap: one heap block is not released. -/
theorem C83_leak_witness (w : World) (name : Str) : ∃ v q, Runs w standardStop name argsElf progOverlap (.ok v q) ∧
    progOverlap.host.mem.heap.live = 0 ∧ q.host.mem.heap.live = 1 := by
  obtain ⟨e, p1, h, h1, h2⟩ := C50_leak_witness
  obtain ⟨q, h3, -⟩ := handler_spec w e.code p1
  refine ⟨-1, q, ?_, h1, ?_⟩
  · rw [← h3]; exact .startUpRaised (by rw [runs_init]; exact h)
  · rw [(handler_live h3).2.2 (C50_failed_start_up h).1]; exact h2

end Verif.Props
