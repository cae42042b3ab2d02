import Verif.Lemmas.LineEnds
import Verif.Lemmas.LongLog
import Verif.Lemmas.DumpHex
import Verif.Props.OnlyNamed
import Verif.Props.AnyLog
/-
C114: the line ends of a text file with a crash do not matter.
-/
namespace Verif.Props
open Verif MemSim Spec Host Main Platform CommandLine Elf

/-! ### Hexadecimal dumps -/

/-- The outcome of reading a file, which is closed in the end. -/
def closing : Out Dump.D Unit → Out Host Unit
  | .ok _ d => .ok () (Dump.closed d.host)
  | .throw e d => .throw e (Dump.closed d.host)
  | .ub r => .ub r

theorem readFile_closing {rd : Dump.Reader} {h : Host} {name bytes : Str} (hn : NextFile h name bytes) :
    Dump.readFile rd name h = closing (Dump.readDump rd (Dump.start h bytes)) := by
  rw [Dump.readFile_eq hn]
  cases Dump.readDump rd (Dump.start h bytes) <;> rfl

theorem rel_outcome {T : Str → Str → Prop} {d1 d2 : Out Dump.D Unit} (h : Dump.RelO T False d1 d2) : closing d1 = closing d2 := by
  cases d1 with
  | ok a d1 =>
    cases d2 with
    | ok b d2 => simp [closing, h.2.1]
    | throw e d => exact h.elim
    | ub r => exact h.elim
  | throw e d1 =>
    cases d2 with
    | ok b d2 => exact h.1.elim
    | throw e' d =>
      rcases h with ⟨h1, h2⟩ | h
      · simp [closing, h1, h2]
      · exact h.1.elim
    | ub r => exact h.1.elim
  | ub r =>
    cases d2 with
    | ok b d2 => exact h.elim
    | throw e' d => exact h.elim
    | ub r' =>
      have : r = r' := h
      simp [closing, this]

/-- C114. Two hexadecimal files that differ in their line ends only, well-formed or not, lead to the same outcome in every way: the
same registers and memory, or the same exception and message in the same state. -/
theorem C114_hex {h : Host} {name name' text text' : Str} (hn : NextFile h name text) (hn' : NextFile h name' text')
    (ht : SameText text text') : Dump.readHex name h = Dump.readHex name' h := by
  unfold Dump.readHex
  rw [readFile_closing hn, readFile_closing hn']
  exact rel_outcome (Dump.rel_dump Dump.rel_same Dump.hex_consumes Dump.hex_consumes (d1 := Dump.start h text) (d2 := Dump.start h text')
    ⟨rfl, rfl, ht⟩)

/-! ### Logs -/

theorem map_inj {α β : Type} {f : α → β} (hf : ∀ a b, f a = f b → a = b) {l l' : List α} (h : l.map f = l'.map f) : l = l' := by
  induction l generalizing l' with
  | nil => cases l' with | nil => rfl | cons => cases h
  | cons a l ih =>
    cases l' with
    | nil => cases h
    | cons b l' =>
      rw [List.map_cons, List.map_cons, List.cons.injEq] at h
      rw [hf _ _ h.1, ih h.2]

/-- C114. The lines of a log are taken for the same with a carriage return in front of each line feed, but for lines that mean
nothing: a line feed that does not fit the buffer any more counts as a line. Missing: lines with nothing but an address, see
`C114_bare_address_witness`. -/
theorem C114_log_meaning_partial {text : Str} {ps : List Str} {ms ms' : List Meaning} (hl : Lines text ps) (hp : ∀ p ∈ ps, ¬ BareAddress p)
    (hm : LogTakenFor text ms) (hm' : LogTakenFor (crlf text) ms') : telling ms' = telling ms := by
  have e := GdbLog.telling_crlf hl hp
  rw [GdbLog.results_taken hm, GdbLog.results_taken hm', GdbLog.telling_map, GdbLog.telling_map] at e
  exact map_inj (fun _ _ => GdbLog.resIs_inj) e

/-- C114. So such a log leads to the same outcome in every way. -/
theorem C114_log_partial {h : Host} {name name' text : Str} {ps : List Str} (hn : NextLog h name text) (hn' : NextLog h name' (crlf text))
    (hl : Lines text ps) (hp : ∀ p ∈ ps, ¬ BareAddress p) : GdbLog.parse name h = GdbLog.parse name' h := by
  obtain ⟨f, h1, rfl, h2⟩ := hn
  obtain ⟨f', h1', e, h2'⟩ := hn'
  rw [GdbLog.parse_eq h1, GdbLog.parse_eq h1', h2, h2', GdbLog.both_telling, GdbLog.both_telling (GdbLog.results f'.bytes), e,
    GdbLog.telling_crlf hl hp]

/-! ### The program -/

theorem crlf_prefix {s t : Str} (hs : ∀ c ∈ s, isNewline c = false) (h : s <+: crlf t) : s <+: t := by
  induction t generalizing s with
  | nil => exact h
  | cons c t ih =>
    cases s with
    | nil => exact List.nil_prefix
    | cons d s =>
      have hc : crlf (c :: t) = (if c = 0x0A then [0x0D, 0x0A] else [c]) ++ crlf t := rfl
      rw [hc] at h
      split at h
      · rw [List.cons_append, List.cons_prefix_cons] at h
        have := hs d List.mem_cons_self
        rw [h.1] at this
        exact absurd this (by decide)
      · rw [List.singleton_append, List.cons_prefix_cons] at h
        rw [List.cons_prefix_cons]
        exact ⟨h.1, ih (fun c hc => hs c (List.mem_cons_of_mem _ hc)) h.2⟩

variable {g : Nat → Str → Option File}

theorem both_comm (bytes : Str) (b : Bool) : Comm (reopenedH g) (GdbLog.both (GdbLog.results bytes) b) := by
  unfold GdbLog.both
  rw [← GdbLog.parseLines_eq, ← GdbLog.parseLines_eq]
  refine Comm.tryCatch (Comm.bind (Comm.modify fun _ => rfl) fun _ => Comm.bind (parseLines_comm _ firstPass_comm _) fun _ =>
    Comm.bind ?_ fun _ => Comm.bind (parseLines_comm _ secondPass_comm _) fun _ => fclose_commH) fun e =>
    Comm.bind fclose_commH fun _ => Comm.rethrow e
  unfold GdbLog.rewind
  exact Comm.ite (Comm.throw _ _) (Comm.pure _)

theorem loadDumpFile_lineEnds {d text text' : Str} {p : Prog} (hd : p.dump = some d) (ht : OtherLineEnds text text')
    (h1 : ∀ i, i = p.host.files.next ∨ i = p.host.files.next + 1 → p.host.files.opens i d = some (File.of text) ∧ g i d = some (File.of text')) :
    loadDumpFile (reopened g p) = seenThrough (reopened g) (loadDumpFile p) := by
  obtain ⟨a1, a2⟩ := h1 _ (.inl rfl)
  obtain ⟨b1, b2⟩ := h1 _ (.inr rfl)
  rw [loadDumpFile_some hd a1, loadDumpFile_some (p := reopened g p) hd a2]
  have n1 : NextFile (peeked p.host) d text := ⟨_, b1, rfl⟩
  have n2 : NextFile (reopenedH g (peeked p.host)) d text' := ⟨_, b2, rfl⟩
  cases ht with
  | hex k1 k2 hs =>
    have no : ∀ t : Str, asc "6343" <+: t → ¬ [0x63, 0x43] <+: t := by
      rintro t ⟨u, rfl⟩ ⟨v, h⟩
      have e1 : (asc "6343" ++ u).head? = some 0x63 := by rw [← h]; rfl
      have e2 : (asc "6343" ++ u).head? = some 0x36 := rfl
      rw [e1] at e2
      exact absurd e2 (by decide)
    rw [if_neg (show ¬ [0x63, 0x43] <+: (File.of text').bytes from no _ k2), if_neg (show ¬ [0x63, 0x43] <+: (File.of text).bytes from no _ k1),
      if_pos (show asc "6343" <+: (File.of text').bytes from k2), if_pos (show asc "6343" <+: (File.of text).bytes from k1)]
    refine onMemory_same (p := { p with host := peeked p.host }) ?_
    show Dump.readHex d (reopenedH g (peeked p.host)) = seenThrough (reopenedH g) (Dump.readHex d (peeked p.host))
    unfold Dump.readHex
    rw [readFile_closing n1, readFile_closing n2]
    have e := Dump.rel_dump Dump.rel_same Dump.hex_consumes Dump.hex_consumes (d1 := Dump.start (peeked p.host) text')
      (d2 := Dump.start (peeked p.host) text) ⟨rfl, rfl, hs.symm⟩
    rw [show Dump.start (reopenedH g (peeked p.host)) text' = reopenedD g (Dump.start (peeked p.host) text') from rfl, readDump_comm]
    have e2 := rel_outcome e
    rw [← e2]
    cases Dump.readDump Dump.hexRead (Dump.start (peeked p.host) text') <;> rfl
  | log k1 k2 hl hp =>
    have m1 : ¬ [0x63, 0x43] <+: crlf text := fun h => k1 (crlf_prefix (by decide) h)
    have m2 : ¬ asc "6343" <+: crlf text := fun h => k2 (crlf_prefix (by decide) h)
    rw [if_neg (show ¬ [0x63, 0x43] <+: (File.of text).bytes from k1), if_neg (show ¬ asc "6343" <+: (File.of text).bytes from k2),
      if_neg (show ¬ [0x63, 0x43] <+: (File.of (crlf text)).bytes from m1), if_neg (show ¬ asc "6343" <+: (File.of (crlf text)).bytes from m2)]
    refine onMemory_same (p := { p with host := peeked p.host }) ?_
    show GdbLog.parse d (reopenedH g (peeked p.host)) = seenThrough (reopenedH g) (GdbLog.parse d (peeked p.host))
    rw [GdbLog.parse_eq (h := peeked p.host) b1, GdbLog.parse_eq (h := reopenedH g (peeked p.host)) b2]
    show GdbLog.both (GdbLog.results (crlf text)) _ _ = _
    rw [GdbLog.both_telling, GdbLog.telling_crlf hl hp, ← GdbLog.both_telling]
    exact both_comm (g := g) text false (Dump.opened (peeked p.host))

/-- C114. Start-up does the same if the dump has other line ends: it ends in the same way, with the same message, memory and
registers. Missing: see `C114_log_meaning_partial`. -/
theorem C114_start_up_partial {args : List Str} {p : Prog} (h : SameButLineEnds args g p) :
    startUp args (reopened g p) = seenThrough (reopened g) (startUp args p) := by
  refine startUp_via fun os hs => ⟨(h os hs).1, fun d hd q k1 k2 k3 => ?_⟩
  obtain ⟨text, text', ht, hi⟩ := (h os hs).2 d hd
  refine loadDumpFile_lineEnds k1 ht fun i hx => ?_
  rw [k2]
  rw [k3] at hx
  exact hi i hx

/-- C114. And so does the whole program, with any debug monitor. -/
theorem C114_program_partial {w : World} {stop : M Plat Bool} {name : Str} {words : List Str} {p : Prog} {o : Out Prog Int}
    (h : SameButLineEnds words g p) (hr : Runs w stop name words p o) :
    Runs w stop name words (reopened g p) (seenThrough (reopened g) o) := runs_via (C114_start_up_partial h) hr

/-! ### Examples -/

/-- A log whose second line is the address of the first with nothing behind it: not a memory line, but one of a zero word with a
carriage return in front of the line feed. -/
def bareLog : Str := asc "0x20000000:\t0x00000001\n0x20000004\n"

/-- C114. The line ends do matter in a line with nothing but an address. -/
theorem C114_bare_address_witness : LogTakenFor bareLog [.memory 0x20000000 [1, 0], .other] ∧
    LogTakenFor (crlf bareLog) [.memory 0x20000000 [1, 0], .memory 0x20000004 [0]] :=
  ⟨⟨[asc "0x20000000:\t0x00000001\n", asc "0x20000004\n"], lines_of (by decide +kernel),
      .cons (taken_of (by decide +kernel)) (.cons (taken_of (by decide +kernel)) .nil)⟩,
    ⟨[asc "0x20000000:\t0x00000001\r\n", asc "0x20000004\r\n"], lines_of (by decide +kernel),
      .cons (taken_of (by decide +kernel)) (.cons (taken_of (by decide +kernel)) .nil)⟩⟩

/-- A log of two lines. -/
def logLf : Str := asc "0x20000000:\t0x00000001 0x2\nr5             18\n"

theorem logLf_lines : Lines logLf [asc "0x20000000:\t0x00000001 0x2\n", asc "r5             18\n"] := lines_of (by decide +kernel)

theorem logLf_other : OtherLineEnds logLf (asc "0x20000000:\t0x00000001 0x2\r\nr5             18\r\n") := by
  have e : crlf logLf = asc "0x20000000:\t0x00000001 0x2\r\nr5             18\r\n" := by decide +kernel
  rw [← e]
  refine .log (by decide +kernel) (by decide +kernel) logLf_lines ?_
  intro p hp
  have no : ∀ {q : Str}, q.length ≠ 11 → ¬ BareAddress q := by
    rintro q hq ⟨ds, hl, -, rfl⟩
    exact hq (by simp [hl]; decide)
  simp only [List.mem_cons, List.not_mem_nil, or_false] at hp
  rcases hp with rfl | rfl
  · exact no (by decide +kernel)
  · exact no (by decide +kernel)

/-- A raw image of two bytes and this text as the dump. -/
def progText (text : Str) : Prog :=
  { host := { mem := MemSim.init goodHeap, files := { opens := fun _ n => ([([0x62], [1, 2]), ([0x64], text)].lookup n).map File.of } } }

/-- The files of `progText`. -/
def filesText (text : Str) : Nat → Str → Option File := fun _ n => ([([0x62], [1, 2]), ([0x64], text)].lookup n).map File.of

theorem sameLineEnds {text text' : Str} (h : OtherLineEnds text text') : SameButLineEnds argsBin (filesText text') (progText text) := by
  intro os hs
  cases spelled_unique spelledBin hs
  refine ⟨fun n hn => ?_, fun d hd => ⟨text, text', h, fun i _ => ?_⟩⟩
  · cases (show some [0x62] = some n from hn); rfl
  · cases (show some [0x64] = some d from hd); exact ⟨rfl, rfl⟩

theorem field_head (r : Reg) : r.field.head? ≠ some 0x30 := by
  cases r with
  | core i => revert i; decide +kernel
  | float i => revert i; decide +kernel

/-- No line that shows memory or a register is a bare address. -/
theorem says_notBare {line : Str} {m : Meaning} (h : Says line m) (hm : m ≠ .other) : ¬ BareAddress line := by
  rintro ⟨ds, hd, -, rfl⟩
  cases m with
  | memory a vs =>
    obtain ⟨head, c, body, rest, e, hh, hl, hc, hv, h1, h4, hr⟩ := h
    have := congrArg List.length e
    have hb := List.length_pos_iff.2 (GdbLog.values_ne_nil hv h1)
    simp [asc, hd, hl] at this
    omega
  | register r v =>
    have h : ShowsRegister _ r v := h
    unfold ShowsRegister at h
    have hp : ∃ u, asc "0x" ++ ds ++ [0x0A] = r.field ++ u := by
      split at h
      · obtain ⟨f, w, n, rest, e, -⟩ := h; exact ⟨_, by rw [e]; simp only [List.append_assoc]; rfl⟩
      · obtain ⟨w, n, rest, e, -⟩ := h; exact ⟨_, by rw [e]; simp only [List.append_assoc]; rfl⟩
    obtain ⟨u, e⟩ := hp
    have h1 := congrArg List.head? e
    cases hf : r.field with
    | nil => have := GdbLog.field_len r; rw [hf] at this; cases this
    | cons c t =>
      rw [hf] at h1
      exact field_head r (by rw [hf]; exact h1.symm.trans rfl)
  | other => exact hm rfl

/-- C114. Logs as GDB writes them are logs of which C114 holds, if no line of the rest (what else GDB printed) is a bare address. -/
theorem C114_well_formed_partial {ls : List LogLine} (h : LogOK ls) (ho : ∀ l ∈ ls, l.says = .other → ¬ BareAddress l.text)
    (h1 : ¬ [0x63, 0x43] <+: logText ls) (h2 : ¬ asc "6343" <+: logText ls) : OtherLineEnds (logText ls) (crlf (logText ls)) := by
  refine .log h1 h2 (GdbLog.lines_log h) ?_
  intro p hp
  obtain ⟨l, hl, rfl⟩ := List.mem_map.1 hp
  by_cases hs : l.says = .other
  · exact ho l hl hs
  · exact says_notBare (GdbLog.says_log h hl).2 hs

/-- What start-up ends with in R5, and with how many regions. -/
def r5After (text : Str) : Option (Option U32 × Nat) :=
  match startUp argsBin (progText text) with
  | .ok _ q => some (q.host.ctx.r[5]?, q.host.mem.regions.length)
  | _ => none

/-- The hypotheses are met by a log, and start-up succeeds. -/
example : SameButLineEnds argsBin (filesText (asc "0x20000000:\t0x00000001 0x2\r\nr5             18\r\n")) (progText logLf) ∧
    r5After logLf = some (some 18, 2) := ⟨sameLineEnds logLf_other, by decide +kernel⟩

/-- The hypotheses of `C114_well_formed_partial` are met by a log of memory, registers and other text. -/
example : OtherLineEnds (logText gdbExample) (crlf (logText gdbExample)) := by
  refine C114_well_formed_partial gdbExample_ok ?_ (by decide +kernel) (by decide +kernel)
  intro l hl _
  rintro ⟨ds, hd, -, e⟩
  have : ∀ l ∈ gdbExample, l.text.length ≠ 11 := by decide +kernel
  exact this l hl (by rw [e]; simp [asc, hd])

/-- A dump of version 3 with registers only, as text: R5 is 0x11111111. -/
def hexDump : Str := asc "63430300" ++ asc "00000000" ++ hexOf (List.replicate 80 0x11)

/-- The hypotheses are met by a hexadecimal dump, and start-up succeeds. -/
example : SameButLineEnds argsBin (filesText (asc "6343\r\n0300\r" ++ asc "00000000" ++ hexOf (List.replicate 80 0x11))) (progText hexDump) ∧
    r5After hexDump = some (some 0x11111111, 1) :=
  ⟨sameLineEnds (.hex (by decide +kernel) (by decide +kernel) (by unfold SameText; decide +kernel)), by decide +kernel⟩

/-- C114. An empty line at the top of a hexadecimal dump does matter: the dump is taken for a log, and start-up succeeds with nothing
of the crash. -/
theorem C114_blank_line_witness : SameText hexDump (0x0A :: hexDump) ∧ r5After hexDump = some (some 0x11111111, 1) ∧
    r5After (0x0A :: hexDump) = some (some 0, 1) := ⟨by unfold SameText; decide +kernel, by decide +kernel, by decide +kernel⟩

end Verif.Props
