import Verif.Lemmas.Ctype
import Verif.Props.LineEnds
/-
C120: bytes outside ASCII in a log.
-/
namespace Verif.Props
open Verif MemSim Spec Host Main Platform CommandLine Elf

/-- C120, in part. Where `isspace` is undefined for negative characters, start-up ends as the other properties of start-up say - same
registers, memory, output, message, everything - if the dump is not a log, or is a log whose lines about memory and about the
registers s0 to s31 have only bytes of ASCII (or 0xFF) after the address or the name. Its other lines can have any bytes, and so can the
image, a dump made by CrashCatcher and the command line. Missing: logs with other bytes in these lines; see `C120_symbol`. -/
theorem C120_start_up_partial {signed : Bool} {args : List Str} {p : Prog} (h : DumpPlain signed args p) : startUpC signed args p = startUp args p :=
  initC_plain h

/-- C120. Where `char` is unsigned, all files will do. -/
theorem C120_unsigned (args : List Str) (p : Prog) : startUpC false args p = startUp args p := by
  refine initC_plain fun os d f0 f _ _ _ _ _ _ => ?_
  obtain ⟨ps, hl⟩ := GdbLog.lines_exist f.bytes
  exact ⟨ps, hl, fun p _ => ⟨fun _ c _ => .inl rfl, fun r t _ _ c _ => .inl rfl⟩⟩

/-- C120. A dump made by CrashCatcher can have any bytes. -/
theorem C120_dump {signed : Bool} {args : List Str} {os : List Opt} {p : Prog} {d bytes : Str} (hs : Spelled args os) (hd : lastDump os = some d)
    (hf : OnDisk p.host d bytes) (hb : [0x63, 0x43] <+: bytes ∨ asc "6343" <+: bytes) : startUpC signed args p = startUp args p := by
  refine initC_plain fun os' d' f0 f hs' hd' hf0 h1 h2 _ => ?_
  cases spelled_unique hs hs'
  cases hd.symm.trans hd'
  cases (hf _).symm.trans hf0
  exact hb.elim (fun h => absurd h h1) fun h => absurd h h2

theorem lines_mem {text : Str} {ps : List Str} (h : Lines text ps) : ∀ p ∈ ps, ∀ c ∈ upToNul p, c ∈ text := by
  induction h with
  | nil => intro p hp; cases hp
  | @cons q rest ps _ _ ih =>
    intro p hp c hc
    rcases List.mem_cons.1 hp with rfl | hp
    · exact List.mem_append_left _ ((List.takeWhile_sublist _).subset hc)
    · exact List.mem_append_right _ (ih p hp c hc)

/-- C120. So can a log be any text of ASCII. -/
theorem C120_ascii {signed : Bool} {args : List Str} {os : List Opt} {p : Prog} {d text : Str} (hs : Spelled args os) (hd : lastDump os = some d)
    (hf : OnDisk p.host d text) (ha : ∀ c ∈ text, c.toNat < 0x80) : startUpC signed args p = startUp args p := by
  refine initC_plain fun os' d' f0 f hs' hd' _ _ _ hf1 => ?_
  cases spelled_unique hs hs'
  cases hd.symm.trans hd'
  cases (hf _).symm.trans hf1
  obtain ⟨ps, hl⟩ := GdbLog.lines_exist text
  refine ⟨ps, hl, fun p hp => ?_⟩
  have hc : ∀ c ∈ upToNul p, PlainByte signed c := fun c hc => .inr (.inl (ha c (lines_mem hl p hp c hc)))
  exact ⟨fun _ c h => hc c (List.mem_of_mem_drop h), fun r t _ e c h => hc c (by rw [e]; exact List.mem_append_right _ h)⟩

/-- C120. Where `char` is signed, a log that begins with a line about memory whose symbol has a byte from 0x80 to 0xFE - say, the name
of a function in UTF-8 - makes `GdbLogParse` call `isspace` with a number for which it is undefined. -/
theorem C120_symbol {name line more w sym rest : Str} {h : Host} {f : File} (hf : h.files.opens h.files.next name = some f)
    (ht : f.bytes = line ++ more) (h1 : FirstLine line more) (hm : LikeMemory (upToNul line))
    (hl : (upToNul line).drop 11 = w ++ 0x3C :: (sym ++ rest)) (hw : AllSpace w) (hn : ∀ c ∈ sym, c ≠ 0x3E)
    (hb : ∃ c ∈ sym, 0x80 ≤ c.toNat ∧ c.toNat < 0xFF) : GdbLog.parseC true name h = .ub .outOfBounds := by
  refine GdbLog.parseC_bad hf ht h1 hm hl hw hn ?_
  obtain ⟨c, hc, g1, g2⟩ := hb
  refine ⟨c, hc, ?_⟩
  rintro (h | h | h)
  · cases h
  · omega
  · omega

/-- What start-up ends with in R15, and with how many regions, or the kind of undefined behaviour. -/
def pcAfterC (signed : Bool) (text : Str) : Option (Option U32 × Nat) ⊕ UB :=
  match startUpC signed argsBin (progText text) with
  | .ok _ q => .inl (some (q.host.ctx.r[15]?, q.host.mem.regions.length))
  | .throw _ _ => .inl none
  | .ub r => .inr r

/-- A log with the symbol `<café>` in UTF-8. -/
def cafeLog : Str := asc "0x10000000 <caf" ++ [0xC3, 0xA9] ++ asc ">:\t0x1\npc             0x30000000\n"

/-- C120. Start-up with it is undefined where `char` is signed, and succeeds where it is not. -/
theorem C120_witness : pcAfterC true cafeLog = .inr .outOfBounds ∧ pcAfterC false cafeLog = .inl (some (some 0x30000000, 2)) :=
  ⟨by decide +kernel, by decide +kernel⟩

/-- Its first line meets the hypotheses of `C120_symbol`. -/
example : GdbLog.parseC true [0x64] (progText cafeLog).host = .ub .outOfBounds :=
  C120_symbol (f := File.of cafeLog) (line := asc "0x10000000 <caf" ++ [0xC3, 0xA9] ++ asc ">:\t0x1\n") (more := asc "pc             0x30000000\n")
    (w := []) (sym := asc "caf" ++ [0xC3, 0xA9]) (rest := asc ">:\t0x1\n") rfl (by decide +kernel)
    ⟨by decide +kernel, by decide +kernel, by decide +kernel, .inl (by decide +kernel)⟩
    ⟨by decide +kernel, by decide +kernel, by decide +kernel⟩ (by decide +kernel) (by intro c hc; cases hc) (by decide +kernel)
    ⟨0xC3, by decide +kernel, by decide +kernel⟩

/-- A log of ASCII, with memory and registers: start-up succeeds where `char` is signed. -/
example : startUpC true argsBin (progText (logText gdbExample)) = startUp argsBin (progText (logText gdbExample)) ∧
    pcAfterC true (logText gdbExample) = .inl (some (some 0x30000000, 3)) :=
  ⟨C120_ascii (d := [0x64]) spelledBin rfl (fun _ => rfl) (by decide +kernel), by decide +kernel⟩

/-- A dump in binary, with bytes outside ASCII. -/
def highDump : Str := [0x63, 0x43, 3, 0] ++ [0, 0, 0, 0] ++ List.replicate 80 0xC3

/-- Start-up succeeds with it where `char` is signed. -/
example : startUpC true argsBin (progText highDump) = startUp argsBin (progText highDump) ∧ pcAfterC true highDump = .inl (some (some 0xC3C3C3C3, 1)) :=
  ⟨C120_dump (d := [0x64]) (bytes := highDump) spelledBin rfl (fun _ => rfl) (.inl (by decide +kernel)), by decide +kernel⟩

/-- A log with other bytes in a line that says nothing, and in the line of an integer register. -/
def remarkLog : Str := [0xC3, 0xA9, 0x0A] ++ asc "pc             0x30000000\t" ++ [0xC3, 0xA9, 0x0A]

theorem remark_plain : LogPlain true remarkLog := by
  refine ⟨[[0xC3, 0xA9, 0x0A], asc "pc             0x30000000\t" ++ [0xC3, 0xA9, 0x0A]], ?_, ?_⟩
  · refine .cons (p := [0xC3, 0xA9, 0x0A]) (rest := asc "pc             0x30000000\t" ++ [0xC3, 0xA9, 0x0A])
      ⟨by decide +kernel, by decide +kernel, by decide +kernel, .inl (by decide +kernel)⟩ ?_
    have := Lines.cons (p := asc "pc             0x30000000\t" ++ [0xC3, 0xA9, 0x0A]) (rest := [])
      ⟨by decide +kernel, by decide +kernel, by decide +kernel, .inl (by decide +kernel)⟩ .nil
    simpa using this
  · intro p hp
    refine ⟨fun hm => ?_, fun r t hr e => ?_⟩
    · simp only [List.mem_cons, List.not_mem_nil, or_false] at hp
      rcases hp with rfl | rfl
      · exact absurd hm.1 (by decide +kernel)
      · exact absurd hm.2.1 (by decide +kernel)
    · have h15 : (upToNul p).take 15 = r.field := by rw [e, List.take_append_of_le_length (by rw [GdbLog.field_len]; omega), List.take_of_length_le (by rw [GdbLog.field_len]; omega)]
      have hall : ∀ r ∈ GdbLog.allRegs, r.isFloat = true → (upToNul p).take 15 ≠ r.field := by
        simp only [List.mem_cons, List.not_mem_nil, or_false] at hp
        rcases hp with rfl | rfl <;> decide +kernel
      exact absurd h15 (hall r (GdbLog.mem_allRegs r) hr)

example : startUpC true argsBin (progText remarkLog) = startUp argsBin (progText remarkLog) ∧
    pcAfterC true remarkLog = .inl (some (some 0x30000000, 1)) := by
  refine ⟨C120_start_up_partial ?_, by decide +kernel⟩
  intro os d f0 f hs hd _ _ _ hf
  cases spelled_unique spelledBin hs
  cases hd
  cases hf
  exact remark_plain

end Verif.Props
