import Verif.Lemmas.OnlyNamed
import Verif.Props.Dump
/-
C33: a character that is no hex digit in a hexadecimal crash dump.
-/
namespace Verif.Props
open Verif MemSim Spec Dump CommandLine

/-- C33. If a pair of characters of which at least one is no hex digit follows the text of some bytes, reading does not
return normally. Either it raises a format error, or it raised whatever the binary reader raises on a file, in any file system, with these
bytes and any others behind them, that is, before looking at the bad pair. -/
theorem C33_bad_character {h : Host} {name pre nl rest bs : Str} {hi lo : U8} (ht : HexText pre bs)
    (hn : NextFile h name (pre ++ hi :: (nl ++ lo :: rest))) (h1 : isNewline hi ≠ true) (h2 : isNewline lo ≠ true)
    (h3 : ∀ c ∈ nl, isNewline c = true) (hbad : hexDigit hi = none ∨ hexDigit lo = none)
    (hs : Sound h.mem) (hu : Unwatched h.mem) :
    ∃ e h', readHex name h = .throw e h' ∧ (e.code = .fileFormat ∨
      ∀ g binName ys, NextFile { h with files := { h.files with opens := g } } binName (bs ++ ys) →
        readBinary binName { h with files := { h.files with opens := g } } = .throw e { h' with files := { h'.files with opens := g } }) := by
  have hb : BadPair (hi :: (nl ++ lo :: rest)) := ⟨hi, nl, lo, rest, rfl, h1, h2, h3, hbad⟩
  have hsat := dump_sat hex_consumes (d := start h (pre ++ hi :: (nl ++ lo :: rest))) hs hu
  have hrel := fun ys => rel_dump (rel_bad (ys := ys) hb) hex_consumes binary_consumes
    (d1 := start h (pre ++ hi :: (nl ++ lo :: rest))) (d2 := start h (bs ++ ys)) ⟨rfl, rfl, pre, bs, rfl, ht, rfl⟩
  unfold readHex readBinary
  rw [readFile_eq hn]
  cases e1 : readDump hexRead (start h (pre ++ hi :: (nl ++ lo :: rest))) with
  | ub r => rw [e1] at hsat; exact hsat.elim
  | ok a d1 =>
    exfalso
    have h0 := hrel []
    have hr := dump_rest e1
    cases e2 : readDump binaryRead (start h (bs ++ [])) with
    | ok b d2 =>
      rw [e1, e2] at h0
      obtain ⟨-, -, -, p, x, e, -⟩ := h0
      rw [hr] at e
      have := congrArg List.length e
      simp at this
    | throw e d => rw [e1, e2] at h0; exact h0.elim
    | ub r => rw [e1, e2] at h0; exact h0.elim
  | throw e d1 =>
    refine ⟨e, closed d1.host, rfl, ?_⟩
    by_cases hc : e.code = .fileFormat
    · exact .inl hc
    · right
      intro g binName ys hny
      rw [readFile_eq hny, show start { h with files := { h.files with opens := g } } (bs ++ ys) = reopenedD g (start h (bs ++ ys)) from rfl,
        readDump_comm binaryRead (start h (bs ++ ys))]
      have h0 := hrel ys
      cases e2 : readDump binaryRead (start h (bs ++ ys)) with
      | ok b d2 => rw [e1, e2] at h0; exact absurd h0.2 hc
      | throw e' d =>
        rw [e1, e2] at h0
        rcases h0 with ⟨g1, g2⟩ | g
        · show Out.throw e' (closed (reopenedH g d.host)) = _
          rw [← g1, ← g2]; rfl
        · exact absurd g.2 hc
      | ub r => rw [e1, e2] at h0; exact absurd h0.2 hc

example : ∃ (h : Host) (name pre nl rest bs : Str) (hi lo : U8), HexText pre bs ∧
    NextFile h name (pre ++ hi :: (nl ++ lo :: rest)) ∧ isNewline hi ≠ true ∧ isNewline lo ≠ true ∧
    (∀ c ∈ nl, isNewline c = true) ∧ (hexDigit hi = none ∨ hexDigit lo = none) ∧ Sound h.mem ∧ Unwatched h.mem :=
  ⟨{ hostWith _ with mem := quiet }, asc "x.txt", _, [0x0A], [0x30], _, 0x30, 0x67, hexText_example, ⟨_, rfl, rfl⟩,
    by decide, by decide, by decide, by decide, quiet_sound, quiet_unwatched⟩

/-- C33. If the bytes before the bad pair are the beginning of a dump that can be loaded, a format error is raised. -/
theorem C33_format_error {h : Host} {name pre nl rest bs tail : Str} {hi lo : U8} {d : DumpFile} (ht : HexText pre bs)
    (hn : NextFile h name (pre ++ hi :: (nl ++ lo :: rest))) (h1 : isNewline hi ≠ true) (h2 : isNewline lo ≠ true)
    (h3 : ∀ c ∈ nl, isNewline c = true) (hbad : hexDigit hi = none ∨ hexDigit lo = none)
    (hr : Ready h) (hu : Unwatched h.mem) (hwf : d.WF) (hf : Free h.mem d.mem) (hd : encode d = bs ++ tail) :
    ∃ msg h', readHex name h = .throw ⟨.fileFormat, msg⟩ h' := by
  obtain ⟨e, h', he, hc⟩ := C33_bad_character ht hn h1 h2 h3 hbad hr.sound hu
  rcases hc with hc | hc
  · exact ⟨e.msg, h', by rw [he, ← hc]⟩
  · exfalso
    have hb := hc (fun _ _ => some { bytes := encode d, tell := 0 }) (asc "x") tail ⟨_, rfl, hd⟩
    obtain ⟨h2, hok, -⟩ := C28_float_iff_flag (h := { h with files := { h.files with opens := fun _ _ => some { bytes := encode d, tell := 0 } } }) (name := asc "x")
      ⟨hr.sound, hr.heap, hr.regs, hr.hits⟩ ⟨_, rfl, rfl⟩ hwf hf
    rw [hok] at hb
    cases hb

/-- The text of the first byte of a dump, and then "4g". -/
example : ∃ (h : Host) (name pre nl rest bs tail : Str) (hi lo : U8) (d : DumpFile), HexText pre bs ∧ bs ≠ [] ∧
    NextFile h name (pre ++ hi :: (nl ++ lo :: rest)) ∧ isNewline hi ≠ true ∧ isNewline lo ≠ true ∧
    (∀ c ∈ nl, isNewline c = true) ∧ (hexDigit hi = none ∨ hexDigit lo = none) ∧
    Ready h ∧ Unwatched h.mem ∧ d.WF ∧ Free h.mem d.mem ∧ encode d = bs ++ tail :=
  ⟨{ hostWith _ with mem := quiet }, asc "x.txt", [0x36, 0x33], [], [], [0x63], (encode (dumpExample false false)).drop 1, 0x34, 0x67,
    dumpExample false false,
    .byte (nl := []) (hi := 0x36) (lo := 0x33) (x := 6) (y := 3) (by decide) (by decide) (by decide) (by decide) .nil, by decide,
    ⟨_, rfl, rfl⟩, by decide, by decide, by decide, by decide, ⟨quiet_sound, fun _ => rfl, ⟨rfl, rfl⟩, by decide⟩, quiet_unwatched,
    dumpExample_wf false false, free_above 0x30000000 (by show ∀ r ∈ quiet.regions, _; decide) (by simp [dumpExample]), rfl⟩

end Verif.Props
