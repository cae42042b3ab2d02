import Verif.Lemmas.LongLog
import Verif.Props.LineEnds
/-
C115: the width of the host's `unsigned long` does not matter for numbers of at most 32 bits.
-/
namespace Verif.Props
open Verif MemSim Spec Host Main Platform CommandLine Elf

/-- C115. On hosts whose `unsigned long` has 32 bits or more, start-up ends in the same way - same registers, memory, output, message,
everything - if the numbers on the command line and in the log have at most 32 bits. The files can be anything, and so can the
words that are not part of a complete option. -/
theorem C115_start_up {args : List Str} {p : Prog} {w w' : Nat} (h1 : WordsFit args) (h2 : DumpFits args p) (hw : 32 ≤ w) (hw' : 32 ≤ w') :
    startUpW w args p = startUpW w' args p := by
  rw [initW_fits hw h1 h2, initW_fits hw' h1 h2]

/-- C115. The other properties of start-up are about hosts whose `unsigned long` has 64 bits. They hold on all hosts for these numbers,
since there start-up is the same. -/
theorem C115_64 (args : List Str) (p : Prog) : startUpW 64 args p = startUp args p := congrFun (initW_64 _ _) p

/-- C115. With a raw image or an ELF file, and a dump made by CrashCatcher, the words of the command line are all that matters. -/
theorem C115_dump {args : List Str} {os : List Opt} {p : Prog} {d bytes : Str} {w : Nat} (hs : Spelled args os) (ho : ∀ o ∈ os, OptFits o)
    (hd : lastDump os = some d) (hf : OnDisk p.host d bytes) (hb : [0x63, 0x43] <+: bytes ∨ asc "6343" <+: bytes) (hw : 32 ≤ w) :
    startUpW w args p = startUp args p := by
  refine initW_fits hw (words_fit hs ho) ?_
  intro os' d' f0 f hs' hd' hf0 h1 h2 _
  cases spelled_unique hs hs'
  cases hd.symm.trans hd'
  cases (hf _).symm.trans hf0
  exact hb.elim (fun h => absurd h h1) fun h => absurd h h2

/-- C115. Logs as GDB writes them are such logs. -/
theorem C115_log {args : List Str} {os : List Opt} {p : Prog} {d : Str} {ls : List LogLine} {w : Nat} (hs : Spelled args os)
    (ho : ∀ o ∈ os, OptFits o) (hd : lastDump os = some d) (hf : OnDisk p.host d (logText ls)) (hl : LogOK ls) (hw : 32 ≤ w) :
    startUpW w args p = startUp args p := by
  refine initW_fits hw (words_fit hs ho) ?_
  intro os' d' f0 f hs' hd' _ _ _ hf1
  cases spelled_unique hs hs'
  cases hd.symm.trans hd'
  cases (hf _).symm.trans hf1
  exact GdbLog.log_fits hl

/-- The number on the command line of the examples has at most 32 bits. -/
theorem optsBin_fit : ∀ o ∈ optsBin, OptFits o := by
  have := GdbLog.hex_fits (w := []) (n := asc "0x100") (v := 0x100) (rest := []) (by intro c hc; cases hc) (hexNum_mk (ds := asc "100") (by decide +kernel))
    (by intro c t e; cases e)
  simp only [optsBin, List.mem_cons, List.not_mem_nil, or_false, forall_eq_or_imp, forall_eq]
  exact ⟨trivial, (by simpa using this : NumFits (asc "0x100"))⟩

/-- What start-up ends with in R15, and with how many regions, if `unsigned long` has `w` bits. -/
def pcAfter (w : Nat) (text : Str) : Option (Option U32 × Nat) :=
  match startUpW w argsBin (progText text) with
  | .ok _ q => some (q.host.ctx.r[15]?, q.host.mem.regions.length)
  | _ => none

/-- The hypotheses are met by a log with memory and registers, and start-up succeeds on a host of 32 bits. -/
example : startUpW 32 argsBin (progText (logText gdbExample)) = startUp argsBin (progText (logText gdbExample)) ∧
    pcAfter 32 (logText gdbExample) = some (some 0x30000000, 3) :=
  ⟨C115_log (d := [0x64]) spelledBin optsBin_fit rfl (fun _ => rfl) gdbExample_ok (by decide), by decide +kernel⟩

/-- The hypotheses are met by a dump in hexadecimal, and start-up succeeds. -/
example : startUpW 32 argsBin (progText hexDump) = startUp argsBin (progText hexDump) ∧ pcAfter 32 hexDump = some (some 0x11111111, 1) :=
  ⟨C115_dump (d := [0x64]) (bytes := hexDump) spelledBin optsBin_fit rfl (fun _ => rfl) (.inr (by decide +kernel)) (by decide), by decide +kernel⟩

/-- Negative numbers are covered. -/
example : NumFits (asc "-5 0x7") ∧ Libc.strtoulW32 32 (asc "-5 0x7") = 0xFFFFFFFB ∧ Libc.strtoulW32 64 (asc "-5 0x7") = 0xFFFFFFFB := by
  refine ⟨?_, by decide +kernel, by decide +kernel⟩
  intro m n r hb
  have e := congrArg Prod.fst (Libc.strtoulW_begins (w := 32) hb)
  rw [show (Libc.strtoulW 32 (asc "-5 0x7")).1 = 4294967291 by decide +kernel] at e
  by_cases hn : 2 ^ 32 ≤ n
  · rw [if_pos hn] at e; omega
  · omega

/-- C115. Larger numbers do differ: with R15 given as 0x130000005 in a log, GDB is shown 0x30000005 on a host of 64 bits, and 0xFFFFFFFF on
a host of 32 bits. -/
theorem C115_large_witness : pcAfter 64 (asc "pc             0x130000005\n") = some (some 0x30000005, 1) ∧
    pcAfter 32 (asc "pc             0x130000005\n") = some (some 0xFFFFFFFF, 1) := ⟨by decide +kernel, by decide +kernel⟩

end Verif.Props
