import Verif.Lemmas.CmdFail
import Verif.Lemmas.Says
import Verif.Props.SaysWhy
import Verif.Props.Alloc
/-
C108 on any machine: whatever allocations fail, whatever the files are and whatever operations on them fail.
-/
namespace Verif.Props
open Verif MemSim Spec CommandLine

theorem says_aliases (as : List (U32 × U32 × U32)) : Raises Says (createAliases as) := by
  induction as with
  | nil => exact .pure ..
  | cons a as ih =>
    refine Raises.bind (.catchAny fun e => .throw ?_) fun _ => ih
    unfold aliasComplaint
    simp only [List.append_assoc]
    says

/-- C108. On any machine, a start-up that fails without saying why ran out of memory, or was refused a word of memory, while it
loaded an ELF file or a log; or the dump was hexadecimal and, when it was opened for the second time, it was spoiled. -/
theorem C108_any_machine {args : List Str} {p q : Prog} {e : Exn} (h : startUp args p = .throw e q) (h0 : e.msg = []) :
    ∃ os, Spelled args os ∧
      ((lastElf os).isSome ∧ e.code ∈ [Exc.outOfMemory, .busError] ∨
        ∃ d f g, lastDump os = some d ∧ p.host.files.opens (p.host.files.next + 1) d = some f ∧
          p.host.files.opens (p.host.files.next + 2) d = some g ∧ ¬ [0x63, 0x43] <+: f.bytes ∧
          (asc "6343" <+: f.bytes → ∃ bytes, Spoiled g.bytes bytes) ∧
          (¬ asc "6343" <+: f.bytes → e.code ∈ [Exc.outOfMemory, .busError])) := by
  rcases split_args args with ⟨os, hs⟩ | ⟨pre, os, rest, m, rfl, hs, hst⟩
  · cases hn : imageFile os with
    | none =>
      rw [startUp_noImage hs hn] at h
      cases h
      exact absurd h0 (by decide +kernel)
    | some n =>
      cases hd : lastDump os with
      | none =>
        rw [startUp_noDump hs hn hd] at h
        cases h
        exact absurd h0 (by decide +kernel)
      | some d =>
        refine ⟨os, hs, ?_⟩
        cases hi : loadImageFile (withMemory (chosen os p)) with
        | ub r =>
          rw [startUp_full hs hn hd] at h
          unfold memStages at h
          rw [M.bind_ub hi] at h
          cases h
        | throw e' q' =>
          obtain ⟨q2, h2⟩ := startUp_image_fails hs hn hd hi
          rw [h2] at h
          cases h
          rcases loads_image hi with h | ⟨h1, h2⟩
          · exact absurd h0 h
          · refine .inl ⟨?_, h2⟩
            have : (chosen os p).elf = lastElf os := chosen_elf os p
            rw [← this]
            exact h1
        | ok u q' =>
          have hq : ∃ s, q' = atMem (withMemory (chosen os p)) s := by
            rcases loadImageFile_cases (p := withMemory (chosen os p)) rfl (imageName_split (p := chosen os p) (n := n) (by rw [chosen_image]; exact hn))
              with ⟨e', k, h1, -⟩ | ⟨f, -, -, h3⟩
            · rw [h1] at hi; cases hi
            · rw [h3] at hi
              split at hi <;> cases hi
              exact ⟨_, rfl⟩
          obtain ⟨s, rfl⟩ := hq
          have hm := startUp_image_ok hs hn hd hi
          cases ho : p.host.files.opens (p.host.files.next + 1) d with
          | none =>
            rw [ho] at hm
            obtain ⟨q2, h2⟩ := hm
            rw [h2] at h
            cases h
            exact absurd h0 (open_says _)
          | some f =>
            rw [ho] at hm
            dsimp only at hm
            cases e3 : readerFor f.bytes d (peeked (atMem (withMemory (chosen os p)) s).host) with
            | ub r => rw [e3] at hm; dsimp only at hm; rw [hm] at h; cases h
            | ok u h2 =>
              rw [e3] at hm
              dsimp only at hm
              cases e4 : createAliases (aliases os) h2.mem with
              | ub r => rw [e4] at hm; dsimp only at hm; rw [hm] at h; cases h
              | ok u s2 =>
                rw [e4] at hm
                dsimp only at hm
                obtain ⟨q2, h2, -⟩ := hm
                rw [h2] at h
                cases h
              | throw e' s2 =>
                rw [e4] at hm
                dsimp only at hm
                obtain ⟨q2, h2⟩ := hm
                rw [h2] at h
                cases h
                exact absurd h0 ((says_aliases _).all _ _ _ e4)
            | throw e' h2 =>
              rw [e3] at hm
              dsimp only at hm
              obtain ⟨q2, h2⟩ := hm
              have hc := startUp_throw h
              rw [h2] at h
              cases h
              unfold readerFor at e3
              by_cases c1 : [0x63, 0x43] <+: f.bytes
              · rw [if_pos c1] at e3
                exact absurd h0 (Dump.says_binary e3)
              · rw [if_neg c1] at e3
                by_cases c2 : asc "6343" <+: f.bytes
                · rw [if_pos c2] at e3
                  rcases Dump.says_hex e3 with h | ⟨g, hg, hb⟩
                  · exact absurd h0 h
                  · exact .inr ⟨d, f, g, hd, ho, hg, c1, fun _ => hb, fun h => absurd c2 h⟩
                · rw [if_neg c2] at e3
                  rcases GdbLog.parses_parse e3 with h | ⟨⟨g, hg⟩, hb⟩
                  · exact absurd h0 h
                  · refine .inr ⟨d, f, g, hd, ho, hg, c1, fun h => absurd h c2, fun _ => ?_⟩
                    have hx : e.code = .invalidArgument ∨ e.code ∈ startCodes := by
                      rcases hc with ⟨_, h, -⟩ | ⟨_, _, _, _, _, _, _, _, _, _, _, h⟩
                      · exact .inl h
                      · exact .inr h
                    revert hb hx
                    generalize e.code = c
                    cases c <;> decide
  · rw [startUp_stuck hs hst] at h
    cases h
    exact absurd h0 (stuck_says hst)

/-- C108. With a raw image and a binary dump, a start-up that fails says why, after "ERROR: ", on any machine. What is missing: ELF
files, hexadecimal dumps and logs. -/
theorem C108_raw_and_binary_partial {args : List Str} {os : List Opt} {p q : Prog} {e : Exn} (hs : Spelled args os) (hl : lastElf os = none)
    (hd : ∀ d f, lastDump os = some d → p.host.files.opens (p.host.files.next + 1) d = some f → [0x63, 0x43] <+: f.bytes)
    (h : startUp args p = .throw e q) :
    e.msg ≠ [] ∧ q.err = p.err ++ (asc "ERROR: " ++ e.msg ++ asc "\n" ++ copyrightNotice ++ usage) := by
  refine ⟨fun h0 => ?_, (C94_start_up h).2⟩
  obtain ⟨os', hs', h | ⟨d, f, g, h1, h2, -, h3, -⟩⟩ := C108_any_machine h h0
  · cases spelled_unique hs' hs
    rw [hl] at h
    exact absurd h.1 (by decide)
  · cases spelled_unique hs' hs
    exact h3 (hd d f h1 h2)

/-- `progOver` with another heap. -/
def progOverHeap (text : Str) (h : Heap) : Prog := { progOver text with host := { (progOver text).host with mem := MemSim.init h } }

/-- For instance, if there is no memory for the dump's block. -/
example : ∃ e q, startUp (argsRedirect (asc "0x10")) (progOverHeap (encode dumpOne) (failsAt 4)) = .throw e q ∧ e.code = .outOfMemory ∧
    e.msg ≠ [] := by
  have h : raised (startUp (argsRedirect (asc "0x10")) (progOverHeap (encode dumpOne) (failsAt 4))) = some .outOfMemory := by decide +kernel
  cases hx : startUp (argsRedirect (asc "0x10")) (progOverHeap (encode dumpOne) (failsAt 4)) with
  | ok a s => rw [hx] at h; cases h
  | ub r => rw [hx] at h; cases h
  | throw e q =>
    rw [hx] at h
    refine ⟨e, q, rfl, Option.some.inj h, (C108_raw_and_binary_partial (spelledRedirect _) rfl ?_ hx).1⟩
    intro d f hd hf
    cases (hd : some [0x64] = some d)
    cases hf
    decide +kernel

/-- What an execution said when it failed. -/
def said : Out σ α → Option (Exc × Str)
  | .throw e _ => some (e.code, e.msg)
  | _ => none

theorem said_eq {m : Out σ α} {c : Exc} {t : Str} (h : said m = some (c, t)) : ∃ s, m = .throw ⟨c, t⟩ s := by
  cases m with
  | throw e s => cases h; exact ⟨s, rfl⟩
  | ok a s => cases h
  | ub r => cases h

/-- C108. When memory runs out while the ELF file is loaded, after the file has been read, the user sees "ERROR: " and nothing else. -/
theorem C108_elf_memory_witness : ∃ q, startUp argsElf (progHeap (failsAt 1)) = .throw ⟨.outOfMemory, []⟩ q := said_eq (by decide +kernel)

end Verif.Props
