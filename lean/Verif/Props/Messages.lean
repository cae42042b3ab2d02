import Verif.Lemmas.Msg
import Verif.Props.StartFail
/-
C94: what an exception says fits the buffer that it is kept in.
-/
namespace Verif.Props
open Verif MemSim Spec CommandLine

/-! ### C94 -/

/-- C94. The message of an exception raised by a call of the memory simulator has at most 1023 characters, so it fits the
buffer of 1024 bytes with the NUL that ends it. -/
theorem C94_simulator_calls {c : Call} {s s' : Sim} {e : Exn} (h : c.run s = .throw e s') : e.msg.length ≤ 1023 :=
  (brief_call c).all _ _ _ h

/-- A call that raises an exception. -/
example : ∃ e s', (Call.makeReadOnly 0).run (MemSim.init goodHeap) = .throw e s' := ⟨_, _, rfl⟩

/-- C94. So do those of the ELF loader, whatever bytes and length it is given. -/
theorem C94_elf_loader {b : Str} {n : Nat} {s s' : Sim} {e : Exn} (h : Elf.fromMemory b n s = .throw e s') : e.msg.length ≤ 1023 :=
  (Elf.brief_fromMemory b n).all _ _ _ h

example : ∃ e s', Elf.fromMemory (elfExample.take 51) 51 (MemSim.init goodHeap) = .throw e s' :=
  ⟨_, _, C45_bad_header_refused (b := elfExample.take 51) (m := asc "ELF was too short to contain valid header.") (by decide +kernel)⟩

/-- C94. So do those of the readers for dumps and logs, whatever file of whatever name they are given. -/
theorem C94_crash_readers {name : Str} {h h' : Host} {e : Exn}
    (he : Dump.readBinary name h = .throw e h' ∨ Dump.readHex name h = .throw e h' ∨ GdbLog.parse name h = .throw e h') :
    e.msg.length ≤ 1023 := by
  rcases he with he | he | he
  · exact (Dump.brief_file ..).all _ _ _ he
  · exact (Dump.brief_file ..).all _ _ _ he
  · exact (GdbLog.brief_parse _).all _ _ _ he

/-- A file with a name of a million characters that cannot be opened. -/
example : ∃ (name : Str) (h : Host) (e : Exn) (h' : Host), name.length = 1000000 ∧ Dump.readBinary name h = .throw e h' := by
  obtain ⟨h', h1, -⟩ := C34_cannot_open (h := { mem := demo, files := { opens := fun _ _ => none } }) (name := List.replicate 1000000 0x61) rfl
  exact ⟨_, _, _, h', List.length_replicate, h1⟩

/-- C94. A start-up that fails shows the message of its exception, from the first to the last character, and the message
has at most 1023 of them. -/
theorem C94_start_up {args : List Str} {p q : Prog} {e : Exn} (h : startUp args p = .throw e q) :
    e.msg.length ≤ 1023 ∧ q.err = p.err ++ (asc "ERROR: " ++ e.msg ++ asc "\n" ++ copyrightNotice ++ usage) := by
  have h1 : e.msg.length ≤ 1023 := (brief_init _ _).all _ _ _ h
  refine ⟨h1, ?_⟩
  rw [(C50_failed_start_up h).2.1, List.take_of_length_le h1]

example : ∃ e q, startUp argsElf progNoDump = .throw e q := progNoDump_fails.elim fun e h => h.elim fun q h => ⟨e, q, h.1⟩

/-- C94. A dump that cannot be opened: what is shown names the file in full if its name has at most 1007 characters,
otherwise as much of it as fits. -/
theorem C94_long_file_name {args : List Str} {os : List Opt} {p : Prog} {n d bytes : Str} {blocks : List (U32 × List U8)}
    (hs : Spelled args os) (hn : imageFile os = some n) (hd : lastDump os = some d) (hi : OrdinaryFile p.host n bytes)
    (hb : ImageBlocks os bytes blocks) (hdj : Spec.Disjoint blocks) (hf : ∀ r ∈ blocks, Spec.Fits r) (hp : PlentyOfMemory p.host.mem)
    (hnone : p.host.files.opens (p.host.files.next + 1) d = none) :
    ∃ q msg, startUp args p = .throw ⟨.file, msg⟩ q ∧
      (d.length ≤ 1005 → msg = asc "Failed to open \"" ++ d ++ asc "\".") ∧
      (d.length = 1006 → msg = asc "Failed to open \"" ++ d ++ asc "\"") ∧
      (1007 ≤ d.length → msg = asc "Failed to open \"" ++ d.take 1007) := by
  obtain ⟨h1, -, -, -, -, h2⟩ := C54_reader_decides hs hn hd hi hb hdj hf hp
  rw [hnone] at h2
  obtain ⟨q, hq⟩ := h2
  have l1 : (asc "Failed to open \"").length = 16 := by decide
  have l2 : (asc "\".").length = 2 := by decide
  refine ⟨q, _, hq, fun h => ?_, fun h => ?_, fun h => ?_⟩
  · exact List.take_of_length_le (by simp only [List.length_append, l1, l2]; omega)
  · rw [List.take_append, List.take_of_length_le (by simp only [List.length_append, l1]; omega), List.length_append, l1, h]
    rfl
  · rw [List.take_append_of_le_length (by simp only [List.length_append, l1]; omega), List.take_append, l1,
      List.take_of_length_le (by omega : (asc "Failed to open \"").length ≤ 1023)]

/-- A dump whose name has 2000 characters. -/
example : ∃ q, startUp [asc "--ELF", [0x65], asc "--dump", List.replicate 2000 0x78] progNoDump =
    .throw ⟨.file, asc "Failed to open \"" ++ List.replicate 1007 0x78⟩ q := by
  obtain ⟨q, msg, h, -, -, h2⟩ := C94_long_file_name (args := [asc "--ELF", [0x65], asc "--dump", List.replicate 2000 0x78])
    (os := [.elf [0x65], .dump (List.replicate 2000 0x78)]) (p := progNoDump) (n := [0x65]) (d := List.replicate 2000 0x78)
    (bytes := elfExample) (blocks := [(0x30000000, [1, 2, 3, 4, 5]), (0x30000100, [6, 7])])
    (.cons (o := .elf _) (spells .elf (by decide +kernel)) (.cons (o := .dump _) (spells .dump (by decide +kernel)) .nil)) rfl rfl rfl
    ⟨by decide +kernel, by decide +kernel, by decide +kernel, by rw [elfExample_blocks]; simp, elfExample_blocks.symm⟩
    (by rw [← elfExample_blocks]; exact elfExample_disjoint) (by simp [Spec.Fits]) (fun _ => rfl) (by decide +kernel)
  refine ⟨q, ?_⟩
  rw [h, h2 (by rw [List.length_replicate]; omega), List.take_replicate, show min 1007 2000 = 1007 by decide]

end Verif.Props
