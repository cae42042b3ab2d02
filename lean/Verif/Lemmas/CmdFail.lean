import Verif.Lemmas.CmdEnd
/- Start-up with an image that cannot be loaded, and with a dump that cannot be read. -/
namespace Verif.CommandLine
open Verif MemSim Spec Libc Elf

theorem loadFileData_fails {name : Str} {p : Prog} {e : Exn} (h : fileComplaint p.host name = some e) :
    ∃ q, loadFileData name p = .throw e q ∧ q.memory = p.memory := by
  unfold fileComplaint at h
  unfold loadFileData loadFileBody
  simp only [M.bind_apply, onProg, onHost, M.zoom_apply, Host.fopen]
  cases ho : p.host.files.opens p.host.files.next name with
  | none =>
    rw [ho] at h
    cases h
    simp [loadFileCatch]
  | some f =>
    rw [ho] at h
    simp only at h
    simp only [M.modify_apply, Option.map_some, Option.isNone_some, Bool.false_eq_true, if_false, M.bind_apply, M.tryCatch_apply, fileSizeOf, getFileSize_eq]
    by_cases h1 : f.seekEndFails = true
    · rw [if_pos (.inl h1)] at h; cases h
      simp only [h1, if_true, M.throw_apply, Option.isSome_none, Option.isSome_some, catch_eq]
      exact ⟨_, rfl, rfl⟩
    · by_cases h2 : f.tell < 0
      · rw [if_pos (.inr (.inl h2))] at h; cases h
        simp only [h1, h2, Bool.false_eq_true, if_false, if_true, M.throw_apply, Option.isSome_none, Option.isSome_some, catch_eq]
        exact ⟨_, rfl, rfl⟩
      · by_cases h3 : f.seekSetFails = true
        · rw [if_pos (.inr (.inr h3))] at h; cases h
          simp only [h1, h2, h3, Bool.false_eq_true, if_false, if_true, M.throw_apply, Option.isSome_none, Option.isSome_some, catch_eq]
          exact ⟨_, rfl, rfl⟩
        · rw [if_neg (by rintro (h | h | h) <;> contradiction)] at h
          simp only [h1, h2, h3, Bool.false_eq_true, if_false, M.modify_apply, mallocP, onHost, Host.onMem, M.zoom_apply, malloc]
          by_cases h4 : p.host.mem.heap.fails p.host.mem.heap.next = true
          · rw [if_pos h4] at h; cases h
            simp only [h4, if_true, Bool.false_eq_true, if_false, M.throw_apply, Option.isSome_none, Option.isSome_some, catch_eq]
            exact ⟨_, rfl, rfl⟩
          · rw [if_neg h4] at h
            simp only [h4, Bool.false_eq_true, if_false, if_true, M.bind_apply, M.modify_apply, freadAll, Handle.read, Int.toNat_zero, List.drop_zero]
            by_cases h5 : (f.bytes.length : Int) < f.tell
            · rw [if_pos h5] at h; cases h
              have : (((f.bytes.take f.tell.toNat).length : Nat) : Int) ≠ f.tell := by
                rw [List.length_take]; omega
              simp only [ne_eq, this, not_false_eq_true, if_true, M.throw_apply, Option.isSome_some, catch_eq]
              exact ⟨_, rfl, rfl⟩
            · rw [if_neg h5] at h; cases h

theorem loadImageFile_fails {p : Prog} {name : Str} {e : Exn} (hn : p.elf = some name ∨ p.elf = none ∧ p.bin = some name)
    (h : fileComplaint p.host name = some e) : ∃ q, loadImageFile p = .throw e q := by
  obtain ⟨q, hq, -⟩ := loadFileData_fails h
  refine ⟨q, ?_⟩
  unfold loadImageFile
  rw [M.bind_ok (show (M.get : M Prog Prog) p = .ok p p from rfl)]
  rcases hn with hn | ⟨hn, hb⟩
  · rw [hn]; exact M.bind_throw hq
  · rw [hn, hb]; exact M.bind_throw hq

theorem readable {p : Prog} {f : File} {name : Str} (ho : p.host.files.opens p.host.files.next name = some f)
    (h : fileComplaint p.host name = none) : Whole f ∧ p.host.mem.heap.fails p.host.mem.heap.next = false := by
  unfold fileComplaint at h
  rw [ho] at h
  simp only at h
  by_cases h1 : f.seekEndFails = true ∨ f.tell < 0 ∨ f.seekSetFails = true
  · rw [if_pos h1] at h; cases h
  · rw [if_neg h1] at h
    by_cases h2 : p.host.mem.heap.fails p.host.mem.heap.next = true
    · rw [if_pos h2] at h; cases h
    · rw [if_neg h2] at h
      by_cases h3 : (f.bytes.length : Int) < f.tell
      · rw [if_pos h3] at h; cases h
      · simp only [not_or] at h1
        exact ⟨⟨by simpa using h1.1, by simpa using h1.2.2, by omega, by omega⟩, by simpa using h2⟩

theorem loadFileData_works {name : Str} {p : Prog} {f : File} (ho : p.host.files.opens p.host.files.next name = some f)
    (h : fileComplaint p.host name = none) : loadFileData name p = .ok ⟨f.bytes.take f.tell.toNat, f.tell⟩ (fileRead p 1 1) := by
  obtain ⟨hw, hm⟩ := readable ho h
  unfold loadFileData loadFileBody
  simp only [M.bind_apply, onProg, onHost, M.zoom_apply, Host.fopen, ho]
  simp only [M.modify_apply, Option.map_some, Option.isNone_some, Bool.false_eq_true, if_false, M.bind_apply, M.tryCatch_apply, fileSizeOf, getFileSize_eq]
  have h2 : ¬ f.tell < 0 := by have := hw.pos; omega
  simp only [hw.seekEnd, hw.seekSet, h2, Bool.false_eq_true, if_false, M.modify_apply, mallocP, onHost, Host.onMem, M.zoom_apply, malloc]
  simp only [hm, Bool.false_eq_true, if_false, if_true, M.bind_apply, M.modify_apply, freadAll, Handle.read, Int.toNat_zero, List.drop_zero]
  have h5 : (((f.bytes.take f.tell.toNat).length : Nat) : Int) = f.tell := by
    have := hw.len; have := hw.pos
    rw [List.length_take]; omega
  simp only [h5, ne_eq, not_true_eq_false, if_false]
  simp [fileRead, bumpHeap, Host.fclose, onProg, onHost]

theorem loadImageFile_works {p : Prog} {name : Str} {f : File} (hm : p.memory = true)
    (hn : p.elf = some name ∨ p.elf = none ∧ p.bin = some name) (ho : p.host.files.opens p.host.files.next name = some f)
    (h : fileComplaint p.host name = none) :
    loadImageFile p = match imageWork p f (bumpHeap p.host.mem 1 1) with
        | .ok _ s => .ok () (atMem p (bumpHeap s 0 (-1)))
        | .throw e s => .throw e (atMem p (bumpHeap s 0 (-1)))
        | .ub r => .ub r := by
  have hl := loadFileData_works ho h
  unfold loadImageFile
  rw [M.bind_ok (show (M.get : M Prog Prog) p = .ok p p from rfl)]
  rcases hn with hn | ⟨hn, hb⟩
  · rw [hn]
    simp only
    rw [M.bind_ok hl, withFree (p := fileRead p 1 1) hm]
    simp only [imageWork, hn]
    rfl
  · rw [hn, hb]
    simp only
    rw [M.bind_ok hl, M.tryCatch_apply, M.bind_apply, loadBinFile_eq (p := fileRead p 1 1) hm, ← M.bind_apply, ← M.tryCatch_apply, withFree (p := fileRead p 1 1) hm]
    simp only [imageWork, hn]
    rfl

theorem ordinary_readable {p : Prog} {n bytes : Str} (hi : OrdinaryFile p.host n bytes)
    (hm : p.host.mem.heap.fails p.host.mem.heap.next = false) : fileComplaint p.host n = none := by
  unfold fileComplaint
  rw [show p.host.files.opens p.host.files.next n = some (File.of bytes) from hi]
  simp only
  rw [if_neg (by simp [File.of]), if_neg (by rw [hm]; simp), if_neg (by simp [File.of])]

/-- Start-up stops where loading the image does. -/
theorem startUp_image_fails {args : List Str} {os : List Opt} {p q : Prog} {n d : Str} {e : Exn} (hs : Spelled args os)
    (hn : imageFile os = some n) (hd : lastDump os = some d) (h : loadImageFile (withMemory (chosen os p)) = .throw e q) :
    ∃ q, startUp args p = .throw e q := by
  rw [startUp_full hs hn hd]
  unfold memStages
  rw [M.bind_throw h]
  exact ⟨_, rfl⟩

theorem readerFor_eq (bytes name : Str) : (if [0x63, 0x43] <+: bytes then Dump.readBinary name
    else if asc "6343" <+: bytes then Dump.readHex name else GdbLog.parse name) = readerFor bytes name := by
  unfold readerFor
  by_cases c1 : [0x63, 0x43] <+: bytes
  · rw [if_pos c1, if_pos c1]
  · rw [if_neg c1, if_neg c1]
    by_cases c2 : asc "6343" <+: bytes
    · rw [if_pos c2, if_pos c2]
    · rw [if_neg c2, if_neg c2]

/-- Start-up after the image has been loaded. -/
theorem startUp_image_ok {args : List Str} {os : List Opt} {p : Prog} {n d : Str} {s : Sim} (hs : Spelled args os)
    (hn : imageFile os = some n) (hd : lastDump os = some d)
    (h : loadImageFile (withMemory (chosen os p)) = .ok () (atMem (withMemory (chosen os p)) s)) :
    match p.host.files.opens (p.host.files.next + 1) d with
    | none => ∃ q, startUp args p = .throw ⟨.file, (asc "Failed to open \"" ++ d ++ asc "\".").take 1023⟩ q
    | some f =>
      match readerFor f.bytes d (peeked (atMem (withMemory (chosen os p)) s).host) with
      | .ub r => startUp args p = .ub r
      | .throw e _ => ∃ q, startUp args p = .throw e q
      | .ok _ h2 =>
        match createAliases (aliases os) h2.mem with
        | .ub r => startUp args p = .ub r
        | .throw e _ => ∃ q, startUp args p = .throw e q
        | .ok _ s2 => ∃ q, startUp args p = .ok () q ∧ q.host = { h2 with mem := s2 } := by
  have hdump : (atMem (withMemory (chosen os p)) s).dump = some d := (chosen_dump os p).trans hd
  rw [startUp_full hs hn hd]
  unfold memStages
  rw [M.bind_ok h]
  cases ho : p.host.files.opens (p.host.files.next + 1) d with
  | none =>
    simp only
    rw [M.bind_throw (loadDumpFile_none hdump ho)]
    exact ⟨_, rfl⟩
  | some f =>
    have e1 := loadDumpFile_some hdump ho
    rw [onMemory_apply rfl, readerFor_eq] at e1
    simp only
    cases e3 : readerFor f.bytes d (peeked (atMem (withMemory (chosen os p)) s).host) with
    | ub r => rw [e3] at e1; rw [M.bind_ub e1]; rfl
    | throw x h' => rw [e3] at e1; rw [M.bind_throw e1]; exact ⟨_, rfl⟩
    | ok u h' =>
      rw [e3] at e1
      rw [M.bind_ok e1, addAliases_eq rfl]
      simp only
      cases e4 : createAliases (aliases os) h'.mem with
      | ub r => rfl
      | throw x s => exact ⟨_, rfl⟩
      | ok u s => exact ⟨_, rfl, rfl⟩

end Verif.CommandLine
