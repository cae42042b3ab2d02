import Verif.Lemmas.CmdFail
import Verif.Props.Alloc
import Verif.Props.ElfCut
/-
C54 and C78: how start-up ends, for images and dumps that cannot be read or loaded.
-/
namespace Verif.Props
open Verif MemSim Spec CommandLine

/-! ### C54 -/

/-- C54. With a valid image, the outcome of start-up is decided by the dump, whatever it contains: if it cannot be opened
that is the error; otherwise it is given to the reader for its first bytes, by the name on the command line, with the
image in memory and with cleared registers. The exception of that reader is start-up's, otherwise that of the first alias
that cannot be created. If there is none start-up succeeds, with the memory and registers that result. -/
theorem C54_reader_decides {args : List Str} {os : List Opt} {p : Prog} {n d bytes : Str} {blocks : List (U32 × List U8)}
    (hs : Spelled args os) (hn : imageFile os = some n) (hd : lastDump os = some d) (hi : OrdinaryFile p.host n bytes)
    (hb : ImageBlocks os bytes blocks) (hdj : Spec.Disjoint blocks) (hf : ∀ r ∈ blocks, Fits r) (hp : PlentyOfMemory p.host.mem) :
    ∃ h1 : Host, AddsReadOnly (MemSim.init p.host.mem.heap) h1.mem blocks ∧ HoldsBlocks h1.mem blocks ∧ h1.ctx = {} ∧
      h1.files = { p.host.files with next := p.host.files.next + 2 } ∧
      match p.host.files.opens (p.host.files.next + 1) d with
      | none => ∃ q, startUp args p = .throw ⟨.file, (asc "Failed to open \"" ++ d ++ asc "\".").take 1023⟩ q
      | some f =>
        match readerFor f.bytes d h1 with
        | .ub r => startUp args p = .ub r
        | .throw e _ => ∃ q, startUp args p = .throw e q
        | .ok _ h2 =>
          match createAliases (aliases os) h2.mem with
          | .ub r => startUp args p = .ub r
          | .throw e _ => ∃ q, startUp args p = .throw e q
          | .ok _ s2 => ∃ q, startUp args p = .ok () q ∧ q.host = { h2 with mem := s2 } := by
  obtain ⟨hlt, s1, w1, w2, w3, w4⟩ := image_loads (os := os) (p := p) hp hb hf hdj
  have himg : loadImageFile (withMemory (chosen os p)) = .ok () (atMem (withMemory (chosen os p)) (bumpHeap s1 0 (-1))) := by
    have hin : imageName (withMemory (chosen os p)) = some n := (chosen_image os p).trans hn
    rcases loadImageFile_cases (p := withMemory (chosen os p)) rfl (imageName_split hin) with ⟨e, k, h1, h2, h3⟩ | ⟨f, h1, h2, h3⟩
    · exact (h3 (File.of bytes) hi (whole_of bytes) hp).elim
    · have : f = File.of bytes := Option.some.inj (h1.symm.trans hi)
      subst this
      have he : imageWork (withMemory (chosen os p)) (File.of bytes) (bumpHeap (withMemory (chosen os p)).host.mem 1 1) = .ok () s1 := w1
      rw [h3, he]
  refine ⟨peeked (atMem (withMemory (chosen os p)) (bumpHeap s1 0 (-1))).host, ⟨blocks.map Elf.romRegion, w2, ?_⟩, ?_, rfl, rfl,
    startUp_image_ok hs hn hd himg⟩
  · rw [List.map_map]
    apply List.map_congr_left
    intro r hr
    have := hlt r hr
    simp [Elf.romRegion, Nat.mod_eq_of_lt this]
  · have hso : Sound s1 := by
      intro r hr
      rw [w2] at hr
      obtain ⟨b, hb', rfl⟩ := List.mem_map.1 hr
      exact Elf.rom_ok (hlt b hb')
    exact (Elf.rom_access_more (s' := (peeked (atMem (withMemory (chosen os p)) (bumpHeap s1 0 (-1))).host).mem) (zs := [])
      (Spec.Sound.congr hso rfl) (by show s1.hits < 2 ^ 31; rw [w3]; decide) (by rw [List.append_nil]; exact w2) hdj hlt).1

/-- The hypotheses are met by `--ELF e --dump d`, whether the file "d" can be opened or not. -/
example : ImageBlocks optsElf elfExample [(0x30000000, [1, 2, 3, 4, 5]), (0x30000100, [6, 7])] ∧
    OrdinaryFile progExample.host [0x65] elfExample ∧ OrdinaryFile progNoDump.host [0x65] elfExample ∧
    PlentyOfMemory progNoDump.host.mem :=
  ⟨⟨by decide +kernel, by decide +kernel, by decide +kernel, by rw [elfExample_blocks]; simp, elfExample_blocks.symm⟩,
    rfl, rfl, fun _ => rfl⟩

/-! ### C78 -/

/-- C78. An image that cannot be opened, measured, held in memory or read in full: start-up raises the exception that says so. -/
theorem C78_unreadable_image {args : List Str} {os : List Opt} {p : Prog} {n d : Str} {e : Exn} (hs : Spelled args os)
    (hn : imageFile os = some n) (hd : lastDump os = some d) (h : fileComplaint p.host n = some e) :
    ∃ q, startUp args p = .throw e q := by
  have hin : imageName (withMemory (chosen os p)) = some n := (chosen_image os p).trans hn
  obtain ⟨q, hq⟩ := loadImageFile_fails (p := withMemory (chosen os p)) (imageName_split hin) h
  exact startUp_image_fails hs hn hd hq

/-- A file of three bytes that claims to have four. -/
def progShort : Prog :=
  { host := { mem := MemSim.init goodHeap, files := { opens := fun _ _ => some { bytes := [1, 2, 3], tell := 4 } } } }

example : imageFile optsElf = some [0x65] ∧ lastDump optsElf = some [0x64] ∧
    fileComplaint progShort.host [0x65] = some ⟨.file, asc "Failed to read \"e\"."⟩ ∧
    fileComplaint (progHeap (failsAt 0)).host [0x65] =
      some ⟨.outOfMemory, asc "Failed to allocate " ++ asc (toString (elfExample.length : Int)) ++ asc " bytes for reading \"e\"."⟩ := by
  decide +kernel

/-- C78. An ELF file that can be read but is refused by the loader, with memory empty: the loader's exception is start-up's. -/
theorem C78_refused_elf {args : List Str} {os : List Opt} {p : Prog} {n d bytes : Str} {e : Exn} (hs : Spelled args os)
    (he : lastElf os = some n) (hd : lastDump os = some d) (hi : OrdinaryFile p.host n bytes)
    (hm : p.host.mem.heap.fails p.host.mem.heap.next = false)
    (h : ∀ s : Sim, s.regions = [] → s.heap.fails = p.host.mem.heap.fails → ∃ s', Elf.fromMemory bytes bytes.length s = .throw e s') :
    ∃ q, startUp args p = .throw e q := by
  have hn : imageFile os = some n := by rw [imageFile, he]; rfl
  have hin : imageName (withMemory (chosen os p)) = some n := (chosen_image os p).trans hn
  have helf : (withMemory (chosen os p)).elf = some n := (chosen_elf os p).trans he
  have hlen : (File.of bytes).tell.toNat = bytes.length := by simp [File.of]
  have htake : (File.of bytes).bytes.take (File.of bytes).tell.toNat = bytes := by rw [hlen]; simp [File.of]
  obtain ⟨s', hs'⟩ := h (bumpHeap (withMemory (chosen os p)).host.mem 1 1) rfl rfl
  have this : imageWork (withMemory (chosen os p)) (File.of bytes) (bumpHeap (withMemory (chosen os p)).host.mem 1 1) = .throw e s' := by
    unfold imageWork
    rw [helf, htake, hlen]
    exact hs'
  refine startUp_image_fails (q := atMem (withMemory (chosen os p)) (bumpHeap s' 0 (-1))) hs hn hd ?_
  rw [loadImageFile_works rfl (imageName_split hin) hi (ordinary_readable (p := withMemory (chosen os p)) hi hm), this]

/-- C78. In particular, an ELF file with a bad header. -/
theorem C78_bad_header {args : List Str} {os : List Opt} {p : Prog} {n d bytes m : Str} (hs : Spelled args os)
    (he : lastElf os = some n) (hd : lastDump os = some d) (hi : OrdinaryFile p.host n bytes)
    (hm : p.host.mem.heap.fails p.host.mem.heap.next = false) (hc : headerComplaint bytes = some m) :
    ∃ q, startUp args p = .throw ⟨.elfFormat, m⟩ q :=
  C78_refused_elf hs he hd hi hm fun s _ _ => ⟨s, C45_bad_header_refused hc⟩

example : lastElf optsElf = some [0x65] ∧ headerComplaint (elfExample.set 4 2) = some (asc "ELF header doesn't contain 32-bit flag.") :=
  ⟨rfl, by decide +kernel⟩

/-- C78. A raw image that is empty or runs past the end of the address space: start-up raises a bus error and names the base
address. -/
theorem C78_refused_raw_image {args : List Str} {os : List Opt} {p : Prog} {name base bytes d : Str} (h : Spelled args os)
    (he : lastElf os = none) (hb : lastBin os = some (name, base)) (hd : lastDump os = some d)
    (hf : OrdinaryFile p.host name bytes) (hl : bytes.length < 2 ^ 32)
    (hbad : bytes = [] ∨ 2 ^ 32 < (Libc.strtoul32 base).toNat + bytes.length) (hp : PlentyOfMemory p.host.mem) :
    ∃ q, startUp args p = .throw ⟨.busError, rawComplaint (Libc.strtoul32 base)⟩ q := by
  have hn : imageFile os = some name := by rw [imageFile, he, hb]; rfl
  have hin : imageName (withMemory (chosen os p)) = some name := (chosen_image os p).trans hn
  have helf : (withMemory (chosen os p)).elf = none := (chosen_elf os p).trans he
  have hbase : (withMemory (chosen os p)).baseAddress = Libc.strtoul32 base := by
    show (chosen os p).baseAddress = _
    rw [chosen_base, hb]; rfl
  have hlen : (File.of bytes).tell.toNat = bytes.length := by simp [File.of]
  have htake : (File.of bytes).bytes.take (File.of bytes).tell.toNat = bytes := by rw [hlen]; simp [File.of]
  have hnn : (BitVec.ofInt 32 (File.of bytes).tell).toNat = bytes.length := by
    rw [ofInt_toNat (whole_of bytes) (by rw [hlen]; exact hl), hlen]
  obtain ⟨e, s', h1, h2⟩ := loadSegment_refused (s := bumpHeap (withMemory (chosen os p)).host.mem 1 1) rfl (a := Libc.strtoul32 base)
    (n := BitVec.ofInt 32 (File.of bytes).tell) (data := bytes) (by rw [hnn]; exact Nat.le_refl _) (by
      rw [hnn]
      rcases hbad with hbad | hbad
      · exact .inl (by rw [hbad]; rfl)
      · exact .inr hbad)
  have this : imageWork (withMemory (chosen os p)) (File.of bytes) (bumpHeap (withMemory (chosen os p)).host.mem 1 1) =
      .throw ⟨e.code, rawComplaint (Libc.strtoul32 base)⟩ s' := by
    unfold imageWork binWork
    rw [helf, htake, hbase]
    simp only [M.tryCatch_apply, h1, fmt08X_eq]
    rfl
  obtain ⟨q, hq⟩ := startUp_image_fails (p := p) (q := atMem (withMemory (chosen os p)) (bumpHeap s' 0 (-1)))
    (e := ⟨e.code, rawComplaint (Libc.strtoul32 base)⟩) h hn hd (by
      rw [loadImageFile_works rfl (imageName_split hin) hf (ordinary_readable (p := withMemory (chosen os p)) hf (hp _)), this])
  have hr := C75_start_up args.length args p
  rw [show CommandLine.init args.length args p = _ from hq] at hr
  have hc : e.code = .busError := by
    simp only [List.mem_cons, List.not_mem_nil, or_false] at h2
    rcases h2 with h2 | h2
    · exact h2
    · obtain ⟨k, -, -, hk⟩ := hr.1 h2
      rw [hp] at hk; cases hk
  rw [hc] at hq
  exact ⟨q, hq⟩

/-- Six bytes at 0xFFFFFFFB. -/
example : 2 ^ 32 < (Libc.strtoul32 (asc "0xFFFFFFFB")).toNat + [1, 2, 3, 4, 5, 6].length ∧
    rawComplaint (Libc.strtoul32 (asc "0xFFFFFFFB")) =
      asc "Failed to load read-only code into memory region at address 0xFFFFFFFB." := by decide +kernel

end Verif.Props
