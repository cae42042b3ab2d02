import Verif.Spec.Overread
import Verif.Props.StartFail
import Verif.Props.Deterministic
/-
C46, C71 and C82: exactly which ELF files make the program read outside of the file's contents.
-/
namespace Verif.Props
open Verif MemSim Spec Elf CommandLine Main Platform

theorem progHeaders_length (b : Str) : (progHeaders b).length = phnum b := by simp [progHeaders]

theorem byteIn_block {b : Str} {h : ProgHeader} {a : U32} (hp : h.paddr < 2 ^ 32) (hx : (byteIn (h.block b) a).isSome) :
    h.paddr ≤ a.toNat ∧ a.toNat < h.paddr + h.filesz := by
  have h1 := Dump.byteIn_iff.1 hx
  simp only [ProgHeader.block, List.length_take, List.length_drop, BitVec.toNat_ofNat, Nat.mod_eq_of_lt hp] at h1
  omega

theorem paddr_lt {b : Str} {h : ProgHeader} (hh : h ∈ progHeaders b) : h.paddr < 2 ^ 32 := by
  obtain ⟨j, -, rfl⟩ := List.mem_map.1 hh
  exact (progHeader_lt b (entryAt b j)).2.2

theorem apart_none {b : Str} {g h : ProgHeader} (hg : g.paddr < 2 ^ 32) (hh : h.paddr < 2 ^ 32)
    (ha : g.paddr + g.filesz ≤ h.paddr ∨ h.paddr + h.filesz ≤ g.paddr) (a : U32) :
    byteIn (g.block b) a = none ∨ byteIn (h.block b) a = none := by
  cases e1 : byteIn (g.block b) a with
  | none => exact .inl rfl
  | some x =>
    cases e2 : byteIn (h.block b) a with
    | none => exact .inr rfl
    | some y =>
      have k1 := byteIn_block hg (by rw [e1]; rfl)
      have k2 := byteIn_block hh (by rw [e2]; rfl)
      omega

/-- Blocks of the segments before number `i`. -/
theorem apart_disjoint {b : Str} (ha : SegmentsApart b) (i : Nat) : Spec.Disjoint (blocksUpTo b i) := by
  unfold Spec.Disjoint blocksUpTo
  rw [List.pairwise_map]
  have h1 : (((progHeaders b).take i).filter ProgHeader.loadable).Pairwise
      (fun g h => g.paddr + g.filesz ≤ h.paddr ∨ h.paddr + h.filesz ≤ g.paddr) :=
    ha.2.sublist ((List.take_sublist i _).filter _)
  refine h1.imp_of_mem fun hg hh k a => ?_
  exact apart_none (paddr_lt (List.mem_of_mem_take (List.mem_filter.1 hg).1))
    (paddr_lt (List.mem_of_mem_take (List.mem_filter.1 hh).1)) k a

theorem empty_unmapped {s : Sim} (hr : s.regions = []) (a : U32) (n : Nat) : ¬ Mapped s a n := by
  rintro ⟨r, hm, -⟩
  rw [hr] at hm
  cases hm

theorem apart_free {b : Str} {s : Sim} (hr : s.regions = []) (ha : SegmentsApart b) (i : Nat) : Free s (blocksUpTo b i) := by
  intro r hm
  refine ⟨?_, fun a _ => empty_unmapped hr a 1⟩
  obtain ⟨h, hh, rfl⟩ := List.mem_map.1 hm
  obtain ⟨h1, h2⟩ := List.mem_filter.1 hh
  have := ha.1 h (List.mem_of_mem_take h1) h2
  have hp := paddr_lt (List.mem_of_mem_take h1)
  simp only [Fits, ProgHeader.block, List.length_take, List.length_drop, BitVec.toNat_ofNat, Nat.mod_eq_of_lt hp]
  omega

theorem blocksUpTo_all (b : Str) : blocksUpTo b (phnum b) = elfBlocks b := by
  unfold blocksUpTo elfBlocks
  rw [List.take_of_length_le (by rw [progHeaders_length]; exact Nat.le_refl _)]

/-- Either everything is in order, or there is a first program header that is not. -/
theorem first_bad (b : Str) : (TableInside b ∧ ContentsInside b) ∨
    ∃ i h, (progHeaders b)[i]? = some h ∧ GoodUpTo b i ∧
      (b.length < entryAt b i + 32 ∨ entryAt b i + 32 ≤ b.length ∧ h.loadable = true ∧ b.length < h.offset + h.filesz) := by
  have key : ∀ n ≤ phnum b, GoodUpTo b n ∨ ∃ i h, (progHeaders b)[i]? = some h ∧ GoodUpTo b i ∧
      (b.length < entryAt b i + 32 ∨ entryAt b i + 32 ≤ b.length ∧ h.loadable = true ∧ b.length < h.offset + h.filesz) := by
    intro n
    induction n with
    | zero => exact fun _ => .inl ⟨fun j hj => absurd hj (Nat.not_lt_zero j), fun h hm => by simp at hm⟩
    | succ n ih =>
      intro hn
      rcases ih (by omega) with hg | hb
      · have hlt : n < (progHeaders b).length := by rw [progHeaders_length]; omega
        obtain ⟨h, hh⟩ : ∃ h, (progHeaders b)[n]? = some h := ⟨_, List.getElem?_eq_getElem hlt⟩
        by_cases c1 : b.length < entryAt b n + 32
        · exact .inr ⟨n, h, hh, hg, .inl c1⟩
        · by_cases c2 : h.loadable = true ∧ b.length < h.offset + h.filesz
          · exact .inr ⟨n, h, hh, hg, .inr ⟨by omega, c2⟩⟩
          · refine .inl ⟨?_, ?_⟩
            · intro j hj
              rcases Nat.lt_succ_iff_lt_or_eq.1 hj with k | rfl
              · exact hg.1 j k
              · omega
            · intro x hx hl
              rw [List.take_succ, hh] at hx
              rcases List.mem_append.1 hx with k | k
              · exact hg.2 x k hl
              · have : x = h := by simpa using k
                subst this
                have := Nat.not_lt.1 fun k' => c2 ⟨hl, k'⟩
                exact this
      · exact .inr hb
  rcases key (phnum b) (Nat.le_refl _) with hg | hb
  · refine .inl ⟨hg.1, fun h hm => hg.2 h ?_⟩
    rw [List.take_of_length_le (by rw [progHeaders_length]; exact Nat.le_refl _)]
    exact hm
  · exact .inr hb

/-- C46. Into an empty simulator, with memory on the host, a file whose segments have addresses of their own is loaded by reading
outside of its contents exactly if the first thing that is not in order is a segment that wraps around. (A file of about 4 GiB
in which a program header itself wraps around is left out, see `entryWraps`.) -/
theorem C46_overreads_iff {b : Str} {s : Sim} (hr : s.regions = []) (hp : PlentyOfMemory s)
    (hb : ∀ i < phnum b, entryWraps b i = false) (ha : SegmentsApart b) :
    (∃ r, fromMemory b b.length s = .ub r) ↔ WrapsFirst b := by
  have hs : Sound s := by
    intro r hm
    rw [hr] at hm
    cases hm
  constructor
  · rintro ⟨r, hu⟩
    cases hc : headerComplaint b with
    | some m => rw [C45_bad_header_refused hc] at hu; cases hu
    | none =>
      rcases first_bad b with ⟨ht, hi⟩ | ⟨i, h, hi, hg, hbad⟩
      · exfalso
        by_cases hne : elfBlocks b = []
        · have hn : ∀ h ∈ progHeaders b, h.loadable = false := by
            intro h hm
            unfold elfBlocks at hne
            rw [List.map_eq_nil_iff, List.filter_eq_nil_iff] at hne
            simpa using hne h hm
          rw [C47_nothing_to_load_refused hc ht hn] at hu
          cases hu
        · obtain ⟨k, l, e⟩ := fromMemory_loads hs hp hc ht hi hne (by rw [← blocksUpTo_all]; exact apart_free hr ha _)
            (by rw [← blocksUpTo_all]; exact apart_disjoint ha _)
          rw [e] at hu
          cases hu
      · have hlt : i < phnum b := by
          rw [← progHeaders_length]
          exact (List.getElem?_eq_some_iff.1 hi).1
        rcases hbad with hbad | ⟨hin, hl, hcut⟩
        · obtain ⟨s', e, -⟩ := C77_cut_in_the_table hs hp hc hlt hg (apart_free hr ha i) (apart_disjoint ha i) hbad (hb i hlt)
          rw [e] at hu
          cases hu
        · cases hw : h.wraps b with
          | true => exact ⟨hc, i, h, hi, hg, hin, hl, hw⟩
          | false =>
            obtain ⟨s', e, -⟩ := C77_cut_in_the_contents hs hp hc hi hg (apart_free hr ha i) (apart_disjoint ha i) hin hl hcut hw
            rw [e] at hu
            cases hu
  · rintro ⟨hc, i, h, hi, hg, hin, hl, hw⟩
    have hm : h ∈ progHeaders b := List.mem_of_getElem? hi
    refine ⟨.outOfBounds, C46_wrapping_segment_overreads hs hp hc hi hg (apart_free hr ha i) (apart_disjoint ha i) hin hl hw (ha.1 h hm hl) ?_⟩
    intro x h1 h2
    refine ⟨empty_unmapped hr x 1, fun r hrm => ?_⟩
    obtain ⟨g, hgm, rfl⟩ := List.mem_map.1 hrm
    obtain ⟨hg1, hg2⟩ := List.mem_filter.1 hgm
    have hap : g.paddr + g.filesz ≤ h.paddr ∨ h.paddr + h.filesz ≤ g.paddr := by
      obtain ⟨hlt, hget⟩ := List.getElem?_eq_some_iff.1 hi
      have hsplit : progHeaders b = (progHeaders b).take i ++ h :: (progHeaders b).drop (i + 1) := by
        rw [← hget, List.getElem_cons_drop, List.take_append_drop]
      have hpw := ha.2
      rw [hsplit, List.filter_append, List.filter_cons_of_pos hl] at hpw
      exact (List.pairwise_append.1 hpw).2.2 g (List.mem_filter.2 ⟨hg1, hg2⟩) h List.mem_cons_self
    cases e : byteIn (g.block b) x with
    | none => rfl
    | some y =>
      have := byteIn_block (paddr_lt (List.mem_of_mem_take hg1)) (by rw [e]; rfl)
      omega

/-- Both sides occur among files that meet the hypotheses. -/
example : WrapsFirst elfWrap ∧ SegmentsApart elfWrap ∧ (∀ i < phnum elfWrap, entryWraps elfWrap i = false) ∧
    ¬ WrapsFirst elfExample ∧ SegmentsApart elfExample ∧ (∀ i < phnum elfExample, entryWraps elfExample i = false) := by
  refine ⟨⟨by decide +kernel, 0, ⟨1, 4, 0, 0xFFFFFFFD, 0xFFFFFFFD⟩, by decide +kernel, by decide +kernel, by decide +kernel,
    by decide +kernel, by decide +kernel⟩, by decide +kernel, by decide +kernel, ?_, by decide +kernel, by decide +kernel⟩
  rintro ⟨-, i, h, hi, -, -, hl, hw⟩
  have : ∀ h ∈ progHeaders elfExample, h.wraps elfExample = false := by decide +kernel
  rw [this h (List.mem_of_getElem? hi)] at hw
  cases hw

/-- C71. Start-up with an ELF file that can be read, whose segments have addresses of their own, and with memory on the host: it
is undefined exactly if the first thing in the file that is not in order is a segment that wraps around, whatever the dump
and the aliases are. -/
theorem C71_undefined_iff {args : List Str} {os : List Opt} {p : Prog} {n d b : Str} (hs : Spelled args os)
    (he : lastElf os = some n) (hd : lastDump os = some d) (hi : OrdinaryFile p.host n b) (hp : PlentyOfMemory p.host.mem)
    (hb : ∀ i < phnum b, entryWraps b i = false) (ha : SegmentsApart b) :
    (∃ r, startUp args p = .ub r) ↔ WrapsFirst b := by
  have hn : imageFile os = some n := by rw [imageFile, he]; rfl
  have hin : imageName (withMemory (chosen os p)) = some n := (chosen_image os p).trans hn
  have helf : (withMemory (chosen os p)).elf = some n := (chosen_elf os p).trans he
  have hlen : (File.of b).tell.toNat = b.length := by simp [File.of]
  have htake : (File.of b).bytes.take (File.of b).tell.toNat = b := by rw [hlen]; simp [File.of]
  have hwork : ∀ s, imageWork (withMemory (chosen os p)) (File.of b) s = fromMemory b b.length s := by
    intro s
    unfold imageWork
    rw [helf, htake, hlen]
  have hload := loadImageFile_works (p := withMemory (chosen os p)) rfl (imageName_split hin) hi
    (ordinary_readable (p := withMemory (chosen os p)) hi (hp _))
  rw [hwork] at hload
  have hiff := C46_overreads_iff (s := bumpHeap (withMemory (chosen os p)).host.mem 1 1) (b := b) rfl hp hb ha
  rw [startUp_full hs hn hd]
  constructor
  · rintro ⟨r, o⟩
    have hms : memStages (aliases os) (withMemory (chosen os p)) = .ub r := by
      cases e : memStages (aliases os) (withMemory (chosen os p)) <;> rw [e] at o <;> first | cases o | rfl
      rfl
    obtain ⟨f, hf, hw, hu⟩ := memStages_ub (by rw [chosen_image]; exact hn) (by rw [chosen_dump]; exact hd) hms
    have hfe : f = File.of b := Option.some.inj (hf.symm.trans hi)
    subst hfe
    refine hiff.1 ⟨r, ?_⟩
    rw [← hwork]
    exact hu
  · intro hw
    obtain ⟨r, hu⟩ := hiff.2 hw
    rw [hu] at hload
    refine ⟨r, ?_⟩
    unfold memStages
    rw [M.bind_ub hload]
    rfl

example : Spelled argsElf optsElf ∧ lastElf optsElf = some [0x65] ∧ lastDump optsElf = some [0x64] ∧
    OrdinaryFile progWrap.host [0x65] elfWrap ∧ PlentyOfMemory progWrap.host.mem ∧
    OrdinaryFile progExample.host [0x65] elfExample ∧ PlentyOfMemory progExample.host.mem :=
  ⟨spelledElf, rfl, rfl, rfl, fun _ => rfl, rfl, fun _ => rfl⟩

/-- C82. Such an image decides the run of the program: it breaks in start-up, for every debug monitor and every other input. -/
theorem C82_wrapping_image {w : World} {stop : M Plat Bool} {name : Str} {words : List Str} {os : List Opt} {p : Prog} {n d b : Str}
    (hs : Spelled words os) (he : lastElf os = some n) (hd : lastDump os = some d) (hi : OrdinaryFile p.host n b)
    (hp : PlentyOfMemory p.host.mem) (hb : ∀ i < phnum b, entryWraps b i = false) (ha : SegmentsApart b) (hw : WrapsFirst b) :
    ∃ r, Runs w stop name words p (.ub r) ∧ ∀ o, Runs w stop name words p o → o = .ub r := by
  obtain ⟨r, hr⟩ := (C71_undefined_iff hs he hd hi hp hb ha).2 hw
  have h : Runs w stop name words p (.ub r) := .startUpBroken (by rw [runs_init]; exact hr)
  exact ⟨r, h, fun o ho => C92_same_input_same_run ho h⟩

end Verif.Props
