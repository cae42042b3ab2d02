import Verif.Spec.Text
import Verif.Lemmas.ElfCut
import Verif.Props.Elf
/-
C77: ELF files that were cut short.
-/
namespace Verif.Props
open Verif MemSim Spec Elf

/-! ### C77 -/

/-- C77. If loading succeeds, nothing was wrong with the header, and the program headers and all contents to be loaded lie
within the file. (Unless a program header reaches beyond the end of a file of 4 GiB, see `entryWraps`.) -/
theorem C77_accepted_is_complete {b : Str} {s s' : Sim} (hb : ∀ i < phnum b, entryWraps b i = false) (h : fromMemory b b.length s = .ok () s') :
    headerComplaint b = none ∧ TableInside b ∧ ContentsInside b := by
  rw [fromMemory_eq] at h
  cases hc : headerComplaint b with
  | some m => rw [hc] at h; cases h
  | none =>
    rw [hc] at h
    simp only [M.bind_apply] at h
    cases e : loadEntries b b.length (phentsize b) (phnum b) 0 (BitVec.ofNat 32 (phoff b)) 0 s with
    | throw x s1 => rw [e] at h; cases h
    | ub r => rw [e] at h; cases h
    | ok c s1 =>
      have := entries_inside (i := 0) (n := phnum b) (c := 0) (c' := c) (s := s) (s' := s1)
        (fun j _ hj => hb j (by omega)) (by rw [entryAt_zero]; exact e)
      refine ⟨rfl, ?_, ?_⟩
      · intro j hj
        have := this.1 j hj
        rwa [Nat.zero_add] at this
      · rw [headersFrom_all] at this
        exact this.2

example : ∃ s', (∀ i < phnum elfExample, entryWraps elfExample i = false) ∧ fromMemory elfExample elfExample.length demo = .ok () s' := by
  obtain ⟨h1, h2, h3, h5, h6, h7, h8, h9, h10⟩ := elfExample_ready
  obtain ⟨s', h, -⟩ := C43_segments_loaded h1 h2 h3 h5 h6 h7 h8 h9 h10
  exact ⟨s', by decide +kernel, h⟩

theorem headersFrom_take {b : Str} {i : Nat} (hi : i ≤ phnum b) : headersFrom b 0 i = (progHeaders b).take i := by
  rw [headersFrom, progHeaders, ← List.map_take, List.range_eq_range', List.take_range'_of_length_ge hi]

theorem blocksFrom_take {b : Str} {i : Nat} (hi : i ≤ phnum b) : blocksFrom b 0 i = blocksUpTo b i := by
  rw [blocksFrom, headersFrom_take hi]; rfl

/-- The loop up to program header number `i`, after which the rest is left to do. -/
theorem upTo {b : Str} {i : Nat} {s : Sim} (hs : Sound s) (hp : PlentyOfMemory s)
    (hc : headerComplaint b = none) (hi : i < phnum b) (hg : GoodUpTo b i) (hf : Free s (blocksUpTo b i))
    (hd : Spec.Disjoint (blocksUpTo b i)) :
    ∃ k l c, fromMemory b b.length s = (loadEntries b b.length (phentsize b) (phnum b - i - 1 + 1) i
      (BitVec.ofNat 32 (entryAt b i)) c >>= Elf.finish)
        { bumpHeap s k l with regions := s.regions ++ (blocksUpTo b i).map romRegion } := by
  obtain ⟨k, l, e⟩ := loadEntries_eq (b := b) (n := i) (i := 0) (c := 0) hs hp
    (by intro j hj; rw [Nat.zero_add]; exact hg.1 j hj) (by rw [headersFrom_take (by omega)]; exact hg.2)
    (by rw [blocksFrom_take (by omega)]; exact hf) (by rw [blocksFrom_take (by omega)]; exact hd)
  rw [blocksFrom_take (by omega)] at e
  have ha := loadEntries_append b i (phnum b - i) 0 0 s
  rw [show i + (phnum b - i) = phnum b by omega, M.bind_apply, e, entryAt_zero] at ha
  refine ⟨k, l, 0 + BitVec.ofNat 32 (blocksUpTo b i).length, ?_⟩
  rw [fromMemory_eq, hc]
  simp only [M.bind_apply]
  rw [ha, show phnum b - i - 1 + 1 = phnum b - i by omega, Nat.zero_add]

theorem blocksUpTo_lt (b : Str) (i : Nat) : ∀ r ∈ blocksUpTo b i, r.2.length < 2 ^ 32 := by
  intro r hr
  obtain ⟨h, hm, rfl⟩ := List.mem_map.1 hr
  obtain ⟨j, -, rfl⟩ := List.mem_map.1 (List.mem_of_mem_take (List.mem_filter.1 hm).1)
  have := (progHeader_lt b (entryAt b j)).2.1
  simp only [ProgHeader.block, List.length_take, List.length_drop]
  omega

theorem adds_rom {s : Sim} {mem : List (U32 × List U8)} (hl : ∀ r ∈ mem, r.2.length < 2 ^ 32) (k : Nat) (l : Int) :
    AddsReadOnly s { bumpHeap s k l with regions := s.regions ++ mem.map romRegion } mem := by
  refine ⟨mem.map romRegion, rfl, ?_⟩
  rw [List.map_map]
  apply List.map_congr_left
  intro r hr
  have := hl r hr
  simp [romRegion, Nat.mod_eq_of_lt this]

/-- C77. The first program header that is not within the file ends loading, with an exception that says which one it is
and where it should be. What comes before it has been loaded, nothing else. -/
theorem C77_cut_in_the_table {b : Str} {i : Nat} {s : Sim} (hs : Sound s) (hp : PlentyOfMemory s)
    (hc : headerComplaint b = none) (hi : i < phnum b) (hg : GoodUpTo b i) (hf : Free s (blocksUpTo b i))
    (hd : Spec.Disjoint (blocksUpTo b i)) (hcut : b.length < entryAt b i + 32)
    (hw : entryWraps b i = false) :
    ∃ s', fromMemory b b.length s = .throw ⟨.elfFormat, asc "ELF page header entry " ++ asc (Nat.repr i) ++
        asc " is at an invalid file offset of " ++ asc (Nat.repr (entryAt b i)) ++ asc "."⟩ s' ∧
      AddsReadOnly s s' (blocksUpTo b i) := by
  obtain ⟨k, l, c, e⟩ := upTo hs hp hc hi hg hf hd
  refine ⟨_, ?_, adds_rom (blocksUpTo_lt b i) k l⟩
  rw [e, M.bind_apply, loadEntries_succ (noWrap hw), offset_toNat, if_neg (by omega)]
  rfl

/-- Two program headers, of which the second is cut. The first one loads the first eight bytes of the file. -/
def elfCutTable : Str := elfHead 2 ++ elfEntry 1 0 0x30000000 8 8 ++ [1, 0, 0]

example : headerComplaint elfCutTable = none ∧ 1 < phnum elfCutTable ∧ GoodUpTo elfCutTable 1 ∧
    Free demo (blocksUpTo elfCutTable 1) ∧ Spec.Disjoint (blocksUpTo elfCutTable 1) ∧
    elfCutTable.length < entryAt elfCutTable 1 + 32 ∧ entryWraps elfCutTable 1 = false := by
  have hb : blocksUpTo elfCutTable 1 = [(0x30000000, [0x7F, 0x45, 0x4C, 0x46, 1, 1, 1, 0])] := by decide +kernel
  refine ⟨by decide +kernel, by decide +kernel, by decide +kernel, ?_, ?_, by decide +kernel, by decide +kernel⟩
  · rw [hb]; exact free_above 0x30000000 (by decide) (by simp)
  · rw [hb]; exact List.pairwise_singleton _ _

/-- C77. Likewise the first program header whose contents are to be loaded but are not within the file. -/
theorem C77_cut_in_the_contents {b : Str} {i : Nat} {s : Sim} {h : ProgHeader} (hs : Sound s) (hp : PlentyOfMemory s)
    (hc : headerComplaint b = none) (hi : (progHeaders b)[i]? = some h) (hg : GoodUpTo b i)
    (hf : Free s (blocksUpTo b i)) (hd : Spec.Disjoint (blocksUpTo b i)) (hin : entryAt b i + 32 ≤ b.length)
    (hl : h.loadable = true) (hcut : b.length < h.offset + h.filesz) (hw : h.wraps b = false) :
    ∃ s', fromMemory b b.length s = .throw ⟨.elfFormat, asc "ELF failed to load entry from file at offsets " ++
        signedDecimal (BitVec.ofNat 32 h.offset) ++ asc " to " ++ signedDecimal (BitVec.ofNat 32 (h.offset + h.filesz - 1)) ++ asc "."⟩ s' ∧
      AddsReadOnly s s' (blocksUpTo b i) := by
  have hi' : i < phnum b ∧ progHeaderAt b (entryAt b i) = h := by
    obtain ⟨h1, h2⟩ := List.getElem?_eq_some_iff.1 hi
    simp only [progHeaders, List.length_map, List.length_range] at h1
    exact ⟨h1, by simpa [progHeaders] using h2⟩
  obtain ⟨hi1, rfl⟩ := hi'
  obtain ⟨k, l, c, e⟩ := upTo hs hp hc hi1 hg hf hd
  have hlt := progHeader_lt b (entryAt b i)
  have hpos : 0 < (progHeaderAt b (entryAt b i)).filesz := by
    simp [ProgHeader.loadable] at hl; exact hl.2.1
  refine ⟨_, ?_, adds_rom (blocksUpTo_lt b i) k l⟩
  rw [e, M.bind_apply, loadEntries_succ (noWrap (noWrap_in hin)), offset_toNat, if_pos hin, M.bind_apply,
    entry_load hin hl]
  generalize progHeaderAt b (entryAt b i) = h at hlt hcut hpos hw
  have hfe : ∀ s, fetchSizedByteArray b b.length (BitVec.ofNat 32 h.offset) (BitVec.ofNat 32 h.filesz) s = .throw ⟨.elfFormat, []⟩ s := by
    intro s
    exact fetch_reject (by rw [ofNat_toNat hlt.1, ofNat_toNat hlt.2.1]; exact hcut)
      (by rw [ofNat_toNat hlt.1, ofNat_toNat hlt.2.1]; simp [ProgHeader.wraps] at hw; omega)
  have hm : BitVec.ofNat 32 h.offset + BitVec.ofNat 32 h.filesz - 1 = BitVec.ofNat 32 (h.offset + h.filesz - 1) := by
    apply BitVec.eq_of_toNat_eq
    simp only [BitVec.toNat_sub, BitVec.toNat_add, BitVec.toNat_ofNat, show BitVec.toNat (1 : U32) = 1 from rfl]
    omega
  rw [hfe]
  simp only [segmentComplaint, hm]
  rfl

/-- The example without its last byte: the contents of the fourth program header are cut. -/
example : headerComplaint elfExample.dropLast = none ∧ GoodUpTo elfExample.dropLast 3 ∧
    ∃ h, (progHeaders elfExample.dropLast)[3]? = some h ∧ h.loadable = true ∧ elfExample.dropLast.length < h.offset + h.filesz ∧
      h.wraps elfExample.dropLast = false :=
  ⟨by decide +kernel, by decide +kernel, ⟨1, 185, 0x30000100, 2, 2⟩, by decide +kernel, by decide +kernel, by decide +kernel, by decide +kernel⟩

theorem sound_roms {s s' : Sim} {mem : List (U32 × List U8)} (hs : Sound s) (hl : ∀ r ∈ mem, r.2.length < 2 ^ 32)
    (h : s'.regions = s.regions ++ mem.map romRegion) : Sound s' := by
  induction mem generalizing s with
  | nil => exact Spec.Sound.congr hs (by rw [h]; simp)
  | cons r rs ih =>
    refine ih (s := { s with regions := s.regions ++ [romRegion r] }) ?_ (fun q hq => hl q (List.mem_cons_of_mem _ hq)) ?_
    · exact sound_snoc hs rfl rfl (rom_ok (hl r List.mem_cons_self))
    · rw [h]; simp

/-- C46. The exception is a real one: whenever the first program header that is not in order wraps around, and its addresses
are free, bytes outside the file are read. Together with C43, C77 and `C46_no_overread_partial` this tells for every file
whether loading it is defined. -/
theorem C46_wrapping_segment_overreads {b : Str} {i : Nat} {s : Sim} {h : ProgHeader} (hs : Sound s) (hp : PlentyOfMemory s)
    (hc : headerComplaint b = none) (hi : (progHeaders b)[i]? = some h) (hg : GoodUpTo b i)
    (hf : Free s (blocksUpTo b i)) (hd : Spec.Disjoint (blocksUpTo b i)) (hin : entryAt b i + 32 ≤ b.length)
    (hl : h.loadable = true) (hw : h.wraps b = true) (hfit : h.paddr + h.filesz ≤ 2 ^ 32)
    (hfree : ∀ x : U32, h.paddr ≤ x.toNat → x.toNat < h.paddr + h.filesz → ¬ Mapped s x 1 ∧ ∀ r ∈ blocksUpTo b i, byteIn r x = none) :
    fromMemory b b.length s = .ub .outOfBounds := by
  have hi' : i < phnum b ∧ progHeaderAt b (entryAt b i) = h := by
    obtain ⟨h1, h2⟩ := List.getElem?_eq_some_iff.1 hi
    simp only [progHeaders, List.length_map, List.length_range] at h1
    exact ⟨h1, by simpa [progHeaders] using h2⟩
  obtain ⟨hi1, rfl⟩ := hi'
  obtain ⟨k, l, c, e⟩ := upTo hs hp hc hi1 hg hf hd
  have hlt := progHeader_lt b (entryAt b i)
  rw [e, M.bind_apply, loadEntries_succ (noWrap (noWrap_in hin)), offset_toNat, if_pos hin, M.bind_apply,
    entry_load hin hl]
  generalize progHeaderAt b (entryAt b i) = h at hlt hw hfit hfree
  have hw' : h.offset ≤ b.length ∧ b.length < h.offset + h.filesz ∧ 2 ^ 32 ≤ h.offset + h.filesz ∧ h.offset + h.filesz ≤ 2 ^ 32 + b.length := by
    simpa [ProgHeader.wraps] using hw
  have hfe : ∀ s, fetchSizedByteArray b b.length (BitVec.ofNat 32 h.offset) (BitVec.ofNat 32 h.filesz) s = .ok (b.drop h.offset) s := by
    intro s
    unfold fetchSizedByteArray
    rw [BitVec.toNat_add, ofNat_toNat hlt.1, ofNat_toNat hlt.2.1, if_neg (by omega)]
    rfl
  rw [hfe]
  simp only
  have hlen := blocksUpTo_lt b i
  have hfs : (BitVec.ofNat 32 h.filesz).toNat = h.filesz := ofNat_toNat hlt.2.1
  have hpa : (BitVec.ofNat 32 h.paddr).toNat = h.paddr := ofNat_toNat hlt.2.2
  have hub : loadSegment (BitVec.ofNat 32 h.paddr) (BitVec.ofNat 32 h.filesz) (b.drop h.offset)
      { bumpHeap s k l with regions := s.regions ++ (blocksUpTo b i).map romRegion } = .ub .outOfBounds := by
    refine loadSegment_short ?_ ?_ ?_ ?_ ?_
    · exact sound_roms hs hlen rfl
    · exact hp
    · rw [hfs, List.length_drop]; omega
    · rw [hfs, hpa]; exact hfit
    · rw [hfs, hpa]
      intro x h1 h2 hm
      obtain ⟨k1, k2⟩ := hfree x h1 h2
      obtain ⟨r, hr, hcov⟩ := hm
      rcases List.mem_append.1 hr with hr | hr
      · exact k1 ⟨r, hr, hcov⟩
      · obtain ⟨q, hq, rfl⟩ := List.mem_map.1 hr
        have := (rom_covers (hlen q hq)).1 hcov
        have hq' : (byteIn q x).isSome := Dump.byteIn_iff.2 ⟨this.1, by omega⟩
        rw [k2 q hq] at hq'
        cases hq'
  rw [M.bind_ub hub]

/-- `elfWrap` meets the hypotheses, with an empty simulator. -/
example : headerComplaint elfWrap = none ∧ GoodUpTo elfWrap 0 ∧ blocksUpTo elfWrap 0 = [] ∧
    ∃ h, (progHeaders elfWrap)[0]? = some h ∧ h.loadable = true ∧ h.wraps elfWrap = true ∧ h.paddr + h.filesz ≤ 2 ^ 32 :=
  ⟨by decide +kernel, by decide +kernel, by decide +kernel, ⟨1, 4, 0, 0xFFFFFFFD, 0xFFFFFFFD⟩, by decide +kernel, by decide +kernel,
    by decide +kernel, by decide⟩

end Verif.Props
