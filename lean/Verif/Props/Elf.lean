import Verif.Lemmas.ElfSafe
import Verif.Props.Dump
/-
C43-C47: loading ELF files.
-/
namespace Verif.Props
open Verif MemSim Spec Elf

/-! ### A concrete ELF file -/

/-- An ELF header for `n` program headers of 32 bytes that follow it directly. -/
def elfHead (n : U8) : Str :=
  [0x7F, 0x45, 0x4C, 0x46, 1, 1, 1, 0, 0, 0, 0, 0, 0, 0, 0, 0] ++ [2, 0, 40, 0, 1, 0, 0, 0] ++ le32 0x100 ++ le32 52 ++ le32 0 ++ le32 0 ++
  [52, 0, 32, 0, n, 0, 0, 0, 0, 0, 0, 0]

/-- A program header. -/
def elfEntry (type offset paddr filesz memsz : U32) : Str :=
  le32 type ++ le32 offset ++ le32 0 ++ le32 paddr ++ le32 filesz ++ le32 memsz ++ le32 5 ++ le32 4

/-- An ELF file with two segments to load, and a note and an empty segment that are not loaded. -/
def elfExample : Str :=
  elfHead 4 ++ elfEntry 1 180 0x30000000 5 8 ++ elfEntry 4 0xFFFFFFFF 0 9 9 ++ elfEntry 1 0xFFFFFFF0 0x10 0 64 ++
  elfEntry 1 185 0x30000100 2 2 ++ [1, 2, 3, 4, 5, 6, 7]

theorem elfExample_blocks : elfBlocks elfExample = [(0x30000000, [1, 2, 3, 4, 5]), (0x30000100, [6, 7])] := by decide +kernel

theorem elfExample_disjoint : Spec.Disjoint (elfBlocks elfExample) := by
  rw [elfExample_blocks]
  unfold Spec.Disjoint
  simp only [List.pairwise_cons, List.mem_singleton, forall_eq, List.not_mem_nil, false_implies, implies_true,
    List.Pairwise.nil, and_true]
  intro a
  by_cases h : (byteIn ((0x30000000 : U32), [1, 2, 3, 4, 5]) a).isSome
  · right
    have h1 := byteIn_range h
    cases hb : byteIn ((0x30000100 : U32), [6, 7]) a with
    | none => rfl
    | some b =>
      have h2 := byteIn_range (r := ((0x30000100 : U32), [6, 7])) (a := a) (by rw [hb]; rfl)
      simp at h1 h2; omega
  · left; simpa using h

/-- For evaluating in the kernel: the code raised an exception, in a state with `n` regions. -/
def throwsWith (o : Out Sim α) (n : Nat) : Bool := match o with | .throw _ s => s.regions.length == n | _ => false

theorem throwsWith_iff {o : Out Sim α} {n : Nat} (h : throwsWith o n = true) : ∃ e s, o = .throw e s ∧ s.regions.length = n := by
  cases o with
  | throw e s => exact ⟨e, s, rfl, by simpa [throwsWith] using h⟩
  | ok a s => cases h
  | ub r => cases h

/-- The example cut short by one byte: the first segment is loaded, the second not. -/
theorem elfCut_throws : ∃ e s', fromMemory elfExample.dropLast elfExample.dropLast.length quiet = .throw e s' ∧
    s'.regions.length = quiet.regions.length + 1 := throwsWith_iff (by decide +kernel)

/-! ### C43 -/

/-- C43. A valid ELF file's segments are in memory after loading, in the order of the program headers: read-only regions
with exactly the file's bytes. All accesses inside them give these bytes, and no write changes them. -/
theorem C43_segments_loaded {b : Str} {s : Sim} (hs : Sound s) (hp : PlentyOfMemory s) (hh : s.hits < 2 ^ 31)
    (hc : headerComplaint b = none) (ht : TableInside b) (hi : ContentsInside b)
    (hne : elfBlocks b ≠ []) (hf : Free s (elfBlocks b)) (hd : Spec.Disjoint (elfBlocks b)) :
    ∃ s', fromMemory b b.length s = .ok () s' ∧ AddsReadOnly s s' (elfBlocks b) ∧ HoldsBlocks s' (elfBlocks b) ∧
      RefusesWrites s' (elfBlocks b) := by
  have hlen := elfBlocks_lt b
  obtain ⟨k, l, hfin⟩ := fromMemory_loads hs hp hc ht hi hne hf hd
  have hsd : Sound { bumpHeap s k l with regions := s.regions ++ (elfBlocks b).map romRegion } := sound_rom hs rfl hlen
  refine ⟨_, hfin, ⟨(elfBlocks b).map romRegion, rfl, ?_⟩, rom_access hsd hh rfl hf hd hlen⟩
  rw [List.map_map]
  apply List.map_congr_left
  intro r hr
  have := hlen r hr
  simp [romRegion, Nat.mod_eq_of_lt this]

theorem elfExample_ready : Sound demo ∧ PlentyOfMemory demo ∧ demo.hits < 2 ^ 31 ∧
    headerComplaint elfExample = none ∧ TableInside elfExample ∧ ContentsInside elfExample ∧ elfBlocks elfExample ≠ [] ∧
    Free demo (elfBlocks elfExample) ∧ Spec.Disjoint (elfBlocks elfExample) :=
  ⟨demo_sound, fun _ => rfl, by decide, by decide +kernel, by decide +kernel,
    by decide +kernel, by rw [elfExample_blocks]; decide,
    by rw [elfExample_blocks]; exact free_above 0x30000000 (by decide) (by simp), elfExample_disjoint⟩

/-! ### C44 -/

/-- C44. However loading ends, the only regions added are for program headers of type 1 with 0 < filesz ≤ memsz (see
`ProgHeader.loadable`), in order, each at its physical address and of its file size. If loading succeeds, all of these
were added. -/
theorem C44_only_loadable_create {b : Str} {s s' : Sim} (he : Ends (fromMemory b b.length s) s') :
    ∃ k, s'.regions.map (fun r => (r.baseAddress, r.size.toNat, r.isAlias)) =
        s.regions.map (fun r => (r.baseAddress, r.size.toNat, r.isAlias)) ++
        (((progHeaders b).filter ProgHeader.loadable).take k).map (fun h => (BitVec.ofNat 32 h.paddr, h.filesz, false)) ∧
      (fromMemory b b.length s = .ok () s' → k = ((progHeaders b).filter ProgHeader.loadable).length) := by
  cases hc : headerComplaint b with
  | some m =>
    have h : fromMemory b b.length s = .throw ⟨.elfFormat, m⟩ s := by rw [fromMemory_eq, hc]
    rw [h] at he
    rcases he with ⟨a, he⟩ | ⟨e, he⟩
    · cases he
    · cases he
      exact ⟨0, by simp, fun h' => by rw [h] at h'; cases h'⟩
  | none =>
    have h := from_keys (s := s) hc
    rw [addsFrom, headersFrom_all] at h
    rcases he with ⟨a, he⟩ | ⟨e, he⟩
    · rw [he] at h
      refine ⟨_, ?_, fun _ => rfl⟩
      rw [List.take_length]
      exact h.1
    · rw [he] at h
      obtain ⟨⟨k, h1⟩, -⟩ := h
      refine ⟨k, ?_, fun h' => by rw [he] at h'; cases h'⟩
      rw [List.map_take]
      exact h1

example : ∃ (b : Str) (s s' : Sim), Ends (fromMemory b b.length s) s' ∧
    s'.regions ≠ s.regions := by
  obtain ⟨e, s', h1, h2⟩ := elfCut_throws
  exact ⟨elfExample.dropLast, quiet, s', .inr ⟨e, h1⟩, fun h => by rw [h] at h2; omega⟩

/-- C44. The program headers that are not loaded are not otherwise examined: files of the same length with the same
header and the same loadable entries and contents are treated alike, whatever else they contain. (Unless a program header
reaches beyond the end of a file of 4 GiB, see `entryWraps`.) -/
theorem C44_others_ignored {b b' : Str} {s : Sim} (hb : ∀ i < phnum b, entryWraps b i = false) (hlen : b.length = b'.length)
    (hh : b.take 52 = b'.take 52)
    (he : ∀ i < phnum b, let h := progHeaderAt b (entryAt b i); let h' := progHeaderAt b' (entryAt b i)
      (h.loadable = false ∧ h'.loadable = false) ∨ (h = h' ∧ h.block b = h'.block b')) :
    fromMemory b b.length s = fromMemory b' b'.length s := by
  rw [fromMemory_eq, fromMemory_eq, headerComplaint_congr hlen hh]
  cases hc : headerComplaint b' with
  | some m => rfl
  | none =>
    simp only
    have h1 : phoff b = phoff b' := numAt_congr hh (by decide)
    have h2 : phentsize b = phentsize b' := numAt_congr hh (by decide)
    have h3 : phnum b = phnum b' := numAt_congr hh (by decide)
    have := loadEntries_congr hlen h1 h2 (n := phnum b) (i := 0) (c := 0) (s := s)
      (by intro j _ hj
          rcases he j (by omega) with h | ⟨h, g⟩
          · exact .inl h
          · exact .inr ⟨h, by rw [g, h]⟩)
      (fun j _ hj => hb j (by omega))
    simp only [entryAt_zero] at this
    rw [M.bind_apply, M.bind_apply, this, h3]

/-- The example with other contents in the note's program header. -/
def elfExample2 : Str :=
  elfHead 4 ++ elfEntry 1 180 0x30000000 5 8 ++ elfEntry 0x6474E551 7 7 7 7 ++ elfEntry 1 5 5 0 5 ++
  elfEntry 1 185 0x30000100 2 2 ++ [1, 2, 3, 4, 5, 6, 7]

example : ∃ (b b' : Str), b ≠ b' ∧ (∀ i < phnum b, entryWraps b i = false) ∧ b.length = b'.length ∧ b.take 52 = b'.take 52 ∧
    (∀ i < phnum b, let h := progHeaderAt b (entryAt b i); let h' := progHeaderAt b' (entryAt b i)
      (h.loadable = false ∧ h'.loadable = false) ∨ (h = h' ∧ h.block b = h'.block b')) :=
  ⟨elfExample, elfExample2, by decide +kernel, by decide +kernel, by decide +kernel, by decide +kernel, by decide +kernel⟩

/-! ### C45 -/

/-- C45. If something is wrong with the header, loading raises an ELF format exception that says what, and nothing
else happens. -/
theorem C45_bad_header_refused {b : Str} {m : Str} {s : Sim} (h : headerComplaint b = some m) :
    fromMemory b b.length s = .throw ⟨.elfFormat, m⟩ s := by
  rw [fromMemory_eq, h]

example : headerComplaint (elfExample.set 4 2) = some (asc "ELF header doesn't contain 32-bit flag.") := by decide +kernel
example : headerComplaint (elfExample.take 51) = some (asc "ELF was too short to contain valid header.") := by decide +kernel

/-- C45. If nothing is wrong with the header, loading does not complain about it: whatever exception is raised, its
message is not one about the header. -/
theorem C45_good_header_accepted {b : Str} {s s' : Sim} {e : Exn} (h : headerComplaint b = none)
    (he : fromMemory b b.length s = .throw e s') : ∀ b', headerComplaint b' ≠ some e.msg := by
  have hk := from_keys (s := s) h
  rw [he] at hk
  have hl := hk.2
  intro b' hc
  have key : ∀ m, headerComplaint b' = some m → m[4]? = some 0x77 ∨ m[4]? = some 0x68 := by
    intro m hm
    unfold headerComplaint at hm
    repeat' split at hm
    all_goals first
      | (cases hm; decide)
      | (cases hm; right; rw [List.append_assoc, List.getElem?_append_left (by decide)]; decide)
      | cases hm
  rcases hl with hl | ⟨c, hc', hl⟩
  · have := key _ hc
    rw [hl] at this
    simp at this
  · have := key _ hc
    rw [hl] at this
    simp only [List.mem_cons, List.not_mem_nil, or_false] at hc'
    rcases hc' with rfl | rfl | rfl <;> revert this <;> decide

example : ∃ (b : Str) (s s' : Sim) (e : Exn), headerComplaint b = none ∧
    fromMemory b b.length s = .throw e s' := by
  obtain ⟨e, s', h1, h2⟩ := elfCut_throws
  exact ⟨elfExample.dropLast, quiet, s', e, by decide +kernel, h1⟩

/-! ### C46 -/

/-- C46, except for files in which something wraps around, see `NoWraps`. Loading has a defined outcome: it never
reads outside the file. -/
theorem C46_no_overread_partial {b : Str} {s : Sim} (hs : Sound s) (hu : Unwatched s) (hw : NoWraps b) :
    Defined (fromMemory b b.length s) [.elfFormat, .outOfMemory, .busError] :=
  ((from_sat hw.1 hs hu hw.2).mono (fun _ _ _ => trivial) (fun _ _ h => h.2)).defined

/-- C46, with the same exception. Loading changes the simulator only through its API, by creating regions, loading
bytes and marking memory read-only. -/
theorem C46_by_calls_partial {b : Str} {s s' : Sim} (hs : Sound s) (hu : Unwatched s) (hw : NoWraps b)
    (he : Ends (fromMemory b b.length s) s') :
    ByCalls loadsImage s s' ∧ Sound s' ∧ Unwatched s' :=
  have h := ((from_sat hw.1 hs hu hw.2).mono (fun _ _ h => h) (fun _ _ h => h.1)).ends he
  ⟨h.2.2, h.1, h.2.1⟩

example : ∃ (b : Str) (s s' : Sim), Sound s ∧ Unwatched s ∧ NoWraps b ∧ Ends (fromMemory b b.length s) s' := by
  obtain ⟨e, s', h1, h2⟩ := elfCut_throws
  exact ⟨elfExample.dropLast, quiet, s', quiet_sound, quiet_unwatched, by decide +kernel, .inr ⟨e, h1⟩⟩

/-- A file of 84 bytes with a segment of almost 4 GiB, such that offset + size wraps around to 1. -/
def elfWrap : Str := elfHead 1 ++ elfEntry 1 4 0 0xFFFFFFFD 0xFFFFFFFD

theorem elfWrap_ub {s : Sim} (hr0 : s.regions = []) (hp : PlentyOfMemory s) : fromMemory elfWrap elfWrap.length s = .ub .outOfBounds := by
  have h1 : headerComplaint elfWrap = none := by decide +kernel
  rw [fromMemory_eq, h1]
  have e1 : phnum elfWrap = 1 := by decide +kernel
  have e2 : phoff elfWrap = 52 := by decide +kernel
  have e3 : phentsize elfWrap = 32 := by decide +kernel
  have e4 : progHeaderAt elfWrap 52 = ⟨1, 4, 0, 0xFFFFFFFD, 0xFFFFFFFD⟩ := by decide +kernel
  have e5 : elfWrap.length = 84 := by decide +kernel
  simp only [e1, e2, e3]
  apply M.bind_ub
  rw [loadEntries_succ (by simp [e5]), if_pos (by simp [e5])]
  apply M.bind_ub
  have hl := entry_load (b := elfWrap) (k := 52) (c := 0) (s := s) (by simp [e5]) (by rw [e4]; rfl)
  rw [e4] at hl
  refine Eq.trans hl ?_
  have hf : fetchSizedByteArray elfWrap elfWrap.length (BitVec.ofNat 32 4) (BitVec.ofNat 32 0xFFFFFFFD) s =
      .ok (elfWrap.drop 4) s := by
    unfold fetchSizedByteArray
    rw [if_neg (by rw [e5]; decide)]
    rfl
  rw [hf]
  apply M.bind_ub
  exact loadSegment_short (by intro r hr; rw [hr0] at hr; cases hr) hp (by simp [e5]) (by decide)
    (by rintro x - - ⟨r, hr, -⟩; rw [hr0] at hr; cases hr)

/-- C46 is false of the code without the exception: offset + size is computed in 32 bits, so a segment that reaches
beyond the end of the file passes the check if the sum wraps around, and bytes outside the file are read. -/
theorem C46_wraparound_witness : headerComplaint elfWrap = none ∧ TableInside elfWrap ∧ elfWrap.length = 84 ∧
    fromMemory elfWrap elfWrap.length (init goodHeap) = .ub .outOfBounds :=
  ⟨by decide +kernel, by decide +kernel, by decide +kernel, elfWrap_ub rfl (fun _ => rfl)⟩

/-! ### C47 -/

/-- C47. If loading succeeds, at least one segment was loadable, and a region was added for each loadable one. -/
theorem C47_success_means_loaded {b : Str} {s s' : Sim} (h : fromMemory b b.length s = .ok () s') :
    (∃ h ∈ progHeaders b, h.loadable = true) ∧ s.regions.length < s'.regions.length := by
  cases hc : headerComplaint b with
  | some m => rw [fromMemory_eq, hc] at h; cases h
  | none =>
    have hk := from_keys (s := s) hc
    rw [h] at hk
    obtain ⟨h1, h2⟩ := hk
    constructor
    · rw [addsFrom, headersFrom_all] at h2
      obtain ⟨x, hx⟩ := List.exists_mem_of_ne_nil _ h2
      simp only [List.mem_map, List.mem_filter] at hx
      obtain ⟨y, hy, -⟩ := hx
      exact ⟨y, hy⟩
    · have := congrArg List.length h1
      simp only [keys, List.length_append, List.length_map] at this
      have := List.length_pos_iff.2 h2
      omega

example : ∃ s', fromMemory elfExample elfExample.length demo = .ok () s' := by
  obtain ⟨h1, h2, h3, h5, h6, h7, h8, h9, h10⟩ := elfExample_ready
  obtain ⟨s', h, -⟩ := C43_segments_loaded h1 h2 h3 h5 h6 h7 h8 h9 h10
  exact ⟨s', h⟩

/-- C47. A valid file without loadable segment is refused, and nothing else happens. -/
theorem C47_nothing_to_load_refused {b : Str} {s : Sim} (hc : headerComplaint b = none)
    (ht : TableInside b) (hn : ∀ h ∈ progHeaders b, h.loadable = false) :
    fromMemory b b.length s = .throw ⟨.elfFormat, asc "ELF contained no entries which were loadable and had a valid non-zero filesz <= to memsz."⟩ s := by
  have hk : ∀ n i c, (∀ j < n, entryAt b (i + j) + 32 ≤ b.length) → (∀ h ∈ headersFrom b i n, h.loadable = false) →
      loadEntries b b.length (phentsize b) n i (BitVec.ofNat 32 (entryAt b i)) c s = .ok c s := by
    intro n
    induction n with
    | zero => intro i c _ _; rfl
    | succ n ih =>
      intro i c h1 h2
      have h0 := h1 0 (by omega)
      simp only [Nat.add_zero] at h0
      rw [loadEntries_succ (noWrap (noWrap_in h0)), offset_toNat, if_pos h0, offset_add, M.bind_apply,
        entry_skip h0 (h2 _ (by rw [headersFrom_succ]; exact List.mem_cons_self))]
      exact ih (i + 1) c (fun j hj => by have := h1 (j + 1) (by omega); rwa [show i + (j + 1) = i + 1 + j by omega] at this)
        (fun h hh => h2 h (by rw [headersFrom_succ]; exact List.mem_cons_of_mem _ hh))
  have := hk (phnum b) 0 0 (by intro j hj; rw [Nat.zero_add]; exact ht j hj) (by rw [headersFrom_all]; exact hn)
  rw [entryAt_zero] at this
  rw [fromMemory_eq, hc]
  simp only
  rw [M.bind_apply, this]
  rfl

/-- Two program headers, none to be loaded. -/
def elfEmpty : Str := elfHead 2 ++ elfEntry 4 0xFFFFFFFF 0 9 9 ++ elfEntry 1 0xFFFFFFF0 0x10 0 64

example : headerComplaint elfEmpty = none ∧ TableInside elfEmpty ∧
    (∀ h ∈ progHeaders elfEmpty, h.loadable = false) :=
  ⟨by decide +kernel, by decide +kernel, by decide +kernel⟩

end Verif.Props
