import Verif.Lemmas.Xml
import Verif.Lemmas.MapFlash
import Verif.Props.Demo
/-
C17-C19: the memory map handed to GDB.
-/
namespace Verif.Props
open Verif MemSim Spec

/-! ### C17 -/

theorem isMap_regions : ∀ rs : List Region,
    List.Forall₂ IsElement (rs.map fun r => ⟨r.isReadOnly, r.baseAddress, r.size⟩) (rs.map xmlElement)
  | [] => .nil
  | r :: rs => .cons (xmlElement_is r) (isMap_regions rs)

/-- C17. Up to 19 522 578 regions, `MemorySim_GetMemoryMapXML` either returns (and keeps) the text that lists every region
and alias in creation order, or raises `outOfMemoryException` and keeps the previous text; no assertion fires (an outcome
`ub` is excluded). The first happens exactly if the allocation succeeds. Nothing else changes. -/
theorem C17_map_lists_regions {s : Sim} (h : s.regions.length ≤ 19522578) :
    (s.heap.fails s.heap.next = false → ∃ t s', getMemoryMapXML s = .ok t s' ∧ IsMap (entries s) t ∧ s'.xml = some t ∧
      s'.regions = s.regions ∧ s'.hits = s.hits) ∧
    (s.heap.fails s.heap.next = true → ∃ s', getMemoryMapXML s = .throw ⟨.outOfMemory, []⟩ s' ∧ s'.xml = s.xml ∧
      s'.regions = s.regions ∧ s'.hits = s.hits ∧ s'.heap.live = s.heap.live) := by
  rw [xml_eq (room_iff.2 h)]
  constructor
  · intro hf
    simp only [hf, Bool.false_eq_true, if_false]
    refine ⟨_, _, rfl, ⟨_, isMap_regions s.regions, ?_⟩, rfl, rfl, rfl⟩
    have e1 : xmlHeader = mapHead := by decide +kernel
    have e2 : xmlTrailer = mapTail := by decide
    rw [e1, e2]
  · intro hf
    simp only [hf, if_true]
    exact ⟨_, rfl, rfl, rfl, rfl, by simp [bumpHeap]⟩

/-- C17. With any number of regions: a text that is returned is the complete and exact map; it is kept, and nothing else
changes. -/
theorem C17_returned_map_is_exact {s s' : Sim} {t : Str} (h : getMemoryMapXML s = .ok t s') :
    IsMap (entries s) t ∧ s'.xml = some t ∧ s'.regions = s.regions ∧ s'.hits = s.hits := by
  obtain ⟨h1, h2, h3, h4⟩ := xml_ok h
  refine ⟨⟨_, isMap_regions s.regions, ?_⟩, h2, h3, h4⟩
  have e1 : xmlHeader = mapHead := by decide +kernel
  have e2 : xmlTrailer = mapTail := by decide
  rw [h1, e1, e2]

/-- C17, the limit. The assertions hold exactly up to 19 522 578 regions: with more of them the room left in the buffer does
not fit `(int)pBuffer->size` and an assertion fires, unless the allocation fails first. -/
theorem C17_assertions_hold_iff (s : Sim) :
    getMemoryMapXML s ≠ .ub .assertFailed ↔ s.regions.length ≤ 19522578 ∨ s.heap.fails s.heap.next = true := by
  by_cases hn : s.regions.length ≤ 19522578
  · rw [xml_eq (room_iff.2 hn)]
    simp only [hn, true_or, iff_true]
    split <;> simp
  · cases hf : s.heap.fails s.heap.next
    · simp [xml_beyond (by omega) hf, hn]
    · simp only [or_true, iff_true]
      unfold getMemoryMapXML
      simp [M.bind_apply, M.get_apply, realloc, hf]

/-- C17: one region more, and an assertion fires. The state is reached from `MemorySim_Init` by creating that many (empty) regions. -/
theorem C17_assert_fires_witness : ∃ cs s, Hist (init goodHeap) cs s ∧ getMemoryMapXML s = .ub .assertFailed := by
  have step : ∀ n : Nat, ∃ cs s, Hist (init goodHeap) cs s ∧ s.regions = List.replicate n (newRegion 0 0) ∧
      s.heap.fails = fun _ => false := by
    intro n
    induction n with
    | zero => exact ⟨[], _, .nil _, rfl, rfl⟩
    | succ n ih =>
      obtain ⟨cs, s, h1, h2, h3⟩ := ih
      have snoc : ∀ {a : Sim} {cs : List Call} {b c : Sim} {x : Call}, Hist a cs b → Step x b c → Hist a (cs ++ [x]) c := by
        intro a cs b c x h hs
        induction h with
        | nil s => exact .cons hs (.nil _)
        | cons h t ih => exact .cons h (ih hs)
      have hc : createRegion 0 0 s = .ok () { bumpHeap s 2 2 with regions := s.regions ++ [newRegion 0 0] } := by
        simp only [createRegion, throwingZeroedMalloc, malloc, addRegionToTail, M.bind_apply, M.tryCatch_apply, h3,
          Bool.false_eq_true, if_false]
        simp [bumpHeap, newRegion, Int.add_assoc, h3]
      refine ⟨cs ++ [.createRegion 0 0], { bumpHeap s 2 2 with regions := s.regions ++ [newRegion 0 0] }, snoc (x := .createRegion 0 0) h1 (.inl ⟨(), hc⟩), ?_, h3⟩
      simp only [h2, List.replicate_succ']
  obtain ⟨cs, s, h1, h2, h3⟩ := step 19522579
  refine ⟨cs, s, h1, xml_beyond ?_ (by rw [h3])⟩
  rw [h2, List.length_replicate]
  omega

/-- Concrete case: the map of the demo simulator. -/
example : demo.regions.length ≤ 19522578 ∧ demo.heap.fails demo.heap.next = false ∧
    entries demo = [⟨true, 0x1000, 8⟩, ⟨false, 0x20000000, 16⟩, ⟨false, 0x8000, 12⟩] := ⟨(by simp [demo]), rfl, rfl⟩

/-! ### C18 -/

/-- C18. A text is the memory map of at most one list of entries. -/
theorem C18_text_determines_entries {es es' : List Entry} {t : Str} (h : IsMap es t) (h' : IsMap es' t) : es = es' := by
  obtain ⟨ts, h1, e0⟩ := h
  obtain ⟨ts', h2, e1⟩ := h'
  have e := e0.symm.trans e1
  simp only [List.append_assoc, List.append_cancel_left_eq] at e
  exact elements_unique h1 h2 e

/-- C18. Two simulators that hand out the same text have the same list of types, addresses and sizes. -/
theorem C18_map_injective {s1 s2 s1' s2' : Sim} {t : Str}
    (h1 : getMemoryMapXML s1 = .ok t s1') (h2 : getMemoryMapXML s2 = .ok t s2') : entries s1 = entries s2 :=
  C18_text_determines_entries (C17_returned_map_is_exact h1).1 (C17_returned_map_is_exact h2).1

/-- Concrete case: the demo simulator hands out a text. -/
example : ∃ t s', getMemoryMapXML demo = .ok t s' ∧ IsMap (entries demo) t := by
  obtain ⟨t, s', h, hm, -⟩ := (C17_map_lists_regions (s := demo) (by simp [demo])).1 rfl
  exact ⟨t, s', h, hm⟩

/-! ### C19 -/

/-- The memory behind an entry of the map. -/
theorem entry_target {s : Sim} (hs : Sound s) {a : U32} {n k : Nat} {q : Region} {e : Entry} (hq : FirstCover s.regions a n k q)
    (he : (entries s)[k]? = some e) :
    ∃ i r off, Target s a n i r off ∧ (q.isAlias = true → q.redirect = some i ∧ s.regions[i]? = some r) ∧
      (q.isAlias = false → e.flash = r.isReadOnly) := by
  obtain ⟨i, r, off, ht⟩ := target_of_mapped hs ⟨q, List.mem_of_getElem? hq.1, hq.2.1⟩
  refine ⟨i, r, off, ht, ?_⟩
  obtain ⟨k', q', hq', hx⟩ := ht
  obtain ⟨rfl, rfl⟩ : k' = k ∧ q' = q := by
    have hk : k' = k := by
      rcases Nat.lt_trichotomy k' k with hlt | heq | hlt
      · exact absurd hq'.2.1 (hq.2.2 k' hlt q' hq'.1)
      · exact heq
      · exact absurd hq.2.1 (hq'.2.2 k hlt q hq.1)
    subst hk
    have := hq.1.symm.trans hq'.1
    exact ⟨rfl, (Option.some.inj this).symm⟩
  constructor
  · intro ha
    simp only [ha, if_true] at hx
    exact ⟨hx.1, hx.2.1⟩
  · intro ha
    simp only [ha, Bool.false_eq_true, if_false] at hx
    simp only [entries, List.getElem?_map, hq.1, Option.map_some, Option.some.injEq] at he
    rw [← he, hx.2.1]

/-- C19 for every history in which no memory is marked read-only after an alias to it was created: a part of the address
space that entry number `k` of the memory map is the first to describe is listed as flash exactly if writes to it are
rejected. Missing: histories that mark memory read-only later; for them the claim is false, see the witness. -/
theorem C19_flash_iff_write_rejected_partial {hp : Heap} {cs : List Call} {s : Sim}
    (h : HistWith (fun c s => Careful c s ∧ NoLateMark c s) (init hp) cs s) {w : Width} {a : U32} {v : BitVec w.bits} {k : Nat}
    {q : Region} {e : Entry} (hq : FirstCover s.regions a w.bytes k q) (he : (entries s)[k]? = some e) :
    e.flash = true ↔ ∃ m s', IMemory.write w a v s = .throw ⟨.busError, m⟩ s' := by
  have h0 : InSync (init hp) := by intro q hq; cases hq
  obtain ⟨hs, hi⟩ := hist_insync h (good_nil (g := true) rfl).sound h0
  obtain ⟨i, r, off, ht, h1, h2⟩ := entry_target hs hq he
  have hro : e.flash = r.isReadOnly := by
    cases ha : q.isAlias with
    | true =>
      rw [← hi q (List.mem_of_getElem? hq.1) ha i r (h1 ha).1 (h1 ha).2]
      simp only [entries, List.getElem?_map, hq.1, Option.map_some, Option.some.injEq] at he
      rw [← he]
    | false => exact h2 ha
  rw [hro, write_eq, writeN_eq hs ht]
  cases h1 : r.isReadOnly with
  | true => simp
  | false =>
    simp only [Bool.false_eq_true, if_false, false_iff]
    rintro ⟨m, s', hx⟩
    split at hx <;> simp at hx

/-- Concrete case: the history of the demo simulator, in which the flash is marked before the (RAM) alias is created. -/
example : HistWith (fun c s => Careful c s ∧ NoLateMark c s) (init goodHeap)
      [.createRegion 0x1000 8, .makeReadOnly 0x1000, .createAlias 0x8000 0x1002 4] (⟨[
        { baseAddress := 0x1000, size := 8, data := [0, 0, 0, 0, 0, 0, 0, 0], readCounts := some [0, 0, 0, 0], isReadOnly := true },
        { baseAddress := 0x8000, size := 4, data := [0, 0, 0, 0], redirectAddress := 0x1002, redirect := some 0, isAlias := true,
          isReadOnly := true }], 0, none, { goodHeap with next := 5, live := 5 }⟩) := by
  refine execWith_hist (chk := fun c s => carefulChk c s && s.regions.all (fun r => !r.isAlias)) ?_ rfl
  intro c s hc
  simp only [Bool.and_eq_true, List.all_eq_true] at hc
  refine ⟨carefulChk_ok c s hc.1, ?_⟩
  have hn : ∀ q ∈ s.regions, q.isAlias = false := fun q hq => by simpa using hc.2 q hq
  cases c <;> first | trivial | exact hn | (intro i _ q hq ha; rw [hn q hq] at ha; cases ha)

/-- C19 is false in general: an alias created before its memory is marked read-only stays listed as RAM although writes
through it are rejected. -/
theorem C19_stale_alias_witness : ∃ s q, CarefulHist (init goodHeap)
      [.createRegion 0x1000 8, .createAlias 0x8000 0x1000 8, .makeReadOnly 0x1000] s ∧
    FirstCover s.regions 0x8000 4 1 q ∧ (entries s)[1]? = some ⟨false, 0x8000, 8⟩ ∧
    IMemory.write .w32 0x8000 1 s = .throw ⟨.busError, []⟩ s :=
  ⟨_, _, execWith_hist carefulChk_ok rfl, findFrom_zero.1 rfl, rfl, rfl⟩

/-- C19, the half that always holds: whatever was marked when, a part of the address space that is listed as flash cannot
be written. -/
theorem C19_flash_is_write_protected {hp : Heap} {cs : List Call} {s : Sim} (h : CarefulHist (init hp) cs s) {w : Width} {a : U32}
    {v : BitVec w.bits} {k : Nat} {q : Region} {e : Entry} (hq : FirstCover s.regions a w.bytes k q) (he : (entries s)[k]? = some e)
    (hf : e.flash = true) : IMemory.write w a v s = .throw ⟨.busError, []⟩ s := by
  obtain ⟨hs, hi⟩ := hist_holds h (good_nil (g := true) rfl).sound (by intro q hq; cases hq)
  obtain ⟨i, r, off, ht, h1, h2⟩ := entry_target hs hq he
  have hro : r.isReadOnly = true := by
    cases ha : q.isAlias with
    | true => obtain ⟨h3, h4⟩ := h1 ha; exact hi q (List.mem_of_getElem? hq.1) ha i r h3 h4 (by
        simp only [entries, List.getElem?_map, hq.1, Option.map_some, Option.some.injEq] at he
        rw [← he] at hf; exact hf)
    | false => rw [← h2 ha]; exact hf
  rw [write_eq, writeN_eq hs ht, if_pos hro]

/-- C19, the other half: memory that is listed as RAM although it cannot be written is listed so by an alias. -/
theorem C19_only_aliases_are_stale {hp : Heap} {cs : List Call} {s s' : Sim} (h : CarefulHist (init hp) cs s) {w : Width} {a : U32}
    {v : BitVec w.bits} {k : Nat} {q : Region} {m : Str} {n : Entry} (hq : FirstCover s.regions a w.bytes k q)
    (he : (entries s)[k]? = some n) (hf : n.flash = false) (hx : IMemory.write w a v s = .throw ⟨.busError, m⟩ s') :
    q.isAlias = true := by
  have hs := hist_sound (good_nil (g := true) rfl).sound h
  obtain ⟨i, r, off, ht, -, h2⟩ := entry_target hs hq he
  cases ha : q.isAlias with
  | true => rfl
  | false =>
    have hro : ¬ r.isReadOnly = true := by rw [← h2 ha, hf]; decide
    rw [write_eq, writeN_eq hs ht, if_neg hro] at hx
    split at hx <;> simp at hx

/-- Both kinds of entries, in the history of the witness. -/
example : ∃ s q q', CarefulHist (init goodHeap) [.createRegion 0x1000 8, .createAlias 0x8000 0x1000 8, .makeReadOnly 0x1000] s ∧
    (FirstCover s.regions 0x1004 4 0 q ∧ (entries s)[0]? = some ⟨true, 0x1000, 8⟩) ∧
    FirstCover s.regions 0x8000 4 1 q' ∧ (entries s)[1]? = some ⟨false, 0x8000, 8⟩ ∧
    IMemory.write .w32 0x8000 1 s = .throw ⟨.busError, []⟩ s :=
  ⟨_, _, _, execWith_hist carefulChk_ok rfl, ⟨findFrom_zero.1 rfl, rfl⟩, findFrom_zero.1 rfl, rfl, rfl⟩

end Verif.Props
