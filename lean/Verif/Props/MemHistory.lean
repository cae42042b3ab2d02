import Verif.Lemmas.Flash
import Verif.Props.Demo
import Verif.Lemmas.AliasOrder
/-
C06, C11-C14, C16, C25: read-only memory, memory safety, image loading, heap accounting.
-/
namespace Verif.Props
open Verif MemSim Spec

/-! ### C06 -/

/-- C06. In any state whatever, a write that is handed to a read-only region raises the bus error and changes nothing. -/
theorem C06_write_to_readonly_rejected {s : Sim} {w : Width} {a : U32} {v : BitVec w.bits} {i : Nat} {r : Region}
    (h : Reaches s a w.bytes i) (hr : s.regions[i]? = some r) (hro : r.isReadOnly = true) :
    IMemory.write w a v s = .throw ⟨.busError, []⟩ s := by
  rw [write_eq]; exact writeN_readOnly h hr hro

/-- C06. Over any history without image loads and without uninit, a read-only region stays where it is, stays read-only
and keeps its contents. -/
theorem C06_readonly_forever {s s' : Sim} {cs : List Call} {i : Nat} {r : Region}
    (h : Hist s cs s') (hc : ∀ c ∈ cs, loadsOrClears c = false)
    (hr : s.regions[i]? = some r) (hro : r.isReadOnly = true) :
    ∃ r', s'.regions[i]? = some r' ∧ r'.isReadOnly = true ∧ r'.data = r.data ∧
      r'.baseAddress = r.baseAddress ∧ r'.size = r.size ∧ r'.isAlias = r.isAlias := by
  obtain ⟨r', h1, h2⟩ := (hist_extends h hc).get hr
  obtain ⟨k1, k2⟩ := h2.keep hro
  obtain ⟨e1, e2, e3, -⟩ := shape_eq h2.shape
  exact ⟨r', h1, k1, k2, e1, e2, e3⟩

/-- Calls that try hard to change the flash of `demo`. -/
def attack : List Call :=
  [.write .w32 0x1000 0xFFFFFFFF, .mapForWrite 0x1000 4, .createRegion 0x1000 8, .createAlias 0x9000 0x1000 8,
   .write .w8 0x9000 0xFF, .clearBreakpoint 0x1002 2, .makeReadOnly 0x1004, .read .w16 0x1002]

example : ∃ s', Hist demo attack s' ∧ (∀ c ∈ attack, loadsOrClears c = false) ∧
    Reaches demo 0x1004 4 0 ∧ (∃ r, demo.regions[0]? = some r ∧ r.isReadOnly = true) := by
  obtain ⟨s, h⟩ := Option.isSome_iff_exists.1 (show (exec attack demo).isSome = true by decide +kernel)
  exact ⟨s, exec_hist h, by decide, reaches_find (a' := 0x1004) rfl, _, rfl, rfl⟩

/-! ### C11 -/

/-- C11, with what is missing shown to fail below. From `MemorySim_Init`, along any history that makes no alias of an
alias, hands over image buffers as long as stated, and does not ask for read counts of memory whose read-only marking
failed: no call makes an invalid host memory access, whatever allocations fail. The only ways to stop are the failing
assertion of the memory map and the overflow of the `int` hit counter. -/
theorem C11_no_invalid_access_partial {hp : Heap} {cs : List Call} {s : Sim} {c : Call} {u : UB}
    (h : CarefulHist (init hp) cs s) (hc : Careful c s) (hu : c.run s = .ub u) :
    u = .assertFailed ∨ (u = .signedOverflow ∧ ¬ HitRoom s) := by
  have hs : Sound s := hist_sound (good_nil (g := true) rfl).sound h
  have := call_fine (g := false) ⟨hs, by simp⟩ hc (by simp)
  rw [hu] at this
  rcases this with rfl | rfl
  · right
    refine ⟨rfl, fun hroom => ?_⟩
    have key : ∀ (a : U32) (n : Nat) (t : U32), getDataPointer a n t true s ≠ .ub .signedOverflow := by
      intro a n t
      by_cases hm : Mapped s a n
      · obtain ⟨i, r, off, ht⟩ := target_of_mapped hs hm
        rw [gdp_check hs ht]
        split
        · simp
        · have h1 := hroom r (List.mem_of_getElem? (ht.info hs).get)
          have h2 := scan_le r.watch (r.baseAddress + BitVec.ofNat 32 off)
            (r.baseAddress + BitVec.ofNat 32 off + BitVec.ofNat 32 n) n t
          rw [if_neg (by unfold scanAt; omega)]
          split <;> simp
      · rw [gdp_unmapped hm]; simp
    cases c with
    | read w a =>
      simp only [Call.run, M.bind_apply, read_eq] at hu
      by_cases hm : Mapped s a w.bytes
      · obtain ⟨i, r, off, ht⟩ := target_of_mapped hs hm
        rcases read_progress hs hroom ht with ⟨v, s', h⟩ | ⟨-, s', h⟩ <;> rw [read_eq] at h <;> rw [h] at hu <;> cases hu
      · rw [readN_unmapped hm] at hu; cases hu
    | write w a v =>
      simp only [Call.run, write_eq] at hu
      by_cases hm : Mapped s a w.bytes
      · obtain ⟨i, r, off, ht⟩ := target_of_mapped hs hm
        rw [writeN_eq hs ht] at hu
        split at hu
        · cases hu
        · have h1 := hroom r (List.mem_of_getElem? (ht.info hs).get)
          have h2 := scan_le r.watch (r.baseAddress + BitVec.ofNat 32 off)
            (r.baseAddress + BitVec.ofNat 32 off + BitVec.ofNat 32 w.bytes) w.bytes WRITING
          rw [if_neg (by unfold scanAt; omega)] at hu
          cases hu
      · rw [writeN_unmapped hm] at hu; cases hu
    | createRegion b n =>
      rcases createRegion_cases b n s with ⟨k, h⟩ | h <;> simp only [Call.run, h] at hu <;> cases hu
    | createAlias al rd n =>
      have hne : ∀ r, findMatchingRegion rd 1 s ≠ .ub r := by
        intro r
        by_cases hm : Mapped s rd 1
        · obtain ⟨i, r, off, ht⟩ := target_of_mapped hs hm
          rw [find_target hs ht]; simp
        · rw [find_unmapped hm]; simp
      rcases createAlias_cases al rd n s with ⟨k, h⟩ | ⟨k, h, -⟩ | ⟨j, a', t, hf, ht, h⟩ | ⟨u, h, hf | ⟨j, a', hf, ht⟩⟩ <;>
        simp only [Call.run, h] at hu
      · cases hu
      · cases hu
      · cases hu
      · exact hne _ hf
      · by_cases hm : Mapped s rd 1
        · obtain ⟨i, r, off, ht'⟩ := target_of_mapped hs hm
          rw [find_target hs ht'] at hf
          cases hf
          rw [(ht'.info hs).get] at ht; cases ht
        · rw [find_unmapped hm] at hf; cases hf
    | makeReadOnly b =>
      simp only [Call.run] at hu
      by_cases hm : Mapped s b 1
      · obtain ⟨i, r, off, ht⟩ := target_of_mapped hs hm
        rw [makeReadOnly_eq hs ht] at hu
        split at hu <;> cases hu
      · rw [makeReadOnly_unmapped hm] at hu; cases hu
    | load b img n =>
      exact absurd hu (loadWords_no_overflow hs hc)
    | flashImage img n => exact absurd hu (flash_no_overflow hs hc)
    | memoryMap =>
      simp only [Call.run, M.bind_apply] at hu
      rcases xml_raw s with h | h | ⟨text, h⟩ <;> rw [h] at hu <;> cases hu
    | mapForWrite a n =>
      simp only [Call.run, M.bind_apply, mapForWrite] at hu
      have := gdp_nocheck_no_overflow (u := .signedOverflow) hs a n.toNat WRITING
      cases hg : getDataPointer a n.toNat WRITING false s <;> rw [hg] at hu this <;> cases hu
      exact this rfl
    | mapForRead a n =>
      simp only [Call.run, M.bind_apply, mapForRead] at hu
      have := gdp_nocheck_no_overflow (u := .signedOverflow) hs a n.toNat READING
      cases hg : getDataPointer a n.toNat READING false s <;> rw [hg] at hu this <;> cases hu
      exact this rfl
    | readCount a =>
      simp only [Call.run, M.bind_apply] at hu
      by_cases hm : Mapped s a 2
      · obtain ⟨i, r, off, ht⟩ := target_of_mapped hs hm
        rcases readCount_eq (g := false) ⟨hs, by simp⟩ ht (hc i r off ht) with ⟨-, h⟩ | ⟨-, cs, c, -, -, h⟩ <;>
          rw [h] at hu <;> cases hu
      · rw [readCount_unmapped hm] at hu; cases hu
    | setBreakpoint a n => exact absurd hu (setWatchpoint_no_ub hs)
    | setWatchpoint a n t => exact absurd hu (setWatchpoint_no_ub hs)
    | clearBreakpoint a n => exact absurd hu (clearWatchpoint_no_ub hs)
    | clearWatchpoint a n t => exact absurd hu (clearWatchpoint_no_ub hs)
    | wasHit => cases hu
    | uninit => cases hu
  · exact .inl rfl

/-- Concrete case: the history that leads to `demo` respects the rules (its one alias is of ordinary memory), and in
`demo` reading a count does. -/
example : CarefulHist (init goodHeap) demoCalls demo ∧ Careful (.readCount 0x1002) demo := by
  refine ⟨execWith_hist carefulChk_ok rfl, ?_⟩
  · intro i r off ht _
    have := ht.unique (show Target demo 0x1002 2 0 _ 2 from ⟨0, _, findFrom_zero.1 rfl, rfl, rfl, rfl⟩)
    rw [this.2.1]; decide

/-- C11 fails for aliases of aliases (see also `C10_alias_of_alias_escapes`). -/
theorem C11_alias_of_alias_witness :
    ∃ s, Hist (init goodHeap) [.createRegion 0x100 8, .createAlias 0x200 0x104 4, .createAlias 0x300 0x200 4] s ∧
      (Call.read .w8 0x300).run s = .ub .outOfBounds :=
  ⟨_, exec_hist rfl, rfl⟩

/-- C11 fails when the counter array of a read-only region could not be allocated: the exception is reported, the region
is read-only all the same, and asking for a read count dereferences a null pointer. -/
theorem C11_null_counters_witness :
    ∃ s, Hist (init { fails := fun n => n == 2 }) [.createRegion 0x1000 8, .makeReadOnly 0x1000] s ∧
      (Call.readCount 0x1000).run s = .ub .nullDeref :=
  ⟨_, exec_hist rfl, rfl⟩

/-! ### C12 -/

/-- C10 and C11: this is so for every alias of an alias, after every history of calls (regions that do not run past the end
of the address space): its first bytes, unless an older region serves them, cannot be read without leaving the memory of
the simulator, and cannot be written either unless the memory it leads to is read-only. -/
theorem C10_chained_alias_always_escapes {hp : Heap} {cs : List Call} {s : Sim} (h : Hist (init hp) cs s) {k k' : Nat} {p q : Region}
    {w : Width} (hfit : ∀ r ∈ s.regions, r.isAlias = false → r.baseAddress.toNat + r.size.toNat ≤ 2 ^ 32)
    (hp : FirstCover s.regions p.baseAddress w.bytes k p) (ha : p.isAlias = true)
    (hq : FirstCover s.regions p.redirectAddress 1 k' q) (hqa : q.isAlias = true) (hw : w ≠ .w16) :
    ∃ i t, p.redirect = some i ∧ s.regions[i]? = some t ∧ (∃ u, IMemory.read w p.baseAddress s = .ub u) ∧
      ∀ v, t.isReadOnly = false → ∃ u, IMemory.write w p.baseAddress v s = .ub u :=
  chained_escapes (hist_resolved h (resolved_nil rfl)) hfit hp ha hq hqa hw

/-- The hypotheses are met after the three calls of the witness. -/
example : ∃ s p q, Hist (init goodHeap) [.createRegion 0x100 8, .createAlias 0x200 0x104 4, .createAlias 0x300 0x200 4] s ∧
    FirstCover s.regions p.baseAddress 4 2 p ∧ p.isAlias = true ∧ FirstCover s.regions p.redirectAddress 1 1 q ∧ q.isAlias = true ∧
    ∀ r ∈ s.regions, r.isAlias = false → r.baseAddress.toNat + r.size.toNat ≤ 2 ^ 32 := by
  exact ⟨_, { baseAddress := 0x300, size := 4, data := [0, 0, 0, 0], redirectAddress := 0x200, redirect := some 0, isAlias := true },
    { baseAddress := 0x200, size := 4, data := [0, 0, 0, 0], redirectAddress := 0x104, redirect := some 0, isAlias := true },
    execWith_hist (P := fun _ _ => True) (chk := fun _ _ => true) (fun _ _ _ => trivial) rfl |>.hist,
    findFrom_zero.1 rfl, rfl, findFrom_zero.1 rfl, rfl, by decide⟩

/-- C12. Loading `n` bytes at an address range that one region owns succeeds (the region may be read-only). The contents
of one region change, and in it exactly the addressed bytes; nothing else changes, in particular no counter and not the
hit count. -/
theorem C12_load_exact {s : Sim} {a : U32} {img : List U8} {n : U32} {k : Nat} {q : Region}
    (hs : Sound s) (ho : Owns s.regions a n.toNat k q) (hn : 0 < n.toNat) (hw : a.toNat + n.toNat ≤ 2 ^ 32)
    (hl : n.toNat ≤ img.length) :
    ∃ i r off d, Target s a n.toNat i r off ∧
      loadFromFlashImage a img n s = .ok () { s with regions := s.regions.set i { r with data := d } } ∧
      (∀ j < n.toNat, d[off + j]? = img[j]?) ∧ (∀ j, j < off ∨ off + n.toNat ≤ j → d[j]? = r.data[j]?) := by
  obtain ⟨i, r, off, hR⟩ := ho.range hs hn hw
  have ht := hR.sub 0 n.toNat hn (by omega)
  simp only [Nat.add_zero] at ht
  rw [show a + BitVec.ofNat 32 0 = a from by simp] at ht
  have hroom := hR.room
  have hlen : (img.take n.toNat).length = n.toNat := by simp; omega
  have key := fun j => splice_get (d := r.data) (b := img.take n.toNat) (off := off) (j := j) (by omega)
  rw [hlen] at key
  refine ⟨i, r, off, _, ht, loadWords_range hs hR hl, ?_, ?_⟩
  · intro j hj
    rw [key, if_pos (by omega), Nat.add_sub_cancel_left, List.getElem?_take_of_lt hj]
  · intro j hj
    rw [key, if_neg (by omega)]

/-- C12, as seen by a reader. -/
theorem C12_loaded_bytes_read_back {s s' : Sim} {a : U32} {img : List U8} {n : U32} {k : Nat} {q : Region}
    (hs : Sound s) (ho : Owns s.regions a n.toNat k q) (hw : a.toNat + n.toNat ≤ 2 ^ 32) (hl : n.toNat ≤ img.length)
    (h : loadFromFlashImage a img n s = .ok () s') (hroom : HitRoom s') :
    ∀ j < n.toNat, ∃ b s'', img[j]? = some b ∧ IMemory.read .w8 (a + BitVec.ofNat 32 j) s' = .ok b s'' := by
  intro j hj
  obtain ⟨i, r, off, hR⟩ := ho.range hs (by omega) hw
  have e := loadWords_range hs hR hl
  rw [loadFromFlashImage, e] at h
  have hlen : (img.take n.toNat).length = n.toNat := by simp; omega
  have hrr := hR.room
  simp only [Out.ok.injEq, true_and] at h
  have hs' : Sound s' := range_sound hs hR (bs := img.take n.toNat) (by omega) (by omega) (by rw [← h])
  have hlt : i < s.regions.length := (List.getElem?_eq_some_iff.1 hR.get).1
  have ht := (hR.sub j 1 (by omega) (by omega)).sameShapes (s' := s') (by rw [← h]; exact SameShapes.set hR.get rfl)
    (r' := { r with data := splice r.data off (img.take n.toNat) }) (by rw [← h]; exact List.getElem?_set_self hlt)
  obtain ⟨s'', h''⟩ := read8_eq hs' hroom (b := img[j]'(by omega)) ht (by
    rw [splice_get (by omega), if_pos (by omega), Nat.add_sub_cancel_left, List.getElem?_take_of_lt hj]
    exact List.getElem?_eq_getElem (by omega))
  exact ⟨_, s'', List.getElem?_eq_getElem (by omega), h''⟩

/-- Concrete case: seven bytes into the middle of the read-only flash... and one past it is refused. -/
example : ∃ q s', Sound demo ∧ Owns demo.regions 0x1001 7 0 q ∧ q.isReadOnly = true ∧
    loadFromFlashImage 0x1001 [9, 8, 7, 6, 5, 4, 3, 2] 7 demo = .ok () s' ∧ HitRoom s' :=
  ⟨_, _, demo_sound, ⟨rfl, by decide, by intro j hj; omega⟩, rfl, rfl, by decide⟩

/-! ### C13, C14 -/

/-- The value of four bytes, least significant first. -/
def word (b0 b1 b2 b3 : U8) : Nat := b0.toNat + 256 * b1.toNat + 65536 * b2.toNat + 16777216 * b3.toNat

/-- C13. With an image of at least four bytes whose first word is `sp`, and an empty simulator: unless memory runs out,
there is then a read-only region at 0 with exactly the image and a zeroed writable one from `sp & 0xF0000000` to `sp`. -/
theorem C13_flash_layout {s : Sim} {img : List U8} {n : U32} {b0 b1 b2 b3 : U8} {rest : List U8}
    (he : s.regions = []) (himg : img = b0 :: b1 :: b2 :: b3 :: rest) (hn : 4 ≤ n.toNat) (hl : n.toNat ≤ img.length) :
    (∃ s', createRegionsFromFlashImage img n s = .throw ⟨.outOfMemory, []⟩ s') ∨
    ∃ s' flash ram, createRegionsFromFlashImage img n s = .ok () s' ∧ s'.regions = [flash, ram] ∧
      flash.isAlias = false ∧ flash.isReadOnly = true ∧ flash.baseAddress = 0 ∧ flash.size = n ∧
      flash.data = img.take n.toNat ∧
      ram.isAlias = false ∧ ram.isReadOnly = false ∧
      ram.baseAddress.toNat = word b0 b1 b2 b3 / 0x10000000 * 0x10000000 ∧
      ram.baseAddress.toNat + ram.size.toNat = word b0 b1 b2 b3 ∧
      ram.data = List.replicate ram.size.toNat 0 ∧
      s'.hits = s.hits ∧ s'.xml = s.xml := by
  rcases flash_empty he hn hl with ⟨k, l, h⟩ | h
  · exact .inl ⟨_, h⟩
  · right
    refine ⟨_, _, _, h, rfl, rfl, rfl, rfl, rfl, rfl, rfl, rfl, ?_, ?_, rfl, rfl, rfl⟩
    all_goals
      have hw : (BitVec.ofNat 32 (leVal (img.take 4))).toNat = word b0 b1 b2 b3 := by
        have := b0.isLt; have := b1.isLt; have := b2.isLt; have := b3.isLt
        rw [himg]
        simp [leVal, word]
        omega
      have hm : (BitVec.ofNat 32 (leVal (img.take 4)) &&& RAM_ADDRESS_MASK).toNat =
          word b0 b1 b2 b3 / 0x10000000 * 0x10000000 := by
        rw [← hw]
        exact and_mask _
    · exact hm
    · simp only [newRegion]
      rw [BitVec.toNat_sub, hm, hw]
      have hlt : word b0 b1 b2 b3 < 2 ^ 32 := by rw [← hw]; exact BitVec.isLt _
      omega

/-- C13. Images shorter than four bytes are refused, and nothing changes (in any simulator). -/
theorem C13_short_image {s : Sim} {img : List U8} {n : U32} (hn : n.toNat < 4) :
    createRegionsFromFlashImage img n s = .throw ⟨.bufferOverrun, []⟩ s := by
  simp [createRegionsFromFlashImage, hn]

example : ∃ s', (init goodHeap).regions = [] ∧
    createRegionsFromFlashImage [0x08, 0x00, 0x00, 0x10, 0xAA] 5 (init goodHeap) = .ok () s' ∧ s'.regions.length = 2 :=
  ⟨_, rfl, rfl, rfl⟩

/-- C14. Whatever exception `MemorySim_CreateRegionsFromFlashImage` raises on an empty simulator, afterwards there is no
region and no heap block more than before. -/
theorem C14_failed_flash_leaves_nothing {s s' : Sim} {img : List U8} {n : U32} {e : Exn}
    (he : s.regions = []) (hl : n.toNat ≤ img.length)
    (h : createRegionsFromFlashImage img n s = .throw e s') :
    s'.regions = [] ∧ s'.heap.live = s.heap.live ∧ s'.hits = s.hits ∧ s'.xml = s.xml := by
  by_cases hn : n.toNat < 4
  · rw [C13_short_image hn] at h
    cases h
    exact ⟨he, rfl, rfl, rfl⟩
  · have ho := flashImage_owed (img := img) (n := n) (s := s) (by
      intro i r _ hr; rw [he] at hr; simp at hr)
    rw [h] at ho
    rcases flash_empty he (by omega) hl with ⟨k, l, h'⟩ | h'
    · rw [h] at h'
      simp only [Out.throw.injEq] at h'
      obtain ⟨-, rfl⟩ := h'
      refine ⟨rfl, ?_, rfl, rfl⟩
      simp only [Post, owed, bumpHeap, he] at ho
      simp only [bumpHeap]
      omega
    · rw [h] at h'; cases h'

/-- Concrete cases: any of the five allocations can be the one that fails. -/
example : ∀ k < 5, ∃ s', createRegionsFromFlashImage [0x08, 0x00, 0x00, 0x10] 4 (init { fails := fun n => n == k }) =
    .throw ⟨.outOfMemory, []⟩ s' := by
  intro k hk
  match k, hk with
  | 0, _ => exact ⟨_, rfl⟩
  | 1, _ => exact ⟨_, rfl⟩
  | 2, _ => exact ⟨_, rfl⟩
  | 3, _ => exact ⟨_, rfl⟩
  | 4, _ => exact ⟨_, rfl⟩

/-! ### C16 -/

/-- C16. In a consistent simulator `MemorySim_GetFlashReadCount` either raises a bus error, exactly when the halfword is
not inside a region or the region is writable, or returns an entry of the counter array; it changes nothing. -/
theorem C16_read_count_in_bounds {s : Sim} {a : U32} (hs : Sound s) (hcnt : Counted s) :
    ((¬ Mapped s a 2 ∨ ∃ i r off, Target s a 2 i r off ∧ r.isReadOnly = false) ∧
      getFlashReadCount a s = .throw ⟨.busError, []⟩ s) ∨
    (∃ i r off cs c, Target s a 2 i r off ∧ r.isReadOnly = true ∧ r.readCounts = some cs ∧ cs[off / 2]? = some c ∧
      getFlashReadCount a s = .ok c s) := by
  have hg : Good true s := ⟨hs, fun _ => hcnt⟩
  by_cases hm : Mapped s a 2
  · obtain ⟨i, r, off, ht⟩ := target_of_mapped hs hm
    have hi := ht.info hs
    rcases readCount_eq hg ht (hg.get hi.get hi.plain rfl) with ⟨h1, h2⟩ | ⟨h1, cs, c, h2, h3, h4⟩
    · exact .inl ⟨.inr ⟨i, r, off, ht, h1⟩, h2⟩
    · exact .inr ⟨i, r, off, cs, c, ht, h1, h2, h3, h4⟩
  · exact .inl ⟨.inl hm, readCount_unmapped hm⟩

example : Sound demo ∧ Counted demo ∧ getFlashReadCount 0x1000 demo = .ok 1 demo ∧ ¬ Mapped demo 0x1007 2 :=
  ⟨demo_sound, demo_counted, rfl, by decide⟩

/-! ### C25 -/

/-- C25, for histories in which memory is not marked read-only a second time: after them `MemorySim_Uninit` leaves no
region, no memory map and as many live heap blocks as there were before `MemorySim_Init`. What is missing is false: see
`C25_leak_witness`. -/
theorem C25_uninit_releases_all_partial {hp : Heap} {cs : List Call} {s : Sim} (h : HistWith Fresh (init hp) cs s) :
    ∃ s', uninit s = .ok () s' ∧ s'.regions = [] ∧ s'.xml = none ∧ s'.heap.live = hp.live := by
  refine ⟨_, rfl, rfl, rfl, ?_⟩
  have := hist_owed h
  simp only [owed, init, blocksOf, xmlBlocks] at this
  simp only [blocksOf]
  simp at this
  omega

/-- A history using most of the calls. -/
def busy : List Call := [.createRegion 0x1000 8, .makeReadOnly 0x1000, .setBreakpoint 0x1000 2,
    .createAlias 0x2000 0x1000 4, .memoryMap, .read .w16 0x1000, .createRegion 0x3000 4, .write .w32 0x3000 7, .memoryMap]

example : ∃ s, HistWith Fresh (init goodHeap) busy s := by
  obtain ⟨s, h⟩ := Option.isSome_iff_exists.1 (show (execWith freshChk busy (init goodHeap)).isSome = true by decide +kernel)
  exact ⟨s, execWith_hist freshChk_ok h⟩

/-- C25. What exactly is left after `MemorySim_Uninit`: one heap block for each time memory was marked read-only whose reads
were already being counted. -/
theorem C25_lost_exactly {hp : Heap} {cs : List Call} {s : Sim} {k : Nat} (h : Losing (init hp) cs s k) :
    ∃ s', uninit s = .ok () s' ∧ s'.regions = [] ∧ s'.xml = none ∧ s'.heap.live = hp.live + k := by
  refine ⟨_, rfl, rfl, rfl, ?_⟩
  have := losing_owed h
  simp only [owed, init, blocksOf, xmlBlocks] at this
  simp only [blocksOf]
  simp at this
  omega

/-- C25. `MemorySim_Uninit` releases everything if and only if no call of the history lost counters. -/
theorem C25_releases_all_iff {hp : Heap} {cs : List Call} {s : Sim} (h : HistWith FlashApart (init hp) cs s) :
    (∃ s', uninit s = .ok () s' ∧ s'.heap.live = hp.live) ↔ HistWith (fun c s => ¬ Loses c s) (init hp) cs s := by
  constructor
  · rintro ⟨s', h1, h2⟩
    obtain ⟨k, hk⟩ := losing_of_hist h
    obtain ⟨s2, e1, -, -, e2⟩ := C25_lost_exactly hk
    rw [h1] at e1
    cases e1
    exact losing_zero hk (by omega)
  · intro hl
    obtain ⟨s', h1, -, -, h2⟩ := C25_lost_exactly (losing_none h hl)
    exact ⟨s', h1, by simpa using h2⟩

/-- Two of these calls lose counters. -/
example : ∃ s, Losing (init goodHeap) [.createRegion 0x1000 8, .makeReadOnly 0x1000, .makeReadOnly 0x1004, .read .w16 0x1000,
    .makeReadOnly 0x1000] s 2 :=
  ⟨_, .keeps trivial (fun h => h) (.inl ⟨_, rfl⟩) (.keeps trivial
    (not_loses (freshChk_ok _ _ rfl)) (.inl ⟨_, rfl⟩)
    (.loses trivial ⟨0, _, ⟨0, _, findFrom_zero.1 rfl, rfl⟩, rfl, rfl, rfl⟩ (.inl ⟨_, rfl⟩)
    (.keeps trivial (fun h => h) (.inl ⟨_, rfl⟩)
    (.loses trivial ⟨0, _, ⟨0, _, findFrom_zero.1 rfl, rfl⟩, rfl, rfl, rfl⟩ (.inl ⟨_, rfl⟩) (.nil _)))))⟩

/-- C25 fails if memory is marked read-only twice: the first counter array is never released. -/
theorem C25_leak_witness :
    ∃ s s', Hist (init goodHeap) [.createRegion 0x1000 8, .makeReadOnly 0x1000, .makeReadOnly 0x1004] s ∧
      uninit s = .ok () s' ∧ s'.regions = [] ∧ s'.heap.live = 1 :=
  ⟨_, _, exec_hist rfl, rfl, rfl, rfl⟩

end Verif.Props
