import Verif.Lemmas.Elf
/- What loading an ELF file does to memory. -/
namespace Verif.Elf
open Verif MemSim Spec

/-- The read-only region made for a block. -/
def romRegion (r : U32 × List U8) : Region :=
  { baseAddress := r.1, size := BitVec.ofNat 32 r.2.length, data := r.2, isReadOnly := true,
    readCounts := some (List.replicate (r.2.length / 2) 0) }

theorem rom_ok {r : U32 × List U8} (h : r.2.length < 2 ^ 32) : PlainOK (romRegion r) := by
  have : (BitVec.ofNat 32 r.2.length).toNat = r.2.length := by rw [BitVec.toNat_ofNat, Nat.mod_eq_of_lt h]
  exact ⟨this.symm, by simp [romRegion]; omega, by simp [romRegion], by simp [romRegion], by simp [romRegion]⟩

theorem rom_covers {r : U32 × List U8} (h : r.2.length < 2 ^ 32) {a : U32} {n : Nat} :
    Covers (romRegion r) a n ↔ r.1.toNat ≤ a.toNat ∧ a.toNat + n ≤ r.1.toNat + r.2.length := by
  have : (BitVec.ofNat 32 r.2.length).toNat = r.2.length := by rw [BitVec.toNat_ofNat, Nat.mod_eq_of_lt h]
  simp only [Covers, romRegion, this]

/-- An access behind the regions that were there. -/
theorem target_append {s : Sim} {old news : List Region} {a : U32} {n k : Nat} {q : Region} (he : s.regions = old ++ news)
    (ho : ∀ p ∈ old, ¬ Covers p a n) (hf : FirstCover news a n k q) (hq : q.isAlias = false) :
    Target s a n (old.length + k) q (a.toNat - q.baseAddress.toNat) := by
  refine ⟨old.length + k, q, ⟨?_, hf.2.1, ?_⟩, by simp [hq]⟩
  · rw [he, List.getElem?_append_right (by omega), Nat.add_sub_cancel_left]; exact hf.1
  · intro j hj p hp
    rw [he] at hp
    by_cases hjo : j < old.length
    · rw [List.getElem?_append_left hjo] at hp
      exact ho p (List.mem_of_getElem? hp)
    · rw [List.getElem?_append_right (by omega)] at hp
      exact hf.2.2 (j - old.length) (by omega) p hp

theorem createRegion_ok {s : Sim} (hp : PlentyOfMemory s) (b n : U32) :
    createRegion b n s = .ok () { bumpHeap s 2 2 with regions := s.regions ++ [newRegion b n] } := by
  have h1 := hp s.heap.next
  have h2 := hp (s.heap.next + 1)
  simp only [createRegion, M.bind_apply, throwingZeroedMalloc_eq, M.tryCatch_apply, h1]
  simp [h2, bumpHeap, addRegionToTail, newRegion]
  omega

theorem sound_snoc {s s' : Sim} (hs : Sound s) {q : Region} (h : s'.regions = s.regions ++ [q]) (hq : q.isAlias = false)
    (hk : PlainOK q) : Sound s' := by
  exact hs.append h (by simp [hq]; exact hk)

theorem fresh_range {s : Sim} {a n : U32} (hfit : a.toNat + n.toNat ≤ 2 ^ 32)
    (hfree : ∀ x, a.toNat ≤ x.toNat → x.toNat < a.toNat + n.toNat → ¬ Mapped s x 1) :
    Range { bumpHeap s 2 2 with regions := s.regions ++ [newRegion a n] } a n.toNat s.regions.length (newRegion a n) 0 := by
  have htoN : ∀ j, j < n.toNat → (a + BitVec.ofNat 32 j).toNat = a.toNat + j := by
    intro j hj
    have := n.isLt
    rw [BitVec.toNat_add, BitVec.toNat_ofNat, Nat.mod_eq_of_lt (a := j) (by omega), Nat.mod_eq_of_lt (by omega)]
  have hold : ∀ x m, 0 < m → a.toNat ≤ x.toNat → x.toNat + m ≤ a.toNat + n.toNat → ∀ p ∈ s.regions, ¬ Covers p x m := by
    intro x m hm h1 h2 p hpm hc
    exact hfree x h1 (by omega) ⟨p, hpm, hc.1, by have := hc.2; omega⟩
  refine ⟨by simp, by simp [newRegion], ?_⟩
  intro j m hm hj
  have e := htoN j (by omega)
  have := target_append (s := { bumpHeap s 2 2 with regions := s.regions ++ [newRegion a n] }) (old := s.regions)
    (news := [newRegion a n]) (a := a + BitVec.ofNat 32 j) (n := m) (k := 0) (q := newRegion a n) rfl
    (hold _ m hm (by omega) (by omega)) ⟨rfl, by simp only [Covers, newRegion, e]; omega, by simp⟩ rfl
  have e' : (a + BitVec.ofNat 32 j).toNat - (newRegion a n).baseAddress.toNat = 0 + j := by simp only [newRegion, e]; omega
  rw [e'] at this
  exact this

theorem loadSegment_eq {s : Sim} (hs : Sound s) (hp : PlentyOfMemory s) {a n : U32} {data : List U8} (h0 : 0 < n.toNat)
    (hl : n.toNat ≤ data.length) (hfit : a.toNat + n.toNat ≤ 2 ^ 32)
    (hfree : ∀ x, a.toNat ≤ x.toNat → x.toNat < a.toNat + n.toNat → ¬ Mapped s x 1) :
    loadSegment a n data s = .ok () { bumpHeap s 3 3 with regions := s.regions ++ [romRegion (a, data.take n.toNat)] } := by
  have hlt : (data.take n.toNat).length = n.toNat := by rw [List.length_take]; omega
  unfold loadSegment
  rw [M.bind_apply, createRegion_ok hp]
  simp only
  have hs1 : Sound { bumpHeap s 2 2 with regions := s.regions ++ [newRegion a n] } :=
    sound_snoc hs rfl rfl (plainOK_new a n)
  have hold : ∀ x m, 0 < m → a.toNat ≤ x.toNat → x.toNat + m ≤ a.toNat + n.toNat → ∀ p ∈ s.regions, ¬ Covers p x m := by
    intro x m hm h1 h2 p hpm hc
    exact hfree x h1 (by omega) ⟨p, hpm, hc.1, by have := hc.2; omega⟩
  have hR := fresh_range hfit hfree
  have hld := loadWords_range (src := data) hs1 hR hl
  rw [M.bind_apply, loadFromFlashImage, hld]
  simp only
  have hsp : splice (newRegion a n).data 0 (data.take n.toNat) = data.take n.toNat := splice_all (by simp [newRegion]; omega)
  have hset : (s.regions ++ [newRegion a n]).set s.regions.length { newRegion a n with data := splice (newRegion a n).data 0 (data.take n.toNat) }
      = s.regions ++ [{ newRegion a n with data := data.take n.toNat }] := by
    rw [hsp, List.set_append_right _ _ (Nat.le_refl _)]
    simp
  rw [hset]
  have hs2 : Sound { bumpHeap s 2 2 with regions := s.regions ++ [{ newRegion a n with data := data.take n.toNat }] } :=
    sound_snoc hs rfl rfl (plainOK_data (plainOK_new a n) (by simp [newRegion]; omega))
  have ht : Target { bumpHeap s 2 2 with regions := s.regions ++ [{ newRegion a n with data := data.take n.toNat }] } a 1
      s.regions.length { newRegion a n with data := data.take n.toNat } 0 := by
    have := target_append (s := { bumpHeap s 2 2 with regions := s.regions ++ [{ newRegion a n with data := data.take n.toNat }] })
      (old := s.regions) (news := [{ newRegion a n with data := data.take n.toNat }]) (a := a) (n := 1) (k := 0)
      (q := { newRegion a n with data := data.take n.toNat }) rfl
      (hold _ 1 (by omega) (by omega) (by omega)) ⟨rfl, by simp only [Covers, newRegion]; omega, by simp⟩ rfl
    simpa [newRegion] using this
  rw [makeReadOnly_eq hs2 ht]
  have hff : ({ bumpHeap s 2 2 with regions := s.regions ++ [{ newRegion a n with data := data.take n.toNat }] } : Sim).heap.fails
      ({ bumpHeap s 2 2 with regions := s.regions ++ [{ newRegion a n with data := data.take n.toNat }] } : Sim).heap.next = false := hp _
  rw [hff]
  simp only [Bool.false_eq_true, if_false]
  have hset2 : (s.regions ++ [{ newRegion a n with data := data.take n.toNat }]).set s.regions.length
        { newRegion a n with
          data := data.take n.toNat, isReadOnly := true,
          readCounts := some (List.replicate (({ newRegion a n with data := data.take n.toNat } : Region).size.toNat / 2) 0) }
      = s.regions ++ [romRegion (a, data.take n.toNat)] := by
    rw [List.set_append_right _ _ (Nat.le_refl _)]
    simp only [Nat.sub_self, List.set_cons_zero, List.append_cancel_left_eq, List.cons.injEq, and_true]
    simp only [romRegion, newRegion, hlt]
    simp
  simp only [] at hset2 ⊢
  rw [hset2]
  simp [bumpHeap, Int.add_assoc]

/-- The program headers from number `i` on, `n` of them. -/
def headersFrom (b : Str) (i n : Nat) : List ProgHeader := (List.range' i n).map fun i => progHeaderAt b (entryAt b i)

theorem headersFrom_all (b : Str) : headersFrom b 0 (phnum b) = progHeaders b := by
  rw [headersFrom, progHeaders, List.range_eq_range']

theorem headersFrom_succ (b : Str) (i n : Nat) :
    headersFrom b i (n + 1) = progHeaderAt b (entryAt b i) :: headersFrom b (i + 1) n := by
  simp [headersFrom, List.range'_succ]

def blocksFrom (b : Str) (i n : Nat) : List (U32 × List U8) := ((headersFrom b i n).filter ProgHeader.loadable).map (ProgHeader.block b)

theorem block_len {b : Str} {h : ProgHeader} (hi : h.offset + h.filesz ≤ b.length) : (h.block b).2.length = h.filesz := by
  simp [ProgHeader.block, List.length_take, List.length_drop]; omega

theorem entryAt_lt (b : Str) (i : Nat) : entryAt b i < 2 ^ 32 := Nat.mod_lt _ (by decide)

theorem entryAt_zero (b : Str) : entryAt b 0 = phoff b := by
  have : phoff b < 2 ^ 32 := numAt_lt4 b 28
  rw [entryAt, Nat.zero_mul, Nat.add_zero, Nat.mod_eq_of_lt this]

theorem offset_toNat (b : Str) (i : Nat) : (BitVec.ofNat 32 (entryAt b i)).toNat = entryAt b i := by
  rw [BitVec.toNat_ofNat, Nat.mod_eq_of_lt (entryAt_lt b i)]

theorem offset_add (b : Str) (i : Nat) :
    BitVec.ofNat 32 (entryAt b i) + BitVec.ofNat 32 (phentsize b) = BitVec.ofNat 32 (entryAt b (i + 1)) := by
  apply BitVec.eq_of_toNat_eq
  simp only [BitVec.toNat_add, BitVec.toNat_ofNat, entryAt, Nat.succ_mul]
  omega

/-- The entry does not wrap. -/
theorem noWrap {b : Str} {i : Nat} (h : entryWraps b i = false) :
    ¬ ((BitVec.ofNat 32 (entryAt b i)).toNat ≤ b.length ∧ b.length < (BitVec.ofNat 32 (entryAt b i)).toNat + 32 ∧
      2 ^ 32 ≤ (BitVec.ofNat 32 (entryAt b i)).toNat + 32) := by
  rw [offset_toNat]
  intro hn
  have : entryWraps b i = true := by simpa [entryWraps] using hn
  rw [h] at this
  cases this

theorem noWrap_in {b : Str} {i : Nat} (h : entryAt b i + 32 ≤ b.length) : entryWraps b i = false := by
  simp [entryWraps]; omega

theorem noWrap_small {b : Str} (h : b.length + 32 < 2 ^ 32) (i : Nat) : entryWraps b i = false := by
  simp [entryWraps]; omega

theorem progHeader_lt (b : Str) (k : Nat) : (progHeaderAt b k).offset < 2 ^ 32 ∧ (progHeaderAt b k).filesz < 2 ^ 32 ∧
    (progHeaderAt b k).paddr < 2 ^ 32 := ⟨numAt_lt4 _ _, numAt_lt4 _ _, numAt_lt4 _ _⟩

theorem ofNat_toNat {x : Nat} (h : x < 2 ^ 32) : (BitVec.ofNat 32 x).toNat = x := by
  rw [BitVec.toNat_ofNat, Nat.mod_eq_of_lt h]

theorem loadEntries_eq {b : Str} {n i : Nat} {c : U32} {s : Sim} (hs : Sound s) (hp : PlentyOfMemory s)
    (ht : ∀ j < n, entryAt b (i + j) + 32 ≤ b.length)
    (hc : ∀ h ∈ headersFrom b i n, h.loadable = true → h.offset + h.filesz ≤ b.length)
    (hf : Free s (blocksFrom b i n)) (hd : Spec.Disjoint (blocksFrom b i n)) :
    ∃ k l, loadEntries b b.length (phentsize b) n i (BitVec.ofNat 32 (entryAt b i)) c s =
      .ok (c + BitVec.ofNat 32 (blocksFrom b i n).length)
        { bumpHeap s k l with regions := s.regions ++ (blocksFrom b i n).map romRegion } := by
  induction n generalizing i c s with
  | zero => exact ⟨0, 0, by simp [loadEntries, blocksFrom, headersFrom, bumpHeap]⟩
  | succ n ih =>
    have h0 := ht 0 (by omega)
    simp only [Nat.add_zero] at h0
    rw [loadEntries_succ (noWrap (noWrap_in h0)), offset_toNat, if_pos h0]
    rw [headersFrom_succ] at hc
    have hc' : ∀ h ∈ headersFrom b (i + 1) n, h.loadable = true → h.offset + h.filesz ≤ b.length :=
      fun h hm => hc h (List.mem_cons_of_mem _ hm)
    have ht' : ∀ j < n, entryAt b (i + 1 + j) + 32 ≤ b.length := by
      intro j hj
      have := ht (j + 1) (by omega)
      rw [show i + 1 + j = i + (j + 1) by omega]; exact this
    rw [offset_add]
    by_cases hl : (progHeaderAt b (entryAt b i)).loadable = true
    · generalize hh : progHeaderAt b (entryAt b i) = h at hl
      have hin := hc h (by rw [hh]; exact List.mem_cons_self) hl
      have hlt := progHeader_lt b (entryAt b i)
      rw [hh] at hlt
      have hbl : blocksFrom b i (n + 1) = h.block b :: blocksFrom b (i + 1) n := by
        rw [blocksFrom, headersFrom_succ, hh, List.filter_cons_of_pos hl]; rfl
      rw [hbl] at hf hd ⊢
      have hblen := block_len (b := b) (h := h) hin
      have hpos : 0 < h.filesz := by simp [ProgHeader.loadable] at hl; exact hl.2.1
      have h1 := hf _ List.mem_cons_self
      have hfit : h.paddr + h.filesz ≤ 2 ^ 32 := by
        have := h1.1
        unfold Fits at this
        rw [hblen] at this
        simpa [ProgHeader.block, ofNat_toNat hlt.2.2] using this
      have hseg := loadSegment_eq (a := BitVec.ofNat 32 h.paddr) (n := BitVec.ofNat 32 h.filesz) (data := b.drop h.offset) hs hp
        (by rw [ofNat_toNat hlt.2.1]; exact hpos)
        (by rw [ofNat_toNat hlt.2.1, List.length_drop]; omega)
        (by rw [ofNat_toNat hlt.2.1, ofNat_toNat hlt.2.2]; exact hfit)
        (by
          intro x hx1 hx2
          refine h1.2 x (Dump.byteIn_iff.2 ⟨?_, ?_⟩)
          · simpa [ProgHeader.block] using hx1
          · rw [hblen]; simpa [ProgHeader.block, ofNat_toNat hlt.2.1] using hx2)
      rw [M.bind_apply, entry_load h0 (by rw [hh]; exact hl), hh, fetch_in (by rw [ofNat_toNat hlt.1, ofNat_toNat hlt.2.1]; exact hin),
        ofNat_toNat hlt.1]
      simp only [M.bind_apply, hseg, M.pure_apply]
      have hblk : (BitVec.ofNat 32 h.paddr, (b.drop h.offset).take (BitVec.ofNat 32 h.filesz).toNat) = h.block b := by
        rw [ofNat_toNat hlt.2.1]; rfl
      rw [hblk]
      have hblt : (h.block b).2.length < 2 ^ 32 := by rw [hblen]; exact hlt.2.1
      have hs' : Sound { bumpHeap s 3 3 with regions := s.regions ++ [romRegion (h.block b)] } :=
        sound_snoc hs rfl rfl (rom_ok hblt)
      have hd' := List.pairwise_cons.1 hd
      have hf' : Free { bumpHeap s 3 3 with regions := s.regions ++ [romRegion (h.block b)] } (blocksFrom b (i + 1) n) := by
        intro r hr
        have hr1 := hf r (List.mem_cons_of_mem _ hr)
        refine ⟨hr1.1, ?_⟩
        rintro x hx ⟨q, hq, hcov⟩
        rcases List.mem_append.1 hq with hq | hq
        · exact hr1.2 x hx ⟨q, hq, hcov⟩
        · simp at hq
          subst hq
          rw [rom_covers hblt] at hcov
          rcases hd'.1 r hr x with hn | hn
          · have : (byteIn (h.block b) x).isSome := Dump.byteIn_iff.2 ⟨hcov.1, by omega⟩
            rw [hn] at this; cases this
          · rw [hn] at hx; cases hx
      obtain ⟨k, l, e⟩ := ih (c := c + 1) hs' (fun x => hp x) ht' hc' hf' hd'.2
      refine ⟨3 + k, 3 + l, ?_⟩
      rw [e]
      congr 1
      · rw [List.length_cons, BitVec.ofNat_add]
        rw [BitVec.add_assoc, BitVec.add_comm 1]
        rfl
      · simp [bumpHeap, Nat.add_assoc, Int.add_assoc]
    · have hl' : (progHeaderAt b (entryAt b i)).loadable = false := by simpa using hl
      have hbl : blocksFrom b i (n + 1) = blocksFrom b (i + 1) n := by
        rw [blocksFrom, headersFrom_succ, List.filter_cons_of_neg hl]; rfl
      rw [hbl] at hf hd ⊢
      rw [M.bind_apply, entry_skip h0 hl']
      exact ih hs hp ht' hc' hf hd

/-- Reads and writes within the loaded blocks. -/
theorem rom_access {s s' : Sim} {mem : List (U32 × List U8)} (hs : Sound s') (hh : s'.hits < 2 ^ 31)
    (he : s'.regions = s.regions ++ mem.map romRegion) (hf : Free s mem) (hd : Spec.Disjoint mem)
    (hl : ∀ r ∈ mem, r.2.length < 2 ^ 32) : HoldsBlocks s' mem ∧ RefusesWrites s' mem := by
  have key : ∀ r ∈ mem, ∀ (w : Width) (a : U32), r.1.toNat ≤ a.toNat → a.toNat + w.bytes ≤ r.1.toNat + r.2.length →
      ∃ i, Target s' a w.bytes i (romRegion r) (a.toNat - r.1.toNat) := by
    intro r hr w a h1 h2
    have hw : 0 < w.bytes := by cases w <;> decide
    obtain ⟨k, hk, rfl⟩ := List.mem_iff_getElem.1 hr
    have hin : (byteIn mem[k] a).isSome := Dump.byteIn_iff.2 ⟨h1, by omega⟩
    refine ⟨s.regions.length + k, target_append he ?_ ⟨?_, (rom_covers (hl _ hr)).2 ⟨h1, h2⟩, ?_⟩ rfl⟩
    · intro p hp hc
      exact (hf _ hr).2 a hin ⟨p, hp, hc.1, by have := hc.2; omega⟩
    · rw [List.getElem?_map, List.getElem?_eq_getElem hk]; rfl
    · intro j hj p hp hc
      rw [List.getElem?_map] at hp
      have hj' : mem[j]? = some (mem[j]'(by omega)) := List.getElem?_eq_getElem (by omega)
      rw [hj'] at hp
      simp only [Option.map_some, Option.some.injEq] at hp
      subst hp
      rw [rom_covers (hl _ (List.getElem_mem _))] at hc
      rcases Dump.pairwise_get hd hj' (List.getElem?_eq_getElem hk) hj a with hn | hn
      · have : (byteIn (mem[j]'(by omega)) a).isSome := Dump.byteIn_iff.2 ⟨hc.1, by omega⟩
        rw [hn] at this; cases this
      · rw [hn] at hin; cases hin
  constructor
  · intro r hr w a h1 h2
    obtain ⟨i, ht⟩ := key r hr w a h1 h2
    have h0 : scanAt (romRegion r) (a.toNat - r.1.toNat) w.bytes READING = (0, false) := by simp [scanAt, romRegion, scanWatch]
    have : ∃ v s'', IMemory.read w a s' = .ok v s'' := by
      rw [read_eq, readN_eq hs ht]
      simp only [h0, Nat.add_zero, Bool.false_eq_true, if_false]
      rw [if_neg (by omega)]
      exact ⟨_, _, rfl⟩
    obtain ⟨v, s'', e⟩ := this
    exact ⟨v, s'', e, read_bytes hs ht e⟩
  · intro r hr w a v h1 h2
    obtain ⟨i, ht⟩ := key r hr w a h1 h2
    rw [write_eq, writeN_eq hs ht, if_pos (show (romRegion r).isReadOnly = true from rfl)]

/-- The same when more regions follow. -/
theorem rom_access_more {s' : Sim} {mem : List (U32 × List U8)} {zs : List Region} (hs : Sound s') (hh : s'.hits < 2 ^ 31)
    (he : s'.regions = mem.map romRegion ++ zs) (hd : Spec.Disjoint mem)
    (hl : ∀ r ∈ mem, r.2.length < 2 ^ 32) : HoldsBlocks s' mem ∧ RefusesWrites s' mem := by
  have key : ∀ r ∈ mem, ∀ (w : Width) (a : U32), r.1.toNat ≤ a.toNat → a.toNat + w.bytes ≤ r.1.toNat + r.2.length →
      ∃ i, Target s' a w.bytes i (romRegion r) (a.toNat - r.1.toNat) := by
    intro r hr w a h1 h2
    have hw : 0 < w.bytes := by cases w <;> decide
    obtain ⟨k, hk, rfl⟩ := List.mem_iff_getElem.1 hr
    have hin : (byteIn mem[k] a).isSome := Dump.byteIn_iff.2 ⟨h1, by omega⟩
    refine ⟨0 + k, target_append (old := []) (news := mem.map romRegion ++ zs) he (by simp) ⟨?_, (rom_covers (hl _ hr)).2 ⟨h1, h2⟩, ?_⟩ rfl⟩
    · rw [List.getElem?_append_left (by simpa using hk), List.getElem?_map, List.getElem?_eq_getElem hk]; rfl
    · intro j hj p hp hc
      rw [List.getElem?_append_left (by simp; omega), List.getElem?_map] at hp
      have hj' : mem[j]? = some (mem[j]'(by omega)) := List.getElem?_eq_getElem (by omega)
      rw [hj'] at hp
      simp only [Option.map_some, Option.some.injEq] at hp
      subst hp
      rw [rom_covers (hl _ (List.getElem_mem _))] at hc
      rcases Dump.pairwise_get hd hj' (List.getElem?_eq_getElem hk) hj a with hn | hn
      · have : (byteIn (mem[j]'(by omega)) a).isSome := Dump.byteIn_iff.2 ⟨hc.1, by omega⟩
        rw [hn] at this; cases this
      · rw [hn] at hin; cases hin
  constructor
  · intro r hr w a h1 h2
    obtain ⟨i, ht⟩ := key r hr w a h1 h2
    have h0 : scanAt (romRegion r) (a.toNat - r.1.toNat) w.bytes READING = (0, false) := by simp [scanAt, romRegion, scanWatch]
    have : ∃ v s'', IMemory.read w a s' = .ok v s'' := by
      rw [read_eq, readN_eq hs ht]
      simp only [h0, Nat.add_zero, Bool.false_eq_true, if_false]
      rw [if_neg (by omega)]
      exact ⟨_, _, rfl⟩
    obtain ⟨v, s'', e⟩ := this
    exact ⟨v, s'', e, read_bytes hs ht e⟩
  · intro r hr w a v h1 h2
    obtain ⟨i, ht⟩ := key r hr w a h1 h2
    rw [write_eq, writeN_eq hs ht, if_pos (show (romRegion r).isReadOnly = true from rfl)]

theorem elfBlocks_lt (b : Str) : ∀ r ∈ elfBlocks b, r.2.length < 2 ^ 32 := by
  intro r hr
  simp only [elfBlocks, List.mem_map, List.mem_filter] at hr
  obtain ⟨h, ⟨hm, -⟩, rfl⟩ := hr
  obtain ⟨i, -, rfl⟩ := List.mem_map.1 hm
  have := (progHeader_lt b (entryAt b i)).2.1
  simp only [ProgHeader.block, List.length_take, List.length_drop]
  omega

/-- Loading a valid file. -/
theorem fromMemory_loads {b : Str} {s : Sim} (hs : Sound s) (hp : PlentyOfMemory s)
    (hc : headerComplaint b = none) (ht : TableInside b) (hi : ContentsInside b)
    (hne : elfBlocks b ≠ []) (hf : Free s (elfBlocks b)) (hd : Spec.Disjoint (elfBlocks b)) :
    ∃ k l, fromMemory b b.length s = .ok () { bumpHeap s k l with regions := s.regions ++ (elfBlocks b).map romRegion } := by
  have hbl : blocksFrom b 0 (phnum b) = elfBlocks b := by rw [blocksFrom, headersFrom_all]; rfl
  obtain ⟨k, l, he⟩ := loadEntries_eq (b := b) (n := phnum b) (i := 0) (c := 0) hs hp
    (by intro j hj; rw [Nat.zero_add]; exact ht j hj) (by rw [headersFrom_all]; exact hi) (by rw [hbl]; exact hf)
    (by rw [hbl]; exact hd)
  rw [hbl, entryAt_zero] at he
  have hcnt : (0 : U32) + BitVec.ofNat 32 (elfBlocks b).length ≠ 0 := by
    have h1 : phnum b < 65536 := numAt_lt b 44 2
    have h2 : (elfBlocks b).length ≤ phnum b := by
      rw [elfBlocks, List.length_map]
      exact Nat.le_trans (List.length_filter_le _ _) (by simp [progHeaders])
    have h3 : 0 < (elfBlocks b).length := List.length_pos_iff.2 hne
    intro h
    have := congrArg BitVec.toNat h
    rw [show (0 : U32) + BitVec.ofNat 32 (elfBlocks b).length = BitVec.ofNat 32 (elfBlocks b).length from BitVec.zero_add _, BitVec.toNat_ofNat, Nat.mod_eq_of_lt (by omega)] at this
    simp only [show BitVec.toNat (0 : U32) = 0 from rfl] at this
    omega
  refine ⟨k, l, ?_⟩
  rw [fromMemory_eq, hc]
  simp only
  rw [M.bind_apply, he]
  simp only [finish, if_neg hcnt, M.pure_apply]

end Verif.Elf
