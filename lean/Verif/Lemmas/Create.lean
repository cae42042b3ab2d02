import Verif.Lemmas.MemSim
/- Creating regions and aliases. -/
namespace Verif.MemSim
open Verif Spec

/-- The region made by `createRegion`. -/
def newRegion (b n : U32) : Region := { baseAddress := b, size := n, data := List.replicate n.toNat 0 }

/-- Some allocations were attempted, nothing else happened. -/
def bumpHeap (s : Sim) (k : Nat) (l : Int) : Sim :=
  { s with heap := { s.heap with next := s.heap.next + k, live := s.heap.live + l } }

theorem throwingZeroedMalloc_eq (s : Sim) : throwingZeroedMalloc s =
    if s.heap.fails s.heap.next then .throw ⟨.outOfMemory, []⟩ (bumpHeap s 1 0) else .ok () (bumpHeap s 1 1) := by
  unfold throwingZeroedMalloc
  simp only [M.bind_apply, malloc]
  by_cases h : s.heap.fails s.heap.next = true
  · simp [h, bumpHeap]
  · simp [h, bumpHeap]

theorem createRegion_cases (b n : U32) (s : Sim) :
    (∃ k, createRegion b n s = .throw ⟨.outOfMemory, []⟩ (bumpHeap s k 0)) ∨
    createRegion b n s = .ok () { bumpHeap s 2 2 with regions := s.regions ++ [newRegion b n] } := by
  simp only [createRegion, M.bind_apply, throwingZeroedMalloc_eq, M.tryCatch_apply]
  by_cases h1 : s.heap.fails s.heap.next = true
  · simp only [h1, if_true]; exact .inl ⟨1, rfl⟩
  · by_cases h2 : s.heap.fails (s.heap.next + 1) = true
    · left; refine ⟨2, ?_⟩
      simp [h1, h2, free, bumpHeap]
    · right
      simp [h1, h2, bumpHeap, addRegionToTail, newRegion]
      omega

/-- The alias made by `createAlias` for the target `t`, which is region number `j`. -/
def newAlias (al rd n : U32) (j : Nat) (t : Region) : Region :=
  { baseAddress := al,
    size := if n.toNat > (t.size - (rd - t.baseAddress)).toNat then t.size - (rd - t.baseAddress) else n,
    data := List.replicate n.toNat 0, redirectAddress := rd, redirect := some j,
    isReadOnly := t.isReadOnly, isAlias := true }

theorem findMatchingRegion_cases (a : U32) (n : Nat) (s : Sim) :
    findMatchingRegion a n s = .throw ⟨.busError, []⟩ s ∨ (∃ i a', findMatchingRegion a n s = .ok (i, a') s) ∨
    findMatchingRegion a n s = .ub .nullDeref := by
  unfold findMatchingRegion
  split
  · exact .inl rfl
  · split
    · split
      · exact .inr (.inl ⟨_, _, rfl⟩)
      · exact .inr (.inr rfl)
    · exact .inr (.inl ⟨_, _, rfl⟩)

theorem find_bump (a : U32) (n : Nat) (s : Sim) (k : Nat) (l : Int) : findMatchingRegion a n (bumpHeap s k l) =
    match findMatchingRegion a n s with
    | .ok p _ => .ok p (bumpHeap s k l)
    | .throw e _ => .throw e (bumpHeap s k l)
    | .ub r => .ub r := by
  unfold findMatchingRegion
  simp only [bumpHeap]
  split
  · rfl
  · split
    · split <;> rfl
    · rfl

theorem createAlias_cases (al rd n : U32) (s : Sim) :
    (∃ k, createAlias al rd n s = .throw ⟨.outOfMemory, []⟩ (bumpHeap s k 0)) ∨
    (∃ k, createAlias al rd n s = .throw ⟨.busError, []⟩ (bumpHeap s k 0) ∧
      findMatchingRegion rd 1 s = .throw ⟨.busError, []⟩ s) ∨
    (∃ j a' t, findMatchingRegion rd 1 s = .ok (j, a') s ∧ s.regions[j]? = some t ∧
      createAlias al rd n s = .ok () { bumpHeap s 2 2 with regions := s.regions ++ [newAlias al rd n j t] }) ∨
    (∃ r, createAlias al rd n s = .ub r ∧
      (findMatchingRegion rd 1 s = .ub r ∨ ∃ j a', findMatchingRegion rd 1 s = .ok (j, a') s ∧ s.regions[j]? = none)) := by
  simp only [createAlias, M.bind_apply, throwingZeroedMalloc_eq, M.tryCatch_apply]
  by_cases h1 : s.heap.fails s.heap.next = true
  · simp only [h1, if_true]; exact .inl ⟨1, rfl⟩
  · simp only [h1, Bool.false_eq_true, if_false, find_bump]
    rcases findMatchingRegion_cases rd 1 s with hf | ⟨j, a', hf⟩ | hf
    · rw [hf]
      right; left
      exact ⟨1, by simp [free, bumpHeap], rfl⟩
    · rw [hf]
      simp only [regionAt, bumpHeap]
      cases ht : s.regions[j]? with
      | none =>
        right; right; right
        exact ⟨_, rfl, .inr ⟨j, a', rfl, ht⟩⟩
      | some t =>
        by_cases h2 : s.heap.fails (s.heap.next + 1) = true
        · left
          refine ⟨2, ?_⟩
          simp [h2, free]
        · right; right; left
          refine ⟨j, a', t, rfl, ht, ?_⟩
          simp [h2, addRegionToTail, newAlias]
          omega
    · rw [hf]
      right; right; right
      exact ⟨_, rfl, .inl rfl⟩

/-- Regions are only added at the end of the list. -/
theorem firstCover_append {rs : List Region} {x : Region} {a : U32} {n k : Nat} {q : Region}
    (h : FirstCover rs a n k q) : FirstCover (rs ++ [x]) a n k q := by
  obtain ⟨h1, h2, h3⟩ := h
  have hk : k < rs.length := (List.getElem?_eq_some_iff.1 h1).1
  refine ⟨by rw [List.getElem?_append_left hk]; exact h1, h2, fun j hj p hp => h3 j hj p ?_⟩
  rwa [List.getElem?_append_left (by omega)] at hp

theorem get_append {rs : List Region} {x q : Region} {k : Nat} (h : rs[k]? = some q) : (rs ++ [x])[k]? = some q := by
  rw [List.getElem?_append_left (List.getElem?_eq_some_iff.1 h).1]; exact h

theorem firstCover_new {rs : List Region} {x : Region} {a : U32} {n : Nat} (hc : Covers x a n)
    (h : ∀ r ∈ rs, ¬ Covers r a n) : FirstCover (rs ++ [x]) a n rs.length x := by
  refine ⟨by simp, hc, fun j hj p hp => h p ?_⟩
  rw [List.getElem?_append_left hj] at hp
  exact List.mem_of_getElem? hp

/-- Adding a region and changing the heap. -/
def grow (x : Region) (h : Heap) (s : Sim) : Sim := { s with regions := s.regions ++ [x], heap := h }

theorem Hit.grow {s : Sim} {a : U32} {n i off : Nat} {r x : Region} {hp : Heap} (h : Hit s a n i r off) :
    Hit (grow x hp s) a n i r off := by
  obtain ⟨hf, hi⟩ := h
  refine ⟨?_, get_append hi.get, hi.plain, hi.ok, hi.room⟩
  unfold findMatchingRegion at hf ⊢
  cases he : findFrom 0 s.regions a n with
  | none => simp [he] at hf
  | some p =>
    have hfc := firstCover_append (x := x) (findFrom_zero.1 (show findFrom 0 s.regions a n = some (p.1, p.2) from he))
    have he' := findFrom_zero.2 hfc
    simp only [he] at hf
    simp only [MemSim.grow, he']
    split at hf
    · rename_i ha
      simp only [ha, if_true]
      split at hf
      · simp only [Out.ok.injEq, and_true] at hf ⊢; exact hf
      · cases hf
    · rename_i ha
      simp only [ha]
      simp only [Out.ok.injEq] at hf
      simp [hf.1]

theorem counted_grow {s : Sim} {i off n : Nat} {r x : Region} {t : U32} {hp : Heap} (h : s.regions[i]? = some r) :
    counted (grow x hp s) i r off n t = grow x hp (counted s i r off n t) := by
  have hlt : i < s.regions.length := (List.getElem?_eq_some_iff.1 h).1
  unfold counted
  split
  · split
    · rfl
    · simp [grow, hlt]
  · rfl

theorem readN_grow {s : Sim} {a : U32} {n i off : Nat} {r x : Region} {hp : Heap} (h : Hit s a n i r off) :
    readN n a (grow x hp s) = mapState (grow x hp) (readN n a s) := by
  rw [readN_eq' h, readN_eq' h.grow, counted_grow h.info.get]
  by_cases h1 : s.hits + (scanAt r off n READING).1 ≥ 2 ^ 31
  · have h1' : (grow x hp s).hits + (scanAt r off n READING).1 ≥ 2 ^ 31 := h1
    simp only [if_pos h1, if_pos h1', mapState]
  · have h1' : ¬ (grow x hp s).hits + (scanAt r off n READING).1 ≥ 2 ^ 31 := h1
    simp only [if_neg h1, if_neg h1']
    cases (scanAt r off n READING).2 <;> rfl

theorem writeN_grow {s : Sim} {a : U32} {n i off v : Nat} {r x : Region} {hp : Heap} (h : Hit s a n i r off) :
    writeN n a v (grow x hp s) = mapState (grow x hp) (writeN n a v s) := by
  have hlt : i < s.regions.length := (List.getElem?_eq_some_iff.1 h.info.get).1
  rw [writeN_eq' h, writeN_eq' h.grow]
  by_cases h0 : r.isReadOnly = true
  · simp only [if_pos h0]; rfl
  by_cases h1 : s.hits + (scanAt r off n WRITING).1 ≥ 2 ^ 31
  · have h1' : (grow x hp s).hits + (scanAt r off n WRITING).1 ≥ 2 ^ 31 := h1
    simp only [if_neg h0, if_pos h1, if_pos h1', mapState]
  · have h1' : ¬ (grow x hp s).hits + (scanAt r off n WRITING).1 ≥ 2 ^ 31 := h1
    simp only [if_neg h0, if_neg h1, if_neg h1']
    simp [mapState, grow, hlt]

theorem read_grow {s : Sim} {w : Width} {a : U32} {i off : Nat} {r x : Region} {hp : Heap}
    (h : Hit s a w.bytes i r off) : IMemory.read w a (grow x hp s) = mapState (grow x hp) (IMemory.read w a s) := by
  rw [read_eq, read_eq, readN_grow h]
  cases readN w.bytes a s <;> rfl

theorem write_grow {s : Sim} {w : Width} {a : U32} {v : BitVec w.bits} {i off : Nat} {r x : Region} {hp : Heap}
    (h : Hit s a w.bytes i r off) : IMemory.write w a v (grow x hp s) = mapState (grow x hp) (IMemory.write w a v s) := by
  rw [write_eq, write_eq, writeN_grow h]

theorem plainOK_new (b n : U32) : PlainOK (newRegion b n) := by
  simp [PlainOK, newRegion]

/-- Adding an ordinary consistent region keeps the simulator sound. -/
theorem _root_.Verif.Spec.Sound.append {s s' : Sim} (hs : Sound s) {x : Region} (hs' : s'.regions = s.regions ++ [x])
    (hx : if x.isAlias then AliasOK (s.regions ++ [x]) x else PlainOK x) : Sound s' := by
  intro q hq
  rw [hs'] at hq ⊢
  rcases List.mem_append.1 hq with hq | hq
  · have := hs q hq
    split
    · rename_i ha
      obtain ⟨k, hk⟩ := List.getElem?_of_mem hq
      obtain ⟨j, t, e1, e2, e3⟩ := hs.alias hk ha
      simp only [AliasOK, e1, get_append e2]
      exact e3
    · rename_i ha
      simpa [ha] using this
  · simp at hq; subst hq; exact hx

/-- An alias whose redirect address is served by an ordinary region is consistent. -/
theorem aliasOK_new {s : Sim} {al rd n : U32} {j : Nat} {t : Region} {off : Nat} (hi : TargetInfo s 1 j t off)
    (hrd : t.baseAddress.toNat ≤ rd.toNat ∧ rd.toNat + 1 ≤ t.baseAddress.toNat + t.size.toNat) :
    AliasOK (s.regions ++ [newAlias al rd n j t]) (newAlias al rd n j t) ∧
    (newAlias al rd n j t).size.toNat = min n.toNat (t.size.toNat - (rd.toNat - t.baseAddress.toNat)) := by
  have e : (t.size - (rd - t.baseAddress)).toNat = t.size.toNat - (rd.toNat - t.baseAddress.toNat) := by bv_omega
  have hsz : (newAlias al rd n j t).size.toNat = min n.toNat (t.size.toNat - (rd.toNat - t.baseAddress.toNat)) := by
    simp only [newAlias]
    split <;> omega
  refine ⟨?_, hsz⟩
  simp only [AliasOK, newAlias, get_append hi.get]
  refine ⟨hi.plain, hrd.1, ?_, trivial, trivial, trivial⟩
  have := hsz
  simp only [newAlias] at this
  omega

end Verif.MemSim

namespace Verif.MemSim
open Verif Spec

theorem _root_.Verif.Spec.Owns.firstCover {rs : List Region} {a : U32} {n k : Nat} {q : Region} (h : Owns rs a n k q)
    {j m : Nat} (hm : 0 < m) (hj : j + m ≤ n) (hw : a.toNat + j < 2 ^ 32) :
    FirstCover rs (a + BitVec.ofNat 32 j) m k q := by
  obtain ⟨h1, ⟨h2, h3⟩, h4⟩ := h
  have e : (a + BitVec.ofNat 32 j).toNat = a.toNat + j := by bv_omega
  refine ⟨h1, ⟨by omega, by omega⟩, fun i hi p hp hc => ?_⟩
  have := h4 i hi p hp
  obtain ⟨c1, c2⟩ := hc
  unfold Apart at this
  omega

theorem _root_.Verif.Spec.Owns.target {s : Sim} (hs : Sound s) {a : U32} {n k : Nat} {q : Region}
    (h : Owns s.regions a n k q) (hn : 0 < n) :
    ∃ i r off, Target s a n i r off ∧ ∀ j m, 0 < m → j + m ≤ n → a.toNat + j < 2 ^ 32 →
      Target s (a + BitVec.ofNat 32 j) m i r (off + j) := by
  have hf : FirstCover s.regions a n k q := by
    have := h.firstCover (j := 0) (m := n) hn (by omega) (by simpa using a.isLt)
    simpa using this
  obtain ⟨i, r, off, ht⟩ := target_of_mapped hs ⟨q, hf.mem, hf.2.1⟩
  refine ⟨i, r, off, ht, ?_⟩
  intro j m hm hj hw
  have hfj := h.firstCover hm hj hw
  obtain ⟨k', q', hf', ht'⟩ := ht
  obtain ⟨rfl, rfl⟩ := hf.unique hf'
  have e : (a + BitVec.ofNat 32 j).toNat = a.toNat + j := by bv_omega
  have hc := hf.2.1
  unfold Covers at hc
  refine ⟨k, q, hfj, ?_⟩
  split
  · rename_i ha
    simp only [ha, if_true] at ht'
    exact ⟨ht'.1, ht'.2.1, by omega⟩
  · rename_i ha
    simp only [ha] at ht'
    obtain ⟨rfl, rfl, rfl⟩ := ht'
    exact ⟨rfl, rfl, by omega⟩

theorem sub_bytes_lt {w : Width} {j : Nat} (h : j < w.bytes) : j < 4 := by
  cases w <;> simp [Width.bytes] at h <;> omega

theorem width_pos (w : Width) : 0 < w.bytes := by cases w <;> decide

theorem byteOf8 (x : BitVec 8) : byteOf x 0 = x := by
  apply BitVec.eq_of_toNat_eq
  have := x.isLt
  rw [byteOf_toNat]; simp; omega

/-- An 8-bit read of a byte that is there returns it. -/
theorem read8_eq {s : Sim} (hs : Sound s) (hroom : HitRoom s) {a : U32} {i off : Nat} {r : Region} {b : U8}
    (h : Target s a 1 i r off) (hb : r.data[off]? = some b) : ∃ s', IMemory.read .w8 a s = .ok b s' := by
  rcases read_progress (w := .w8) hs hroom h with ⟨v, s', hv⟩ | ⟨hw, -⟩
  · have := read_bytes (w := .w8) hs h hv 0 (by decide)
    simp only [Nat.add_zero, hb, Option.some.injEq] at this
    have e : v = b := (byteOf8 v).symm.trans this.symm
    exact ⟨s', e ▸ hv⟩
  · cases hw

/-- Two addresses with the same target behave the same. -/
theorem same_target_read {s : Sim} (hs : Sound s) {w : Width} {a b : U32} {i off : Nat} {r : Region}
    (ha : Target s a w.bytes i r off) (hb : Target s b w.bytes i r off) : IMemory.read w a s = IMemory.read w b s := by
  rw [read_eq, read_eq, readN_eq hs ha, readN_eq hs hb]

theorem same_target_write {s : Sim} (hs : Sound s) {w : Width} {a b : U32} {i off : Nat} {r : Region} {v : BitVec w.bits}
    (ha : Target s a w.bytes i r off) (hb : Target s b w.bytes i r off) :
    IMemory.write w a v s = IMemory.write w b v s := by
  rw [write_eq, write_eq, writeN_eq hs ha, writeN_eq hs hb]

end Verif.MemSim
