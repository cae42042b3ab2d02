import Verif.Lemmas.Effects
import Verif.Props.Demo
/-
C15, C20-C24: flash read counts, hardware breakpoints and watchpoints.
-/
namespace Verif.Props
open Verif MemSim Spec

/-! ### C15 -/

/-- C15. After region `i` was successfully marked read-only, and after any history in which it was not marked again and
halfword number `off / 2` of it was read `m` times, `MemorySim_GetFlashReadCount` for that halfword returns `m` modulo
2^32. -/
theorem C15_read_count_exact {s0 s s' : Sim} {a b : U32} {i off m : Nat} {r : Region} {cs : List Call}
    (hs : Sound s0) (hm : Reaches s0 b 1 i) (h0 : makeRegionReadOnly b s0 = .ok () s)
    (hn : NumReads i (off / 2) s cs s' m) (ht : Target s' a 2 i r off) :
    getFlashReadCount a s' = .ok (BitVec.ofNat 32 m) s' := by
  have hs1 : Sound s := step_sound (c := .makeReadOnly b) hs trivial (.inl ⟨_, h0⟩)
  obtain ⟨a', hf⟩ := find_reaches hm
  rcases makeRegionReadOnly_cases b s0 with h | ⟨u, h⟩ | ⟨j, a'', q, hf', hq, ⟨-, h⟩ | ⟨-, h⟩⟩ <;> rw [h] at h0 <;>
    simp only [reduceCtorEq, Out.ok.injEq, true_and] at h0
  rw [hf] at hf'
  cases hf'
  have hr : s.regions[i]? = some { q with isReadOnly := true, readCounts := some (List.replicate (q.size.toNat / 2) 0) } := by
    rw [← h0]; exact List.getElem?_set_self (List.getElem?_eq_some_iff.1 hq).1
  obtain ⟨hs', r', ns, e1, e2, e3⟩ := hn.count hs1 hr rfl
  have hi := ht.info hs'
  rw [hi.get] at e1; cases e1
  have hok := hi.ok.2.1
  rw [e2] at hok
  obtain ⟨hlen, hro⟩ := hok
  rcases readCount_eq (g := false) ⟨hs', by simp⟩ ht (fun _ => by rw [e2]; simp) with ⟨h1, -⟩ | ⟨-, ns', c, h2, h3, h4⟩
  · rw [hro] at h1; cases h1
  · rw [e2] at h2; cases h2
    rw [h4]
    rw [e3] at h3
    cases hx : (List.replicate (q.size.toNat / 2) (0 : U32))[off / 2]? with
    | none => rw [hx] at h3; cases h3
    | some x =>
      have : x = 0 := by have := List.mem_of_getElem? hx; simp at this; simp [this]
      subst this
      rw [hx] at h3
      simp only [Option.map_some, Option.some.injEq] at h3
      rw [← h3]
      simp

/-- A simulator with four bytes of flash, whose halfwords have been read `x` and `y` times since it was marked. -/
def smallFlash (x y : U32) (live : Int) : Sim :=
  { regions := [{ baseAddress := 0x10, size := 4, data := [1, 2, 3, 4], readCounts := some [x, y], isReadOnly := true }],
    heap := { fails := fun _ => false, next := 0, live := live } }

/-- Concrete case: the flash is marked (again), then: read halfword 1 twice, a byte of it once, and halfword 0 once. -/
example : Sound (smallFlash 5 6 3) ∧ Reaches (smallFlash 5 6 3) 0x11 1 0 ∧
    (∃ s, makeRegionReadOnly 0x11 (smallFlash 5 6 3) = .ok () s ∧ s.regions = (smallFlash 0 0 4).regions) ∧
    NumReads 0 1 (smallFlash 0 0 4) [.read .w16 0x12, .read .w8 0x12, .read .w16 0x10, .read .w16 0x12] (smallFlash 1 2 4) 2 := by
  have tgt : ∀ x y, Target (smallFlash x y 4) 0x12 2 0 _ 2 := fun x y => ⟨0, _, findFrom_zero.1 rfl, rfl, rfl, rfl⟩
  refine ⟨by decide, reaches_find (a' := 0x11) rfl, ⟨_, rfl, rfl⟩, ?_⟩
  refine .reads (s1 := smallFlash 0 1 4) trivial ⟨0x12, _, 2, .inl rfl, tgt 0 0, rfl⟩ (.inl ⟨(), rfl⟩) <|
    .other (s1 := smallFlash 0 1 4) trivial ?_ (by simp [Remarks]) (.inl ⟨(), rfl⟩) <|
    .other (s1 := smallFlash 1 1 4) trivial ?_ (by simp [Remarks]) (.inl ⟨(), rfl⟩) <|
    .reads (s1 := smallFlash 1 2 4) trivial ⟨0x12, _, 2, .inl rfl, tgt 1 1, rfl⟩ (.inl ⟨(), rfl⟩) <| .nil _
  · rintro ⟨a, r, off, h | ⟨n, h, -⟩, -⟩ <;> cases h
  · rintro ⟨a, r, off, h | ⟨n, h, -⟩, h1, h2⟩ <;> cases h
    have := h1.unique (show Target (smallFlash 0 1 4) 0x10 2 0 _ 0 from ⟨0, _, findFrom_zero.1 rfl, rfl, rfl, rfl⟩)
    rw [this.2.2] at h2
    exact absurd h2 (by decide)

/-! ### C20 -/

/-- C20. A 16-bit read raises the hardware breakpoint exception if and only if a breakpoint that is set in the region it
goes to contains both bytes. -/
theorem C20_breakpoint_iff {s : Sim} {a : U32} {i off : Nat} {r : Region} (hs : Sound s) (hroom : HitRoom s)
    (ht : Target s a 2 i r off) (htop : r.baseAddress.toNat + off + 2 < 2 ^ 32) :
    (∃ s', IMemory.read .w16 a s = .throw ⟨.hardwareBreakpoint, []⟩ s') ↔
      ∃ w, Active s i w ∧ w.type = WATCHPOINT_BREAKPOINT ∧
        w.startAddress.toNat ≤ r.baseAddress.toNat + off ∧ r.baseAddress.toNat + off + 2 ≤ w.endAddress.toNat := by
  have hi := ht.info hs
  have hsc := scanAt_read hi htop
  have h1 := hroom r (List.mem_of_getElem? hi.get)
  have h2 := scan_le r.watch (r.baseAddress + BitVec.ofNat 32 off)
    (r.baseAddress + BitVec.ofNat 32 off + BitVec.ofNat 32 2) 2 READING
  have hlt : ¬ s.hits + (scanAt r off 2 READING).1 ≥ 2 ^ 31 := by unfold scanAt; omega
  have e : (∃ s', IMemory.read .w16 a s = .throw ⟨.hardwareBreakpoint, []⟩ s') ↔ (scanAt r off 2 READING).2 = true := by
    simp only [read_eq, Width.bytes, readN_eq hs ht, if_neg hlt]
    cases (scanAt r off 2 READING).2 <;> simp
  rw [e, hsc]
  simp only [List.any_eq_true, stopBy, Bool.and_eq_true, decide_eq_true_eq, decide_true, and_true]
  constructor
  · rintro ⟨w, h3, ⟨h4, h5⟩, h6⟩
    exact ⟨w, ⟨r, hi.get, h3⟩, h4, h5, h6⟩
  · rintro ⟨w, ⟨q, h3, h3'⟩, h4, h5, h6⟩
    rw [hi.get] at h3; cases h3
    exact ⟨w, h3', ⟨h4, h5⟩, h6⟩

/-- C20. No other access raises it. -/
theorem C20_other_reads_never {s s' : Sim} {w : Width} {a : U32} {e : Exn} (hs : Sound s) (hw : w ≠ .w16)
    (h : IMemory.read w a s = .throw e s') : e.code = .busError := by
  have hn : w.bytes ≠ 2 := by cases w <;> simp_all [Width.bytes]
  rw [read_eq] at h
  by_cases hm : Mapped s a w.bytes
  · obtain ⟨i, r, off, ht⟩ := target_of_mapped hs hm
    rw [readN_eq hs ht] at h
    have hb : (scanAt r off w.bytes READING).2 = false := scan_size_no_bp _ _ _ _ _ hn
    simp only [hb, Bool.false_eq_true, if_false] at h
    by_cases ho : s.hits + (scanAt r off w.bytes READING).1 ≥ 2 ^ 31
    · simp only [if_pos ho] at h; cases h
    · simp only [if_neg ho] at h; cases h
  · rw [readN_unmapped hm] at h
    cases h; rfl

theorem C20_writes_never {s s' : Sim} {w : Width} {a : U32} {v : BitVec w.bits} {e : Exn} (hs : Sound s)
    (h : IMemory.write w a v s = .throw e s') : e.code = .busError := by
  rw [write_eq] at h
  by_cases hm : Mapped s a w.bytes
  · obtain ⟨i, r, off, ht⟩ := target_of_mapped hs hm
    rw [writeN_eq hs ht] at h
    split at h
    · cases h; rfl
    · split at h <;> cases h
  · rw [writeN_unmapped hm] at h
    cases h; rfl

/-- C20, over histories: a 16-bit read stops exactly if some breakpoint covering it was set and not cleared since. -/
theorem C20_breakpoint_history {hp : Heap} {cs : List Call} {s : Sim} {a : U32} {i off : Nat} {r : Region}
    (h : CarefulHist (init hp) cs s) (hroom : HitRoom s) (ht : Target s a 2 i r off)
    (htop : r.baseAddress.toNat + off + 2 < 2 ^ 32) :
    (∃ s', IMemory.read .w16 a s = .throw ⟨.hardwareBreakpoint, []⟩ s') ↔
      ∃ w, LastSet i w (init hp) cs s ∧ w.type = WATCHPOINT_BREAKPOINT ∧
        w.startAddress.toNat ≤ r.baseAddress.toNat + off ∧ r.baseAddress.toNat + off + 2 ≤ w.endAddress.toNat := by
  have h0 : Sound (init hp) := (good_nil (g := true) rfl).sound
  rw [C20_breakpoint_iff (hist_sound h0 h) hroom ht htop]
  have : ∀ w, Active s i w ↔ LastSet i w (init hp) cs s := by
    intro w
    rw [hist_active h h0]
    simp [Active, init]
  simp only [this]

example : ∃ s', IMemory.read .w16 0x1002 demo = .throw ⟨.hardwareBreakpoint, []⟩ s' ∧
    Active demo 0 ⟨WATCHPOINT_BREAKPOINT, 0x1002, 0x1004⟩ ∧ (∃ r, Target demo 0x1002 2 0 r 2) ∧
    CarefulHist (init goodHeap) demoCalls demo :=
  ⟨_, rfl, ⟨_, rfl, by decide⟩, ⟨_, 0, _, findFrom_zero.1 rfl, rfl, rfl, rfl⟩, execWith_hist carefulChk_ok rfl⟩

/-! ### C21 -/

theorem takeWhile_all {p : α → Bool} : ∀ {l : List α}, (∀ x ∈ l, p x = true) → l.takeWhile p = l
  | [], _ => rfl
  | x :: l, h => by
    rw [List.takeWhile_cons_of_pos (h x (by simp)), takeWhile_all fun y hy => h y (by simp [hy])]

/-- C21. A completed read adds to the hit count the number of set watchpoints that count it. -/
theorem C21_read_hits {s s' : Sim} {w : Width} {a : U32} {v : BitVec w.bits} {i off : Nat} {r : Region} (hs : Sound s)
    (ht : Target s a w.bytes i r off) (htop : r.baseAddress.toNat + off + w.bytes < 2 ^ 32)
    (h : IMemory.read w a s = .ok v s') :
    s'.hits = s.hits + r.watch.countP (hitBy · (r.baseAddress.toNat + off) w.bytes WATCHPOINT_READ) := by
  have hsc := scanAt_read (ht.info hs) htop
  rw [read_eq, readN_eq hs ht] at h
  split at h
  · rename_i e
    split at e
    · cases e
    · split at e
      · cases e
      · rename_i hb
        cases h
        cases e
        rw [hsc] at hb
        simp only [Bool.not_eq_true, List.any_eq_false] at hb
        have : (r.watch.takeWhile fun p => !stopBy p (r.baseAddress.toNat + off) w.bytes) = r.watch := by
          refine takeWhile_all fun p hp => ?_
          simpa using hb p hp
        simp only [hsc, this]
  · cases h
  · cases h

/-- C21. So does a completed write. -/
theorem C21_write_hits {s s' : Sim} {w : Width} {a : U32} {v : BitVec w.bits} {i off : Nat} {r : Region} (hs : Sound s)
    (ht : Target s a w.bytes i r off) (htop : r.baseAddress.toNat + off + w.bytes < 2 ^ 32)
    (h : IMemory.write w a v s = .ok () s') :
    s'.hits = s.hits + r.watch.countP (hitBy · (r.baseAddress.toNat + off) w.bytes WATCHPOINT_WRITE) := by
  have hsc := scanAt_write (ht.info hs) htop
  rw [write_eq, writeN_eq hs ht] at h
  split at h
  · cases h
  · split at h
    · cases h
    · cases h
      simp only [hsc]

/-- Concrete case: a write through the alias that two watchpoints count. -/
example : ∃ s' r, IMemory.write .w16 0x8000 7 demo = .ok () s' ∧ Target demo 0x8000 2 1 r 4 ∧ s'.hits = 2 :=
  ⟨_, _, rfl, ⟨2, _, findFrom_zero.1 rfl, rfl, rfl, rfl⟩, rfl⟩

/-! ### C22 -/

/-- C22. From `MemorySim_Init`, after any history, a break/watchpoint is in force exactly if a successful call set it and
no later call cleared it. -/
theorem C22_active_iff_last_set {hp : Heap} {cs : List Call} {s : Sim} (h : CarefulHist (init hp) cs s) (i : Nat)
    (w : Watchpoint) : Active s i w ↔ LastSet i w (init hp) cs s := by
  rw [hist_active h (good_nil (g := true) rfl).sound]
  simp [Active, init]

/-- C22. Setting what is set already, and clearing what is not set, changes nothing at all. -/
theorem C22_set_twice {s : Sim} {a n t : U32} {i off : Nat} {r : Region} (hs : Sound s) (ht : Target s a n.toNat i r off)
    (hin : Active s i ⟨t, r.baseAddress + BitVec.ofNat 32 off, r.baseAddress + BitVec.ofNat 32 off + n⟩) :
    setHardwareWatchpoint a n t s = .ok () s := by
  obtain ⟨q, h1, h2⟩ := hin
  rw [(ht.info hs).get] at h1; cases h1
  rcases setWatchpoint_cases hs (t := t) ht with ⟨-, h⟩ | ⟨hn, -⟩ | ⟨hn, -⟩
  · exact h
  · exact absurd h2 hn
  · exact absurd h2 hn

theorem C22_clear_unset {s : Sim} {a n t : U32} {i off : Nat} {r : Region} (hs : Sound s) (ht : Target s a n.toNat i r off)
    (hin : ¬ Active s i ⟨t, r.baseAddress + BitVec.ofNat 32 off, r.baseAddress + BitVec.ofNat 32 off + n⟩) :
    clearHardwareWatchpoint a n t s = .ok () s := by
  rcases clearWatchpoint_cases hs (t := t) ht with ⟨-, h⟩ | ⟨hn, -⟩
  · exact h
  · exact absurd ⟨r, (ht.info hs).get, hn⟩ hin

/-- C22. In a consistent simulator every entry of the table is there once. -/
theorem C22_no_duplicates {s : Sim} (hs : Sound s) {r : Region} (hr : r ∈ s.regions) : r.watch.Nodup := by
  have := hs r hr
  by_cases ha : r.isAlias = true
  · obtain ⟨i, hi⟩ := List.getElem?_of_mem hr
    obtain ⟨-, -, -, -, -, -, -, -, h, -⟩ := hs.alias hi ha
    rw [h]; exact List.nodup_nil
  · simp only [ha] at this
    exact this.2.2.2.1

example : ∃ s, CarefulHist (init goodHeap) [.createRegion 0x10 8, .setWatchpoint 0x10 4 1, .setWatchpoint 0x12 4 3,
    .clearWatchpoint 0x10 4 1, .setWatchpoint 0x11 1 2, .setWatchpoint 0x12 4 3] s ∧
    Active s 0 ⟨3, 0x12, 0x16⟩ ∧ ¬ Active s 0 ⟨1, 0x10, 0x14⟩ := by
  refine ⟨_, execWith_hist carefulChk_ok rfl, ⟨_, rfl, by decide⟩, ?_⟩
  rintro ⟨r, h1, h2⟩
  cases h1
  revert h2
  decide

/-! ### C23 -/

/-- C23. `MemorySim_WasWatchpointEncountered` returns the number of hits produced since the last such call, or since
`MemorySim_Init`, and starts again from zero. -/
theorem C23_hit_report {s0 s s' : Sim} {cs : List Call} {k x : Nat} (hs : Sound s0)
    (h0 : wasWatchpointEncountered s0 = .ok x s) (h : HitSum s cs s' k) :
    wasWatchpointEncountered s' = .ok k { s' with hits := 0 } := by
  cases h0
  have := (h.sound (hs.congr rfl)).2
  simp only [Nat.zero_add] at this
  simp [wasWatchpointEncountered, this]

theorem C23_hit_report_from_init {hp : Heap} {s' : Sim} {cs : List Call} {k : Nat} (h : HitSum (init hp) cs s' k) :
    wasWatchpointEncountered s' = .ok k { s' with hits := 0 } := by
  have := (h.sound (good_nil (g := true) rfl).sound).2
  simp only [init, Nat.zero_add] at this
  simp [wasWatchpointEncountered, this]

/-- A simulator with four bytes of RAM, a write watchpoint on all of it and a read/write one on its second half. -/
def watchedRam (x : U8) (hits : Nat) : Sim :=
  { regions := [{ baseAddress := 0x10, size := 4, data := [0, 0, 0, x],
                  watch := [⟨2, 0x10, 0x14⟩, ⟨3, 0x12, 0x14⟩], watchAlloc := 2 }],
    hits := hits, heap := goodHeap }

/-- Concrete case: a write that two watchpoints count, then a read that one counts. -/
example : Sound (watchedRam 0 0) ∧ HitSum (watchedRam 0 0) [.write .w8 0x13 7, .read .w16 0x12] (watchedRam 7 3) 3 := by
  have h1 : Target (watchedRam 0 0) 0x13 1 0 _ 3 := ⟨0, _, findFrom_zero.1 rfl, rfl, rfl, rfl⟩
  have h2 : Target (watchedRam 7 2) 0x12 2 0 _ 2 := ⟨0, _, findFrom_zero.1 rfl, rfl, rfl, rfl⟩
  refine ⟨by decide, .cons (k := 2) (n := 1) (s1 := watchedRam 7 2) trivial (by simp) ?_ ⟨fun h => absurd h1.mapped h, ?_⟩
    (.inl ⟨(), rfl⟩) <| .cons (k := 1) (n := 0) (s1 := watchedRam 7 3) trivial (by simp) ?_ ⟨fun h => absurd h2.mapped h, ?_⟩
    (.inl ⟨(), rfl⟩) <| .nil _⟩
  · intro i r off ht
    obtain ⟨-, rfl, rfl⟩ := h1.unique ht
    decide
  · intro i r off ht
    obtain ⟨-, rfl, rfl⟩ := h1.unique ht
    decide
  · intro i r off ht
    obtain ⟨-, rfl, rfl⟩ := h2.unique ht
    decide
  · intro i r off ht
    obtain ⟨-, rfl, rfl⟩ := h2.unique ht
    decide

/-! ### C24 -/

theorem scan_top {ws : List Watchpoint} (hs : SortedWatch ws) {a e : U32} {w : Watchpoint} (he : e.toNat = 0)
    (hw : w ∈ ws) (hb : w.type = WATCHPOINT_BREAKPOINT) (hst : w.startAddress.toNat ≤ a.toNat) :
    (scanWatch ws a e 2 READING).2 = true := by
  induction ws with
  | nil => cases hw
  | cons p ws ih =>
    rw [SortedWatch, List.pairwise_cons] at hs
    have hr : accessInRange p a e = decide (p.startAddress.toNat ≤ a.toNat) := by simp [accessInRange, he]
    unfold scanWatch
    rcases List.mem_cons.1 hw with rfl | hw
    · rw [if_neg (by rw [hb]; decide), if_pos hb, if_pos ⟨rfl, by simp [hr, hst]⟩]
    · have := hs.1 w hw
      have hp : p.startAddress.toNat ≤ a.toNat := by omega
      have hr' : accessInRange p a e = true := by simp [hr, hp]
      split
      · exact ih hs.2 hw
      · split
        · simp [hr']
        · exact ih hs.2 hw

theorem scan_top_count {ws : List Watchpoint} (hs : SortedWatch ws) {a e : U32} {n : Nat} {t : U32} (he : e.toNat = 0)
    (hb : (scanWatch ws a e n t).2 = false) : (scanWatch ws a e n t).1 = ws.countP (hitFrom · a.toNat t) := by
  induction ws with
  | nil => rfl
  | cons p ws ih =>
    rw [SortedWatch, List.pairwise_cons] at hs
    have hr : accessInRange p a e = decide (p.startAddress.toNat ≤ a.toNat) := by simp [accessInRange, he]
    unfold scanWatch at hb ⊢
    by_cases h0 : t &&& p.type = 0
    · rw [if_pos h0] at hb ⊢
      have : hitFrom p a.toNat t = false := by
        rw [BitVec.and_comm] at h0
        simp [hitFrom, h0]
      simp [ih hs.2 hb, this]
    · rw [if_neg h0] at hb ⊢
      by_cases h1 : p.type = WATCHPOINT_BREAKPOINT
      · rw [if_pos h1] at hb ⊢
        have : hitFrom p a.toNat t = false := by simp [hitFrom, h1]
        by_cases h2 : n = 2 ∧ accessInRange p a e = true
        · rw [if_pos h2] at hb; simp at hb
        · rw [if_neg h2] at hb ⊢
          simp [ih hs.2 hb, this]
      · rw [if_neg h1] at hb ⊢
        rw [BitVec.and_comm] at h0
        by_cases h2 : p.startAddress.toNat ≤ a.toNat
        · have : hitFrom p a.toNat t = true := by simp [hitFrom, h1, h2]; exact h0
          rw [if_pos (by simp [hr, h2])] at hb ⊢
          simp [ih hs.2 hb, this]
        · rw [if_neg (by simp [hr, h2]), if_pos (by omega)]
          symm
          rw [List.countP_eq_zero]
          intro q hq
          have : ¬ q.startAddress.toNat ≤ a.toNat := by
            rcases List.mem_cons.1 hq with rfl | hq
            · exact h2
            · have := hs.1 q hq; omega
          simp [hitFrom, this]

theorem top_addr {r : Region} {off n : Nat} (hn : 0 < n) (htop : r.baseAddress.toNat + off + n = 2 ^ 32) :
    (r.baseAddress + BitVec.ofNat 32 off).toNat = r.baseAddress.toNat + off ∧
    (r.baseAddress + BitVec.ofNat 32 off + BitVec.ofNat 32 n).toNat = 0 := by
  have e1 : (r.baseAddress + BitVec.ofNat 32 off).toNat = r.baseAddress.toNat + off := by
    simp only [BitVec.toNat_add, BitVec.toNat_ofNat]; omega
  refine ⟨e1, ?_⟩
  rw [BitVec.toNat_add, e1]; simp only [BitVec.toNat_ofNat]; omega

/-- C24, what happens to the last two bytes of the address space: a 16-bit read of them is stopped if and only if a
breakpoint is set in the region that begins at or below them. So one whose range reaches up to 2^32 does stop it. What is
missing (the other accesses in such a range; no false alarms) is false, see the two witnesses below. -/
theorem C24_top_halfword_partial {s : Sim} {a : U32} {i off : Nat} {r : Region} (hs : Sound s) (hroom : HitRoom s)
    (ht : Target s a 2 i r off) (htop : r.baseAddress.toNat + off + 2 = 2 ^ 32) :
    (∃ s', IMemory.read .w16 a s = .throw ⟨.hardwareBreakpoint, []⟩ s') ↔
      ∃ w, Active s i w ∧ w.type = WATCHPOINT_BREAKPOINT ∧ w.startAddress.toNat ≤ r.baseAddress.toNat + off := by
  have hi := ht.info hs
  obtain ⟨e1, e2⟩ := top_addr (r := r) (off := off) (n := 2) (by omega) htop
  constructor
  · rintro ⟨s', h⟩
    obtain ⟨x, h1, h2, h3⟩ := read_stopped (w := .w16) hs ht h
    simp only [accessInRange, Bool.and_eq_true, decide_eq_true_eq, e1] at h3
    exact ⟨x, ⟨r, hi.get, h1⟩, h2, h3.1⟩
  · rintro ⟨w, ⟨q, hq, hw⟩, hb, hst⟩
    rw [hi.get] at hq; cases hq
    have h1 := hroom r (List.mem_of_getElem? hi.get)
    have h2 := scan_le r.watch (r.baseAddress + BitVec.ofNat 32 off)
      (r.baseAddress + BitVec.ofNat 32 off + BitVec.ofNat 32 2) 2 READING
    have hlt : ¬ s.hits + (scanAt r off 2 READING).1 ≥ 2 ^ 31 := by unfold scanAt; omega
    have hsc : (scanAt r off 2 READING).2 = true := scan_top hi.ok.2.2.1 e2 hw hb (by omega)
    simp only [read_eq, Width.bytes, readN_eq hs ht, if_neg hlt, hsc, if_true]
    exact ⟨_, rfl⟩

/-- C24, hits: a completed access that ends at the top of the address space is counted by every watchpoint of its kind
set in the region that begins at or below it. So those whose range reaches up to 2^32 and contains the access do count it. What
is missing is the same as above. -/
theorem C24_top_hits_partial {s s' : Sim} {w : Width} {a : U32} {i off : Nat} {r : Region} (hs : Sound s)
    (ht : Target s a w.bytes i r off) (htop : r.baseAddress.toNat + off + w.bytes = 2 ^ 32) :
    (∀ v, IMemory.read w a s = .ok v s' →
      s'.hits = s.hits + r.watch.countP (hitFrom · (r.baseAddress.toNat + off) WATCHPOINT_READ)) ∧
    (∀ v, IMemory.write w a v s = .ok () s' →
      s'.hits = s.hits + r.watch.countP (hitFrom · (r.baseAddress.toNat + off) WATCHPOINT_WRITE)) := by
  have hi := ht.info hs
  obtain ⟨e1, e2⟩ := top_addr (r := r) (off := off) (width_pos w) htop
  constructor
  · intro v h
    rw [read_eq, readN_eq hs ht] at h
    by_cases h0 : s.hits + (scanAt r off w.bytes READING).1 ≥ 2 ^ 31
    · simp only [if_pos h0] at h; cases h
    · simp only [if_neg h0] at h
      by_cases h1 : (scanAt r off w.bytes READING).2 = true
      · simp only [if_pos h1] at h; cases h
      · simp only [if_neg h1] at h
        injection h with _ h
        subst h
        simp only [Bool.not_eq_true] at h1
        have := scan_top_count hi.ok.2.2.1 e2 h1
        rw [e1] at this
        simp only
        rw [show (scanAt r off w.bytes READING).1 = _ from this]
        rfl
  · intro v h
    obtain ⟨i', r', off', ht', hro, rfl⟩ := write_ok hs h
    obtain ⟨rfl, rfl, rfl⟩ := ht.unique ht'
    have := scan_top_count (a := r.baseAddress + BitVec.ofNat 32 off) (n := w.bytes) (t := WRITING) hi.ok.2.2.1 e2 (scan_writing_no_bp ..)
    rw [e1] at this
    simp only
    rw [show (scanAt r off w.bytes WRITING).1 = _ from this]
    rfl

/-- C24 fails: a breakpoint on the last four bytes of the address space misses a read of the first two of them. -/
theorem C24_top_breakpoint_missed_witness :
    ∃ s, CarefulHist (init goodHeap) [.createRegion 0xFFFFFFF0 16, .setBreakpoint 0xFFFFFFFC 4] s ∧
      Active s 0 ⟨WATCHPOINT_BREAKPOINT, 0xFFFFFFFC, 0⟩ ∧ ∃ s', IMemory.read .w16 0xFFFFFFFC s = .ok 0 s' :=
  ⟨_, execWith_hist carefulChk_ok rfl, ⟨_, rfl, by decide⟩, _, rfl⟩

/-- C24 fails the other way as well: a breakpoint elsewhere stops a read of the last two bytes of the address space. -/
theorem C24_top_false_alarm_witness :
    ∃ s, CarefulHist (init goodHeap) [.createRegion 0xFFFFFFF0 16, .setBreakpoint 0xFFFFFFF0 2] s ∧
      ∃ s', IMemory.read .w16 0xFFFFFFFE s = .throw ⟨.hardwareBreakpoint, []⟩ s' :=
  ⟨_, execWith_hist carefulChk_ok rfl, _, rfl⟩

example : ∃ s r, CarefulHist (init goodHeap) [.createRegion 0xFFFFFFF0 16, .setBreakpoint 0xFFFFFFFC 4] s ∧
    Target s 0xFFFFFFFE 2 0 r 14 ∧ r.watch = [⟨WATCHPOINT_BREAKPOINT, 0xFFFFFFFC, 0⟩] :=
  ⟨_, _, execWith_hist carefulChk_ok rfl, ⟨0, _, findFrom_zero.1 rfl, rfl, rfl, rfl⟩, rfl⟩

/-- Concrete case: a write to the last word, counted by one of two watchpoints. -/
example : ∃ s r s', CarefulHist (init goodHeap) [.createRegion 0xFFFFFFF0 16, .setWatchpoint 0xFFFFFFFC 4 WATCHPOINT_WRITE,
      .setWatchpoint 0xFFFFFFFC 4 WATCHPOINT_READ] s ∧
    Target s 0xFFFFFFFC 4 0 r 12 ∧ IMemory.write .w32 0xFFFFFFFC 7 s = .ok () s' ∧ s'.hits = 1 :=
  ⟨_, _, _, execWith_hist carefulChk_ok rfl, ⟨0, _, findFrom_zero.1 rfl, rfl, rfl, rfl⟩, rfl, rfl⟩

end Verif.Props
