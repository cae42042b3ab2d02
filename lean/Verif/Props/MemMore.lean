import Verif.Lemmas.Oom
import Verif.Props.MemAccess
import Verif.Props.MemHistory
import Verif.Props.MemWatch
/-
Further parts of C04, C06, C11 and C22, and C76: which exceptions accesses raise, the outcome of marking memory read-only
and of setting and clearing break/watchpoints, and the host pointers handed out by the simulator.
-/
namespace Verif.Props
open Verif MemSim Spec

/-! ### C04 -/

/-- C04. A read that does not complete raised the bus error, when nothing contains it, or a hardware breakpoint, when it
is 16 bits wide. There is no other exception. -/
theorem C04_read_raises_nothing_else {s s' : Sim} {w : Width} {a : U32} {e : Exn} (hs : Sound s)
    (h : IMemory.read w a s = .throw e s') :
    (e = ⟨.busError, []⟩ ∧ ¬ Mapped s a w.bytes ∧ s' = s) ∨
    (e = ⟨.hardwareBreakpoint, []⟩ ∧ w = .w16 ∧ Mapped s a w.bytes) := by
  rw [read_eq] at h
  by_cases hm : Mapped s a w.bytes
  · right
    obtain ⟨i, r, off, ht⟩ := target_of_mapped hs hm
    rw [readN_eq hs ht] at h
    by_cases ho : s.hits + (scanAt r off w.bytes READING).1 ≥ 2 ^ 31
    · simp only [if_pos ho] at h; cases h
    · by_cases hb : (scanAt r off w.bytes READING).2 = true
      · simp only [if_neg ho, if_pos hb] at h
        cases h
        refine ⟨rfl, ?_, hm⟩
        refine Classical.byContradiction fun hw => ?_
        have hn : w.bytes ≠ 2 := by cases w <;> simp_all [Width.bytes]
        have : (scanAt r off w.bytes READING).2 = false := scan_size_no_bp _ _ _ _ _ hn
        rw [this] at hb; cases hb
      · simp only [if_neg ho, if_neg hb] at h; cases h
  · rw [readN_unmapped hm] at h
    cases h
    exact .inl ⟨rfl, hm, rfl⟩

example : (∃ s', IMemory.read .w16 0x1002 demo = .throw ⟨.hardwareBreakpoint, []⟩ s') ∧
    (∃ s', IMemory.read .w32 0x1005 demo = .throw ⟨.busError, []⟩ s') ∧ Sound demo := ⟨⟨_, rfl⟩, ⟨_, rfl⟩, demo_sound⟩

/-! ### C06 -/

/-- C06. Marking memory read-only: where no region contains the byte, the bus error is raised and nothing changes.
Otherwise the region that it is in, directly or through an alias, is read-only afterwards, with its address, size and
contents as before; no other region changes. This is so even when the allocation of the counters fails, which is
reported. -/
theorem C06_mark_outcome {s : Sim} {b : U32} (hs : Sound s) :
    (¬ Mapped s b 1 ∧ makeRegionReadOnly b s = .throw ⟨.busError, []⟩ s) ∨
    ∃ i r off s' r', Target s b 1 i r off ∧
      (makeRegionReadOnly b s = .ok () s' ∨
        makeRegionReadOnly b s = .throw ⟨.outOfMemory, []⟩ s' ∧ SomeFailed s.heap s'.heap) ∧
      s'.regions = s.regions.set i r' ∧ r' = { r with isReadOnly := true, readCounts := r'.readCounts } ∧
      s'.hits = s.hits := by
  by_cases hm : Mapped s b 1
  · right
    obtain ⟨i, r, off, ht⟩ := target_of_mapped hs hm
    have e := makeReadOnly_eq hs ht
    cases hf : s.heap.fails s.heap.next
    · rw [hf] at e
      exact ⟨i, r, off, _, _, ht, .inl e, rfl, rfl, rfl⟩
    · rw [hf] at e
      exact ⟨i, r, off, _, _, ht, .inr ⟨e, s.heap.next, Nat.le_refl _, Nat.lt_succ_self _, hf⟩, rfl, rfl, rfl⟩
  · exact .inl ⟨hm, makeReadOnly_unmapped hm⟩

/-- C06. After memory was marked read-only, in any state whatever and with whatever outcome, writes that are handed to that
region raise the bus error and change nothing. -/
theorem C06_marked_is_write_protected {s s' : Sim} {w : Width} {a b : U32} {v : BitVec w.bits} {i : Nat}
    (hb : Reaches s b 1 i) (hm : Step (.makeReadOnly b) s s') (ha : Reaches s' a w.bytes i) :
    IMemory.write w a v s' = .throw ⟨.busError, []⟩ s' := by
  obtain ⟨a', hf⟩ := find_reaches hb
  rcases makeRegionReadOnly_cases b s with h | ⟨u, h⟩ | ⟨j, a'', q, hf', hq, ⟨-, h⟩ | ⟨-, h⟩⟩
  · exfalso
    obtain ⟨k, q, hq, hr⟩ := hb
    have : makeRegionReadOnly b s ≠ .throw ⟨.busError, []⟩ s := by
      simp only [makeRegionReadOnly, M.bind_apply, hf, regionAt]
      cases s.regions[i]? with
      | none => simp
      | some r =>
        simp only [setRegion, M.modify_apply, throwingZeroedMalloc_eq]
        cases s.heap.fails s.heap.next <;> simp
    exact this h
  · exfalso
    rcases hm with ⟨_, h'⟩ | ⟨_, h'⟩ <;> simp only [Call.run, h] at h' <;> cases h'
  all_goals
    rw [hf] at hf'
    cases hf'
    have hlt : i < s.regions.length := (List.getElem?_eq_some_iff.1 hq).1
    rcases hm with ⟨_, h'⟩ | ⟨_, h'⟩ <;> simp only [Call.run, h] at h' <;> cases h'
    exact C06_write_to_readonly_rejected ha (List.getElem?_set_self hlt) rfl

example : ∃ s', Reaches demo 0x20000008 1 1 ∧ Step (.makeReadOnly 0x20000008) demo s' ∧ Reaches s' 0x8002 2 1 :=
  ⟨_, reaches_find (a' := 0x20000008) rfl, .inl ⟨(), rfl⟩, reaches_find (a' := 0x20000006) rfl⟩

/-! ### C11 -/

/-- C11. Every history of calls from `MemorySim_Init` on that respects the rules leads to consistent data structures, the
condition under which other properties are stated; if moreover marking memory read-only never ran out of memory, every
read-only region has its read counters. -/
theorem C11_careful_histories_are_sound {hp : Heap} {cs : List Call} {s : Sim} (h : CarefulHist (init hp) cs s) :
    Sound s ∧ ((∀ k, hp.fails k = false) → Counted s) := by
  refine ⟨hist_sound (good_nil (g := true) rfl).sound h, fun hf => ?_⟩
  suffices key : ∀ {s0 s1 : Sim} {cs : List Call}, CarefulHist s0 cs s1 → (∀ k, s0.heap.fails k = false) → Good true s0 →
      Good true s1 from (key h hf (good_nil rfl)).counted rfl
  intro s0 s1 cs h
  induction h with
  | nil s => exact fun _ hg => hg
  | cons hc hst _ ih =>
    rename_i s2 s3 s4 c cs ht
    intro hf hg
    have rep := (rep_call c).all s2
    have hfail : s3.heap.fails = s2.heap.fails := by
      rcases hst with ⟨_, e⟩ | ⟨_, e⟩ <;> rw [e] at rep <;> exact rep.1.fails
    refine ih (by rw [hfail]; exact hf) (step_good hg hc (fun _ => ?_) hst)
    have never : ∀ {α : Type} {m : M Sim α}, Rep MemSim.hp m → ∀ s', m s2 ≠ .throw ⟨.outOfMemory, []⟩ s' := by
      intro α m hm s' e
      have := hm.reports s2
      rw [e] at this
      obtain ⟨k, -, -, hk⟩ := this.1 rfl
      rw [hf k] at hk; cases hk
    cases c <;> first | trivial | skip
    · exact never (rep_makeReadOnly _)
    · exact .inr (never (rep_flash ..))

example : CarefulHist (init goodHeap) demoCalls demo ∧ ∀ k, goodHeap.fails k = false :=
  ⟨execWith_hist carefulChk_ok rfl, fun _ => rfl⟩

/-! ### C22 -/

theorem agree_set {s s' : Sim} {i : Nat} {r : Region} {ws : List Watchpoint} {al : Nat} (h : s.regions[i]? = some r)
    (h1 : s'.regions = s.regions.set i { r with watch := ws, watchAlloc := al }) (h2 : s'.hits = s.hits) (h3 : s'.xml = s.xml) :
    AgreeButWatch s s' := by
  refine ⟨h2, h3, by rw [h1]; simp, ?_⟩
  intro j q q' hq hq'
  rw [h1] at hq'
  by_cases hj : i = j
  · subst hj
    rw [List.getElem?_set_self (List.getElem?_eq_some_iff.1 h).1] at hq'
    rw [h] at hq
    cases hq; cases hq'; rfl
  · rw [List.getElem?_set_ne hj, hq] at hq'
    cases hq'; rfl

theorem agree_refl {s s' : Sim} (h1 : s'.regions = s.regions) (h2 : s'.hits = s.hits) (h3 : s'.xml = s.xml) : AgreeButWatch s s' := by
  refine ⟨h2, h3, by rw [h1], ?_⟩
  intro j q q' hq hq'
  rw [h1, hq] at hq'
  cases hq'; rfl

theorem active_set {s s' : Sim} {i : Nat} {r r' : Region} (h : s.regions[i]? = some r) (h1 : s'.regions = s.regions.set i r')
    (j : Nat) (w : Watchpoint) : Active s' j w ↔ if j = i then w ∈ r'.watch else Active s j w := by
  by_cases hj : j = i
  · subst hj
    simp only [Active, h1, List.getElem?_set_self (List.getElem?_eq_some_iff.1 h).1, Option.some.injEq, if_true,
      exists_eq_left']
  · simp only [Active, h1, List.getElem?_set_ne (Ne.symm hj), if_neg hj]

/-- C22. A call that sets the break/watchpoint `w` of region `i` completes, and then exactly `w` is in force besides what
was before; or it reports that memory ran out, and nothing changed. Nothing but the table ever changes. -/
theorem C22_set_outcome {c : Call} {s : Sim} {i : Nat} {w : Watchpoint} (hs : Sound s) (hc : Sets c s i w) :
    ∃ s', AgreeButWatch s s' ∧
      ((c.run s = .ok () s' ∧ ∀ j x, Active s' j x ↔ Active s j x ∨ (j = i ∧ x = w)) ∨
       (c.run s = .throw ⟨.outOfMemory, []⟩ s' ∧ SomeFailed s.heap s'.heap ∧ s'.regions = s.regions)) := by
  obtain ⟨a, n, t, r, off, hcall, ht, rfl⟩ := hc
  have e : c.run = setWatchpoint a n t := by rcases hcall with rfl | ⟨rfl, rfl⟩ <;> rfl
  rw [e]
  have hi := ht.info hs
  rcases setWatchpoint_cases hs (t := t) ht with ⟨h1, h⟩ | ⟨-, h1, -, h⟩ | ⟨-, ws, al, k, l, h, -, h2, -⟩
  · refine ⟨s, agree_refl rfl rfl rfl, .inl ⟨h, fun j x => ⟨.inl, ?_⟩⟩⟩
    rintro (hx | ⟨rfl, rfl⟩)
    · exact hx
    · exact ⟨r, hi.get, h1⟩
  · refine ⟨_, ?_, .inr ⟨h, ?_, ?_⟩⟩
    · exact agree_refl rfl rfl rfl
    · exact ⟨s.heap.next, Nat.le_refl _, Nat.lt_succ_self _, h1⟩
    · rfl
  · refine ⟨_, ?_, .inl ⟨h, fun j x => ?_⟩⟩
    · exact agree_set hi.get rfl rfl rfl
    rw [active_set hi.get rfl]
    by_cases hj : j = i
    · subst hj
      simp only [if_true, h2, true_and]
      constructor
      · rintro (hx | hx)
        · exact .inr hx
        · exact .inl ⟨r, hi.get, hx⟩
      · rintro (⟨q, hq, hx⟩ | hx)
        · rw [hi.get] at hq; cases hq; exact .inr hx
        · exact .inl hx
    · simp [hj]

/-- C22. A call that clears it always completes; exactly `w` is no longer in force. -/
theorem C22_clear_outcome {c : Call} {s : Sim} {i : Nat} {w : Watchpoint} (hs : Sound s) (hu : c ≠ .uninit) (hc : Clears c s i w) :
    ∃ s', AgreeButWatch s s' ∧ c.run s = .ok () s' ∧ ∀ j x, Active s' j x ↔ Active s j x ∧ ¬ (j = i ∧ x = w) := by
  obtain rfl | ⟨a, n, t, r, off, hcall, ht, rfl⟩ := hc
  · exact absurd rfl hu
  have e : c.run = clearWatchpoint a n t := by rcases hcall with rfl | ⟨rfl, rfl⟩ <;> rfl
  rw [e]
  have hi := ht.info hs
  rcases clearWatchpoint_cases hs (t := t) ht with ⟨h1, h⟩ | ⟨-, ws, h, -, h2⟩
  · refine ⟨s, agree_refl rfl rfl rfl, h, fun j x => ⟨fun hx => ⟨hx, ?_⟩, And.left⟩⟩
    rintro ⟨rfl, rfl⟩
    obtain ⟨q, hq, hx⟩ := hx
    rw [hi.get] at hq; cases hq
    exact h1 hx
  · refine ⟨_, ?_, h, fun j x => ?_⟩
    · exact agree_set (al := r.watchAlloc) hi.get rfl rfl rfl
    rw [active_set hi.get rfl]
    by_cases hj : j = i
    · subst hj
      simp only [if_true, h2, true_and]
      constructor
      · exact fun ⟨h1, h2⟩ => ⟨⟨r, hi.get, h2⟩, h1⟩
      · rintro ⟨⟨q, hq, hx⟩, h⟩
        rw [hi.get] at hq; cases hq
        exact ⟨h, hx⟩
    · simp [hj]

/-- C22. Setting or clearing one where no region contains its range raises the bus error and changes nothing. -/
theorem C22_unmapped {c : Call} {s : Sim} {a n t : U32} (hm : ¬ Mapped s a n.toNat)
    (hc : c = .setWatchpoint a n t ∨ c = .setBreakpoint a n ∨ c = .clearWatchpoint a n t ∨ c = .clearBreakpoint a n) :
    c.run s = .throw ⟨.busError, []⟩ s := by
  rcases hc with rfl | rfl | rfl | rfl
  · exact setWatchpoint_unmapped hm
  · exact setWatchpoint_unmapped hm
  · exact clearWatchpoint_unmapped hm
  · exact clearWatchpoint_unmapped hm

/-- Concrete cases: a breakpoint set through the alias; clearing the one that is set in flash; a range that leaves the flash. -/
example : Sound demo ∧ Sets (.setBreakpoint 0x8000 2) demo 1 ⟨WATCHPOINT_BREAKPOINT, 0x20000004, 0x20000006⟩ ∧
    Clears (.clearBreakpoint 0x1002 2) demo 0 ⟨WATCHPOINT_BREAKPOINT, 0x1002, 0x1004⟩ ∧
    Active demo 0 ⟨WATCHPOINT_BREAKPOINT, 0x1002, 0x1004⟩ ∧ ¬ Mapped demo 0x1007 (2 : U32).toNat :=
  ⟨demo_sound, ⟨_, _, _, _, 4, .inr ⟨rfl, rfl⟩, ⟨2, _, findFrom_zero.1 rfl, rfl, rfl, rfl⟩, rfl⟩,
    .inr ⟨_, _, _, _, 2, .inr ⟨rfl, rfl⟩, ⟨0, _, findFrom_zero.1 rfl, rfl, rfl, rfl⟩, rfl⟩, ⟨_, rfl, by decide⟩, by decide⟩

/-! ### C76 -/

/-- C76. Asking for a host pointer in order to read succeeds if and only if one region contains the whole range. The pointer
is to the bytes where the range is stored; all of the range lies in that buffer. The request changes no contents. -/
theorem C76_pointer_for_read {s : Sim} {a n : U32} (hs : Sound s) :
    (¬ Mapped s a n.toNat ∧ mapForRead a n s = .throw ⟨.busError, []⟩ s) ∨
    ∃ i r off s', Target s a n.toNat i r off ∧ off + n.toNat ≤ r.data.length ∧ mapForRead a n s = .ok (i, off) s' ∧
      s'.regions.map Region.data = s.regions.map Region.data ∧ s'.hits = s.hits := by
  by_cases hm : Mapped s a n.toNat
  · right
    obtain ⟨i, r, off, ht⟩ := target_of_mapped hs hm
    have hi := ht.info hs
    refine ⟨i, r, off, counted s i r off n.toNat READING, ht, by rw [hi.ok.1]; exact hi.room, ?_, ?_, ?_⟩
    · rw [mapForRead, gdp_nocheck hs ht, if_neg]
      exact fun h => absurd h.1 (by decide)
    · unfold counted
      split
      · split
        · rfl
        · refine List.ext_getElem? fun j => ?_
          simp only [List.getElem?_map]
          by_cases hj : i = j
          · subst hj
            rw [List.getElem?_set_self (List.getElem?_eq_some_iff.1 hi.get).1, hi.get]; rfl
          · rw [List.getElem?_set_ne hj]
      · rfl
    · unfold counted
      split
      · split <;> rfl
      · rfl
  · exact .inl ⟨hm, gdp_unmapped hm⟩

/-- C76. For a pointer in order to write, moreover the region must not be read-only; the request changes nothing. -/
theorem C76_pointer_for_write {s : Sim} {a n : U32} (hs : Sound s) :
    ((¬ Mapped s a n.toNat ∨ ∃ i r off, Target s a n.toNat i r off ∧ r.isReadOnly = true) ∧
      mapForWrite a n s = .throw ⟨.busError, []⟩ s) ∨
    ∃ i r off, Target s a n.toNat i r off ∧ r.isReadOnly = false ∧ off + n.toNat ≤ r.data.length ∧
      mapForWrite a n s = .ok (i, off) s := by
  by_cases hm : Mapped s a n.toNat
  · obtain ⟨i, r, off, ht⟩ := target_of_mapped hs hm
    have hi := ht.info hs
    have e := gdp_nocheck hs ht (t := WRITING)
    cases hro : r.isReadOnly
    · right
      refine ⟨i, r, off, ht, hro, by rw [hi.ok.1]; exact hi.room, ?_⟩
      rw [mapForWrite, e, if_neg (by simp [hro])]
      have : ¬ (WRITING = READING ∧ n.toNat = 2) := fun h => absurd h.1 (by decide)
      simp only [counted, if_neg this]
    · left
      refine ⟨.inr ⟨i, r, off, ht, hro⟩, ?_⟩
      rw [mapForWrite, e, if_pos ⟨rfl, hro⟩]
  · exact .inl ⟨.inl hm, gdp_unmapped hm⟩

/-- C76. What lies at the pointer is what an access of the same range reads. -/
theorem C76_pointer_shows_reads {s s' s'' : Sim} {w : Width} {a n : U32} {i off : Nat} {v : BitVec w.bits} (hs : Sound s)
    (hn : n.toNat = w.bytes) (hp : mapForRead a n s = .ok (i, off) s') (hr : IMemory.read w a s = .ok v s'') :
    ∀ k < w.bytes, ((s.regions[i]?).bind fun r => r.data[off + k]?) = some (byteOf v k) := by
  rcases C76_pointer_for_read (a := a) (n := n) hs with ⟨-, h⟩ | ⟨j, r, o, _, ht, -, h, -⟩
  · rw [hp] at h; cases h
  · rw [hp] at h
    cases h
    rw [hn] at ht
    intro k hk
    rw [(ht.info hs).get]
    exact read_bytes hs ht hr k hk

/-- C76. Storing the bytes of a value through the pointer leaves the same memory as the access that writes it. -/
theorem C76_pointer_writes_through {s s' s'' : Sim} {w : Width} {a n : U32} {p : Nat × Nat} {v : BitVec w.bits} (hs : Sound s)
    (hn : n.toNat = w.bytes) (hp : mapForWrite a n s = .ok p s') (hw : IMemory.write w a v s = .ok () s'') :
    ∃ s1, hostWrite p (leBytes w.bytes v.toNat) s' = .ok () s1 ∧ s1.regions = s''.regions := by
  rcases C76_pointer_for_write (a := a) (n := n) hs with ⟨-, h⟩ | ⟨j, r, o, ht, hro, hroom, h⟩
  · rw [hp] at h; cases h
  · rw [hp] at h
    cases h
    rw [hn] at ht hroom
    have hi := ht.info hs
    rw [write_eq, writeN_eq hs ht] at hw
    rw [if_neg (by simp [hro])] at hw
    split at hw
    · cases hw
    · cases hw
      simp only [hostWrite, M.bind_apply, regionAt_eq hi.get, leBytes_length]
      rw [if_pos hroom]
      exact ⟨_, rfl, rfl⟩

example : (∃ s', mapForRead 0x8001 4 demo = .ok (1, 5) s') ∧ mapForWrite 0x8001 4 demo = .ok (1, 5) demo ∧
    mapForWrite 0x1001 4 demo = .throw ⟨.busError, []⟩ demo ∧ Sound demo ∧ (∃ v s', IMemory.read .w32 0x8001 demo = .ok v s') ∧
    ∃ s', IMemory.write .w32 0x8001 7 demo = .ok () s' := ⟨⟨_, rfl⟩, rfl, rfl, demo_sound, ⟨_, _, rfl⟩, _, rfl⟩

end Verif.Props
