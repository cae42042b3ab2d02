import Verif.Lemmas.Create
import Verif.Props.Demo
/-
C01-C05, C07-C10: reads and writes of simulated memory, creation of regions and aliases.
-/
namespace Verif.Props
open Verif MemSim Spec

/-! ### C01 -/

/-- C01. After a completed write, a read of the same width at the same address returns the value written; the only
other thing that can happen is that a 16-bit read is stopped by a breakpoint that is set in the region it goes to and
covers it (for an access that ends at the top of the address space: that begins at or below it, see C24). -/
theorem C01_read_returns_written {s s' : Sim} {w : Width} {a : U32} {v : BitVec w.bits}
    (hs : Sound s) (hw : IMemory.write w a v s = .ok () s') (hroom : HitRoom s') :
    (∃ s'', IMemory.read w a s' = .ok v s'') ∨
    (w = .w16 ∧ (∃ s'', IMemory.read w a s' = .throw ⟨.hardwareBreakpoint, []⟩ s'') ∧
      ∃ i r off x, Target s' a 2 i r off ∧ x ∈ r.watch ∧ x.type = WATCHPOINT_BREAKPOINT ∧
        x.startAddress.toNat ≤ (r.baseAddress.toNat + off) % 2 ^ 32 ∧
        ((r.baseAddress.toNat + off) % 2 ^ 32 + 2 ≤ x.endAddress.toNat ∨ 2 ^ 32 ≤ (r.baseAddress.toNat + off) % 2 ^ 32 + 2)) := by
  have hs' := write_sound hs hw
  obtain ⟨i, r, off, ht, hro, rfl⟩ := write_ok hs hw
  have hi := ht.info hs
  have hlt : i < s.regions.length := (List.getElem?_eq_some_iff.1 hi.get).1
  have ht' := ht.sameShapes (s' := { s with
        hits := s.hits + (scanAt r off w.bytes WRITING).1,
        regions := s.regions.set i { r with
          data := r.data.take off ++ leBytes w.bytes v.toNat ++ r.data.drop (off + w.bytes) } })
      (SameShapes.set hi.get rfl) (List.getElem?_set_self hlt)
  rcases read_progress hs' hroom ht' with ⟨x, s'', hx⟩ | h
  · left
    refine ⟨s'', ?_⟩
    have hb := read_bytes hs' ht' hx
    have hlen := hi.ok.1
    have hrm := hi.room
    have : x = v := by
      apply eq_of_bytes
      intro j hj
      have h1 := hb j hj
      have h2 := splice_getElem? (d := r.data) (b := leBytes w.bytes v.toNat) (off := off) (j := off + j)
        (by simp; omega)
      simp only [leBytes_length] at h2
      rw [h2, if_pos (by omega), Nat.add_sub_cancel_left, leBytes_byteOf v hj] at h1
      exact (Option.some.inj h1).symm
    rw [hx, this]
  · right
    obtain ⟨rfl, s'', h⟩ := h
    obtain ⟨x, h1, h2, h3⟩ := read_stopped hs' ht' h
    refine ⟨rfl, ⟨s'', h⟩, i, _, off, x, ht', h1, h2, ?_⟩
    have hb := hi.ok.1
    have hrm := hi.room
    have hlt2 := r.size.isLt
    simp only [accessInRange, Bool.and_eq_true, decide_eq_true_eq, BitVec.toNat_add, BitVec.toNat_ofNat, Width.bytes] at h3
    simp only [Width.bytes] at hrm
    have e : (r.baseAddress.toNat + off % 2 ^ 32) % 2 ^ 32 = (r.baseAddress.toNat + off) % 2 ^ 32 := by omega
    rw [e] at h3
    refine ⟨h3.1, ?_⟩
    have h4 := h3.2
    have h5 : (r.baseAddress.toNat + off) % 2 ^ 32 < 2 ^ 32 := Nat.mod_lt _ (by decide)
    simp only at h5 ⊢
    by_cases hc : 2 ^ 32 ≤ (r.baseAddress.toNat + off) % 2 ^ 32 + 2
    · exact .inr hc
    · left
      have : ((r.baseAddress.toNat + off) % 2 ^ 32 + 2 % 2 ^ 32) % 2 ^ 32 = (r.baseAddress.toNat + off) % 2 ^ 32 + 2 := by omega
      omega

/-- Concrete case: a 32-bit write through the alias of `demo`, in watched memory. -/
example : ∃ s', Sound demo ∧ IMemory.write .w32 0x8002 0x12345678 demo = .ok () s' ∧ HitRoom s' :=
  ⟨_, demo_sound, rfl, by decide⟩

/-! ### C02 -/

/-- C02, reads. -/
theorem C02_read_is_little_endian {s s' : Sim} {w : Width} {a : U32} {v : BitVec w.bits} {k : Nat} {q : Region}
    (hs : Sound s) (hroom : HitRoom s) (ho : Owns s.regions a w.bytes k q) (hw : a.toNat + w.bytes ≤ 2 ^ 32)
    (hr : IMemory.read w a s = .ok v s') :
    ∀ j < w.bytes, ∃ s'', IMemory.read .w8 (a + BitVec.ofNat 32 j) s = .ok (byteOf v j) s'' := by
  obtain ⟨i, r, off, ht, hsub⟩ := ho.target hs (width_pos w)
  intro j hj
  exact read8_eq hs hroom (hsub j 1 (by omega) (by omega) (by omega)) (read_bytes hs ht hr j hj)

example : ∃ v s' q, Sound demo ∧ HitRoom demo ∧ Owns demo.regions 0x20000004 4 1 q ∧
    IMemory.read .w32 0x20000004 demo = .ok v s' ∧ v = 0xCAFEBABE :=
  ⟨_, _, _, demo_sound, demo_room, ⟨rfl, by decide, by
    intro j hj p hp
    have : j = 0 := by omega
    subst this
    cases hp
    decide⟩, rfl, rfl⟩

/-- C02, writes. -/
theorem C02_write_is_little_endian {s s' : Sim} {w : Width} {a : U32} {v : BitVec w.bits} {k : Nat} {q : Region}
    (hs : Sound s) (ho : Owns s.regions a w.bytes k q) (hw : a.toNat + w.bytes ≤ 2 ^ 32)
    (hr : IMemory.write w a v s = .ok () s') (hroom : HitRoom s') :
    ∀ j < w.bytes, ∃ s'', IMemory.read .w8 (a + BitVec.ofNat 32 j) s' = .ok (byteOf v j) s'' := by
  have hs' := write_sound hs hr
  obtain ⟨i, r, off, ht, hsub⟩ := ho.target hs (width_pos w)
  obtain ⟨i', r', off', ht', hro, rfl⟩ := write_ok hs hr
  obtain ⟨rfl, rfl, rfl⟩ := ht.unique ht'
  have hi := ht.info hs
  have hlen := hi.ok.1
  have hrm := hi.room
  have hlt : i < s.regions.length := (List.getElem?_eq_some_iff.1 hi.get).1
  intro j hj
  have htj := (hsub j 1 (by omega) (by omega) (by omega)).sameShapes (s' := { s with
        hits := s.hits + (scanAt r off w.bytes WRITING).1,
        regions := s.regions.set i { r with
          data := r.data.take off ++ leBytes w.bytes v.toNat ++ r.data.drop (off + w.bytes) } })
      (SameShapes.set hi.get rfl) (List.getElem?_set_self hlt)
  refine read8_eq hs' hroom htj ?_
  have h2 := splice_getElem? (d := r.data) (b := leBytes w.bytes v.toNat) (off := off) (j := off + j)
    (by simp; omega)
  simp only [leBytes_length] at h2
  rw [h2, if_pos (by omega), Nat.add_sub_cancel_left, leBytes_byteOf v hj]

example : ∃ s' q, Sound demo ∧ Owns demo.regions 0x20000008 2 1 q ∧
    IMemory.write .w16 0x20000008 0xABCD demo = .ok () s' ∧ HitRoom s' :=
  ⟨_, _, demo_sound, ⟨rfl, by decide, by
    intro j hj p hp
    have : j = 0 := by omega
    subst this
    cases hp
    decide⟩, rfl, by decide⟩

/-- Two regions that overlap, the second one holding different bytes. -/
def overlapCalls : List Call :=
  [.createRegion 0x100 2, .createRegion 0x101 4, .write .w32 0x101 0x44332211]

/-- Why C02 asks that no earlier region touches the access: here the 16-bit read at 0x101 is served by the second
region, the 8-bit read at 0x101 by the first one. -/
theorem C02_overlap_witness : ∃ s s1 s2, exec overlapCalls (init goodHeap) = some s ∧ Sound s ∧
    IMemory.read .w16 0x101 s = .ok 0x2211 s1 ∧ IMemory.read .w8 0x101 s = .ok 0x00 s2 :=
  ⟨_, _, _, rfl, by decide, rfl, rfl⟩

/-! ### C03 -/

/-- C03. A completed write changes one region's contents, and of these only the addressed bytes, and the hit counter. -/
theorem C03_write_frame {s s' : Sim} {w : Width} {a : U32} {v : BitVec w.bits}
    (hs : Sound s) (hw : IMemory.write w a v s = .ok () s') :
    ∃ i r off d, Target s a w.bytes i r off ∧
      s'.regions = s.regions.set i { r with data := d } ∧
      (∀ j < w.bytes, d[off + j]? = some (byteOf v j)) ∧
      (∀ j, j < off ∨ off + w.bytes ≤ j → d[j]? = r.data[j]?) ∧
      s'.xml = s.xml ∧ s'.heap = s.heap := by
  obtain ⟨i, r, off, ht, hro, rfl⟩ := write_ok hs hw
  have hi := ht.info hs
  have hlen := hi.ok.1
  have hrm := hi.room
  have key := fun j => splice_getElem? (d := r.data) (b := leBytes w.bytes v.toNat) (off := off) (j := j)
    (by simp; omega)
  simp only [leBytes_length] at key
  refine ⟨i, r, off, _, ht, rfl, ?_, ?_, rfl, rfl⟩
  · intro j hj
    rw [key, if_pos (by omega), Nat.add_sub_cancel_left, leBytes_byteOf v hj]
  · intro j hj
    rw [key, if_neg (by omega)]

/-- C03, as seen by a reader: a byte that is not one of the bytes written reads the same before and after. -/
theorem C03_other_bytes_read_the_same {s s' : Sim} {w : Width} {a b : U32} {v : BitVec w.bits} {x : U8} {t : Sim}
    {i j off off' : Nat} {r q : Region}
    (hs : Sound s) (hw : IMemory.write w a v s = .ok () s') (hroom : HitRoom s')
    (ha : Target s a w.bytes i r off) (hb : Target s b 1 j q off')
    (hne : i ≠ j ∨ off' < off ∨ off + w.bytes ≤ off')
    (hr : IMemory.read .w8 b s = .ok x t) : ∃ t', IMemory.read .w8 b s' = .ok x t' := by
  have hs' := write_sound hs hw
  obtain ⟨i', r', off'', d, ht, h1, h2, h3, -⟩ := C03_write_frame hs hw
  obtain ⟨rfl, rfl, rfl⟩ := ha.unique ht
  have hi := ha.info hs
  have hj := hb.info hs
  have hx := read_bytes (w := .w8) hs hb hr 0 (by decide)
  simp only [Nat.add_zero] at hx
  have hss : SameShapes s.regions s'.regions := h1 ▸ SameShapes.set hi.get rfl
  obtain ⟨q', e1, e2⟩ := hss.get hj.get
  have hb' := hb.sameShapes hss e1
  have hx : q.data[off']? = some x := hx.trans (congrArg some (byteOf8 x))
  refine read8_eq hs' hroom hb' ?_
  rw [h1, List.getElem?_set] at e1
  split at e1
  · rename_i e
    subst e
    rw [if_pos (List.getElem?_eq_some_iff.1 hi.get).1] at e1
    cases e1
    have : r = q := by
      have := hi.get
      rw [hj.get] at this
      exact (Option.some.inj this).symm
    subst this
    simp only
    rw [h3 off' (by omega), hx]
  · rw [hj.get] at e1
    cases e1
    exact hx

example : ∃ s' t r q, Sound demo ∧ IMemory.write .w32 0x20000008 0x01020304 demo = .ok () s' ∧ HitRoom s' ∧
    Target demo 0x20000008 4 1 r 8 ∧ Target demo 0x8003 1 1 q 7 ∧ IMemory.read .w8 0x8003 demo = .ok 0xCA t :=
  ⟨_, _, _, _, demo_sound, rfl, by decide,
    ⟨1, _, findFrom_zero.1 rfl, rfl, rfl, rfl⟩, ⟨2, _, findFrom_zero.1 rfl, rfl, rfl, rfl⟩, rfl⟩

/-! ### C04 -/

/-- C04, reads. A read raises a bus error exactly when no single region contains it, and then changes nothing. -/
theorem C04_read_faults_iff_unmapped {s : Sim} {w : Width} {a : U32} (hs : Sound s) :
    ((∃ m s', IMemory.read w a s = .throw ⟨.busError, m⟩ s') ↔ ¬ Mapped s a w.bytes) ∧
    (∀ m s', IMemory.read w a s = .throw ⟨.busError, m⟩ s' → s' = s) := by
  by_cases hm : Mapped s a w.bytes
  · obtain ⟨i, r, off, ht⟩ := target_of_mapped hs hm
    have key : ∀ m s', IMemory.read w a s ≠ .throw ⟨.busError, m⟩ s' := by
      intro m s' h
      rw [read_eq, readN_eq hs ht] at h
      by_cases h1 : s.hits + (scanAt r off w.bytes READING).1 ≥ 2 ^ 31
      · simp [if_pos h1] at h
      by_cases h2 : (scanAt r off w.bytes READING).2 = true
      · simp [if_neg h1, if_pos h2] at h
      · simp [if_neg h1, if_neg h2] at h
    exact ⟨⟨fun ⟨m, s', h⟩ => absurd h (key m s'), fun h => absurd hm h⟩, fun m s' h => absurd h (key m s')⟩
  · rw [read_eq, readN_unmapped hm]
    refine ⟨⟨fun _ => hm, fun _ => ⟨[], s, rfl⟩⟩, ?_⟩
    intro m s' h
    simp at h
    exact h.2.symm

/-- C04, writes: a write raises a bus error exactly when no region contains it or it leads to read-only memory, and then
changes nothing. -/
theorem C04_write_faults_iff {s : Sim} {w : Width} {a : U32} {v : BitVec w.bits} (hs : Sound s) :
    ((∃ m s', IMemory.write w a v s = .throw ⟨.busError, m⟩ s') ↔
      (¬ Mapped s a w.bytes ∨ ∃ i r off, Target s a w.bytes i r off ∧ r.isReadOnly = true)) ∧
    (∀ e s', IMemory.write w a v s = .throw e s' → e = ⟨.busError, []⟩ ∧ s' = s) := by
  by_cases hm : Mapped s a w.bytes
  · obtain ⟨i, r, off, ht⟩ := target_of_mapped hs hm
    rw [write_eq, writeN_eq hs ht]
    by_cases h0 : r.isReadOnly = true
    · simp only [if_pos h0]
      refine ⟨⟨fun _ => .inr ⟨i, r, off, ht, h0⟩, fun _ => ⟨[], s, rfl⟩⟩, ?_⟩
      intro e s' h
      simp at h
      exact ⟨h.1.symm, h.2.symm⟩
    · simp only [if_neg h0]
      constructor
      · constructor
        · rintro ⟨m, s', h⟩
          by_cases h1 : s.hits + (scanAt r off w.bytes WRITING).1 ≥ 2 ^ 31
          · simp [if_pos h1] at h
          · simp [if_neg h1] at h
        · rintro (h | ⟨i', r', off', ht', hro⟩)
          · exact absurd hm h
          · obtain ⟨rfl, rfl, rfl⟩ := ht.unique ht'
            exact absurd hro h0
      · intro e s' h
        by_cases h1 : s.hits + (scanAt r off w.bytes WRITING).1 ≥ 2 ^ 31
        · simp [if_pos h1] at h
        · simp [if_neg h1] at h
  · rw [write_eq, writeN_unmapped hm]
    refine ⟨⟨fun _ => .inl hm, fun _ => ⟨[], s, rfl⟩⟩, ?_⟩
    intro e s' h
    simp at h
    exact ⟨h.1.symm, h.2.symm⟩

/-- Concrete cases: one byte before, straddling the end, and inside. -/
example : Sound demo ∧ ¬ Mapped demo 0xFFF 1 ∧ ¬ Mapped demo 0x1006 4 ∧ Mapped demo 0x1004 4 ∧
    ¬ Mapped demo 0x800A 4 ∧ Mapped demo 0x800A 2 :=
  ⟨demo_sound, by decide, by decide, by decide, by decide, by decide⟩

/-! ### C05 -/

/-- C05. When the first created region that contains the access is an ordinary one, a completed read returns its bytes. -/
theorem C05_first_region_serves_read {s s' : Sim} {w : Width} {a : U32} {v : BitVec w.bits} {k : Nat} {q : Region}
    (hs : Sound s) (hf : FirstCover s.regions a w.bytes k q) (hq : q.isAlias = false)
    (hr : IMemory.read w a s = .ok v s') :
    ∀ j < w.bytes, q.data[(a.toNat - q.baseAddress.toNat) + j]? = some (byteOf v j) :=
  read_bytes (i := k) hs ⟨k, q, hf, by simp [hq]⟩ hr

/-- C05. A region created later never changes the outcome of an access that was already served: same value or exception,
and the same effect on everything that existed before. -/
theorem C05_new_region_changes_no_served_access {s s' : Sim} {b n : U32}
    (hs : Sound s) (hc : createRegion b n s = .ok () s') {w : Width} {a : U32} (hm : Mapped s a w.bytes) :
    ∃ x : Region, s'.regions = s.regions ++ [x] ∧
      (IMemory.read w a s' =
        mapState (fun t => { t with regions := t.regions ++ [x], heap := s'.heap }) (IMemory.read w a s)) ∧
      (∀ v, IMemory.write w a v s' =
        mapState (fun t => { t with regions := t.regions ++ [x], heap := s'.heap }) (IMemory.write w a v s)) := by
  rcases createRegion_cases b n s with ⟨k, h⟩ | h
  · rw [h] at hc; cases hc
  · rw [h] at hc
    simp only [Out.ok.injEq, true_and] at hc
    subst hc
    obtain ⟨i, r, off, ht⟩ := target_of_mapped hs hm
    exact ⟨newRegion b n, rfl, read_grow (ht.hit hs), fun v => write_grow (ht.hit hs)⟩

/-- C05 for an alias created later (even an alias of an alias). -/
theorem C05_new_alias_changes_no_served_access {s s' : Sim} {al rd n : U32}
    (hs : Sound s) (hc : createAlias al rd n s = .ok () s') {w : Width} {a : U32} (hm : Mapped s a w.bytes) :
    ∃ x : Region, s'.regions = s.regions ++ [x] ∧
      (IMemory.read w a s' =
        mapState (fun t => { t with regions := t.regions ++ [x], heap := s'.heap }) (IMemory.read w a s)) ∧
      (∀ v, IMemory.write w a v s' =
        mapState (fun t => { t with regions := t.regions ++ [x], heap := s'.heap }) (IMemory.write w a v s)) := by
  rcases createAlias_cases al rd n s with ⟨k, h⟩ | ⟨k, h, -⟩ | ⟨j, a', t, -, -, h⟩ | ⟨r, h, -⟩
  · rw [h] at hc; cases hc
  · rw [h] at hc; cases hc
  · rw [h] at hc
    simp only [Out.ok.injEq, true_and] at hc
    subst hc
    obtain ⟨i, r, off, ht⟩ := target_of_mapped hs hm
    exact ⟨newAlias al rd n j t, rfl, read_grow (ht.hit hs), fun v => write_grow (ht.hit hs)⟩
  · rw [h] at hc; cases hc

/-- Concrete case: a region laid over the RAM and the alias of `demo`. -/
example : ∃ s', Sound demo ∧ createRegion 0x20000002 0x100 demo = .ok () s' ∧ Mapped demo 0x20000006 4 :=
  ⟨_, demo_sound, rfl, by decide⟩

/-! ### C07 -/

/-- C07. Memory of a region just created reads as zero wherever no older region serves the access. -/
theorem C07_new_region_reads_zero {s s' : Sim} {b n : U32} (hs : Sound s) (hc : createRegion b n s = .ok () s')
    {w : Width} {a : U32} (hin : b.toNat ≤ a.toNat ∧ a.toNat + w.bytes ≤ b.toNat + n.toNat)
    (hnew : ¬ Mapped s a w.bytes) (hroom : HitRoom s') :
    ∃ s'', IMemory.read w a s' = .ok 0 s'' := by
  rcases createRegion_cases b n s with ⟨k, h⟩ | h
  · rw [h] at hc; cases hc
  · rw [h] at hc
    simp only [Out.ok.injEq, true_and] at hc
    have hs' : Sound s' := hs.append (x := newRegion b n) (by rw [← hc]) (by
      simp only [newRegion]; exact plainOK_new b n)
    have hf : FirstCover s'.regions a w.bytes s.regions.length (newRegion b n) := by
      rw [← hc]
      exact firstCover_new hin (fun r hr hcv => hnew ⟨r, hr, hcv⟩)
    have ht : Target s' a w.bytes s.regions.length (newRegion b n) (a.toNat - b.toNat) :=
      ⟨_, _, hf, by simp [newRegion]⟩
    rcases read_progress hs' hroom ht with ⟨v, s'', hv⟩ | ⟨hw, s'', hv⟩
    · refine ⟨s'', ?_⟩
      have hb := read_bytes hs' ht hv
      have : v = 0 := by
        apply eq_of_bytes
        intro j hj
        have := hb j hj
        simp only [newRegion, List.getElem?_replicate] at this
        rw [if_pos (by omega)] at this
        rw [← Option.some.inj this]
        apply BitVec.eq_of_toNat_eq
        simp [byteOf_toNat]
      rw [hv, this]
    · rw [read_eq, readN_eq hs' ht] at hv
      have h2 : (scanAt (newRegion b n) (a.toNat - b.toNat) w.bytes READING).2 = false := rfl
      rw [h2] at hv
      by_cases h1 : s'.hits + (scanAt (newRegion b n) (a.toNat - b.toNat) w.bytes READING).1 ≥ 2 ^ 31
      · simp [if_pos h1] at hv
      · simp [if_neg h1] at hv

/-- Concrete case: a region that straddles the end of the RAM of `demo`. -/
example : ∃ s', Sound demo ∧ createRegion 0x2000000C 8 demo = .ok () s' ∧ ¬ Mapped demo 0x2000000E 4 ∧ HitRoom s' :=
  ⟨_, demo_sound, rfl, by decide, by decide⟩

/-! ### C08 -/

/-- C08. A failed `MemorySim_CreateRegion` leaves regions, contents, hit count, memory map and live heap blocks alone. -/
theorem C08_createRegion_atomic {s s' : Sim} {b n : U32} {e : Exn} (h : createRegion b n s = .throw e s') :
    e = ⟨.outOfMemory, []⟩ ∧ s'.regions = s.regions ∧ s'.hits = s.hits ∧ s'.xml = s.xml ∧
    s'.heap.live = s.heap.live := by
  rcases createRegion_cases b n s with ⟨k, h'⟩ | h'
  · rw [h] at h'
    simp only [Out.throw.injEq] at h'
    obtain ⟨rfl, rfl⟩ := h'
    simp [bumpHeap]
  · rw [h] at h'; cases h'

/-- C08. A failed `MemorySim_CreateAlias` too. -/
theorem C08_createAlias_atomic {s s' : Sim} {al rd n : U32} {e : Exn} (h : createAlias al rd n s = .throw e s') :
    (e = ⟨.outOfMemory, []⟩ ∨ (e = ⟨.busError, []⟩ ∧ ¬ Mapped s rd 1)) ∧
    s'.regions = s.regions ∧ s'.hits = s.hits ∧ s'.xml = s.xml ∧ s'.heap.live = s.heap.live := by
  rcases createAlias_cases al rd n s with ⟨k, h'⟩ | ⟨k, h', hf⟩ | ⟨j, a', t, -, -, h'⟩ | ⟨r, h', -⟩
  · rw [h] at h'
    simp only [Out.throw.injEq] at h'
    obtain ⟨rfl, rfl⟩ := h'
    simp [bumpHeap]
  · rw [h] at h'
    simp only [Out.throw.injEq] at h'
    obtain ⟨rfl, rfl⟩ := h'
    refine ⟨.inr ⟨rfl, ?_⟩, by simp [bumpHeap]⟩
    rintro ⟨r, hr, hc⟩
    obtain ⟨k', q, hq⟩ := FirstCover.exists_of_mem hr hc
    unfold findMatchingRegion at hf
    rw [findFrom_zero.2 hq] at hf
    simp only at hf
    split at hf
    · split at hf <;> cases hf
    · cases hf
  · rw [h] at h'; cases h'
  · rw [h] at h'; cases h'

/-- Concrete cases: the second allocation fails; the redirect address is not mapped. -/
example : ∃ s s' s'', s.regions = demo.regions ∧
    createRegion 0x5000 16 s = .throw ⟨.outOfMemory, []⟩ s' ∧
    createAlias 0x5000 0x1000 16 s = .throw ⟨.outOfMemory, []⟩ s'' :=
  ⟨{ demo with heap := { fails := fun n => n == 1, next := 0 } }, _, _, rfl, rfl, rfl⟩
example : ∃ s', createAlias 0x5000 0x6000 16 demo = .throw ⟨.busError, []⟩ s' := ⟨_, rfl⟩

/-! ### C09 -/

/-- C09. An access through a new alias of ordinary memory has the same outcome (value, exception and effect on the
simulator) as the same access at the redirected address. `t` is the region that holds the redirect address. -/
theorem C09_alias_is_transparent {s s' : Sim} {al rd n : U32} {k : Nat} {t q : Region}
    (hs : Sound s) (hf : FirstCover s.regions rd 1 k t) (hpl : t.isAlias = false)
    (hc : createAlias al rd n s = .ok () s') (hq : s'.regions.getLast? = some q)
    {w : Width} {o : Nat} (hin : o + w.bytes ≤ q.size.toNat) (hal : al.toNat + o < 2 ^ 32) (hrd : rd.toNat + o < 2 ^ 32)
    (hshadow : ¬ Mapped s (al + BitVec.ofNat 32 o) w.bytes)
    (hdirect : FirstCover s.regions (rd + BitVec.ofNat 32 o) w.bytes k t) :
    IMemory.read w (al + BitVec.ofNat 32 o) s' = IMemory.read w (rd + BitVec.ofNat 32 o) s' ∧
    ∀ v, IMemory.write w (al + BitVec.ofNat 32 o) v s' = IMemory.write w (rd + BitVec.ofNat 32 o) v s' := by
  have ht : Target s rd 1 k t (rd.toNat - t.baseAddress.toNat) := ⟨k, t, hf, by simp [hpl]⟩
  rcases createAlias_cases al rd n s with ⟨_, h⟩ | ⟨_, h, -⟩ | ⟨j, a', t', hfm, htj, h⟩ | ⟨r, h, -⟩
  · rw [h] at hc; cases hc
  · rw [h] at hc; cases hc
  · rw [find_target hs ht] at hfm
    simp only [Out.ok.injEq, Prod.mk.injEq] at hfm
    obtain ⟨⟨rfl, -⟩, -⟩ := hfm
    have : t' = t := by
      have := hf.1
      rw [htj] at this
      exact Option.some.inj this
    subst this
    rw [h] at hc
    simp only [Out.ok.injEq, true_and] at hc
    have hregs : s'.regions = s.regions ++ [newAlias al rd n k t'] := by rw [← hc]
    have hq' : q = newAlias al rd n k t' := by
      rw [hregs] at hq
      simpa [eq_comm] using hq
    obtain ⟨hok, hsz⟩ := aliasOK_new (al := al) (n := n) (ht.info hs) hf.2.1
    have hs' : Sound s' := hs.append hregs (by simpa [newAlias] using hok)
    have e1 : (al + BitVec.ofNat 32 o).toNat = al.toNat + o := by bv_omega
    have e2 : (rd + BitVec.ofNat 32 o).toNat = rd.toNat + o := by bv_omega
    have hcov := hdirect.2.1
    have hcov' := hf.2.1
    unfold Covers at hcov hcov'
    have hT1 : Target s' (al + BitVec.ofNat 32 o) w.bytes k t' (rd.toNat + o - t'.baseAddress.toNat) := by
      refine ⟨s.regions.length, newAlias al rd n k t', ?_, ?_⟩
      · rw [hregs]
        refine firstCover_new ?_ (fun r hr hcv => hshadow ⟨r, hr, hcv⟩)
        subst hq'
        unfold Covers
        rw [e1]
        simp only [newAlias] at hin ⊢
        omega
      · simp only [newAlias, if_true]
        refine ⟨trivial, by rw [hregs]; exact get_append hf.1, ?_⟩
        rw [e1]
        omega
    have hT2 : Target s' (rd + BitVec.ofNat 32 o) w.bytes k t' (rd.toNat + o - t'.baseAddress.toNat) := by
      refine ⟨k, t', ?_, ?_⟩
      · rw [hregs]; exact firstCover_append hdirect
      · simp only [hpl, e2]
        simp
    exact ⟨same_target_read hs' hT1 hT2, fun v => same_target_write hs' hT1 hT2⟩
  · rw [h] at hc; cases hc

/-- Concrete case: an alias into the flash of `demo`, 16-bit access at offset 1 (which counts in the read counters). -/
example : ∃ s' t q, Sound demo ∧ FirstCover demo.regions 0x1003 1 0 t ∧ t.isAlias = false ∧
    createAlias 0x9000 0x1003 100 demo = .ok () s' ∧ s'.regions.getLast? = some q ∧ 1 + 2 ≤ q.size.toNat ∧
    ¬ Mapped demo 0x9001 2 ∧ FirstCover demo.regions 0x1004 2 0 t ∧ q.size = 5 :=
  ⟨_, _, _, demo_sound, findFrom_zero.1 rfl, rfl, rfl, rfl, by decide, by decide, findFrom_zero.1 rfl, rfl⟩

/-! ### C10 -/

/-- C10, for an alias of ordinary memory: the alias is cut to what remains of the target region after the redirect
address, and everything the alias accepts lies inside the target. What is missing (aliases of aliases) is false:
see `C10_alias_of_alias_escapes`. -/
theorem C10_alias_bounded_partial {s s' : Sim} {al rd n : U32} {k : Nat} {t : Region}
    (hs : Sound s) (hf : FirstCover s.regions rd 1 k t) (hpl : t.isAlias = false)
    (hc : createAlias al rd n s = .ok () s') :
    ∃ q, s'.regions = s.regions ++ [q] ∧ q.baseAddress = al ∧
      q.size.toNat = min n.toNat (t.size.toNat - (rd.toNat - t.baseAddress.toNat)) ∧
      ∀ a m, Covers q a m →
        t.baseAddress.toNat ≤ rd.toNat + (a.toNat - al.toNat) ∧
        rd.toNat + (a.toNat - al.toNat) + m ≤ t.baseAddress.toNat + t.size.toNat := by
  have ht : Target s rd 1 k t (rd.toNat - t.baseAddress.toNat) := ⟨k, t, hf, by simp [hpl]⟩
  rcases createAlias_cases al rd n s with ⟨_, h⟩ | ⟨_, h, -⟩ | ⟨j, a', t', hfm, htj, h⟩ | ⟨r, h, -⟩
  · rw [h] at hc; cases hc
  · rw [h] at hc; cases hc
  · rw [find_target hs ht] at hfm
    simp only [Out.ok.injEq, Prod.mk.injEq] at hfm
    obtain ⟨⟨rfl, -⟩, -⟩ := hfm
    have : t' = t := by
      have := hf.1
      rw [htj] at this
      exact Option.some.inj this
    subst this
    rw [h] at hc
    simp only [Out.ok.injEq, true_and] at hc
    obtain ⟨hok, hsz⟩ := aliasOK_new (al := al) (n := n) (ht.info hs) hf.2.1
    refine ⟨newAlias al rd n k t', by rw [← hc], rfl, hsz, ?_⟩
    intro a m hcv
    have h2 := hf.2.1
    unfold Covers at hcv h2
    have : (newAlias al rd n k t').baseAddress = al := rfl
    rw [this] at hcv
    omega
  · rw [h] at hc; cases hc

example : ∃ s' t, Sound demo ∧ FirstCover demo.regions 0x20000004 1 1 t ∧ t.isAlias = false ∧
    createAlias 0x9000 0x20000004 20 demo = .ok () s' :=
  ⟨_, _, demo_sound, findFrom_zero.1 rfl, rfl, rfl⟩

/-- An alias of an alias. -/
def aliasOfAlias : List Call :=
  [.createRegion 0x100 8, .createAlias 0x200 0x104 4, .createAlias 0x300 0x200 4]

/-- C10 is false for an alias whose redirect address lies in another alias: the creation succeeds, its bound is computed
from the untranslated address, and reading through it reads host memory outside the target's buffer. -/
theorem C10_alias_of_alias_escapes :
    ∃ s, exec aliasOfAlias (init goodHeap) = some s ∧ s.regions.length = 3 ∧ Mapped s 0x300 1 ∧
      IMemory.read .w8 0x300 s = .ub .outOfBounds ∧ IMemory.write .w8 0x300 1 s = .ub .outOfBounds :=
  ⟨_, rfl, rfl, by decide, rfl, rfl⟩

end Verif.Props
