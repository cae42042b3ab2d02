import Verif.Spec.MemSim
import Verif.Lemmas.Le
/- Helper lemmas about the memory simulator. -/
namespace Verif.MemSim
open Verif Spec

theorem contains_iff {r : Region} {a : U32} {n : Nat} : r.contains a n = true ↔ Covers r a n := by
  simp [Region.contains, Covers]

theorem findFrom_none {rs : List Region} {a : U32} {n k : Nat} :
    findFrom k rs a n = none ↔ ∀ r ∈ rs, ¬ Covers r a n := by
  induction rs generalizing k with
  | nil => simp [findFrom]
  | cons r rs ih =>
    by_cases h : r.contains a n
    · simp [findFrom, h, contains_iff.1 h]
    · have h' : ¬ Covers r a n := fun hc => h (contains_iff.2 hc)
      simp [findFrom, h, h', ih]

theorem findFrom_some {rs : List Region} {a : U32} {n k i : Nat} {r : Region} :
    findFrom k rs a n = some (i, r) ↔ ∃ d, i = k + d ∧ FirstCover rs a n d r := by
  induction rs generalizing k with
  | nil => simp [findFrom, FirstCover]
  | cons q rs ih =>
    by_cases h : q.contains a n
    · have h' := contains_iff.1 h
      simp only [findFrom, h, if_true, Option.some.injEq, Prod.mk.injEq]
      constructor
      · rintro ⟨rfl, rfl⟩
        exact ⟨0, rfl, by simp, h', by simp⟩
      · rintro ⟨d, rfl, h1, h2, h3⟩
        cases d with
        | zero => simp at h1; exact ⟨rfl, h1⟩
        | succ d => exact absurd h' (h3 0 (by omega) q (by simp))
    · have h' : ¬ Covers q a n := fun hc => h (contains_iff.2 hc)
      simp only [findFrom, h, if_false, ih, Bool.false_eq_true]
      constructor
      · rintro ⟨d, rfl, h1, h2, h3⟩
        refine ⟨d + 1, by omega, by simpa using h1, h2, ?_⟩
        intro j hj p hp
        cases j with
        | zero => simp at hp; exact hp ▸ h'
        | succ j => exact h3 j (by omega) p (by simpa using hp)
      · rintro ⟨d, rfl, h1, h2, h3⟩
        cases d with
        | zero => simp at h1; exact absurd (h1 ▸ h2) h'
        | succ d =>
          exact ⟨d, by omega, by simpa using h1, h2,
            fun j hj p hp => h3 (j + 1) (by omega) p (by simpa using hp)⟩

theorem findFrom_zero {rs : List Region} {a : U32} {n i : Nat} {r : Region} :
    findFrom 0 rs a n = some (i, r) ↔ FirstCover rs a n i r := by
  rw [findFrom_some]; constructor
  · rintro ⟨d, h, h'⟩; simp at h; exact h ▸ h'
  · intro h; exact ⟨i, by simp, h⟩

theorem _root_.Verif.Spec.FirstCover.unique {rs : List Region} {a : U32} {n i j : Nat} {r q : Region}
    (h : FirstCover rs a n i r) (h' : FirstCover rs a n j q) : i = j ∧ r = q := by
  have := findFrom_zero.2 h
  rw [findFrom_zero.2 h'] at this
  simpa [eq_comm] using this

theorem _root_.Verif.Spec.FirstCover.exists_of_mem {rs : List Region} {a : U32} {n : Nat} {r : Region} (hr : r ∈ rs)
    (hc : Covers r a n) : ∃ k q, FirstCover rs a n k q := by
  cases h : findFrom 0 rs a n with
  | none => exact absurd hc (findFrom_none.1 h r hr)
  | some p => exact ⟨p.1, p.2, findFrom_zero.1 h⟩

theorem _root_.Verif.Spec.FirstCover.mem {rs : List Region} {a : U32} {n i : Nat} {r : Region}
    (h : FirstCover rs a n i r) : r ∈ rs := List.mem_of_getElem? h.1

/-- What a target is, in a sound simulator. -/
structure TargetInfo (s : Sim) (n i : Nat) (r : Region) (off : Nat) : Prop where
  get : s.regions[i]? = some r
  plain : r.isAlias = false
  ok : PlainOK r
  room : off + n ≤ r.size.toNat

theorem _root_.Verif.Spec.Sound.plain {s : Sim} (hs : Sound s) {i : Nat} {r : Region} (h : s.regions[i]? = some r)
    (ha : r.isAlias = false) : PlainOK r := by
  have := hs r (List.mem_of_getElem? h)
  simpa [ha] using this

theorem _root_.Verif.Spec.Sound.alias {s : Sim} (hs : Sound s) {i : Nat} {r : Region} (h : s.regions[i]? = some r)
    (ha : r.isAlias = true) : ∃ j t, r.redirect = some j ∧ s.regions[j]? = some t ∧ t.isAlias = false ∧
      t.baseAddress.toNat ≤ r.redirectAddress.toNat ∧
      r.redirectAddress.toNat + r.size.toNat ≤ t.baseAddress.toNat + t.size.toNat ∧
      r.readCounts = none ∧ r.watch = [] ∧ r.watchAlloc = 0 := by
  have := hs r (List.mem_of_getElem? h)
  simp only [ha, if_true, AliasOK] at this
  split at this
  · exact this.elim
  · split at this
    · exact this.elim
    · rename_i hi _ q hq
      exact ⟨_, q, hi, hq, this⟩

theorem _root_.Verif.Spec.Target.info {s : Sim} (hs : Sound s) {a : U32} {n i off : Nat} {r : Region}
    (h : Target s a n i r off) : TargetInfo s n i r off := by
  obtain ⟨k, q, hf, h⟩ := h
  obtain ⟨h1, ⟨h2, h3⟩, _⟩ := hf
  split at h
  · rename_i ha
    obtain ⟨j, t, e1, e2, e3, e4, e5, -⟩ := hs.alias h1 ha
    obtain ⟨f1, f2, f3⟩ := h
    rw [f1] at e1; cases e1
    rw [f2] at e2; cases e2
    exact ⟨f2, e3, hs.plain f2 e3, by omega⟩
  · rename_i ha
    obtain ⟨rfl, rfl, rfl⟩ := h
    have ha : q.isAlias = false := by simpa using ha
    exact ⟨h1, ha, hs.plain h1 ha, by omega⟩

theorem _root_.Verif.Spec.Target.unique {s : Sim} {a : U32} {n i j off off' : Nat} {r q : Region}
    (h : Target s a n i r off) (h' : Target s a n j q off') : i = j ∧ r = q ∧ off = off' := by
  obtain ⟨k, p, hf, h⟩ := h
  obtain ⟨k', p', hf', h'⟩ := h'
  obtain ⟨rfl, rfl⟩ := hf.unique hf'
  split at h
  · rename_i ha
    simp only [ha, if_true] at h'
    obtain ⟨f1, f2, f3⟩ := h
    obtain ⟨g1, g2, g3⟩ := h'
    rw [f1] at g1; cases g1
    rw [f2] at g2; cases g2
    exact ⟨rfl, rfl, by omega⟩
  · rename_i ha
    simp only [ha] at h'
    obtain ⟨rfl, rfl, rfl⟩ := h
    obtain ⟨rfl, rfl, rfl⟩ := h'
    exact ⟨rfl, rfl, rfl⟩

theorem _root_.Verif.Spec.Target.mapped {s : Sim} {a : U32} {n i off : Nat} {r : Region}
    (h : Target s a n i r off) : Mapped s a n := by
  obtain ⟨k, q, hf, -⟩ := h
  exact ⟨q, hf.mem, hf.2.1⟩

theorem target_of_mapped {s : Sim} (hs : Sound s) {a : U32} {n : Nat} (hm : Mapped s a n) :
    ∃ i r off, Target s a n i r off := by
  obtain ⟨r, hr, hc⟩ := hm
  obtain ⟨k, q, hf⟩ := FirstCover.exists_of_mem hr hc
  by_cases ha : q.isAlias = true
  · obtain ⟨j, t, e1, e2, e3, e4, e5, -⟩ := hs.alias hf.1 ha
    refine ⟨j, t, (a.toNat - q.baseAddress.toNat) + q.redirectAddress.toNat - t.baseAddress.toNat, k, q, hf, ?_⟩
    simp only [ha, if_true]
    exact ⟨e1, e2, by omega⟩
  · exact ⟨k, q, a.toNat - q.baseAddress.toNat, k, q, hf, by simp [ha]⟩

theorem find_target {s : Sim} (hs : Sound s) {a : U32} {n i off : Nat} {r : Region}
    (h : Target s a n i r off) :
    findMatchingRegion a n s = .ok (i, r.baseAddress + BitVec.ofNat 32 off) s := by
  have hi := h.info hs
  obtain ⟨k, q, hf, h⟩ := h
  have hq := findFrom_zero.2 hf
  obtain ⟨h1, ⟨h2, h3⟩, _⟩ := hf
  unfold findMatchingRegion
  rw [hq]
  simp only
  split at h
  · rename_i ha
    obtain ⟨f1, f2, f3⟩ := h
    simp only [ha, if_true, f1]
    congr 2
    bv_omega
  · rename_i ha
    obtain ⟨rfl, rfl, rfl⟩ := h
    simp only [ha, Bool.false_eq_true, if_false]
    congr 2
    bv_omega

theorem find_unmapped {s : Sim} {a : U32} {n : Nat} (h : ¬ Mapped s a n) :
    findMatchingRegion a n s = .throw ⟨.busError, []⟩ s := by
  have : findFrom 0 s.regions a n = none := findFrom_none.2 (fun r hr hc => h ⟨r, hr, hc⟩)
  simp [findMatchingRegion, this]

theorem regionAt_eq {s : Sim} {i : Nat} {r : Region} (h : s.regions[i]? = some r) :
    regionAt i s = .ok r s := by simp [regionAt, h]

/-- State after `countRead`. -/
def counted (s : Sim) (i : Nat) (r : Region) (off n : Nat) (t : U32) : Sim :=
  if t = READING ∧ n = 2 then
    match r.readCounts with
    | none => s
    | some cs => { s with regions := s.regions.set i { r with readCounts := some (cs.modify (off / 2) (· + 1)) } }
  else s

theorem countRead_eq {s : Sim} {i off n : Nat} {r : Region} {t : U32} (h : TargetInfo s n i r off) :
    countRead i r off n t s = .ok () (counted s i r off n t) := by
  unfold countRead counted
  split
  · rename_i ht
    have hok := h.ok.2.1
    have hroom := h.room
    cases hc : r.readCounts with
    | none => simp
    | some cs =>
      rw [hc] at hok
      simp only at hok
      have hlt : off / 2 < cs.length := by omega
      simp only [List.getElem?_eq_getElem hlt, setRegion, M.modify_apply]
      congr 4
      rw [List.modify_eq_set, List.getElem?_eq_getElem hlt]
      rfl
  · rfl

theorem counted_hits : (counted s i r off n t).hits = s.hits := by
  unfold counted
  split
  · split <;> rfl
  · rfl

theorem off_eq {r : Region} {off n : Nat} (h : off + n ≤ r.size.toNat) :
    (r.baseAddress + BitVec.ofNat 32 off - r.baseAddress).toNat = off := by
  have := r.size.isLt
  bv_omega

/-- The lookup of an access succeeds and leads to offset `off` of region `i`. -/
structure Hit (s : Sim) (a : U32) (n i : Nat) (r : Region) (off : Nat) : Prop where
  find : findMatchingRegion a n s = .ok (i, r.baseAddress + BitVec.ofNat 32 off) s
  info : TargetInfo s n i r off

theorem _root_.Verif.Spec.Target.hit {s : Sim} {a : U32} {n i off : Nat} {r : Region} (h : Target s a n i r off)
    (hs : Sound s) : Hit s a n i r off := ⟨find_target hs h, h.info hs⟩

/-- `getDataPointer` without watchpoint check. -/
theorem gdp_nocheck' {s : Sim} {a : U32} {n i off : Nat} {r : Region} {t : U32}
    (h : Hit s a n i r off) :
    getDataPointer a n t false s =
      if t = WRITING ∧ r.isReadOnly then .throw ⟨.busError, []⟩ s
      else .ok (i, off) (counted s i r off n t) := by
  have hi := h.info
  simp only [getDataPointer, M.bind_apply, h.find, regionAt_eq hi.get, off_eq hi.room]
  split
  · rfl
  · simp only [M.bind_apply, countRead_eq hi]; rfl

theorem gdp_nocheck {s : Sim} (hs : Sound s) {a : U32} {n i off : Nat} {r : Region} {t : U32}
    (h : Target s a n i r off) :
    getDataPointer a n t false s =
      if t = WRITING ∧ r.isReadOnly then .throw ⟨.busError, []⟩ s
      else .ok (i, off) (counted s i r off n t) := gdp_nocheck' (h.hit hs)

/-- The watchpoint scan made by an access of `n` bytes at offset `off` of region `r`. -/
def scanAt (r : Region) (off n : Nat) (t : U32) : Nat × Bool :=
  scanWatch r.watch (r.baseAddress + BitVec.ofNat 32 off)
    (r.baseAddress + BitVec.ofNat 32 off + BitVec.ofNat 32 n) n t

/-- `getDataPointer` with watchpoint check. -/
theorem gdp_check' {s : Sim} {a : U32} {n i off : Nat} {r : Region} {t : U32}
    (h : Hit s a n i r off) :
    getDataPointer a n t true s =
      if t = WRITING ∧ r.isReadOnly then .throw ⟨.busError, []⟩ s
      else if s.hits + (scanAt r off n t).1 ≥ 2 ^ 31 then .ub .signedOverflow
      else if (scanAt r off n t).2 then
        .throw ⟨.hardwareBreakpoint, []⟩ { counted s i r off n t with hits := s.hits + (scanAt r off n t).1 }
      else .ok (i, off) { counted s i r off n t with hits := s.hits + (scanAt r off n t).1 } := by
  have hi := h.info
  simp only [getDataPointer, M.bind_apply, h.find, regionAt_eq hi.get, off_eq hi.room]
  split
  · rfl
  · simp only [M.bind_apply, countRead_eq hi, if_true, checkForBreakWatchPoint, counted_hits]
    simp only [← scanAt.eq_1]
    by_cases h1 : s.hits + (scanAt r off n t).1 ≥ 2 ^ 31
    · simp only [if_pos h1]
    · simp only [if_neg h1]
      cases (scanAt r off n t).2 <;> rfl

theorem gdp_check {s : Sim} (hs : Sound s) {a : U32} {n i off : Nat} {r : Region} {t : U32}
    (h : Target s a n i r off) :
    getDataPointer a n t true s =
      if t = WRITING ∧ r.isReadOnly then .throw ⟨.busError, []⟩ s
      else if s.hits + (scanAt r off n t).1 ≥ 2 ^ 31 then .ub .signedOverflow
      else if (scanAt r off n t).2 then
        .throw ⟨.hardwareBreakpoint, []⟩ { counted s i r off n t with hits := s.hits + (scanAt r off n t).1 }
      else .ok (i, off) { counted s i r off n t with hits := s.hits + (scanAt r off n t).1 } := gdp_check' (h.hit hs)

theorem gdp_unmapped {s : Sim} {a : U32} {n : Nat} {t : U32} {c : Bool} (h : ¬ Mapped s a n) :
    getDataPointer a n t c s = .throw ⟨.busError, []⟩ s := by
  simp [getDataPointer, find_unmapped h]

theorem counted_regions_get {s : Sim} {i off n : Nat} {r : Region} {t : U32} (h : s.regions[i]? = some r) :
    ∃ r', (counted s i r off n t).regions[i]? = some r' ∧ r'.data = r.data ∧ r'.watch = r.watch := by
  unfold counted
  have hlt : i < s.regions.length := (List.getElem?_eq_some_iff.1 h).1
  split
  · split
    · exact ⟨r, h, rfl, rfl⟩
    · exact ⟨_, List.getElem?_set_self hlt, rfl, rfl⟩
  · exact ⟨r, h, rfl, rfl⟩

theorem WRITING_ne_READING : WRITING ≠ READING := by decide

theorem counted_writing {s : Sim} {i off n : Nat} {r : Region} : counted s i r off n WRITING = s := by
  unfold counted
  simp [WRITING_ne_READING]

/-- A breakpoint entry is never looked at by a write. -/
theorem scan_writing_no_bp (ws : List Watchpoint) (a e : U32) (n : Nat) :
    (scanWatch ws a e n WRITING).2 = false := by
  induction ws with
  | nil => rfl
  | cons w ws ih =>
    unfold scanWatch
    split
    · exact ih
    · split
      · rename_i h1 h2
        rw [h2] at h1
        exact absurd (by decide) h1
      · split
        · exact ih
        · split
          · rfl
          · exact ih

theorem scan_size_no_bp (ws : List Watchpoint) (a e : U32) (n : Nat) (t : U32) (hn : n ≠ 2) :
    (scanWatch ws a e n t).2 = false := by
  induction ws with
  | nil => rfl
  | cons w ws ih =>
    unfold scanWatch
    split
    · exact ih
    · split
      · simp [hn, ih]
      · split
        · exact ih
        · split
          · rfl
          · exact ih

theorem scan_bp_some {ws : List Watchpoint} {a e : U32} {n : Nat} {t : U32} (h : (scanWatch ws a e n t).2 = true) :
    ∃ w ∈ ws, w.type = WATCHPOINT_BREAKPOINT ∧ accessInRange w a e = true := by
  induction ws with
  | nil => simp [scanWatch] at h
  | cons w ws ih =>
    have rest : (scanWatch ws a e n t).2 = true → ∃ w' ∈ w :: ws, w'.type = WATCHPOINT_BREAKPOINT ∧ accessInRange w' a e = true :=
      fun h => by
        obtain ⟨w', h1, h2⟩ := ih h
        exact ⟨w', by simp [h1], h2⟩
    unfold scanWatch at h
    split at h
    · exact rest h
    · split at h
      · split at h
        · rename_i h1 h2
          exact ⟨w, by simp, h1, h2.2⟩
        · exact rest h
      · split at h
        · exact rest h
        · split at h
          · simp at h
          · exact rest h

theorem scan_le (ws : List Watchpoint) (a e : U32) (n : Nat) (t : U32) :
    (scanWatch ws a e n t).1 ≤ ws.length := by
  induction ws with
  | nil => simp [scanWatch]
  | cons w ws ih =>
    unfold scanWatch
    simp only [List.length_cons]
    split
    · omega
    · split
      · split
        · simp
        · omega
      · split
        · simp only; omega
        · split
          · simp
          · omega

/-- Reading, in a sound simulator. -/
theorem readN_eq' {s : Sim} {a : U32} {n i off : Nat} {r : Region} (h : Hit s a n i r off) :
    readN n a s =
      if s.hits + (scanAt r off n READING).1 ≥ 2 ^ 31 then .ub .signedOverflow
      else if (scanAt r off n READING).2 then
        .throw ⟨.hardwareBreakpoint, []⟩
          { counted s i r off n READING with hits := s.hits + (scanAt r off n READING).1 }
      else .ok (leVal ((r.data.drop off).take n))
          { counted s i r off n READING with hits := s.hits + (scanAt r off n READING).1 } := by
  have hi := h.info
  have hne : ¬ (READING = WRITING ∧ r.isReadOnly = true) := fun hh => WRITING_ne_READING hh.1.symm
  simp only [readN, M.bind_apply, gdp_check' h, if_neg hne]
  by_cases h1 : s.hits + (scanAt r off n READING).1 ≥ 2 ^ 31
  · simp only [if_pos h1]
  · simp only [if_neg h1]
    cases (scanAt r off n READING).2
    · obtain ⟨r', h1, h2, h3⟩ := counted_regions_get (off := off) (n := n) (t := READING) hi.get
      have hlen := hi.ok.1
      have hroom := hi.room
      simp only [hostRead, M.bind_apply, regionAt, h1, h2, Bool.false_eq_true, if_false]
      rw [if_pos (by omega)]
      rfl
    · rfl

theorem readN_eq {s : Sim} (hs : Sound s) {a : U32} {n i off : Nat} {r : Region} (h : Target s a n i r off) :
    readN n a s =
      if s.hits + (scanAt r off n READING).1 ≥ 2 ^ 31 then .ub .signedOverflow
      else if (scanAt r off n READING).2 then
        .throw ⟨.hardwareBreakpoint, []⟩
          { counted s i r off n READING with hits := s.hits + (scanAt r off n READING).1 }
      else .ok (leVal ((r.data.drop off).take n))
          { counted s i r off n READING with hits := s.hits + (scanAt r off n READING).1 } := readN_eq' (h.hit hs)

/-- Writing, in a sound simulator. -/
theorem writeN_eq' {s : Sim} {a : U32} {n i off v : Nat} {r : Region} (h : Hit s a n i r off) :
    writeN n a v s =
      if r.isReadOnly then .throw ⟨.busError, []⟩ s
      else if s.hits + (scanAt r off n WRITING).1 ≥ 2 ^ 31 then .ub .signedOverflow
      else .ok () { s with
          hits := s.hits + (scanAt r off n WRITING).1,
          regions := s.regions.set i { r with
            data := r.data.take off ++ leBytes n v ++ r.data.drop (off + n) } } := by
  have hi := h.info
  simp only [writeN, M.bind_apply, gdp_check' h, true_and, counted_writing]
  by_cases h0 : r.isReadOnly = true
  · simp only [if_pos h0]
  by_cases h1 : s.hits + (scanAt r off n WRITING).1 ≥ 2 ^ 31
  · simp only [if_neg h0, if_pos h1]
  · simp only [if_neg h0, if_neg h1]
    have h2 : (scanAt r off n WRITING).2 = false := scan_writing_no_bp _ _ _ _
    have hlen := hi.ok.1
    have hroom := hi.room
    simp only [h2, Bool.false_eq_true, if_false, hostWrite, M.bind_apply, regionAt, hi.get, leBytes_length]
    rw [if_pos (by omega)]
    rfl

theorem writeN_eq {s : Sim} (hs : Sound s) {a : U32} {n i off v : Nat} {r : Region} (h : Target s a n i r off) :
    writeN n a v s =
      if r.isReadOnly then .throw ⟨.busError, []⟩ s
      else if s.hits + (scanAt r off n WRITING).1 ≥ 2 ^ 31 then .ub .signedOverflow
      else .ok () { s with
          hits := s.hits + (scanAt r off n WRITING).1,
          regions := s.regions.set i { r with
            data := r.data.take off ++ leBytes n v ++ r.data.drop (off + n) } } := writeN_eq' (h.hit hs)

theorem readN_unmapped {s : Sim} {a : U32} {n : Nat} (h : ¬ Mapped s a n) :
    readN n a s = .throw ⟨.busError, []⟩ s := by simp [readN, gdp_unmapped h]

theorem writeN_unmapped {s : Sim} {a : U32} {n v : Nat} (h : ¬ Mapped s a n) :
    writeN n a v s = .throw ⟨.busError, []⟩ s := by simp [writeN, gdp_unmapped h]


/-- What decides where an access goes. -/
def shape (r : Region) : U32 × U32 × Bool × Option Nat × U32 :=
  (r.baseAddress, r.size, r.isAlias, r.redirect, r.redirectAddress)

theorem shape_eq {r q : Region} (h : shape r = shape q) : r.baseAddress = q.baseAddress ∧ r.size = q.size ∧
    r.isAlias = q.isAlias ∧ r.redirect = q.redirect ∧ r.redirectAddress = q.redirectAddress := by
  simpa [shape] using h

/-- Two region lists that only differ in contents, counters, read-only flags and break/watchpoints. -/
def SameShapes (rs rs' : List Region) : Prop := rs.map shape = rs'.map shape

theorem SameShapes.refl (rs : List Region) : SameShapes rs rs := rfl
theorem SameShapes.symm {rs rs' : List Region} (h : SameShapes rs rs') : SameShapes rs' rs := Eq.symm h
theorem SameShapes.trans {rs rs' rs'' : List Region} (h : SameShapes rs rs') (h' : SameShapes rs' rs'') :
    SameShapes rs rs'' := Eq.trans h h'

theorem SameShapes.get {rs rs' : List Region} (h : SameShapes rs rs') {i : Nat} {r : Region}
    (hr : rs[i]? = some r) : ∃ r', rs'[i]? = some r' ∧ shape r = shape r' := by
  have : (rs.map shape)[i]? = (rs'.map shape)[i]? := by rw [h]
  simp only [List.getElem?_map, hr, Option.map_some] at this
  cases h' : rs'[i]? with
  | none => simp [h'] at this
  | some r' => exact ⟨r', rfl, by simpa [h'] using this⟩

theorem SameShapes.set {rs : List Region} {i : Nat} {r r' : Region} (hr : rs[i]? = some r)
    (h : shape r = shape r') : SameShapes rs (rs.set i r') := by
  unfold SameShapes
  apply List.ext_getElem?
  intro j
  simp only [List.getElem?_map, List.getElem?_set]
  split
  · rename_i e; subst e
    rw [if_pos (List.getElem?_eq_some_iff.1 hr).1, hr]
    simp [h]
  · rfl

theorem covers_shape {r q : Region} (h : shape r = shape q) {a : U32} {n : Nat} : Covers r a n ↔ Covers q a n := by
  obtain ⟨h1, h2, -⟩ := shape_eq h
  simp [Covers, h1, h2]

theorem _root_.Verif.Spec.FirstCover.sameShapes {rs rs' : List Region} (hss : SameShapes rs rs') {a : U32} {n k : Nat}
    {q : Region} (h : FirstCover rs a n k q) : ∃ q', FirstCover rs' a n k q' ∧ shape q = shape q' := by
  obtain ⟨h1, h2, h3⟩ := h
  obtain ⟨q', e1, e2⟩ := hss.get h1
  refine ⟨q', ⟨e1, (covers_shape e2).1 h2, ?_⟩, e2⟩
  intro j hj p hp hc
  obtain ⟨p', f1, f2⟩ := hss.symm.get hp
  exact h3 j hj p' f1 ((covers_shape f2).1 hc)

theorem _root_.Verif.Spec.Target.sameShapes {s s' : Sim} (hss : SameShapes s.regions s'.regions) {a : U32}
    {n i off : Nat} {r r' : Region} (h : Target s a n i r off) (hr : s'.regions[i]? = some r') :
    Target s' a n i r' off := by
  obtain ⟨k, q, hf, h⟩ := h
  obtain ⟨q', hf', e⟩ := hf.sameShapes hss
  refine ⟨k, q', hf', ?_⟩
  obtain ⟨e1, e2, e3, e4, e5⟩ := shape_eq e
  rw [← e3]
  split
  · rename_i ha
    simp only [ha, if_true] at h
    obtain ⟨f1, f2, f3⟩ := h
    obtain ⟨r'', g1, g2⟩ := hss.get f2
    rw [hr] at g1; cases g1
    rw [← e4, ← e1, ← e5, ← (shape_eq g2).1]
    exact ⟨f1, hr, f3⟩
  · rename_i ha
    simp only [ha] at h
    obtain ⟨rfl, rfl, rfl⟩ := h
    have := hf'.1
    rw [hr] at this; cases this
    exact ⟨rfl, rfl, by rw [e1]⟩

theorem mapped_sameShapes {s s' : Sim} (hss : SameShapes s.regions s'.regions) {a : U32} {n : Nat}
    (h : Mapped s a n) : Mapped s' a n := by
  obtain ⟨r, hr, hc⟩ := h
  obtain ⟨k, hk⟩ := List.getElem?_of_mem hr
  obtain ⟨r', e1, e2⟩ := hss.get hk
  exact ⟨r', List.mem_of_getElem? e1, (covers_shape e2).1 hc⟩

/-- Replacing an ordinary region by a consistent one of the same shape keeps the simulator sound. -/
theorem _root_.Verif.Spec.Sound.set {s s' : Sim} (hs : Sound s) {i : Nat} {r r' : Region} (hr : s.regions[i]? = some r)
    (ha : r.isAlias = false) (hsh : shape r = shape r') (hok : PlainOK r')
    (hs' : s'.regions = s.regions.set i r') : Sound s' := by
  have hss : SameShapes s.regions s'.regions := hs' ▸ SameShapes.set hr hsh
  intro q hq
  obtain ⟨k, hk⟩ := List.getElem?_of_mem hq
  rw [hs', List.getElem?_set] at hk
  split at hk
  · rename_i e; subst e
    rw [if_pos (List.getElem?_eq_some_iff.1 hr).1] at hk
    cases hk
    simp [← (shape_eq hsh).2.2.1, ha, hok]
  · have hq' := hs q (List.mem_of_getElem? hk)
    split
    · rename_i hqa
      obtain ⟨j, t, e1, e2, e3, e4⟩ := hs.alias hk hqa
      obtain ⟨t', f1, f2⟩ := hss.get e2
      obtain ⟨g1, g2, g3, -⟩ := shape_eq f2
      simp only [AliasOK, e1, f1, ← g1, ← g2, ← g3]
      exact ⟨e3, e4⟩
    · rename_i hqa
      simpa [hqa] using hq'

/-- Soundness only depends on the regions. -/
theorem _root_.Verif.Spec.Sound.congr {s s' : Sim} (hs : Sound s) (h : s'.regions = s.regions) : Sound s' := by
  unfold Sound at *
  rwa [h]

theorem _root_.Verif.Spec.Target.congr {s s' : Sim} {a : U32} {n i off : Nat} {r : Region}
    (h : Target s a n i r off) (h' : s'.regions = s.regions) : Target s' a n i r off := by
  unfold Target at *
  rwa [h']

theorem read_eq {w : Width} {a : U32} {s : Sim} : IMemory.read w a s =
    match readN w.bytes a s with
    | .ok v s' => .ok (BitVec.ofNat w.bits v) s'
    | .throw e s' => .throw e s'
    | .ub r => .ub r := by
  cases w <;> simp only [IMemory.read, read8, read16, read32, Width.bytes, Width.bits, M.bind_apply] <;> cases readN _ a s <;> rfl

theorem write_eq {w : Width} {a : U32} {v : BitVec w.bits} {s : Sim} :
    IMemory.write w a v s = writeN w.bytes a v.toNat s := by cases w <;> rfl

theorem bits_eq (w : Width) : 2 ^ w.bits = 256 ^ w.bytes := by cases w <;> decide

/-- Splicing bytes into a list. -/
theorem splice_length {d b : List U8} {off : Nat} (h : off + b.length ≤ d.length) :
    (d.take off ++ b ++ d.drop (off + b.length)).length = d.length := by
  simp; omega

theorem splice_getElem? {d b : List U8} {off j : Nat} (h : off + b.length ≤ d.length) :
    (d.take off ++ b ++ d.drop (off + b.length))[j]? =
      if off ≤ j ∧ j < off + b.length then b[j - off]? else d[j]? := by
  have hl : (d.take off).length = off := by simp; omega
  rw [List.append_assoc, List.getElem?_append, hl]
  split
  · rw [if_neg (by omega), List.getElem?_take_of_lt (by assumption)]
  · rw [List.getElem?_append]
    split
    · rw [if_pos (by omega)]
    · rw [if_neg (by omega), List.getElem?_drop]
      congr 1
      omega

theorem splice_slice {d b : List U8} {off : Nat} (h : off + b.length ≤ d.length) :
    ((d.take off ++ b ++ d.drop (off + b.length)).drop off).take b.length = b := by
  have hl : (d.take off).length = off := by simp; omega
  rw [List.append_assoc, List.drop_append_of_le_length (by omega)]
  simp

end Verif.MemSim

namespace Verif.MemSim
open Verif Spec

theorem byteOf_toNat {n : Nat} (v : BitVec n) (i : Nat) : (byteOf v i).toNat = v.toNat / 256 ^ i % 256 := by
  simp only [byteOf, BitVec.extractLsb'_toNat, Nat.shiftRight_eq_div_pow, Nat.pow_mul]

theorem byteOf_leVal {w : Width} {bs : List U8} (h : bs.length = w.bytes) {i : Nat} (hi : i < w.bytes) :
    bs[i]? = some (byteOf (BitVec.ofNat w.bits (leVal bs)) i) := by
  have hlt := leVal_lt bs
  rw [h, ← bits_eq] at hlt
  rw [List.getElem?_eq_getElem (by omega)]
  congr 1
  apply BitVec.eq_of_toNat_eq
  rw [byteOf_toNat, BitVec.toNat_ofNat, Nat.mod_eq_of_lt hlt, leVal_div bs i (by omega)]

theorem leBytes_byteOf {w : Width} (v : BitVec w.bits) {i : Nat} (hi : i < w.bytes) :
    (leBytes w.bytes v.toNat)[i]? = some (byteOf v i) := by
  rw [leBytes_getElem? _ _ _ hi]
  congr 1
  apply BitVec.eq_of_toNat_eq
  rw [byteOf_toNat, BitVec.toNat_ofNat]

theorem eq_of_bytes {w : Width} {v v' : BitVec w.bits} (h : ∀ i < w.bytes, byteOf v i = byteOf v' i) : v = v' := by
  have hl : leBytes w.bytes v.toNat = leBytes w.bytes v'.toNat := by
    apply List.ext_getElem?
    intro i
    by_cases hi : i < w.bytes
    · rw [leBytes_byteOf v hi, leBytes_byteOf v' hi, h i hi]
    · rw [List.getElem?_eq_none (by simp; omega), List.getElem?_eq_none (by simp; omega)]
  have := congrArg leVal hl
  have h1 := v.isLt
  have h2 := v'.isLt
  rw [bits_eq] at h1 h2
  rw [leVal_leBytes, leVal_leBytes, Nat.mod_eq_of_lt h1, Nat.mod_eq_of_lt h2] at this
  exact BitVec.eq_of_toNat_eq this

/-- A completed read returns the bytes of the target. -/
theorem read_bytes {s s' : Sim} (hs : Sound s) {w : Width} {a : U32} {i off : Nat} {r : Region} {v : BitVec w.bits}
    (h : Target s a w.bytes i r off) (hr : IMemory.read w a s = .ok v s') :
    ∀ j < w.bytes, r.data[off + j]? = some (byteOf v j) := by
  have hi := h.info hs
  rw [read_eq, readN_eq hs h] at hr
  by_cases h1 : s.hits + (scanAt r off w.bytes READING).1 ≥ 2 ^ 31
  · simp [if_pos h1] at hr
  simp only [if_neg h1] at hr
  by_cases h2 : (scanAt r off w.bytes READING).2 = true
  · simp [if_pos h2] at hr
  simp only [if_neg h2, Out.ok.injEq] at hr
  obtain ⟨hv, -⟩ := hr
  intro j hj
  have hlen := hi.ok.1
  have hroom := hi.room
  subst hv
  rw [← byteOf_leVal (by simp; omega) hj, List.getElem?_take_of_lt hj, List.getElem?_drop]

/-- A read with room in the hit counter completes, unless a breakpoint stops it. -/
theorem read_progress {s : Sim} (hs : Sound s) (hroom : HitRoom s) {w : Width} {a : U32} {i off : Nat} {r : Region}
    (h : Target s a w.bytes i r off) :
    (∃ v s', IMemory.read w a s = .ok v s') ∨
      (w = .w16 ∧ ∃ s', IMemory.read w a s = .throw ⟨.hardwareBreakpoint, []⟩ s') := by
  have hi := h.info hs
  rw [read_eq, readN_eq hs h]
  have h1 : ¬ s.hits + (scanAt r off w.bytes READING).1 ≥ 2 ^ 31 := by
    have := hroom r (List.mem_of_getElem? hi.get)
    have h2 : (scanAt r off w.bytes READING).1 ≤ r.watch.length := scan_le ..
    omega
  simp only [if_neg h1]
  by_cases h2 : (scanAt r off w.bytes READING).2 = true
  · right
    simp only [if_pos h2]
    refine ⟨?_, _, rfl⟩
    cases w with
    | w16 => rfl
    | _ =>
      rw [scanAt, scan_size_no_bp _ _ _ _ _ (by decide)] at h2; cases h2
  · left
    simp only [if_neg h2]
    exact ⟨_, _, rfl⟩

/-- A read that is stopped is stopped by a breakpoint. -/
theorem read_stopped {s s' : Sim} (hs : Sound s) {w : Width} {a : U32} {i off : Nat} {r : Region} {m : Str}
    (h : Target s a w.bytes i r off) (hr : IMemory.read w a s = .throw ⟨.hardwareBreakpoint, m⟩ s') :
    ∃ x ∈ r.watch, x.type = WATCHPOINT_BREAKPOINT ∧ accessInRange x (r.baseAddress + BitVec.ofNat 32 off)
      (r.baseAddress + BitVec.ofNat 32 off + BitVec.ofNat 32 w.bytes) = true := by
  rw [read_eq, readN_eq hs h] at hr
  by_cases h0 : s.hits + (scanAt r off w.bytes READING).1 ≥ 2 ^ 31
  · simp only [if_pos h0] at hr; cases hr
  · simp only [if_neg h0] at hr
    by_cases h1 : (scanAt r off w.bytes READING).2 = true
    · exact scan_bp_some h1
    · simp only [if_neg h1] at hr; cases hr

/-- What a completed write did. -/
theorem write_ok {s s' : Sim} (hs : Sound s) {w : Width} {a : U32} {v : BitVec w.bits}
    (hw : IMemory.write w a v s = .ok () s') :
    ∃ i r off, Target s a w.bytes i r off ∧ r.isReadOnly = false ∧
      s' = { s with
        hits := s.hits + (scanAt r off w.bytes WRITING).1,
        regions := s.regions.set i { r with
          data := r.data.take off ++ leBytes w.bytes v.toNat ++ r.data.drop (off + w.bytes) } } := by
  rw [write_eq] at hw
  by_cases hm : Mapped s a w.bytes
  · obtain ⟨i, r, off, ht⟩ := target_of_mapped hs hm
    refine ⟨i, r, off, ht, ?_⟩
    rw [writeN_eq hs ht] at hw
    by_cases h0 : r.isReadOnly = true
    · simp [if_pos h0] at hw
    simp only [if_neg h0] at hw
    by_cases h1 : s.hits + (scanAt r off w.bytes WRITING).1 ≥ 2 ^ 31
    · simp [if_pos h1] at hw
    simp only [if_neg h1, Out.ok.injEq, true_and] at hw
    exact ⟨by simpa using h0, hw.symm⟩
  · rw [writeN_unmapped hm] at hw; cases hw

theorem plainOK_data {r : Region} (h : PlainOK r) {d : List U8} (hd : d.length = r.data.length) :
    PlainOK { r with data := d } := ⟨by simpa [hd] using h.1, h.2⟩

theorem write_sound {s s' : Sim} (hs : Sound s) {w : Width} {a : U32} {v : BitVec w.bits}
    (hw : IMemory.write w a v s = .ok () s') : Sound s' := by
  obtain ⟨i, r, off, ht, hro, rfl⟩ := write_ok hs hw
  have hi := ht.info hs
  have hlen := hi.ok.1
  have hroom := hi.room
  refine hs.set hi.get hi.plain ?_ (plainOK_data hi.ok (d := r.data.take off ++ leBytes w.bytes v.toNat ++
    r.data.drop (off + w.bytes)) ?_) rfl
  · rfl
  have := splice_length (d := r.data) (b := leBytes w.bytes v.toNat) (off := off) (by simp; omega)
  simpa using this

end Verif.MemSim
