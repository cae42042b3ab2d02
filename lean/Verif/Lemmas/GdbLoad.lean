import Verif.Lemmas.GdbPass
/- What a GDB log leaves in memory. -/
namespace Verif.GdbLog
open Verif MemSim Spec Libc Dump

theorem wordBytes_length (vs : List U32) : (wordBytes vs).length = 4 * vs.length := flatMap_le32_length vs

/-- A run as a block. -/
def blk (r : Run) : U32 × List U8 := (r.1, wordBytes r.2)

theorem blocks_eq (ms : List Run) : blocks ms = ms.map blk := rfl

theorem runs_nonempty {ms : List Run} (h : ∀ m ∈ ms, m.2 ≠ []) : ∀ r ∈ runs ms, r.2 ≠ [] := by
  induction ms with
  | nil => simp [runs]
  | cons m ms ih =>
    have ih := ih fun x hx => h x (by simp [hx])
    have hm := h m (by simp)
    simp only [runs]
    cases he : runs ms with
    | nil => simpa using hm
    | cons r rs =>
      rw [he] at ih
      simp only
      split
      · intro x hx
        rcases List.mem_cons.1 hx with rfl | hx
        · simp [hm]
        · exact ih x (by simp [hx])
      · intro x hx
        rcases List.mem_cons.1 hx with rfl | hx
        · exact hm
        · exact ih x hx

/-- A run ends within the address space. -/
def RunFits (r : Run) : Prop := r.1.toNat + 4 * r.2.length ≤ 2 ^ 32

theorem runs_tail_fits {m : Run} {ms : List Run} (h0 : ∀ x ∈ ms, x.2 ≠ []) (h : ∀ r ∈ runs (m :: ms), RunFits r) :
    ∀ r ∈ runs ms, RunFits r := by
  have hne := runs_nonempty h0
  simp only [runs] at h
  cases he : runs ms with
  | nil => simp
  | cons r rs =>
    rw [he] at h hne
    simp only at h
    by_cases hj : m.1 + BitVec.ofNat 32 (4 * m.2.length) = r.1
    · rw [if_pos hj] at h
      intro x hx
      rcases List.mem_cons.1 hx with rfl | hx
      · have h1 := h _ (by simp : (m.1, m.2 ++ x.2) ∈ _)
        unfold RunFits at h1 ⊢
        simp only [List.length_append] at h1
        have := List.length_pos_iff.2 (hne x (by simp))
        rw [← hj]
        simp only [BitVec.toNat_add, BitVec.toNat_ofNat]
        omega
      · exact h x (by simp [hx])
    · rw [if_neg hj] at h
      exact fun x hx => h x (List.mem_cons_of_mem _ hx)

/-- Every line lies in a run. -/
theorem run_of_line {ms : List Run} (h0 : ∀ x ∈ ms, x.2 ≠ []) (hf : ∀ r ∈ runs ms, RunFits r) {m : Run} (hm : m ∈ ms) :
    ∃ r ∈ runs ms, r.1.toNat ≤ m.1.toNat ∧ m.1.toNat + 4 * m.2.length ≤ r.1.toNat + 4 * r.2.length := by
  induction ms with
  | nil => cases hm
  | cons l ms ih =>
    have h0' : ∀ x ∈ ms, x.2 ≠ [] := fun x hx => h0 x (by simp [hx])
    have hf' := runs_tail_fits h0' hf
    have hne := runs_nonempty h0'
    have ih := fun hm => ih h0' hf' hm
    simp only [runs] at hf ⊢
    cases he : runs ms with
    | nil =>
      rcases List.mem_cons.1 hm with rfl | hm
      · exact ⟨m, by simp, by omega, by omega⟩
      · obtain ⟨r, hr, -⟩ := ih hm
        rw [he] at hr; cases hr
    | cons q rs =>
      rw [he] at hf ih hne
      simp only at hf ⊢
      by_cases hj : l.1 + BitVec.ofNat 32 (4 * l.2.length) = q.1
      · rw [if_pos hj] at hf ⊢
        have hfit := hf _ (by simp : (l.1, l.2 ++ q.2) ∈ _)
        unfold RunFits at hfit
        simp only [List.length_append] at hfit
        have hq := List.length_pos_iff.2 (hne q (by simp))
        have hq1 : q.1.toNat = l.1.toNat + 4 * l.2.length := by
          rw [← hj]
          simp only [BitVec.toNat_add, BitVec.toNat_ofNat]
          omega
        rcases List.mem_cons.1 hm with rfl | hm
        · exact ⟨(m.1, m.2 ++ q.2), by simp, by simp only; omega, by simp only [List.length_append]; omega⟩
        · obtain ⟨r, hr, h1, h2⟩ := ih hm
          rcases List.mem_cons.1 hr with rfl | hr
          · exact ⟨(l.1, l.2 ++ r.2), by simp, by simp only; omega, by simp only [List.length_append]; omega⟩
          · exact ⟨r, by simp [hr], h1, h2⟩
      · rw [if_neg hj]
        rcases List.mem_cons.1 hm with rfl | hm
        · exact ⟨m, by simp, by omega, by omega⟩
        · obtain ⟨r, hr, h1, h2⟩ := ih hm
          exact ⟨r, List.mem_cons_of_mem _ hr, h1, h2⟩

theorem reg_covers {r : Run} (hl : 4 * r.2.length < 2 ^ 32) {a : U32} {n : Nat} :
    Covers (reg r) a n ↔ r.1.toNat ≤ a.toNat ∧ a.toNat + n ≤ r.1.toNat + 4 * r.2.length := by
  unfold Covers reg newRegion
  simp only [BitVec.toNat_ofNat, Nat.mod_eq_of_lt hl]

theorem reg_covers1 {r : Run} (hl : 4 * r.2.length < 2 ^ 32) {a : U32} : Covers (reg r) a 1 ↔ (byteIn (blk r) a).isSome := by
  rw [reg_covers hl, byteIn_iff]
  simp only [blk, wordBytes_length]
  omega

/-- The conditions under which everything a log shows can be loaded. -/
structure LoadOK (s : Sim) (ms : List Run) : Prop where
  ne : ∀ m ∈ ms, m.2 ≠ []
  len : ∀ r ∈ runs ms, 4 * r.2.length < 2 ^ 32
  fits : ∀ r ∈ runs ms, RunFits r
  old : ∀ m ∈ ms, ∀ i < m.2.length, ∀ q ∈ s.regions, ¬ Covers q (wordAt m i) 4
  whole : WholeWords ms

theorem word_toNat {m : Run} {i : Nat} (hm : m.1.toNat + 4 * m.2.length ≤ 2 ^ 32) (hi : i < m.2.length) :
    (wordAt m i).toNat = m.1.toNat + 4 * i := by
  unfold wordAt
  simp only [BitVec.toNat_add, BitVec.toNat_ofNat]
  omega

theorem LoadOK.place {s : Sim} {ms : List Run} (h : LoadOK s ms) {m : Run} (hm : m ∈ ms) {i : Nat} (hi : i < m.2.length) :
    Place s.regions ((runs ms).map reg) (wordAt m i) := by
  obtain ⟨r, hr, h1, h2⟩ := run_of_line h.ne h.fits hm
  have hf := h.fits r hr
  unfold RunFits at hf
  have hw := word_toNat (m := m) (i := i) (by omega) hi
  have hcov : Covers (reg r) (wordAt m i) 4 := by
    rw [reg_covers (h.len r hr), hw]; omega
  refine ⟨by omega, h.old m hm i hi, ⟨_, List.mem_map_of_mem hr, hcov⟩, ?_⟩
  · intro q hq
    obtain ⟨x, hx, rfl⟩ := List.mem_map.1 hq
    have hl := h.len x hx
    rcases h.whole m hm i hi (blk x) (List.mem_map_of_mem hx) with hc | hc
    · left
      have c0 := (reg_covers1 hl).2 (hc 0 (by omega))
      have c3 := (reg_covers1 hl).2 (hc 3 (by omega))
      rw [show wordAt m i + BitVec.ofNat 32 0 = wordAt m i from BitVec.add_zero _] at c0
      rw [reg_covers hl] at c0 c3 ⊢
      have e3 : (wordAt m i + BitVec.ofNat 32 3).toNat = (wordAt m i).toNat + 3 := by
        simp only [BitVec.toNat_add, BitVec.toNat_ofNat]; omega
      rw [e3] at c3
      omega
    · right
      intro j hj hcv
      have := (reg_covers1 hl).1 hcv
      rw [hc j hj] at this
      cases this

theorem LoadOK.of_free {s : Sim} {ms : List Run} (ne : ∀ m ∈ ms, m.2 ≠ []) (len : ∀ r ∈ runs ms, 4 * r.2.length < 2 ^ 32)
    (free : Free s (blocks (runs ms))) (whole : WholeWords ms) : LoadOK s ms := by
  have fits : ∀ r ∈ runs ms, RunFits r := by
    intro r hr
    have := (free (blk r) (List.mem_map_of_mem hr)).1
    unfold Fits at this
    unfold RunFits
    simpa [blk, wordBytes_length] using this
  refine ⟨ne, len, fits, fun m hm i hi q hq hc => ?_, whole⟩
  obtain ⟨r, hr, h1, h2⟩ := run_of_line ne fits hm
  have hf := fits r hr
  unfold RunFits at hf
  have hw := word_toNat (m := m) (i := i) (by omega) hi
  have hb : (byteIn (blk r) (wordAt m i)).isSome := by
    rw [← reg_covers1 (len r hr), reg_covers (len r hr), hw]; omega
  exact (free (blk r) (List.mem_map_of_mem hr)).2 _ hb ⟨q, hq, hc.1, by have := hc.2; omega⟩

theorem peek_pokeLines {ms : List Run} {news : List Region} (h : ∀ r ∈ news, Fresh r) (hf : ∀ m ∈ ms, Fits (blk m))
    (hc : ∀ m ∈ ms, ∀ x, (byteIn (blk m) x).isSome → CoveredBy news x) (a : U32) :
    peek (pokeLines news ms) a = (blocks ms).foldl (fun acc r => (byteIn r a).or acc) (peek news a) := by
  induction ms generalizing news with
  | nil => rfl
  | cons m ms ih =>
    simp only [pokeLines, List.foldl_cons, blocks, List.map_cons] at ih ⊢
    rw [ih (pokes_fresh h) (fun x hx => hf x (by simp [hx])) (fun x hx y hy => (coveredBy_shape_iff pokes_shape).2 (hc x (by simp [hx]) y hy)),
      peek_pokes h (hf m (by simp)) (hc m (by simp))]

theorem foldl_or {mem : List (U32 × List U8)} {a : U32} {b : U8} {acc : Option U8} (h : lastByte mem a = some b) :
    mem.foldl (fun acc r => (byteIn r a).or acc) acc = some b := by
  have key : ∀ (mem : List (U32 × List U8)) (x y : Option U8), mem.foldl (fun acc r => (byteIn r a).or acc) (x.or y) =
      (mem.foldl (fun acc r => (byteIn r a).or acc) x).or y := by
    intro mem
    induction mem with
    | nil => intro x y; rfl
    | cons r mem ih =>
      intro x y
      simp only [List.foldl_cons]
      rw [← ih]
      congr 1
      cases byteIn r a <;> rfl
  have := key mem none acc
  simp only [Option.none_or] at this
  rw [this]
  unfold lastByte at h
  rw [h]; rfl

theorem lastByte_isSome {mem : List (U32 × List U8)} {a : U32} {r : U32 × List U8} (hr : r ∈ mem) (h : (byteIn r a).isSome) :
    ∃ b, lastByte mem a = some b := by
  have key : ∀ (mem : List (U32 × List U8)) (x : Option U8), (x.isSome ∨ ∃ r ∈ mem, (byteIn r a).isSome) →
      (mem.foldl (fun acc r => (byteIn r a).or acc) x).isSome := by
    intro mem
    induction mem with
    | nil => intro x hx; rcases hx with hx | ⟨r, hr, -⟩; exact hx; cases hr
    | cons q mem ih =>
      intro x hx
      simp only [List.foldl_cons]
      refine ih _ ?_
      by_cases hq : (byteIn q a).isSome
      · left; obtain ⟨b, hb⟩ := Option.isSome_iff_exists.1 hq; rw [hb]; rfl
      · have hn : byteIn q a = none := by simpa using hq
        rw [hn, Option.none_or]
        rcases hx with hx | ⟨r, hr, hs⟩
        · exact .inl hx
        · rcases List.mem_cons.1 hr with rfl | hr
          · exact absurd hs hq
          · exact .inr ⟨r, hr, hs⟩
  exact Option.isSome_iff_exists.1 (key mem none (.inr ⟨r, hr, h⟩))

theorem split_lines {s : Sim} {ms : List Run} (hs : Sound s) (hh : s.hits < 2 ^ 31) {s' : Sim}
    (hr : s'.regions = s.regions ++ (runs ms).map reg) (hh' : s'.hits = s.hits) : Split s' s.regions ((runs ms).map reg) := by
  refine ⟨hr, fun s0 h0 => Spec.Sound.congr hs h0, ?_, by omega⟩
  intro r hr
  obtain ⟨x, -, rfl⟩ := List.mem_map.1 hr
  exact fresh_new _ _

theorem LoadOK.line_fits {s : Sim} {ms : List Run} (h : LoadOK s ms) : ∀ m ∈ ms, Fits (blk m) := by
  intro m hm
  obtain ⟨r, hr, h1, h2⟩ := run_of_line h.ne h.fits hm
  have hf := h.fits r hr
  unfold RunFits at hf
  unfold Fits
  simp only [blk, wordBytes_length]
  omega

theorem LoadOK.line_covered {s : Sim} {ms : List Run} (h : LoadOK s ms) {m : Run} (hm : m ∈ ms) {x : U32}
    (hx : (byteIn (blk m) x).isSome) : CoveredBy ((runs ms).map reg) x := by
  obtain ⟨r, hr, h1, h2⟩ := run_of_line h.ne h.fits hm
  refine ⟨_, List.mem_map_of_mem hr, ?_⟩
  rw [byteIn_iff] at hx
  simp only [blk, wordBytes_length] at hx
  rw [reg_covers (h.len r hr)]
  omega

theorem LoadOK.peek {s : Sim} {ms : List Run} (h : LoadOK s ms) {a : U32} {b : U8} (hb : lastByte (blocks ms) a = some b) :
    Dump.peek (pokeLines ((runs ms).map reg) ms) a = some b := by
  rw [peek_pokeLines ?_ h.line_fits (fun m hm x hx => h.line_covered hm hx)]
  · exact foldl_or hb
  · intro r hr
    obtain ⟨x, -, rfl⟩ := List.mem_map.1 hr
    exact fresh_new _ _

/-- Reading words back. -/
theorem LoadOK.holds {s : Sim} {ms : List Run} (h : LoadOK s ms) {s' : Sim}
    (hs : Split s' s.regions (pokeLines ((runs ms).map reg) ms)) : HoldsWords s' ms := by
  intro m hm i hi
  have hp := (h.place hm hi).shape (pokeLines_shape (ms := ms))
  obtain ⟨r, hr, hc⟩ := hp.new
  obtain ⟨k, q, hf⟩ := FirstCover.exists_of_mem hr hc
  obtain ⟨v, s2, e, hb⟩ := readW_split hs (w := .w32) hf hp.old
  refine ⟨v, s2, e, fun j hj => ?_⟩
  have hfj := firstCover_whole hp.whole hp.top hf hj
  have ej : (wordAt m i + BitVec.ofNat 32 j).toNat = (wordAt m i).toNat + j := by
    have := hp.top
    simp only [BitVec.toNat_add, BitVec.toNat_ofNat]; omega
  have hin : (byteIn (blk m) (wordAt m i + BitVec.ofNat 32 j)).isSome := by
    have hfit := h.line_fits m hm
    unfold Fits at hfit
    simp only [blk, wordBytes_length] at hfit
    rw [byteIn_iff, ej, word_toNat hfit hi]
    simp only [blk, wordBytes_length]
    omega
  obtain ⟨b, hlast⟩ := lastByte_isSome (mem := blocks ms) (List.mem_map_of_mem hm) hin
  rw [hlast]
  have h1 := peek_firstCover hfj
  rw [h.peek hlast, ej] at h1
  have h2 := hb j hj
  have hcq := hf.2.1.1
  rw [show (wordAt m i).toNat + j - q.baseAddress.toNat = (wordAt m i).toNat - q.baseAddress.toNat + j by omega] at h1
  exact h1.trans h2

/-- Reading bytes back. -/
theorem LoadOK.read8 {s : Sim} {ms : List Run} (h : LoadOK s ms) {s' : Sim}
    (hs : Split s' s.regions (pokeLines ((runs ms).map reg) ms)) {a : U32} {b : U8} (ho : ∀ q ∈ s.regions, ¬ Covers q a 1)
    (hb : lastByte (blocks ms) a = some b) : ∃ s2, IMemory.read .w8 a s' = .ok b s2 :=
  read8_split hs ho (h.peek hb)

theorem LoadOK.bytes {s : Sim} {ms : List Run} (h : LoadOK s ms) {s' : Sim}
    (hs : Split s' s.regions (pokeLines ((runs ms).map reg) ms)) (free : Free s (blocks (runs ms))) {a : U32} {b : U8}
    (hb : lastByte (blocks ms) a = some b) : ∃ s2, IMemory.read .w8 a s' = .ok b s2 := by
  refine h.read8 hs ?_ hb
  intro q hq hc
  obtain ⟨r, hr, hcr⟩ := covered_of_peek (h.peek hb)
  have : CoveredBy ((runs ms).map reg) a := (coveredBy_shape_iff pokeLines_shape).1 ⟨r, hr, hcr⟩
  obtain ⟨x, hx, hcx⟩ := this
  obtain ⟨y, hy, rfl⟩ := List.mem_map.1 hx
  exact (free (blk y) (List.mem_map_of_mem hy)).2 a ((reg_covers1 (h.len y hy)).1 hcx) ⟨q, hq, hc⟩

/-! ### The whole parser -/

/-- The context at the start. -/
def startCtx (c : Regs) : Regs := { c with r := (c.r.set regMSP DEFAULT_SP_VALUE).set regPSP DEFAULT_SP_VALUE }

/-- What loading leaves. -/
structure GdbLoaded (h h' : Host) (rs : List Results) : Prop where
  split : Split h'.mem h.mem.regions (pokeLines ((runs (memOf rs)).map reg) (memOf rs))
  ctx : h'.ctx = rs.foldl ctxOf (startCtx h.ctx)
  live : h'.files.live = h.files.live
  heap : h'.mem.heap.fails = h.mem.heap.fails

theorem memOf_ne {rs : List Results} (hv : ∀ r ∈ rs, Valid r) : ∀ m ∈ memOf rs, m.2 ≠ [] := by
  intro m hm
  obtain ⟨r, hr, he⟩ := List.mem_filterMap.1 hm
  cases r with
  | memory a vs =>
    cases he
    have := hv _ hr
    rintro h0
    simp only [Valid, show vs = [] from h0] at this
    simp at this
  | other => cases he
  | register off v => cases he

theorem gdb_loads {h : Host} {name bytes : Str} (hr : Ready h) (hn : NextLog h name bytes) (hl : LoadOK h.mem (memOf (results bytes))) :
    ∃ h', parse name h = .ok () h' ∧ GdbLoaded h h' (results bytes) := by
  obtain ⟨f, h1, rfl, h3⟩ := hn
  rw [parse_eq h1, h3]
  generalize hrs : results f.bytes = rs at hl
  have hv : ∀ r ∈ rs, Valid r := hrs ▸ results_valid
  have ha : ∀ m ∈ memOf rs, m.1 ≠ 0xFFFFFFFF := by
    intro m hm e
    have := hl.line_fits m hm
    unfold Fits at this
    simp only [blk, wordBytes_length, e] at this
    have h0 := List.length_pos_iff.2 (hl.ne m hm)
    simp at this
    omega
  unfold both
  rw [M.tryCatch_apply]
  simp only [M.bind_apply, initPSPandMSP, M.modify_apply]
  have hfp := first_pass (h := { h with ctx := startCtx h.ctx, files := { h.files with next := h.files.next + 1, live := h.files.live + 1 } }) hv ha hl.len
  simp only [startCtx] at hfp
  cases he : pass firstPassHandler rs { h with
      ctx := { h.ctx with r := (h.ctx.r.set regMSP DEFAULT_SP_VALUE).set regPSP DEFAULT_SP_VALUE },
      files := { h.files with next := h.files.next + 1, live := h.files.live + 1 } } with
  | ub r => rw [he] at hfp; exact hfp.elim
  | throw e h' => rw [he] at hfp; exact absurd hr.heap hfp.2.1
  | ok u h' =>
    rw [he] at hfp
    obtain ⟨k1, k2, k3, k4, k5⟩ := hfp
    have hs := split_lines (s := h.mem) hr.sound hr.hits k1 k2
    have e2 := second_pass (h := h') (rs := rs) hs (fun m hm j hj => hl.place hm hj)
    simp only [rewind, Bool.false_eq_true, if_false, M.pure_apply, e2, Host.fclose, M.modify_apply]
    refine ⟨_, rfl, ⟨⟨rfl, hs.sound, pokeLines_fresh hs.fresh, hs.hits⟩, k5, ?_, k3⟩⟩
    simp [k4]

/-! ### Conditions -/

theorem whole_of_aligned {ms : List Run} (h0 : ∀ m ∈ ms, m.2 ≠ []) (ha : ∀ m ∈ ms, m.1.toNat % 4 = 0) : WholeWords ms := by
  have hr : ∀ r ∈ runs ms, r.1.toNat % 4 = 0 := by
    clear h0
    induction ms with
    | nil => simp [runs]
    | cons m ms ih =>
      have ih := ih fun x hx => ha x (by simp [hx])
      have hm := ha m (by simp)
      simp only [runs]
      cases he : runs ms with
      | nil => simpa using hm
      | cons r rs =>
        rw [he] at ih
        simp only
        split
        · intro x hx
          rcases List.mem_cons.1 hx with rfl | hx
          · exact hm
          · exact ih x (by simp [hx])
        · intro x hx
          rcases List.mem_cons.1 hx with rfl | hx
          · exact hm
          · exact ih x hx
  intro m hm i hi r hr'
  obtain ⟨q, hq, rfl⟩ := List.mem_map.1 hr'
  have h1 := hr q hq
  have h2 := ha m hm
  have hw : (wordAt m i).toNat % 4 = 0 := by
    unfold wordAt
    simp only [BitVec.toNat_add, BitVec.toNat_ofNat]
    omega
  have hlt := (wordAt m i).isLt
  have ej : ∀ j < 4, (wordAt m i + BitVec.ofNat 32 j).toNat = (wordAt m i).toNat + j := by
    intro j hj
    simp only [BitVec.toNat_add, BitVec.toNat_ofNat]; omega
  by_cases hc : q.1.toNat ≤ (wordAt m i).toNat ∧ (wordAt m i).toNat < q.1.toNat + 4 * q.2.length
  · left
    intro j hj
    rw [byteIn_iff, ej j hj]
    simp only [wordBytes_length]
    omega
  · right
    intro j hj
    have : ¬ (byteIn (q.1, wordBytes q.2) (wordAt m i + BitVec.ofNat 32 j)).isSome := by
      rw [byteIn_iff, ej j hj]
      simp only [wordBytes_length]
      omega
    simpa using this

theorem whole_of_disjoint {ms : List Run} (h0 : ∀ m ∈ ms, m.2 ≠ []) (hf : ∀ r ∈ runs ms, RunFits r)
    (hd : Spec.Disjoint (blocks (runs ms))) : WholeWords ms := by
  intro m hm i hi r hr'
  obtain ⟨q, hq, h1, h2⟩ := run_of_line h0 hf hm
  have hfq := hf q hq
  unfold RunFits at hfq
  have hw := word_toNat (m := m) (i := i) (by omega) hi
  have hin : ∀ j < 4, (byteIn (blk q) (wordAt m i + BitVec.ofNat 32 j)).isSome := by
    intro j hj
    have ej : (wordAt m i + BitVec.ofNat 32 j).toNat = (wordAt m i).toNat + j := by
      simp only [BitVec.toNat_add, BitVec.toNat_ofNat]; omega
    rw [byteIn_iff, ej, hw]
    simp only [blk, wordBytes_length]
    omega
  by_cases hn : ∀ j < 4, byteIn r (wordAt m i + BitVec.ofNat 32 j) = none
  · exact .inr hn
  · left
    have : ∃ j, j < 4 ∧ byteIn r (wordAt m i + BitVec.ofNat 32 j) ≠ none := by
      by_cases h : ∃ j, j < 4 ∧ byteIn r (wordAt m i + BitVec.ofNat 32 j) ≠ none
      · exact h
      · exact absurd (fun j hj => Classical.byContradiction fun hne => h ⟨j, hj, hne⟩) hn
    obtain ⟨j, hj, hne⟩ := this
    have e : r = blk q := by
      obtain ⟨x, hx, rfl⟩ := List.mem_iff_getElem.1 hr'
      obtain ⟨y, hy, ey⟩ := List.mem_iff_getElem.1 (show blk q ∈ blocks (runs ms) from List.mem_map_of_mem hq)
      have gx : (blocks (runs ms))[x]? = some (blocks (runs ms))[x] := List.getElem?_eq_getElem hx
      have gy : (blocks (runs ms))[y]? = some (blk q) := by rw [List.getElem?_eq_getElem hy, ey]
      have hq' := hin j hj
      rcases Nat.lt_trichotomy x y with h | h | h
      · rcases pairwise_get hd gx gy h (wordAt m i + BitVec.ofNat 32 j) with h | h
        · exact absurd h hne
        · rw [h] at hq'; cases hq'
      · subst h
        rw [gx] at gy
        exact Option.some.inj gy
      · rcases pairwise_get hd gy gx h (wordAt m i + BitVec.ofNat 32 j) with h | h
        · rw [h] at hq'; cases hq'
        · exact absurd h hne
    rw [e]
    exact hin

/-! ### Bytes of words -/

theorem word_eq {v w : U32} (h : ∀ j < 4, byteOf v j = byteOf w j) : v = w := by
  have h0 := congrArg BitVec.toNat (h 0 (by omega))
  have h1 := congrArg BitVec.toNat (h 1 (by omega))
  have h2 := congrArg BitVec.toNat (h 2 (by omega))
  have h3 := congrArg BitVec.toNat (h 3 (by omega))
  simp only [byteOf_toNat] at h0 h1 h2 h3
  apply BitVec.eq_of_toNat_eq
  have := v.isLt
  have := w.isLt
  omega

theorem wordBytes_get {vs : List U32} {i j : Nat} {v : U32} (h : vs[i]? = some v) (hj : j < 4) :
    (wordBytes vs)[4 * i + j]? = some (byteOf v j) := by
  induction vs generalizing i with
  | nil => cases h
  | cons x vs ih =>
    simp only [wordBytes, List.flatMap_cons] at ih ⊢
    have hl : (le32 x).length = 4 := rfl
    cases i with
    | zero =>
      cases h
      rw [List.getElem?_append_left (by omega)]
      match j, hj with
      | 0, _ => rfl
      | 1, _ => rfl
      | 2, _ => rfl
      | 3, _ => rfl
    | succ i =>
      rw [List.getElem?_append_right (by omega), hl, show 4 * (i + 1) + j - 4 = 4 * i + j by omega]
      exact ih h

theorem word_byte {m : Run} {i j : Nat} {v : U32} (hf : m.1.toNat + 4 * m.2.length ≤ 2 ^ 32) (hv : m.2[i]? = some v) (hj : j < 4) :
    byteIn (blk m) (wordAt m i + BitVec.ofNat 32 j) = some (byteOf v j) := by
  have hi := (List.getElem?_eq_some_iff.1 hv).1
  have hw := word_toNat hf hi
  have ej : (wordAt m i + BitVec.ofNat 32 j).toNat = m.1.toNat + (4 * i + j) := by
    simp only [BitVec.toNat_add, BitVec.toNat_ofNat, hw]; omega
  unfold byteIn
  rw [if_pos (show (blk m).1.toNat ≤ _ by rw [ej]; exact Nat.le_add_right _ _), ej,
    show m.1.toNat + (4 * i + j) - (blk m).1.toNat = 4 * i + j by simp only [blk]; omega]
  exact wordBytes_get hv hj

theorem adds_runs {s s0 : Sim} {ms : List Run} (h : Split s s0.regions (pokeLines ((runs ms).map reg) ms))
    (hl : ∀ r ∈ runs ms, 4 * r.2.length < 2 ^ 32) : AddsBlocks s0 s (blocks (runs ms)) := by
  refine ⟨_, h.regions, ?_⟩
  have e : ∀ rs : List Region, (∀ r ∈ rs, Fresh r) → rs.map (fun r => (r.baseAddress, r.size.toNat, r.isReadOnly, r.isAlias)) =
      (rs.map shape).map fun x => (x.1, x.2.1.toNat, false, x.2.2.1) := by
    intro rs hf
    rw [List.map_map]
    refine List.map_congr_left fun r hr => ?_
    simp [shape, (hf r hr).ro]
  rw [e _ h.fresh, pokeLines_shape, List.map_map, List.map_map]
  unfold blocks
  rw [List.map_map]
  refine List.map_congr_left fun r hr => ?_
  simp [shape, reg, newRegion, wordBytes_length, Nat.mod_eq_of_lt (hl r hr)]

end Verif.GdbLog
