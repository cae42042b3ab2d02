import Verif.Lemmas.Text
import Verif.Lemmas.CmdFail
import Verif.Lemmas.CmdEnd
import Verif.Lemmas.GdbDump
import Verif.Spec.Clash
/-
C93: what happens to a write at a place where the image is.
-/
namespace Verif.Dump
open Verif MemSim Spec

/-- A write to the read-only regions that were there first is refused. -/
theorem rom_refuses {s : Sim} {old news : List Region} (hsp : Split s old news)
    (hro : ∀ q ∈ old, q.isAlias = false ∧ q.isReadOnly = true) {w : Width} {a : U32} {v : BitVec w.bits}
    (hc : ∃ q ∈ old, Covers q a w.bytes) : IMemory.write w a v s = .throw ⟨.busError, []⟩ s := by
  obtain ⟨q, hq, hc⟩ := hc
  obtain ⟨k, r, hf⟩ := FirstCover.exists_of_mem hq hc
  have hr := hro r hf.mem
  have ht : Target s a w.bytes k r (a.toNat - r.baseAddress.toNat) := by
    have hlt : k < old.length := (List.getElem?_eq_some_iff.1 hf.1).1
    refine ⟨k, r, ⟨?_, hf.2.1, ?_⟩, by simp [hr.1]⟩
    · rw [hsp.regions, List.getElem?_append_left hlt]; exact hf.1
    · intro j hj p hp
      rw [hsp.regions, List.getElem?_append_left (by omega)] at hp
      exact hf.2.2 j hj p hp
  rw [write_eq, writeN_eq (sound_append hsp) ht, if_pos hr.2]

/-- The first of finitely many. -/
theorem first_index {P : Nat → Prop} {n : Nat} (h : ∃ i < n, P i) : ∃ i < n, P i ∧ ∀ j < i, ¬ P j := by
  classical
  induction n with
  | zero => obtain ⟨i, hi, -⟩ := h; omega
  | succ n ih =>
    by_cases hn : ∃ i < n, P i
    · obtain ⟨i, h1, h2⟩ := ih hn
      exact ⟨i, by omega, h2⟩
    · obtain ⟨i, h1, h2⟩ := h
      have : i = n := by
        rcases Nat.lt_or_ge i n with hlt | hge
        · exact (hn ⟨i, hlt, h2⟩).elim
        · omega
      subst this
      exact ⟨i, by omega, h2, fun j hj hp => hn ⟨j, hj, hp⟩⟩

/-- Loading bytes some of which belong where the image is. -/
theorem loadBytes_clash {bs : Str} {a : U32} {t : Str} {d : D} {old news : List Region}
    (hsp : Split d.host.mem old news) (hro : ∀ q ∈ old, q.isAlias = false ∧ q.isReadOnly = true) (hfit : Fits (a, bs))
    (hc : ∀ x, (byteIn (a, bs) x).isSome → CoveredBy news x) (h : d.rest = bs ++ t)
    (hx : ∃ x, (byteIn (a, bs) x).isSome ∧ CoveredBy old x) {n : Nat} (hn : bs.length ≤ n) :
    ∃ d', loadRegionBytes binaryRead n a d = .throw ⟨.busError, []⟩ d' := by
  unfold Fits at hfit
  simp only at hfit
  have hx : ∃ i < bs.length, CoveredBy old (a + BitVec.ofNat 32 i) := by
    obtain ⟨x, h1, h2⟩ := hx
    rw [byteIn_iff] at h1
    simp only at h1
    refine ⟨x.toNat - a.toNat, by omega, ?_⟩
    have : a + BitVec.ofNat 32 (x.toNat - a.toNat) = x := by
      apply BitVec.eq_of_toNat_eq
      simp only [BitVec.toNat_add, BitVec.toNat_ofNat]
      omega
    rw [this]; exact h2
  obtain ⟨i, hi, hco, hno⟩ := first_index hx
  have hsub : ∀ x, (byteIn (a, bs.take i) x).isSome → (byteIn (a, bs) x).isSome := by
    intro x hx
    rw [byteIn_iff] at hx ⊢
    simp only [List.length_take] at hx ⊢
    omega
  rw [loadBytes_app (bs := bs.take i) (t := bs.drop i ++ t) hsp (by unfold Fits; simp only [List.length_take]; omega) ?_
    (fun x hx => hc x (hsub x hx)) (by rw [h, ← List.append_assoc, List.take_append_drop]) (by simp only [List.length_take]; omega)]
  · have hl : (bs.take i).length = i := by simp only [List.length_take]; omega
    rw [hl]
    obtain ⟨m, hm⟩ : ∃ m, n - i = m + 1 := ⟨n - i - 1, by omega⟩
    rw [hm]
    have hd : bs.drop i = bs[i] :: bs.drop (i + 1) := List.drop_eq_getElem_cons hi
    simp only [loadRegionBytes, M.bind_apply, readBytes]
    rw [readInto_app (n := 1) (a := [bs[i]]) (t := bs.drop (i + 1) ++ t) (by show List.drop i bs ++ t = _; rw [hd]; rfl) rfl]
    simp only [M.bind_apply]
    have hw := rom_refuses (w := .w8) (v := bs[i]) (split_pokes hsp a (bs.take i)) hro hco
    exact ⟨_, by rw [onMem_throw (d := { D.put d _ (bs.drop i ++ t) with rest := bs.drop (i + 1) ++ t }) hw]⟩
  · intro x hx q hq hcov
    rw [byteIn_iff] at hx
    simp only [List.length_take] at hx
    refine hno (x.toNat - a.toNat) (by omega) ⟨q, hq, ?_⟩
    have : a + BitVec.ofNat 32 (x.toNat - a.toNat) = x := by
      apply BitVec.eq_of_toNat_eq
      simp only [BitVec.toNat_add, BitVec.toNat_ofNat]
      omega
    rw [this]; exact hcov

/-- What is said about a block that cannot be loaded. -/
def blockComplaint (r : U32 × List U8) : Str :=
  asc "The dump file failed to load RAM memory region at 0x" ++ eightDigits r.1 ++ asc " - 0x" ++
    eightDigits (r.1 + BitVec.ofNat 32 r.2.length) ++ asc "."

/-- A block of which some bytes belong where the image is. -/
theorem block_clash {d : D} {r : U32 × List U8} {t : Str} {old news : List Region} (hsp : Split d.host.mem old news)
    (hro : ∀ q ∈ old, q.isAlias = false ∧ q.isReadOnly = true)
    (hheap : PlentyOfMemory d.host.mem) (hlen : r.2.length < 2 ^ 32) (hfit : Fits r)
    (hx : ∃ x, (byteIn r x).isSome ∧ CoveredBy old x) (h : d.rest = encodeBlock r ++ t) :
    ∃ d', readNextMemoryRegion binaryRead d = .throw ⟨.busError, blockComplaint r⟩ d' := by
  unfold readNextMemoryRegion readBytes
  simp only [M.bind_apply]
  rw [readInto_app (a := le32 r.1 ++ le32 (r.1 + BitVec.ofNat 32 r.2.length)) (t := r.2 ++ t)
    (by simp [h, encodeBlock]) (by simp)]
  simp only [List.length_append, le32_length]
  rw [if_neg (by simp), if_neg (by simp), if_neg (by simp), (leVal_take _ _).1, (leVal_take _ _).2]
  simp only [M.bind_apply, M.tryCatch_apply, createAndLoadMemoryRegion, sub_len]
  rw [onMem_ok (d := { d with rest := r.2 ++ t }) (createRegion_ok hheap _ _)]
  simp only
  have hl : (BitVec.ofNat 32 r.2.length).toNat = r.2.length := by
    simp only [BitVec.toNat_ofNat]; exact Nat.mod_eq_of_lt hlen
  obtain ⟨d', he⟩ := loadBytes_clash (d := D.put { d with rest := r.2 ++ t } { bumpHeap d.host.mem 2 2 with
      regions := d.host.mem.regions ++ [newRegion r.1 (BitVec.ofNat 32 r.2.length)] } (r.2 ++ t)) (bs := r.2) (t := t)
    (split_create hsp r.1 (BitVec.ofNat 32 r.2.length)) hro hfit (fun x hx => ⟨_, by simp, covered_new hlen hx⟩) rfl hx (Nat.le_refl _)
  rw [hl, he, fmt08X_eq]
  exact ⟨_, rfl⟩

/-- The blocks before it are loaded; the first that clashes is refused. -/
theorem dump_clash {h : Host} {bytes : Str} {df : DumpFile} {pre post : List (U32 × List U8)} {r : U32 × List U8}
    (hr : Ready h) (hwf : df.WF) (hro : ∀ q ∈ h.mem.regions, q.isAlias = false ∧ q.isReadOnly = true)
    (hm : df.mem = pre ++ r :: post) (hpre : Free h.mem pre) (hfit : Fits r)
    (hx : ∃ x, (byteIn r x).isSome ∧ Mapped h.mem x 1) (hb : bytes = encode df) :
    ∃ d, readDump binaryRead (start h bytes) = .throw ⟨.busError, blockComplaint r⟩ d := by
  have hl : ∀ q ∈ pre ++ r :: post, q.2.length < 2 ^ 32 := by rw [← hm]; exact hwf.mem
  rw [head_eq (t := df.mem.flatMap encodeBlock) hwf hr.regs rfl (by rw [hb]; rfl)]
  have e1 : df.mem.flatMap encodeBlock = pre.flatMap encodeBlock ++ (encodeBlock r ++ post.flatMap encodeBlock) := by
    rw [hm, List.flatMap_append, List.flatMap_cons]
  obtain ⟨f, e2⟩ : ∃ f, (df.mem.flatMap encodeBlock).length + 1 = pre.length + (f + 1) :=
    ⟨(df.mem.flatMap encodeBlock).length - pre.length, by
      have := blocks_length pre
      rw [e1, List.length_append]; omega⟩
  rw [e2]
  obtain ⟨h1, h2⟩ := blocks_eq (mem := pre) (d := (start h bytes).afterHead df (df.mem.flatMap encodeBlock))
    (t := encodeBlock r ++ post.flatMap encodeBlock) (f := f + 1) (split_init hr.sound hr.hits) hr.heap
    (free_old hpre (fun q hq => hl q (by simp [hq]))) e1
  rw [h1]
  obtain ⟨d', h3⟩ := block_clash (d := D.put ((start h bytes).afterHead df (df.mem.flatMap encodeBlock))
    (afterBlocks ((start h bytes).afterHead df (df.mem.flatMap encodeBlock)).host.mem _ [] pre) (encodeBlock r ++ post.flatMap encodeBlock)) (r := r) (t := post.flatMap encodeBlock) h2 hro
    hr.heap (hl r (by simp)) hfit hx rfl
  exact ⟨d', by simp only [readMemoryRegions, M.bind_apply]; rw [h3]⟩

end Verif.Dump

namespace Verif.GdbLog
open Verif MemSim Spec Dump

/-- The word at `a` is where the image is. -/
def Hit (old : List Region) (a : U32) : Prop := ∃ q ∈ old, Covers q a 4

/-- A word that belongs to a new region is stored, unless the image is there. -/
theorem write_either {s : Sim} {old news : List Region} (h : Split s old news)
    (hro : ∀ q ∈ old, q.isAlias = false ∧ q.isReadOnly = true) {a : U32} {v : U32} (hc : ∃ r ∈ news, Covers r a 4) :
    Sat (fun _ s' => ¬ Hit old a ∧ s'.heap = s.heap ∧ ∃ news', Split s' old news' ∧ news'.map shape = news.map shape)
      (fun e _ => e = ⟨.busError, []⟩ ∧ Hit old a) (IMemory.write .w32 a v s) := by
  by_cases ho : Hit old a
  · have := rom_refuses (w := .w32) (v := v) h hro ho
    rw [this]
    exact ⟨rfl, ho⟩
  · obtain ⟨r, hr, hc⟩ := hc
    obtain ⟨k, q, hf⟩ := FirstCover.exists_of_mem hr hc
    have hs := sound_append h
    have ht := h.target hf (fun q hq hcv => ho ⟨q, hq, hcv⟩)
    have hq := h.fresh q hf.mem
    rw [write_eq (w := .w32) (v := v)]
    show Sat _ _ (writeN 4 a v.toNat s)
    rw [writeN_eq hs ht]
    simp only [hq.ro, Bool.false_eq_true, if_false]
    have h0 : (scanAt q (a.toNat - q.baseAddress.toNat) 4 WRITING).1 = 0 := by simp [scanAt, hq.watch, scanWatch]
    rw [h0, if_neg (by have := h.hits; omega)]
    have hk : news[k]? = some q := hf.1
    have hl := ht.info hs
    have hl := (ht.info hs).room
    rw [← hq.len] at hl
    generalize hd : q.data.take (a.toNat - q.baseAddress.toNat) ++ leBytes 4 v.toNat ++ q.data.drop (a.toNat - q.baseAddress.toNat + 4) = data
    have hlen : data.length = q.data.length := by
      rw [← hd]; simp only [List.length_append, List.length_take, List.length_drop, leBytes_length]; omega
    refine ⟨ho, rfl, news.set k { q with data := data, isReadOnly := false }, ⟨?_, h.sound, ?_, h.hits⟩, ?_⟩
    · show s.regions.set _ _ = _
      rw [h.regions, List.set_append_right _ _ (by omega), Nat.add_sub_cancel_left]
    · intro x hx
      rcases List.mem_or_eq_of_mem_set hx with hx | rfl
      · exact h.fresh x hx
      · exact ⟨hq.plain, rfl, hq.watch, hq.counts, hlen.trans hq.len⟩
    · rw [List.map_set]
      apply List.ext_getElem?
      intro i
      rw [List.getElem?_set]
      by_cases hi : k = i
      · subst hi
        rw [if_pos rfl, List.getElem?_map, hk]
        simp [shape, (List.getElem?_eq_some_iff.1 hk).1]
      · rw [if_neg hi]

theorem covered4_shape {news news' : List Region} (hs : news'.map shape = news.map shape) {a : U32}
    (h : ∃ r ∈ news, Covers r a 4) : ∃ r ∈ news', Covers r a 4 := by
  obtain ⟨r, hr, hc⟩ := h
  have : shape r ∈ news'.map shape := by rw [hs]; exact List.mem_map_of_mem hr
  obtain ⟨r', hr', e⟩ := List.mem_map.1 this
  exact ⟨r', hr', (covers_shape e).2 hc⟩

/-- The words of a line. -/
theorem values_either {old news : List Region} {a : U32} {vs : List U32} {i : Nat} {o : Obj} (h : Split o.host.mem old news)
    (hro : ∀ q ∈ old, q.isAlias = false ∧ q.isReadOnly = true)
    (hc : ∀ j < vs.length, ∃ r ∈ news, Covers r (a + BitVec.ofNat 32 ((i + j) * 4)) 4) :
    Sat (fun _ o' => (∀ j < vs.length, ¬ Hit old (a + BitVec.ofNat 32 ((i + j) * 4))) ∧ o'.regionSize = o.regionSize ∧
        o'.host.mem.heap = o.host.mem.heap ∧ ∃ news', Split o'.host.mem old news' ∧ news'.map shape = news.map shape)
      (fun e _ => e = ⟨.busError, []⟩ ∧ ∃ j < vs.length, Hit old (a + BitVec.ofNat 32 ((i + j) * 4))) (writeValues a i vs o) := by
  induction vs generalizing i news o with
  | nil => exact ⟨fun j hj => by simp at hj, rfl, rfl, news, h, rfl⟩
  | cons v vs ih =>
    simp only [writeValues, M.bind_apply, onMem, M.zoom_apply]
    have h0 := write_either (v := v) h hro (hc 0 (by simp))
    rw [Nat.add_zero] at h0
    cases he : IMemory.write .w32 (a + BitVec.ofNat 32 (i * 4)) v o.host.mem with
    | ub r => rw [he] at h0; exact h0.elim
    | throw e s =>
      rw [he] at h0
      exact ⟨h0.1, 0, by simp, by rw [Nat.add_zero]; exact h0.2⟩
    | ok u s =>
      rw [he] at h0
      obtain ⟨h1, hh, news', h2, h3⟩ := h0
      refine Sat.mono (ih (i := i + 1) (news := news') (o := { o with host := { o.host with mem := s } }) h2 ?_) ?_ ?_
      · intro j hj
        have := hc (j + 1) (by simpa using hj)
        rw [show i + (j + 1) = i + 1 + j by omega] at this
        exact covered4_shape h3 this
      · rintro _ o' ⟨k1, k2, kh, n', k3, k4⟩
        refine ⟨fun j hj => ?_, k2, kh.trans hh, n', k3, k4.trans h3⟩
        cases j with
        | zero => rw [Nat.add_zero]; exact h1
        | succ j =>
          have := k1 j (by simpa using hj)
          rw [show i + 1 + j = i + (j + 1) by omega] at this
          exact this
      · rintro e o' ⟨k1, j, k2, k3⟩
        refine ⟨k1, j + 1, by simpa using k2, ?_⟩
        rw [show i + 1 + j = i + (j + 1) by omega] at k3
        exact k3

/-- All the words of a log. -/
theorem all_either {old news : List Region} {rs : List Results} {o : Obj} (h : Split o.host.mem old news)
    (hro : ∀ q ∈ old, q.isAlias = false ∧ q.isReadOnly = true)
    (hc : ∀ m ∈ memOf rs, ∀ j < m.2.length, ∃ r ∈ news, Covers r (m.1 + BitVec.ofNat 32 (j * 4)) 4) :
    Sat (fun _ o' => (∀ m ∈ memOf rs, ∀ j < m.2.length, ¬ Hit old (m.1 + BitVec.ofNat 32 (j * 4))) ∧ o'.regionSize = o.regionSize ∧
        o'.host.mem.heap = o.host.mem.heap ∧ ∃ news', Split o'.host.mem old news' ∧ news'.map shape = news.map shape)
      (fun e _ => e = ⟨.busError, []⟩ ∧ ∃ m ∈ memOf rs, ∃ j < m.2.length, Hit old (m.1 + BitVec.ofNat 32 (j * 4)))
      (runAll secondPassHandler rs o) := by
  induction rs generalizing news o with
  | nil => exact ⟨fun m hm => by simp [memOf] at hm, rfl, rfl, news, h, rfl⟩
  | cons r rs ih =>
    simp only [runAll]
    cases r with
    | other => exact ih h hc
    | register off v => exact ih h hc
    | memory a vs =>
      have e : memOf (.memory a vs :: rs) = (a, vs) :: memOf rs := rfl
      rw [e] at hc ⊢
      simp only [secondPassHandler, M.bind_apply]
      have h0 := values_either (i := 0) (a := a) (vs := vs) h hro (fun j hj => by rw [Nat.zero_add]; exact hc (a, vs) (by simp) j hj)
      simp only [Nat.zero_add] at h0
      cases he : writeValues a 0 vs o with
      | ub r => rw [he] at h0; exact h0.elim
      | throw x o' =>
        rw [he] at h0
        exact ⟨h0.1, (a, vs), by simp, h0.2⟩
      | ok u o' =>
        rw [he] at h0
        obtain ⟨h1, h2, hh, news', h3, h4⟩ := h0
        refine Sat.mono (ih h3 fun m hm j hj => covered4_shape h4 (hc m (by simp [hm]) j hj)) ?_ ?_
        · rintro _ o2 ⟨k1, k2, kh, n', k3, k4⟩
          refine ⟨fun m hm => ?_, k2.trans h2, kh.trans hh, n', k3, k4.trans h4⟩
          rcases List.mem_cons.1 hm with rfl | hm
          · exact h1
          · exact k1 m hm
        · rintro e o2 ⟨k1, m, hm, k2⟩
          exact ⟨k1, m, by simp [hm], k2⟩

theorem pass_either {h : Host} {old news : List Region} {rs : List Results} (hs : Split h.mem old news)
    (hro : ∀ q ∈ old, q.isAlias = false ∧ q.isReadOnly = true)
    (hc : ∀ m ∈ memOf rs, ∀ j < m.2.length, ∃ r ∈ news, Covers r (m.1 + BitVec.ofNat 32 (j * 4)) 4) :
    Sat (fun _ h' => (∀ m ∈ memOf rs, ∀ j < m.2.length, ¬ Hit old (m.1 + BitVec.ofNat 32 (j * 4))) ∧
        h'.mem.heap = h.mem.heap ∧ ∃ news', Split h'.mem old news' ∧ news'.map shape = news.map shape)
      (fun e _ => e = ⟨.busError, []⟩ ∧ ∃ m ∈ memOf rs, ∃ j < m.2.length, Hit old (m.1 + BitVec.ofNat 32 (j * 4)))
      (pass secondPassHandler rs h) := by
  unfold pass
  have h0 := all_either (o := { host := h }) hs hro hc
  rw [M.bind_apply]
  cases he : runAll secondPassHandler rs { host := h } with
  | ub r => rw [he] at h0; exact h0.elim
  | throw e o => rw [he] at h0; exact h0
  | ok u o =>
    rw [he] at h0
    have : finish o = .ok () o := by
      unfold finish
      simp [h0.2.1]
    simp only [this]
    exact ⟨h0.1, h0.2.2⟩

/-- What the log shows can be given regions. -/
structure RunsOK (ms : List Run) : Prop where
  ne : ∀ m ∈ ms, m.2 ≠ []
  len : ∀ r ∈ runs ms, 4 * r.2.length < 2 ^ 32
  fits : ∀ r ∈ runs ms, RunFits r

/-- A log is refused exactly if it shows a word where the image is. -/
theorem parse_either {h : Host} {name bytes : Str} (hr : Ready h) (hn : NextLog h name bytes)
    (hro : ∀ q ∈ h.mem.regions, q.isAlias = false ∧ q.isReadOnly = true) (hl : RunsOK (memOf (results bytes))) :
    Sat (fun _ h' => (∀ m ∈ memOf (results bytes), ∀ j < m.2.length, ¬ Hit h.mem.regions (m.1 + BitVec.ofNat 32 (j * 4))) ∧
        h'.mem.heap.fails = h.mem.heap.fails ∧
        ∃ news', Split h'.mem h.mem.regions news' ∧ news'.map shape = ((runs (memOf (results bytes))).map reg).map shape)
      (fun e _ => e = ⟨.busError, []⟩ ∧
        ∃ m ∈ memOf (results bytes), ∃ j < m.2.length, Hit h.mem.regions (m.1 + BitVec.ofNat 32 (j * 4))) (parse name h) := by
  obtain ⟨f, h1, rfl, h3⟩ := hn
  rw [parse_eq h1, h3]
  generalize hrs : results f.bytes = rs at hl
  have hv : ∀ r ∈ rs, Valid r := hrs ▸ results_valid
  have hin : ∀ m ∈ memOf rs, ∃ r ∈ runs (memOf rs), r.1.toNat ≤ m.1.toNat ∧
      m.1.toNat + 4 * m.2.length ≤ r.1.toNat + 4 * r.2.length ∧ RunFits r := by
    intro m hm
    obtain ⟨r, k1, k2, k3⟩ := run_of_line hl.ne hl.fits hm
    exact ⟨r, k1, k2, k3, hl.fits r k1⟩
  have ha : ∀ m ∈ memOf rs, m.1 ≠ 0xFFFFFFFF := by
    intro m hm e
    obtain ⟨r, k1, k2, k3, k4⟩ := hin m hm
    have h0 := List.length_pos_iff.2 (hl.ne m hm)
    unfold RunFits at k4
    rw [e] at k2 k3
    simp at k2 k3
    omega
  unfold both
  rw [M.tryCatch_apply]
  simp only [M.bind_apply, initPSPandMSP, M.modify_apply]
  have hfp := first_pass (h := { h with ctx := startCtx h.ctx, files := { h.files with next := h.files.next + 1, live := h.files.live + 1 } }) hv ha hl.len
  simp only [startCtx] at hfp
  cases he : pass firstPassHandler rs { h with
      ctx := { h.ctx with r := (h.ctx.r.set regMSP DEFAULT_SP_VALUE).set regPSP DEFAULT_SP_VALUE },
      files := { h.files with next := h.files.next + 1, live := h.files.live + 1 } } with
  | ub r => rw [he] at hfp; exact hfp.elim
  | throw e h' => rw [he] at hfp; exact absurd hr.heap hfp.2.1
  | ok u h' =>
    rw [he] at hfp
    obtain ⟨k1, k2, k3, k4, k5⟩ := hfp
    have hs := split_lines (s := h.mem) hr.sound hr.hits k1 k2
    have e2 := pass_either (h := h') (rs := rs) hs hro (by
      intro m hm j hj
      obtain ⟨r, c1, c2, c3, c4⟩ := hin m hm
      unfold RunFits at c4
      refine ⟨_, List.mem_map_of_mem c1, (reg_covers (hl.len r c1)).2 ?_⟩
      simp only [BitVec.toNat_add, BitVec.toNat_ofNat]
      omega)
    simp only [rewind, Bool.false_eq_true, if_false, M.pure_apply]
    cases hp : pass secondPassHandler rs h' with
    | ub r => rw [hp] at e2; exact e2.elim
    | throw e h2 => rw [hp] at e2; exact e2
    | ok u h2 =>
      rw [hp] at e2
      obtain ⟨g1, g2, g3⟩ := e2
      exact ⟨g1, (congrArg Heap.fails g2).trans k3, g3⟩

end Verif.GdbLog

namespace Verif.CommandLine
open Verif MemSim Spec

/-- The same for a dump as text. -/
theorem text_clash {h : Host} {name bytes : Str} {df : DumpFile} {pre post : List (U32 × List U8)} {r : U32 × List U8}
    (ht : DumpText bytes df) (hr : Ready h) (hn : NextFile h name bytes)
    (hwf : df.WF) (hro : ∀ q ∈ h.mem.regions, q.isAlias = false ∧ q.isReadOnly = true)
    (hm : df.mem = pre ++ r :: post) (hpre : Free h.mem pre) (hfit : Fits r)
    (hx : ∃ x, (byteIn r x).isSome ∧ Mapped h.mem x 1) :
    ∃ h', readerFor bytes name h = .throw ⟨.busError, Dump.blockComplaint r⟩ h' := by
  rcases ht with rfl | ⟨h1, h2⟩
  · have : [0x63, 0x43] <+: encode df := by
      refine ⟨[if df.v2 then 2 else 3, 0] ++ le32 df.flags ++ df.regs.flatMap le32 ++ le32 df.psr ++ df.fpr.flatMap le32 ++ df.mem.flatMap encodeBlock, ?_⟩
      simp [encode, encodeHead]
    unfold readerFor
    rw [if_pos this]
    obtain ⟨d, e⟩ := Dump.dump_clash hr hwf hro hm hpre hfit hx rfl
    unfold Dump.readBinary
    rw [Dump.readFile_eq hn, e]
    exact ⟨_, rfl⟩
  · have hne : ¬ [0x63, 0x43] <+: bytes := by
      rintro ⟨t, rfl⟩
      obtain ⟨u, hu⟩ := h1
      rw [show asc "6343" = [0x36, 0x33, 0x34, 0x33] by decide] at hu
      simp at hu
    unfold readerFor
    rw [if_neg hne, if_pos h1]
    obtain ⟨d, e⟩ := Dump.dump_clash hr hwf hro hm hpre hfit hx rfl
    unfold Dump.readHex
    rw [Dump.readFile_eq hn]
    have := Dump.rel_dump Dump.rel_hex Dump.hex_consumes Dump.binary_consumes (d1 := Dump.start h bytes) (d2 := Dump.start h (encode df)) ⟨rfl, rfl, h2⟩
    rw [e] at this
    cases e1 : Dump.readDump Dump.hexRead (Dump.start h bytes) with
    | ok a d1 => rw [e1] at this; exact this.elim
    | throw e d1 =>
      rw [e1] at this
      rcases this with ⟨rfl, -⟩ | ⟨hf, -⟩
      · exact ⟨_, rfl⟩
      · exact hf.elim
    | ub r => rw [e1] at this; exact this.elim

end Verif.CommandLine
