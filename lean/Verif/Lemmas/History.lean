import Verif.Lemmas.Leak
/- Consistency of the simulator's data structures over histories. -/
namespace Verif.MemSim
open Verif Spec

/-- Consistent: sound, and (if `b`) read-only regions have counters. -/
structure Good (b : Bool) (s : Sim) : Prop where
  sound : Sound s
  counted : b = true → Counted s

/-- Only overflow of the hit counter and a failed assertion may stop the call; otherwise it leaves a consistent state. -/
def Fine (g : Bool) (o : Out Sim α) : Prop :=
  match o with
  | .ok _ s => Good g s
  | .throw _ s => Good g s
  | .ub u => u = .signedOverflow ∨ u = .assertFailed

theorem Fine.bind {m : M Sim α} {f : α → M Sim β} {g : Bool} {s : Sim}
    (hm : Fine g (m s)) (hf : ∀ a s', m s = .ok a s' → Good g s' → Fine g (f a s')) : Fine g ((m >>= f) s) := by
  rw [M.bind_apply]
  cases h : m s with
  | ok a s' => rw [h] at hm; exact hf a s' h hm
  | throw e s' => rw [h] at hm; exact hm
  | ub r => rw [h] at hm; exact hm

theorem Good.congr {g : Bool} {s s' : Sim} (hs : Good g s) (h : s'.regions = s.regions) : Good g s' :=
  ⟨hs.sound.congr h, by have := hs.counted; unfold Counted at *; rwa [h]⟩

theorem Good.set {g : Bool} {s s' : Sim} (hs : Good g s) {i : Nat} {r r' : Region} (hr : s.regions[i]? = some r)
    (ha : r.isAlias = false) (hsh : shape r = shape r') (hok : PlainOK r')
    (hc : g = true → r'.isReadOnly = true → r'.readCounts ≠ none)
    (hs' : s'.regions = s.regions.set i r') : Good g s' := by
  refine ⟨hs.sound.set hr ha hsh hok hs', ?_⟩
  intro hg q hq _ hro
  rw [hs'] at hq
  rcases List.mem_or_eq_of_mem_set hq with hq | rfl
  · exact hs.counted hg q hq ‹_› hro
  · exact hc hg hro

theorem Good.get {g : Bool} {s : Sim} (hs : Good g s) {i : Nat} {r : Region} (hr : s.regions[i]? = some r) (ha : r.isAlias = false)
    (hg : g = true) (hro : r.isReadOnly = true) : r.readCounts ≠ none := hs.counted hg r (List.mem_of_getElem? hr) ha hro

theorem Good.append {g : Bool} {s s' : Sim} (hs : Good g s) {x : Region} (hs' : s'.regions = s.regions ++ [x])
    (hx : if x.isAlias then AliasOK (s.regions ++ [x]) x else PlainOK x)
    (hc : x.isAlias = false → x.isReadOnly = true → x.readCounts ≠ none) : Good g s' := by
  refine ⟨hs.sound.append hs' hx, ?_⟩
  intro hg q hq ha hro
  rw [hs'] at hq
  rcases List.mem_append.1 hq with hq | hq
  · exact hs.counted hg q hq ha hro
  · simp at hq; subst hq; exact hc ha hro

theorem counted_good {g : Bool} {s : Sim} (hs : Good g s) {i off n : Nat} {r : Region} {t : U32} (h : TargetInfo s n i r off) :
    Good g (counted s i r off n t) := by
  unfold counted
  split
  · cases hc : r.readCounts with
    | none => exact hs
    | some cs =>
      have ok := h.ok
      have ok2 := ok.2.1
      rw [hc] at ok2
      refine hs.set (r' := { r with readCounts := some (cs.modify (off / 2) (· + 1)) }) h.get h.plain rfl ?_ (by simp) rfl
      exact ⟨ok.1, by simpa using ok2, ok.2.2⟩
  · exact hs

theorem gdp_fine {g : Bool} {s : Sim} (hs : Good g s) {a : U32} {n : Nat} {t : U32} {c : Bool} :
    Fine g (getDataPointer a n t c s) := by
  by_cases hm : Mapped s a n
  · obtain ⟨i, r, off, ht⟩ := target_of_mapped hs.sound hm
    have hi := ht.info hs.sound
    cases c
    · rw [gdp_nocheck hs.sound ht]
      split
      · exact hs
      · exact counted_good hs hi
    · rw [gdp_check hs.sound ht]
      split
      · exact hs
      · split
        · exact .inl rfl
        · have hg := counted_good hs hi (t := t)
          split
          · exact hg.congr rfl
          · exact hg.congr rfl
  · rw [gdp_unmapped hm]; exact hs

theorem read_fine {g : Bool} {s : Sim} (hs : Good g s) {w : Width} {a : U32} : Fine g (IMemory.read w a s) := by
  rw [read_eq]
  by_cases hm : Mapped s a w.bytes
  · obtain ⟨i, r, off, ht⟩ := target_of_mapped hs.sound hm
    have hg := counted_good hs (ht.info hs.sound) (t := READING)
    rw [readN_eq hs.sound ht]
    by_cases h1 : s.hits + (scanAt r off w.bytes READING).1 ≥ 2 ^ 31
    · simp only [if_pos h1]; exact .inl rfl
    · simp only [if_neg h1]
      cases (scanAt r off w.bytes READING).2 <;> exact hg.congr rfl
  · rw [readN_unmapped hm]; exact hs

theorem splice_good {g : Bool} {s s' : Sim} (hs : Good g s) {n i off : Nat} {r : Region} {bs : List U8} (h : TargetInfo s n i r off)
    (hb : bs.length = n)
    (hs' : s'.regions = s.regions.set i { r with data := r.data.take off ++ bs ++ r.data.drop (off + n) }) : Good g s' := by
  subst hb
  have hok : PlainOK { r with data := r.data.take off ++ bs ++ r.data.drop (off + bs.length) } :=
    plainOK_data h.ok (splice_length ?_)
  · exact hs.set h.get h.plain (by rfl) hok (fun hg e => (hs.get h.get h.plain hg e : r.readCounts ≠ none)) hs'
  · rw [h.ok.1]; exact h.room

theorem write_fine {g : Bool} {s : Sim} (hs : Good g s) {w : Width} {a : U32} {v : BitVec w.bits} : Fine g (IMemory.write w a v s) := by
  rw [write_eq]
  by_cases hm : Mapped s a w.bytes
  · obtain ⟨i, r, off, ht⟩ := target_of_mapped hs.sound hm
    have hi := ht.info hs.sound
    rw [writeN_eq hs.sound ht]
    split
    · exact hs
    · split
      · exact .inl rfl
      · exact splice_good hs hi (leBytes_length _ _) rfl
  · rw [writeN_unmapped hm]; exact hs

/-- `load8` / `load32`: the bytes are stored whether or not the region is read-only; nothing else changes. -/
theorem loadN_eq {s : Sim} (hs : Sound s) {a : U32} {i off : Nat} {r : Region} {bs : List U8} (hn : bs.length ≠ 2)
    (h : Target s a bs.length i r off) : loadN a bs s = .ok () { s with regions := s.regions.set i { r with
      data := r.data.take off ++ bs ++ r.data.drop (off + bs.length) } } := by
  have hi := h.info hs
  have hc : counted s i r off bs.length LOADING = s := by simp [counted, hn]
  simp only [loadN, M.bind_apply, gdp_nocheck hs h, hc]
  have : ¬ (LOADING = WRITING ∧ r.isReadOnly = true) := fun h => absurd h.1 (by decide)
  simp only [if_neg this, hostWrite, M.bind_apply, regionAt_eq hi.get]
  rw [if_pos (by rw [hi.ok.1]; exact hi.room)]
  rfl

theorem loadN_fine {g : Bool} {s : Sim} (hs : Good g s) {a : U32} {bs : List U8} (hn : bs.length ≠ 2) : Fine g (loadN a bs s) := by
  by_cases hm : Mapped s a bs.length
  · obtain ⟨i, r, off, ht⟩ := target_of_mapped hs.sound hm
    rw [loadN_eq hs.sound hn ht]
    exact splice_good hs (ht.info hs.sound) rfl rfl
  · simp only [loadN, M.bind_apply, gdp_unmapped hm]; exact hs

theorem loadBytes_fine {n : Nat} {a : U32} {src : List U8} {g : Bool} {s : Sim} (hs : Good g s) (hl : n ≤ src.length) :
    Fine g (loadBytes n a src s) := by
  induction n generalizing a src s with
  | zero => cases src <;> exact hs
  | succ n ih =>
    cases src with
    | nil => simp at hl
    | cons b src =>
      refine Fine.bind (loadN_fine hs (by simp)) ?_
      intro _ s1 _ h1
      exact ih h1 (by simpa using hl)

theorem loadWords_fine {src : List U8} {n : Nat} {a : U32} {g : Bool} {s : Sim} (hs : Good g s) (hl : n ≤ src.length) :
    Fine g (loadWords src n a s) := by
  fun_induction loadWords src n a generalizing s with
  | case1 b0 b1 b2 b3 rest n a h ih =>
    refine Fine.bind (loadN_fine hs (by simp)) ?_
    intro _ s1 _ h1
    exact ih h1 (by simp at hl; omega)
  | case2 => exact loadBytes_fine hs hl
  | case3 src n a hno h =>
    exfalso
    match src, hno, hl with
    | [], _, hl => simp at hl; omega
    | [_], _, hl => simp at hl; omega
    | [_, _], _, hl => simp at hl; omega
    | [_, _, _], _, hl => simp at hl; omega
    | b0 :: b1 :: b2 :: b3 :: rest, hno, _ => exact hno b0 b1 b2 b3 rest rfl
  | case4 => exact loadBytes_fine hs hl

theorem createRegion_fine {g : Bool} {s : Sim} (hs : Good g s) {b n : U32} : Fine g (createRegion b n s) := by
  rcases createRegion_cases b n s with ⟨k, h⟩ | h <;> rw [h]
  · exact hs.congr rfl
  · exact hs.append (x := newRegion b n) rfl (plainOK_new b n) (by simp [newRegion])

theorem createAlias_fine {g : Bool} {s : Sim} (hs : Good g s) {al rd n : U32}
    (hc : ∀ k q, FirstCover s.regions rd 1 k q → q.isAlias = false) : Fine g (createAlias al rd n s) := by
  have key : ∀ j a' s', findMatchingRegion rd 1 s = .ok (j, a') s' → ∃ t off, TargetInfo s 1 j t off ∧
      (t.baseAddress.toNat ≤ rd.toNat ∧ rd.toNat + 1 ≤ t.baseAddress.toNat + t.size.toNat) := by
    intro j a' s' hf
    by_cases hm : Mapped s rd 1
    · obtain ⟨i, r, off, ht⟩ := target_of_mapped hs.sound hm
      have hi := ht.info hs.sound
      rw [find_target hs.sound ht] at hf
      cases hf
      obtain ⟨k, q, hfc, h⟩ := ht
      have hq := hc k q hfc
      simp [hq] at h
      obtain ⟨rfl, rfl, -⟩ := h
      exact ⟨q, off, hi, hfc.2.1⟩
    · rw [find_unmapped hm] at hf; cases hf
  rcases createAlias_cases al rd n s with ⟨k, h⟩ | ⟨k, h, -⟩ | ⟨j, a', t, hf, ht, h⟩ | ⟨u, h, hf | ⟨j, a', hf, ht⟩⟩ <;> rw [h]
  · exact hs.congr rfl
  · exact hs.congr rfl
  · obtain ⟨t', off, hi, hrd⟩ := key j a' s hf
    have : t = t' := by have := hi.get; rw [ht] at this; exact Option.some.inj this
    subst this
    refine hs.append (x := newAlias al rd n j t) rfl ?_ (by simp [newAlias])
    exact (aliasOK_new (n := n) (al := al) hi hrd).1
  · exfalso
    by_cases hm : Mapped s rd 1
    · obtain ⟨i, r, off, ht⟩ := target_of_mapped hs.sound hm
      rw [find_target hs.sound ht] at hf; cases hf
    · rw [find_unmapped hm] at hf; cases hf
  · obtain ⟨t', off, hi, hrd⟩ := key j a' s hf
    have := hi.get
    rw [ht] at this; cases this

/-- `MemorySim_MakeRegionReadOnly` in a sound simulator. -/
theorem makeReadOnly_eq {s : Sim} (hs : Sound s) {b : U32} {i off : Nat} {r : Region} (h : Target s b 1 i r off) :
    makeRegionReadOnly b s =
      if s.heap.fails s.heap.next then .throw ⟨.outOfMemory, []⟩ { bumpHeap s 1 0 with
          regions := s.regions.set i { r with isReadOnly := true } }
      else .ok () { bumpHeap s 1 1 with
          regions := s.regions.set i { r with isReadOnly := true,
                                              readCounts := some (List.replicate (r.size.toNat / 2) 0) } } := by
  have hi := h.info hs
  have hf := find_target hs h
  simp only [makeRegionReadOnly, M.bind_apply, hf, regionAt_eq hi.get, setRegion, M.modify_apply, throwingZeroedMalloc_eq]
  cases s.heap.fails s.heap.next <;> simp [bumpHeap]

theorem makeReadOnly_unmapped {s : Sim} {b : U32} (h : ¬ Mapped s b 1) :
    makeRegionReadOnly b s = .throw ⟨.busError, []⟩ s := by simp [makeRegionReadOnly, find_unmapped h]

theorem readOnly_good {g : Bool} {s s' : Sim} (hs : Good g s) {i off : Nat} {r : Region} (h : TargetInfo s 1 i r off)
    (hs' : s'.regions = s.regions.set i { r with isReadOnly := true,
                                                 readCounts := some (List.replicate (r.size.toNat / 2) 0) }) : Good g s' := by
  refine hs.set (r' := { r with isReadOnly := true, readCounts := _ }) h.get h.plain rfl ?_ (by simp) hs'
  exact ⟨h.ok.1, by simp, h.ok.2.2⟩

theorem flag_good {g : Bool} {s s' : Sim} (hs : Good g s) {i off : Nat} {r : Region} (h : TargetInfo s 1 i r off)
    (hg : g ≠ true) (hs' : s'.regions = s.regions.set i { r with isReadOnly := true }) : Good g s' := by
  have ok2 := h.ok.2.1
  have hok : PlainOK { r with isReadOnly := true } := by
    refine ⟨h.ok.1, ?_, h.ok.2.2⟩
    cases hc : r.readCounts with
    | none => trivial
    | some cs => rw [hc] at ok2; exact ⟨ok2.1, rfl⟩
  exact hs.set h.get h.plain (by rfl) hok (fun h => absurd h hg) hs'

theorem makeReadOnly_fine {g : Bool} {s : Sim} (hs : Good g s) {b : U32}
    (hc : g = true → ∀ s', makeRegionReadOnly b s ≠ .throw ⟨.outOfMemory, []⟩ s') : Fine g (makeRegionReadOnly b s) := by
  by_cases hm : Mapped s b 1
  · obtain ⟨i, r, off, ht⟩ := target_of_mapped hs.sound hm
    have e := makeReadOnly_eq hs.sound ht
    cases hfl : s.heap.fails s.heap.next
    · rw [e, hfl]
      exact readOnly_good hs (ht.info hs.sound) rfl
    · rw [hfl] at e
      rw [e]
      refine flag_good hs (ht.info hs.sound) (fun hg => absurd e (hc hg _)) rfl
  · rw [makeReadOnly_unmapped hm]; exact hs

theorem plainOK_watch {r : Region} {ws : List Watchpoint} {al : Nat} (h : PlainOK { r with watch := ws, watchAlloc := al }) :
    PlainOK { r with watch := ws, watchAlloc := al } := h

theorem setWatchpoint_fine {g : Bool} {s : Sim} (hs : Good g s) {a n t : U32} : Fine g (setWatchpoint a n t s) := by
  by_cases hm : Mapped s a n.toNat
  · obtain ⟨i, r, off, ht⟩ := target_of_mapped hs.sound hm
    have hi := ht.info hs.sound
    rcases setWatchpoint_cases hs.sound (t := t) ht with ⟨-, h⟩ | ⟨-, -, -, h⟩ | ⟨-, ws, al, k, l, h, ok, -⟩ <;> rw [h]
    · exact hs
    · exact hs.congr rfl
    · exact hs.set hi.get hi.plain (by rfl) ok (fun hg e => (hs.get hi.get hi.plain hg e : r.readCounts ≠ none)) rfl
  · rw [setWatchpoint_unmapped hm]; exact hs

theorem clearWatchpoint_fine {g : Bool} {s : Sim} (hs : Good g s) {a n t : U32} : Fine g (clearWatchpoint a n t s) := by
  by_cases hm : Mapped s a n.toNat
  · obtain ⟨i, r, off, ht⟩ := target_of_mapped hs.sound hm
    have hi := ht.info hs.sound
    rcases clearWatchpoint_cases hs.sound (t := t) ht with ⟨-, h⟩ | ⟨-, ws, h, ok, -⟩ <;> rw [h]
    · exact hs
    · exact hs.set hi.get hi.plain (by rfl) ok (fun hg e => (hs.get hi.get hi.plain hg e : r.readCounts ≠ none)) rfl
  · rw [clearWatchpoint_unmapped hm]; exact hs

/-- `MemorySim_GetFlashReadCount` in a consistent simulator. -/
theorem readCount_eq {g : Bool} {s : Sim} (hs : Good g s) {a : U32} {i off : Nat} {r : Region} (h : Target s a 2 i r off)
    (hc : r.isReadOnly = true → r.readCounts ≠ none) :
    (r.isReadOnly = false ∧ getFlashReadCount a s = .throw ⟨.busError, []⟩ s) ∨
    (r.isReadOnly = true ∧ ∃ cs c, r.readCounts = some cs ∧ cs[off / 2]? = some c ∧ getFlashReadCount a s = .ok c s) := by
  have hi := h.info hs.sound
  simp only [getFlashReadCount, M.bind_apply, find_target hs.sound h, regionAt_eq hi.get, off_eq hi.room]
  cases hro : r.isReadOnly
  · left; simp
  · right
    simp only [not_true_eq_false, if_false, true_and]
    have hc := hc hro
    cases hcs : r.readCounts with
    | none => exact absurd hcs hc
    | some cs =>
      have ok := hi.ok.2.1
      rw [hcs] at ok
      have hroom := hi.room
      have hlt : off / 2 < cs.length := by rw [ok.1]; omega
      refine ⟨cs, cs[off / 2], rfl, List.getElem?_eq_getElem hlt, ?_⟩
      simp only [List.getElem?_eq_getElem hlt]
      rfl

theorem readCount_unmapped {s : Sim} {a : U32} (h : ¬ Mapped s a 2) :
    getFlashReadCount a s = .throw ⟨.busError, []⟩ s := by simp [getFlashReadCount, find_unmapped h]

theorem good_nil {g : Bool} {s : Sim} (h : s.regions = []) : Good g s := by
  constructor
  · unfold Sound; rw [h]; simp
  · intro _; unfold Counted; rw [h]; simp

theorem forall₂_length {R : Region → Region → Prop} : ∀ {xs ys : List Region}, List.Forall₂ R xs ys → xs.length = ys.length
  | _, _, .nil => rfl
  | _, _, .cons _ t => by simp [forall₂_length t]

/-- Removing the region added last gives back a sound simulator. -/
theorem sound_dropLast {s s3 s4 : Sim} {x : Region} (hs : Sound s) (h3 : Sound s3)
    (hsh : SameShapes (s.regions ++ [x]) s3.regions) (h4 : s4.regions = s3.regions.dropLast) : Sound s4 := by
  have hlen : s3.regions.length = s.regions.length + 1 := by
    have := congrArg List.length hsh
    simp at this; omega
  have hget : ∀ k, k < s.regions.length → s3.regions.dropLast[k]? = s3.regions[k]? := by
    intro k hk
    rw [List.getElem?_dropLast, if_pos (by omega)]
  intro q hq
  rw [h4] at hq ⊢
  obtain ⟨k, hk⟩ := List.getElem?_of_mem hq
  have hkl : k < s.regions.length := by
    have := (List.getElem?_eq_some_iff.1 hk).1
    simp at this; omega
  rw [hget k hkl] at hk
  have hq3 := h3 q (List.mem_of_getElem? hk)
  split
  · rename_i ha
    simp only [ha, if_true] at hq3
    obtain ⟨q0, e1, e2⟩ := hsh.symm.get hk
    rw [List.getElem?_append_left hkl] at e1
    obtain ⟨-, -, f3, f4, -⟩ := shape_eq e2
    obtain ⟨j, t, g1, g2, -⟩ := hs.alias e1 (f3 ▸ ha)
    have hj : j < s.regions.length := (List.getElem?_eq_some_iff.1 g2).1
    unfold AliasOK at hq3 ⊢
    rw [f4, g1] at hq3 ⊢
    simp only [hget j hj] at hq3 ⊢
    exact hq3
  · rename_i ha
    simpa [ha] using hq3

theorem flashImage_fine {g : Bool} {s : Sim} (hs : Good g s) {img : List U8} {n : U32} (hl : n.toNat ≤ img.length)
    (hc : g = true → s.regions = [] ∨ ∀ s', createRegionsFromFlashImage img n s ≠ .throw ⟨.outOfMemory, []⟩ s') :
    Fine g (createRegionsFromFlashImage img n s) := by
  unfold createRegionsFromFlashImage at hc ⊢
  split
  · exact hs
  rename_i h4
  simp only [if_neg h4] at hc
  rw [M.bind_apply] at hc
  have hcr := createRegion_fine hs (b := FLASH_BASE_ADDRESS) (n := n)
  rcases createRegion_cases FLASH_BASE_ADDRESS n s with ⟨k, h⟩ | h
  · rw [M.bind_apply, h]; exact hs.congr rfl
  rw [h] at hcr
  simp only [M.bind_apply, h] at hc ⊢
  generalize hs1 : ({ bumpHeap s 2 2 with regions := s.regions ++ [newRegion FLASH_BASE_ADDRESS n] } : Sim) = s1 at *
  have hr1 : s1.regions = s.regions ++ [newRegion FLASH_BASE_ADDRESS n] := by rw [← hs1]
  have hlf := loadWords_fine (a := FLASH_BASE_ADDRESS) (s := s1) hcr hl
  have hlq := loadWords_post (a := FLASH_BASE_ADDRESS) (s := s1) (src := img) (n := n.toNat)
  simp only [loadFromFlashImage] at hc ⊢
  cases hld : loadWords img n.toNat FLASH_BASE_ADDRESS s1 with
  | throw e s2 => rw [hld] at hlf; exact hlf
  | ub u => rw [hld] at hlf; exact hlf
  | ok u s2 =>
    rw [hld] at hlf hlq
    simp only [hld, M.tryCatch_apply, M.bind_apply] at hc ⊢
    have hlen : s2.regions.length = s.regions.length + 1 := by
      rw [← forall₂_length hlq.regions, hr1]; simp
    have hmap : Mapped s2 FLASH_BASE_ADDRESS 1 := by
      refine mapped_sameShapes hlq.sameShapes ?_
      refine ⟨newRegion FLASH_BASE_ADDRESS n, by rw [hr1]; simp, ?_⟩
      simp [Covers, newRegion, FLASH_BASE_ADDRESS]
      omega
    obtain ⟨i, r, off, ht⟩ := target_of_mapped hlf.sound hmap
    have hmk := makeReadOnly_eq hlf.sound ht
    have hi := ht.info hlf.sound
    have hsh2 : SameShapes (s.regions ++ [newRegion FLASH_BASE_ADDRESS n]) s2.regions := hr1 ▸ hlq.sameShapes
    -- what `freeLastRegion` leaves, from any state with these regions
    have hdrop : ∀ s3 : Sim, Sound s3 → SameShapes (s.regions ++ [newRegion FLASH_BASE_ADDRESS n]) s3.regions →
        ∃ s4 : Sim, freeLastRegion s3 = .ok () s4 ∧ Sound s4 ∧ (s.regions = [] → s4.regions = []) := by
      intro s3 hs3 hsh3
      have hlen3 : s3.regions.length = s.regions.length + 1 := by
        have := congrArg List.length hsh3
        simp at this; omega
      unfold freeLastRegion
      cases hgl : s3.regions.getLast? with
      | none =>
        rw [List.getLast?_eq_none_iff] at hgl
        rw [hgl] at hlen3; simp at hlen3
      | some q =>
        refine ⟨_, rfl, sound_dropLast hs.sound hs3 hsh3 rfl, ?_⟩
        intro he
        rw [he] at hlen3
        exact List.length_eq_zero_iff.1 (by simp at hlen3 ⊢; omega)
    cases hfl : s2.heap.fails s2.heap.next
    · rw [hfl] at hmk
      simp only [Bool.false_eq_true, if_false] at hmk
      simp only [hmk] at hc ⊢
      have hg3 := readOnly_good (s' := { bumpHeap s2 1 1 with
          regions := s2.regions.set i { r with isReadOnly := true,
                                               readCounts := some (List.replicate (r.size.toNat / 2) 0) } }) hlf hi rfl
      rw [if_neg (by omega : ¬ img.length < 4)] at hc ⊢
      generalize hs3 : ({ bumpHeap s2 1 1 with
          regions := s2.regions.set i { r with isReadOnly := true,
                                               readCounts := some (List.replicate (r.size.toNat / 2) 0) } } : Sim) = s3 at *
      have hsh3 : SameShapes (s.regions ++ [newRegion FLASH_BASE_ADDRESS n]) s3.regions := by
        rw [← hs3]; exact hsh2.trans (SameShapes.set hi.get rfl)
      generalize hb : (BitVec.ofNat 32 (leVal (img.take 4)) &&& RAM_ADDRESS_MASK) = b at *
      generalize hn : (BitVec.ofNat 32 (leVal (img.take 4)) - b) = m at *
      have hfin := createRegion_fine hg3 (b := b) (n := m)
      rcases createRegion_cases b m s3 with ⟨k, h⟩ | h
      · obtain ⟨s4, e4, h4, h4'⟩ := hdrop (bumpHeap s3 k 0) (hg3.sound.congr rfl) hsh3
        simp only [h, e4] at hc ⊢
        refine ⟨h4, ?_⟩
        intro hg
        rcases hc hg with hc | hc
        · exact (good_nil (g := true) (h4' hc)).counted rfl
        · exact absurd rfl (hc _)
      · rw [h] at hfin ⊢
        exact hfin
    · rw [hfl] at hmk
      simp only [if_true] at hmk
      simp only [hmk] at hc ⊢
      have hg3 := flag_good (g := false) (s' := { bumpHeap s2 1 0 with
          regions := s2.regions.set i { r with isReadOnly := true } }) ⟨hlf.sound, by simp⟩ hi (by simp) rfl
      obtain ⟨s4, e4, h4, h4'⟩ := hdrop { bumpHeap s2 1 0 with
          regions := s2.regions.set i { r with isReadOnly := true } } hg3.sound
          (hsh2.trans (SameShapes.set hi.get rfl))
      simp only [e4] at hc ⊢
      refine ⟨h4, ?_⟩
      intro hg
      rcases hc hg with hc | hc
      · exact (good_nil (g := true) (h4' hc)).counted rfl
      · exact absurd rfl (hc _)

/-- Every call that respects the rules. -/
theorem call_fine {c : Call} {g : Bool} {s : Sim} (hs : Good g s) (hc : Careful c s) (hm : g = true → Marked c s) :
    Fine g (c.run s) := by
  cases c with
  | createRegion b n => exact createRegion_fine hs
  | createAlias al rd n => exact createAlias_fine hs hc
  | makeReadOnly b => exact makeReadOnly_fine hs hm
  | load b img n => exact loadWords_fine hs hc
  | flashImage img n => exact flashImage_fine hs hc hm
  | read w a => exact Fine.bind (read_fine hs) (fun _ _ _ h => h)
  | write w a v => exact write_fine hs
  | memoryMap =>
    refine Fine.bind ?_ (fun _ _ _ h => h)
    rcases xml_raw s with h | h | ⟨text, h⟩ <;> rw [h]
    · exact hs.congr rfl
    · exact .inr rfl
    · exact hs.congr rfl
  | mapForWrite a n => exact Fine.bind (gdp_fine hs) (fun _ _ _ h => h)
  | mapForRead a n => exact Fine.bind (gdp_fine hs) (fun _ _ _ h => h)
  | readCount a =>
    refine Fine.bind ?_ (fun _ _ _ h => h)
    by_cases hm : Mapped s a 2
    · obtain ⟨i, r, off, ht⟩ := target_of_mapped hs.sound hm
      rcases readCount_eq hs ht (hc i r off ht) with ⟨-, h⟩ | ⟨-, cs, c, -, -, h⟩ <;> rw [h] <;> exact hs
    · rw [readCount_unmapped hm]; exact hs
  | setBreakpoint a n => exact setWatchpoint_fine hs
  | setWatchpoint a n t => exact setWatchpoint_fine hs
  | clearBreakpoint a n => exact clearWatchpoint_fine hs
  | clearWatchpoint a n t => exact clearWatchpoint_fine hs
  | wasHit => exact hs.congr rfl
  | uninit => exact good_nil rfl

theorem step_good {c : Call} {g : Bool} {s s' : Sim} (hs : Good g s) (hc : Careful c s) (hm : g = true → Marked c s)
    (h : Step c s s') : Good g s' := by
  have := call_fine hs hc hm
  rcases h with ⟨u, h⟩ | ⟨e, h⟩ <;> rw [h] at this <;> exact this

theorem step_sound {c : Call} {s s' : Sim} (hs : Sound s) (hc : Careful c s) (h : Step c s s') : Sound s' :=
  (step_good (g := false) ⟨hs, by simp⟩ hc (by simp) h).sound

theorem hist_sound {cs : List Call} {s s' : Sim} (hs : Sound s) (h : CarefulHist s cs s') : Sound s' := by
  induction h with
  | nil s => exact hs
  | cons hc h t ih => exact ih (step_sound hs hc h)

theorem _root_.Verif.Spec.HistWith.hist {P : Call → Sim → Prop} {cs : List Call} {s s' : Sim} (h : HistWith P s cs s') : Hist s cs s' := by
  induction h with
  | nil s => exact .nil s
  | cons hc h t ih => exact .cons h ih

end Verif.MemSim
