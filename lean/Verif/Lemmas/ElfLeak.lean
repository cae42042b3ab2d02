import Verif.Lemmas.CmdElf
import Verif.Spec.CommandLine
/- How many heap blocks are lost by loading an ELF file whose segments start inside each other. -/
namespace Verif.Elf
open Verif MemSim Spec

/-- Which regions have counters. -/
def marks (s : Sim) : List Bool := s.regions.map fun r => r.readCounts.isSome

/-- The region with this key contains the address. -/
def hasAddr (a : Nat) (k : U32 × Nat × Bool) : Bool := decide (k.1.toNat ≤ a ∧ a < k.1.toNat + k.2.1)

theorem hasAddr_key (a : U32) (r : Region) : hasAddr a.toNat (key r) = true ↔ Covers r a 1 := by
  unfold hasAddr
  rw [decide_eq_true_iff]
  unfold Covers
  simp only [key]
  constructor <;> (rintro ⟨h1, h2⟩; exact ⟨by omega, by omega⟩)

theorem firstCover_idx {s : Sim} {a : U32} {k : Nat} {q : Region} (h : FirstCover s.regions a 1 k q) :
    (keys s).findIdx (hasAddr a.toNat) = k := by
  obtain ⟨h1, h2, h3⟩ := h
  have hk := (List.getElem?_eq_some_iff.1 h1)
  obtain ⟨hlt, he⟩ := hk
  have hlt' : k < (keys s).length := by simpa [keys] using hlt
  rw [List.findIdx_eq hlt']
  constructor
  · simp only [keys, List.getElem_map, he]
    exact (hasAddr_key a q).2 h2
  · intro j hj
    have hj' : j < s.regions.length := by omega
    have := h3 j hj _ (List.getElem?_eq_getElem hj')
    simp only [keys, List.getElem_map]
    rw [← Bool.not_eq_true, hasAddr_key]
    exact this

theorem marks_quiet {s s' : Sim} (h : Quiet s s') : marks s' = marks s := by
  unfold marks
  exact forall₂_map (fun x y hxy => hxy.counts) h.regions

theorem keys_quiet {s s' : Sim} (h : Quiet s s') : keys s' = keys s := by
  unfold keys
  refine forall₂_map (fun x y hxy => ?_) h.regions
  obtain ⟨h1, h2, h3, -⟩ := shape_eq hxy.shape
  simp only [key, h1, h2, h3]

/-- One segment, when the only kind of regions are ordinary ones. -/
theorem segment_exact {a n : U32} {d : List U8} {s : Sim} (hal : ∀ k ∈ keys s, k.2.2 = false) :
    Pst (fun _ s' => ∃ i, i = (keys s ++ [(a, n.toNat, false)]).findIdx (hasAddr a.toNat) ∧ i < (keys s).length + 1 ∧
        marks s' = (marks s ++ [false]).set i true ∧ owed s' = owed s + if (marks s ++ [false])[i]? = some true then 1 else 0)
      (fun _ s' => owed s' = owed s) (loadSegment a n d s) := by
  unfold loadSegment
  refine Pst.bind (Q1 := fun _ s1 => keys s1 = keys s ++ [(a, n.toNat, false)] ∧ marks s1 = marks s ++ [false] ∧ owed s1 = owed s) ?_ ?_
  · have ho := createRegion_owed a n s
    rcases createRegion_cases a n s with ⟨k, h⟩ | h <;> rw [h] at ho ⊢
    · exact ho
    · exact ⟨by simp [keys, key, newRegion], by simp [marks, newRegion], ho⟩
  rintro _ s1 ⟨hk, hm, ho⟩
  refine Pst.bind (Q1 := fun _ s2 => keys s2 = keys s ++ [(a, n.toNat, false)] ∧ marks s2 = marks s ++ [false] ∧ owed s2 = owed s) ?_ ?_
  · unfold loadFromFlashImage
    have hq := loadWords_post (src := d) (n := n.toNat) (a := a) (s := s1)
    cases e : loadWords d n.toNat a s1 with
    | ub r => trivial
    | throw x s2 => rw [e] at hq; exact (Quiet.owed hq).trans ho
    | ok u s2 =>
      rw [e] at hq
      exact ⟨(keys_quiet hq).trans hk, (marks_quiet hq).trans hm, (Quiet.owed hq).trans ho⟩
  rintro _ s2 ⟨hk, hm, ho⟩
  rcases makeRegionReadOnly_cases a s2 with h | ⟨u, h⟩ | ⟨i, a', r, hf, hr, ⟨-, h⟩ | ⟨hx, h⟩⟩
  · rw [h]; exact ho
  · rw [h]; trivial
  · rw [h]
    have := blocksOf_set (r' := { r with isReadOnly := true }) hr
    rw [← ho]
    simp only [Pst, owed, bumpHeap, Region.blocks] at *
    omega
  · have hi := reaches_find hf
    obtain ⟨k, q, hfc, hki⟩ := hi
    have hqa : q.isAlias = false := by
      have : key q ∈ keys s2 := List.mem_map_of_mem (List.mem_of_getElem? hfc.1)
      rw [hk] at this
      rcases List.mem_append.1 this with h | h
      · exact hal _ h
      · simp at h
        exact congrArg (fun x => x.2.2) h
    simp only [hqa] at hki
    simp at hki
    subst hki
    have hlt := (List.getElem?_eq_some_iff.1 hr).1
    have hl2 : s2.regions.length = (keys s).length + 1 := by
      have := congrArg List.length hk
      simpa [keys] using this
    have hmi : (marks s ++ [false])[k]? = some r.readCounts.isSome := by
      rw [← hm]; simp [marks, hr]
    have how : owed ({ bumpHeap s2 1 1 with regions := s2.regions.set k { r with isReadOnly := true, readCounts := some (List.replicate (r.size.toNat / 2) 0) } } : Sim) = owed s + if some r.readCounts.isSome = some true then 1 else 0 := by
      have := blocksOf_set (r' := { r with isReadOnly := true, readCounts := some (List.replicate (r.size.toNat / 2) 0) }) hr
      rw [← ho]
      simp only [owed, bumpHeap, Region.blocks] at *
      cases hc : r.readCounts <;> simp [hc] at this ⊢ <;> omega
    rw [h]
    refine ⟨k, ?_, by omega, ?_, ?_⟩
    · rw [← hk]; exact (firstCover_idx hfc).symm
    · rw [← hm]
      simp [marks, List.map_set]
    · rw [hmi]; exact how

theorem eraseDups_snoc (l : List Nat) (x : Nat) : (l ++ [x]).eraseDups.length = l.eraseDups.length + if x ∈ l then 0 else 1 := by
  rw [List.eraseDups_append]
  by_cases h : x ∈ l <;> simp [List.removeAll, h, List.eraseDups_cons]

theorem eraseDups_le (l : List Nat) : l.eraseDups.length ≤ l.length := by
  have : ∀ l : List Nat, l.reverse.eraseDups.length ≤ l.length := by
    intro l
    induction l with
    | nil => simp
    | cons x l ih =>
      rw [List.reverse_cons, eraseDups_snoc, List.length_cons]
      split <;> omega
  simpa using this l.reverse

theorem set_mark {l : List Nat} {n i : Nat} (hl : ∀ k ∈ l, k < n) (hi : i < n + 1) :
    ((List.range n).map (fun k => decide (k ∈ l)) ++ [false]).set i true = (List.range (n + 1)).map fun k => decide (k ∈ l ++ [i]) := by
  have h0 : (List.range n).map (fun k => decide (k ∈ l)) ++ [false] = (List.range (n + 1)).map fun k => decide (k ∈ l) := by
    have : n ∉ l := fun h => by have := hl n h; omega
    simp [List.range_succ, this]
  rw [h0]
  apply List.ext_getElem?
  intro j
  rw [List.getElem?_set]
  by_cases hj : j < n + 1
  · by_cases e : i = j
    · subst e; simp [hj]
    · have : ¬ j = i := fun h => e h.symm
      simp [e, hj, this]
  · by_cases e : i = j
    · omega
    · simp [e, hj]

/-- The state after these segments. -/
structure After (base : Int) (hs : List ProgHeader) (s : Sim) : Prop where
  keys : keys s = hs.map addsOf
  marks : marks s = (List.range hs.length).map fun i => decide (i ∈ hs.map (firstWithStart hs))
  owed : owed s = base + sharedStarts hs

/-- Header whose contents can be loaded. -/
def Ok32 (h : ProgHeader) : Prop := 0 < h.filesz ∧ h.paddr < 2 ^ 32

theorem first_keys {hs : List ProgHeader} {g : ProgHeader} (hg : g.paddr < 2 ^ 32) (hh : ∀ h ∈ hs, Ok32 h) :
    (hs.map addsOf).findIdx (hasAddr g.paddr) = firstWithStart hs g := by
  unfold firstWithStart
  rw [List.findIdx_map]
  induction hs with
  | nil => rfl
  | cons h hs ih =>
    have := (hh h List.mem_cons_self).2
    rw [List.findIdx_cons, List.findIdx_cons, ih fun x hx => hh x (List.mem_cons_of_mem _ hx)]
    simp [hasAddr, addsOf, BitVec.toNat_ofNat, Nat.mod_eq_of_lt this]

theorem first_lt {hs : List ProgHeader} {g : ProgHeader} (hg : g ∈ hs) (hz : 0 < g.filesz) : firstWithStart hs g < hs.length := by
  unfold firstWithStart
  rw [List.findIdx_lt_length]
  exact ⟨g, hg, by simp; omega⟩

theorem first_snoc {hs : List ProgHeader} {g x : ProgHeader} (h : firstWithStart hs g < hs.length) :
    firstWithStart (hs ++ [x]) g = firstWithStart hs g := by
  unfold firstWithStart at *
  rw [List.findIdx_append, if_pos h]

theorem first_map_snoc {hs : List ProgHeader} {x : ProgHeader} (hh : ∀ h ∈ hs, Ok32 h) :
    hs.map (firstWithStart (hs ++ [x])) = hs.map (firstWithStart hs) :=
  List.map_congr_left fun g hg => first_snoc (first_lt hg (hh g hg).1)

theorem shared_snoc {hs : List ProgHeader} {x : ProgHeader} (hh : ∀ h ∈ hs, Ok32 h) :
    sharedStarts (hs ++ [x]) = sharedStarts hs + if firstWithStart (hs ++ [x]) x ∈ hs.map (firstWithStart hs) then 1 else 0 := by
  unfold sharedStarts
  rw [List.map_append, first_map_snoc hh, List.map_singleton, eraseDups_snoc, List.length_append]
  have := eraseDups_le (hs.map (firstWithStart hs))
  rw [List.length_map] at this
  split <;> simp <;> omega

theorem after_segment {base : Int} {hs : List ProgHeader} {g : ProgHeader} {d : List U8} {s : Sim} (ha : After base hs s)
    (hh : ∀ h ∈ hs, Ok32 h) (hg : Ok32 g) (hz : g.filesz < 2 ^ 32) :
    Pst (fun _ s' => After base (hs ++ [g]) s') (fun _ s' => owed s' = base + sharedStarts hs)
      (loadSegment (BitVec.ofNat 32 g.paddr) (BitVec.ofNat 32 g.filesz) d s) := by
  have h1 := segment_exact (a := BitVec.ofNat 32 g.paddr) (n := BitVec.ofNat 32 g.filesz) (d := d) (s := s) (by
    rw [ha.keys]
    intro k hk
    obtain ⟨h, -, rfl⟩ := List.mem_map.1 hk
    rfl)
  have h2 := segment_keys (BitVec.ofNat 32 g.paddr) (BitVec.ofNat 32 g.filesz) d s
  have hadd : (BitVec.ofNat 32 g.paddr, (BitVec.ofNat 32 g.filesz).toNat, false) = addsOf g := by
    rw [BitVec.toNat_ofNat, Nat.mod_eq_of_lt hz]; rfl
  have hpa : (BitVec.ofNat 32 g.paddr).toNat = g.paddr := by rw [BitVec.toNat_ofNat, Nat.mod_eq_of_lt hg.2]
  rw [hadd] at h1 h2
  rw [hpa] at h1
  cases e : loadSegment (BitVec.ofNat 32 g.paddr) (BitVec.ofNat 32 g.filesz) d s with
  | ub r => trivial
  | throw x s' => rw [e] at h1; exact h1.trans ha.owed
  | ok u s' =>
    rw [e] at h1 h2
    obtain ⟨i, hi, hlt, hm, ho⟩ := h1
    have hk : Elf.keys s' = (hs ++ [g]).map addsOf := by
      have : Elf.keys s' = Elf.keys s ++ [addsOf g] := h2
      rw [this, ha.keys]; simp
    have hi' : i = firstWithStart (hs ++ [g]) g := by
      rw [hi, ha.keys, ← first_keys hg.2 (hs := hs ++ [g])]
      · simp
      · intro h hm
        rcases List.mem_append.1 hm with hm | hm
        · exact hh h hm
        · simp at hm; rw [hm]; exact hg
    have hlen : (Elf.keys s).length = hs.length := by rw [ha.keys]; simp
    rw [hlen] at hlt
    have hmi : (Elf.marks s ++ [false])[i]? = some (decide (i ∈ hs.map (firstWithStart hs))) := by
      rw [ha.marks]
      by_cases h : i < hs.length
      · rw [List.getElem?_append_left (by simpa using h)]
        simp [h]
      · have : i = hs.length := by omega
        rw [List.getElem?_append_right (by simpa using by omega)]
        have hni : i ∉ hs.map (firstWithStart hs) := by
          intro hc
          obtain ⟨y, hy, e⟩ := List.mem_map.1 hc
          have := first_lt hy (hh y hy).1
          omega
        simp [this] at hni ⊢
        exact hni
    refine ⟨hk, ?_, ?_⟩
    · rw [hm, ha.marks, List.map_append, first_map_snoc hh, List.map_singleton, ← hi', List.length_append]
      refine set_mark ?_ hlt
      intro k hk
      obtain ⟨y, hy, e⟩ := List.mem_map.1 hk
      have := first_lt hy (hh y hy).1
      omega
    · rw [ho, ha.owed, hmi, shared_snoc hh, ← hi']
      by_cases hc : i ∈ hs.map (firstWithStart hs) <;> simp only [hc, decide_true, decide_false, if_true, if_false] <;> simp
      omega

theorem entries_exact {b : Str} {n i : Nat} {c : U32} {base : Int} {hs : List ProgHeader} {s : Sim} (ha : After base hs s)
    (hh : ∀ h ∈ hs, Ok32 h) :
    Pst (fun _ s' => After base (hs ++ (headersFrom b i n).filter ProgHeader.loadable) s')
      (fun _ s' => ∃ pre, pre <+: (headersFrom b i n).filter ProgHeader.loadable ∧ owed s' = base + sharedStarts (hs ++ pre))
      (loadEntries b b.length (phentsize b) n i (BitVec.ofNat 32 (entryAt b i)) c s) := by
  induction n generalizing i c s hs with
  | zero => 
    show After _ _ _
    simpa [headersFrom] using ha
  | succ n ih =>
    rw [loadEntries_any, offset_toNat, offset_add]
    split
    · rw [headersFrom_succ]
      rcases entry_any b (entryAt b i) c s with hub | ⟨hl, hent⟩ | ⟨hl, hent⟩
      · rw [M.bind_ub hub]; trivial
      · rw [List.filter_cons_of_neg (by simp [hl])]
        rw [M.bind_apply, hent]
        exact ih ha hh
      · rw [List.filter_cons_of_pos hl]
        generalize hg : progHeaderAt b (entryAt b i) = h at hl hent
        have hlt := progHeader_lt b (entryAt b i)
        rw [hg] at hlt
        have hok : Ok32 h := ⟨by simp [ProgHeader.loadable] at hl; omega, hlt.2.2⟩
        unfold fetchSizedByteArray at hent
        by_cases hfi : (BitVec.ofNat 32 h.offset).toNat > b.length ∨ (BitVec.ofNat 32 h.offset + BitVec.ofNat 32 h.filesz).toNat > b.length
        · rw [if_pos hfi] at hent
          simp only [M.throw_apply] at hent
          rw [M.bind_throw hent]
          exact ⟨[], List.nil_prefix, by simpa using ha.owed⟩
        · rw [if_neg hfi] at hent
          simp only [M.pure_apply] at hent
          refine Pst.bind (Q1 := fun _ s1 => After base (hs ++ [h]) s1) ?_ ?_
          · rw [hent]
            refine Pst.bind ((after_segment ha hh hok hlt.2.1).mono (fun _ _ h => h) ?_) ?_
            · intro _ s1 h1
              exact ⟨[], List.nil_prefix, by simpa using h1⟩
            · intro _ s1 h1
              exact h1
          · intro c' s1 h1
            refine (ih h1 ?_).mono ?_ ?_
            · intro x hx
              rcases List.mem_append.1 hx with hx | hx
              · exact hh x hx
              · simp at hx; rw [hx]; exact hok
            · intro _ s2 h2
              simpa using h2
            · rintro _ s2 ⟨pre, hp, ho⟩
              refine ⟨h :: pre, (List.prefix_cons_inj h).2 hp, by simpa using ho⟩
    · exact ⟨[], List.nil_prefix, by simpa using ha.owed⟩

/-- Loading any file into an empty simulator: how many heap blocks are lost. -/
theorem from_exact {b : Str} {s : Sim} (hr : s.regions = []) :
    Pst (fun _ s' => owed s' = owed s + sharedStarts (segmentsOf b))
      (fun _ s' => ∃ pre, pre <+: segmentsOf b ∧ owed s' = owed s + sharedStarts pre) (fromMemory b b.length s) := by
  rw [fromMemory_eq]
  cases headerComplaint b with
  | some m => exact ⟨[], List.nil_prefix, by simp [sharedStarts]⟩
  | none =>
    have h := entries_exact (b := b) (n := phnum b) (i := 0) (c := 0) (hs := []) (base := owed s) (s := s)
      ⟨by simp [keys, hr], by simp [marks, hr], by simp [sharedStarts]⟩ (by simp)
    rw [entryAt_zero, headersFrom_all] at h
    refine Pst.bind (h.mono (fun _ _ h => h) ?_) ?_
    · rintro _ s1 ⟨pre, h1, h2⟩
      exact ⟨pre, h1, by simpa using h2⟩
    · intro c s1 h1
      have h2 : owed s1 = owed s + sharedStarts (segmentsOf b) := by simpa [segmentsOf] using h1.owed
      unfold finish
      split
      · exact ⟨_, List.prefix_refl _, h2⟩
      · exact h2

theorem first_snoc_eq {hs : List ProgHeader} {x : ProgHeader} (hx : 0 < x.filesz) :
    firstWithStart (hs ++ [x]) x = hs.length ↔ ∀ h ∈ hs, ¬ (h.paddr ≤ x.paddr ∧ x.paddr < h.paddr + h.filesz) := by
  unfold firstWithStart
  rw [List.findIdx_append]
  split
  · rename_i hlt
    constructor
    · intro h; omega
    · intro h
      rw [List.findIdx_lt_length] at hlt
      obtain ⟨y, hy, e⟩ := hlt
      exact (h y hy (by simpa using e)).elim
  · rename_i hlt
    rw [List.findIdx_lt_length] at hlt
    constructor
    · intro _ h hm hc
      exact hlt ⟨h, hm, by simpa using hc⟩
    · intro _
      simp [List.findIdx_cons, hx]

theorem shared_zero {hs : List ProgHeader} (hh : ∀ h ∈ hs, Ok32 h) :
    sharedStarts hs = 0 ↔ hs.Pairwise fun h g => ¬ (h.paddr ≤ g.paddr ∧ g.paddr < h.paddr + h.filesz) := by
  suffices H : ∀ rs : List ProgHeader, (∀ h ∈ rs.reverse, Ok32 h) →
      ((sharedStarts rs.reverse = 0 ↔ rs.reverse.Pairwise fun h g => ¬ (h.paddr ≤ g.paddr ∧ g.paddr < h.paddr + h.filesz)) ∧
       (sharedStarts rs.reverse = 0 → rs.reverse.map (firstWithStart rs.reverse) = List.range rs.length)) by
    have := H hs.reverse (by simpa using hh)
    simpa using this.1
  intro rs
  induction rs with
  | nil => intro _; simp [sharedStarts]
  | cons x rs ih =>
    rw [List.reverse_cons]
    generalize hl : rs.reverse = l at ih
    have hlen : rs.length = l.length := by rw [← hl]; simp
    intro hh
    have hh1 : ∀ h ∈ l, Ok32 h := fun h hm => hh h (List.mem_append_left _ hm)
    obtain ⟨i1, i2⟩ := ih hh1
    have hx : 0 < x.filesz := (hh x (by simp)).1
    have hlt := first_lt (hs := l ++ [x]) (g := x) (by simp) hx
    rw [List.length_append] at hlt
    simp at hlt
    rw [shared_snoc hh1]
    have key : sharedStarts l = 0 → (firstWithStart (l ++ [x]) x ∉ l.map (firstWithStart l) ↔ firstWithStart (l ++ [x]) x = l.length) := by
      intro h0
      rw [i2 h0, List.mem_range, hlen]
      omega
    have hz : (sharedStarts l + (if firstWithStart (l ++ [x]) x ∈ l.map (firstWithStart l) then 1 else 0) = 0) ↔
        sharedStarts l = 0 ∧ firstWithStart (l ++ [x]) x ∉ l.map (firstWithStart l) := by
      split <;> rename_i hc <;> simp [hc]
    rw [hz]
    constructor
    · rw [List.pairwise_append]
      constructor
      · rintro ⟨h0, h1⟩
        refine ⟨i1.1 h0, by simp, ?_⟩
        intro h hm g hg
        simp at hg
        subst hg
        exact (first_snoc_eq hx).1 ((key h0).1 h1) h hm
      · rintro ⟨h0, -, h1⟩
        have h0 := i1.2 h0
        exact ⟨h0, (key h0).2 ((first_snoc_eq hx).2 fun h hm => h1 h hm x (by simp))⟩
    · rintro ⟨h0, h1⟩
      rw [List.map_append, first_map_snoc hh1, i2 h0, List.length_cons, List.range_succ, List.map_singleton, (key h0).1 h1, hlen]

theorem segments_ok {b : Str} : ∀ h ∈ segmentsOf b, Ok32 h := by
  intro h hm
  obtain ⟨h1, h2⟩ := List.mem_filter.1 hm
  obtain ⟨i, -, rfl⟩ := List.mem_map.1 h1
  exact ⟨by simp [ProgHeader.loadable] at h2; omega, (progHeader_lt b _).2.2⟩

theorem shared_apart {b : Str} : sharedStarts (segmentsOf b) = 0 ↔ StartsApart b := shared_zero segments_ok

end Verif.Elf
