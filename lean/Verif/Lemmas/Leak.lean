import Verif.Lemmas.Raw
/- Heap accounting, and read-only regions, over histories. -/
namespace Verif.MemSim
open Verif Spec

theorem reaches_find {s : Sim} {a : U32} {n i : Nat} {a' : U32} (h : findMatchingRegion a n s = .ok (i, a') s) :
    Reaches s a n i := by
  unfold findMatchingRegion at h
  split at h
  · cases h
  · rename_i k q hf
    have hfc := findFrom_zero.1 hf
    refine ⟨k, q, hfc, ?_⟩
    split at h
    · rename_i ha
      split at h
      · rename_i hr
        cases h
        simp [ha, hr]
      · cases h
    · rename_i ha
      cases h
      simp [ha]

theorem find_reaches {s : Sim} {a : U32} {n i : Nat} (h : Reaches s a n i) :
    ∃ a', findMatchingRegion a n s = .ok (i, a') s := by
  obtain ⟨k, q, hf, h⟩ := h
  unfold findMatchingRegion
  rw [findFrom_zero.2 hf]
  simp only
  split
  · rename_i ha
    simp only [ha, if_true] at h
    rw [h]
    exact ⟨_, rfl⟩
  · rename_i ha
    simp only [ha] at h
    simp at h
    rw [h]
    exact ⟨_, rfl⟩

/-- A write that is handed to a read-only region raises the bus error and changes nothing. -/
theorem writeN_readOnly {s : Sim} {a : U32} {n i v : Nat} {r : Region} (h : Reaches s a n i)
    (hr : s.regions[i]? = some r) (hro : r.isReadOnly = true) : writeN n a v s = .throw ⟨.busError, []⟩ s := by
  obtain ⟨a', hf⟩ := find_reaches h
  simp [writeN, getDataPointer, hf, regionAt_eq hr, hro]

/-- What calls other than image loads and uninit can do to a region. -/
structure SafeRel (r r' : Region) : Prop where
  shape : shape r' = shape r
  keep : r.isReadOnly = true → r'.isReadOnly = true ∧ r'.data = r.data
  len : r'.data.length = r.data.length

theorem SafeRel.refl (r : Region) : SafeRel r r := ⟨rfl, fun h => ⟨h, rfl⟩, rfl⟩
theorem SafeRel.trans (a b c : Region) (h : SafeRel a b) (h' : SafeRel b c) : SafeRel a c :=
  ⟨h'.shape.trans h.shape, fun e => ⟨(h'.keep (h.keep e).1).1, ((h'.keep (h.keep e).1).2).trans (h.keep e).2⟩,
   h'.len.trans h.len⟩

theorem GdpPost.extends {s s' : Sim} (h : GdpPost s s') : Extends SafeRel s s' := by
  rcases h.regions with h | ⟨i, r, cs, cs', h1, h2, h3⟩
  · exact Extends.refl SafeRel.refl h
  · exact Extends.set SafeRel.refl h1 h3 ⟨rfl, fun h => ⟨h, rfl⟩, rfl⟩

theorem call_extends {c : Call} {s s' : Sim} (h : Step c s s') (hc : loadsOrClears c = false) :
    Extends SafeRel s s' := by
  refine Post.step h ?_
  have hself : Extends SafeRel s s := Extends.refl SafeRel.refl rfl
  cases c with
  | createRegion b n =>
    rcases createRegion_cases b n s with ⟨k, h⟩ | h <;> simp only [Call.run, h]
    · exact Extends.refl SafeRel.refl rfl
    · exact Extends.append SafeRel.refl rfl
  | createAlias al rd n =>
    rcases createAlias_cases al rd n s with ⟨k, h⟩ | ⟨k, h, -⟩ | ⟨j, a', t, -, -, h⟩ | ⟨u, h, -⟩ <;> simp only [Call.run, h]
    · exact Extends.refl SafeRel.refl rfl
    · exact Extends.refl SafeRel.refl rfl
    · exact Extends.append SafeRel.refl rfl
    · trivial
  | makeReadOnly b =>
    rcases makeRegionReadOnly_cases b s with h | ⟨u, h⟩ | ⟨i, a', r, -, hr, ⟨-, h⟩ | ⟨-, h⟩⟩ <;> simp only [Call.run, h]
    · exact hself
    · trivial
    · exact Extends.set SafeRel.refl hr rfl ⟨rfl, fun _ => ⟨rfl, rfl⟩, rfl⟩
    · exact Extends.set SafeRel.refl hr rfl ⟨rfl, fun _ => ⟨rfl, rfl⟩, rfl⟩
  | load => cases hc
  | flashImage => cases hc
  | read w a =>
    exact Post.bind (read_post.mono fun _ h => h.extends) (fun _ _ _ h => h)
  | write w a v =>
    simp only [Call.run, write_eq]
    refine writeN_post.mono ?_
    rintro s1 ⟨hq, h | ⟨i, r, d, hr, hro, h⟩⟩
    · exact Extends.refl SafeRel.refl h
    · refine Extends.set SafeRel.refl hr h ⟨rfl, fun e => (by rw [hro] at e; cases e), ?_⟩
      have hlt : i < s.regions.length := (List.getElem?_eq_some_iff.1 hr).1
      have hg := hq.regions
      rw [h] at hg
      obtain ⟨r', e1, e2⟩ := forall₂_get hg hr
      rw [List.getElem?_set_self hlt] at e1
      cases e1
      exact e2.len
  | memoryMap =>
    refine Post.bind ?_ (fun _ _ _ h => h)
    rcases xml_raw s with h | h | ⟨text, h⟩ <;> rw [h]
    · exact Extends.refl SafeRel.refl rfl
    · trivial
    · exact Extends.refl SafeRel.refl rfl
  | mapForWrite a n => exact Post.bind (gdp_post.mono fun _ h => h.extends) (fun _ _ _ h => h)
  | mapForRead a n => exact Post.bind (gdp_post.mono fun _ h => h.extends) (fun _ _ _ h => h)
  | readCount a =>
    refine Post.bind ?_ (fun _ _ _ h => h)
    rcases readCount_raw a s with ⟨v, h⟩ | h | ⟨u, h⟩ <;> rw [h]
    · exact hself
    · exact hself
    · trivial
  | setBreakpoint a n =>
    rcases setWatchpoint_raw a n WATCHPOINT_BREAKPOINT s with ⟨k, h⟩ | ⟨e, k, h⟩ | ⟨u, h⟩ | ⟨i, r, ws, al, k, hr, h, -⟩ <;>
      simp only [Call.run, setHardwareBreakpoint, h]
    · exact Extends.refl SafeRel.refl rfl
    · exact Extends.refl SafeRel.refl rfl
    · trivial
    · exact Extends.set SafeRel.refl hr rfl ⟨rfl, fun h => ⟨h, rfl⟩, rfl⟩
  | setWatchpoint a n t =>
    rcases setWatchpoint_raw a n t s with ⟨k, h⟩ | ⟨e, k, h⟩ | ⟨u, h⟩ | ⟨i, r, ws, al, k, hr, h, -⟩ <;>
      simp only [Call.run, setHardwareWatchpoint, h]
    · exact Extends.refl SafeRel.refl rfl
    · exact Extends.refl SafeRel.refl rfl
    · trivial
    · exact Extends.set SafeRel.refl hr rfl ⟨rfl, fun h => ⟨h, rfl⟩, rfl⟩
  | clearBreakpoint a n =>
    rcases clearWatchpoint_raw a n WATCHPOINT_BREAKPOINT s with h | ⟨e, h⟩ | ⟨u, h⟩ | ⟨i, r, ws, hr, h⟩ <;>
      simp only [Call.run, clearHardwareBreakpoint, h]
    · exact hself
    · exact hself
    · trivial
    · exact Extends.set SafeRel.refl hr rfl ⟨rfl, fun h => ⟨h, rfl⟩, rfl⟩
  | clearWatchpoint a n t =>
    rcases clearWatchpoint_raw a n t s with h | ⟨e, h⟩ | ⟨u, h⟩ | ⟨i, r, ws, hr, h⟩ <;>
      simp only [Call.run, clearHardwareWatchpoint, h]
    · exact hself
    · exact hself
    · trivial
    · exact Extends.set SafeRel.refl hr rfl ⟨rfl, fun h => ⟨h, rfl⟩, rfl⟩
  | wasHit => exact Extends.refl SafeRel.refl rfl
  | uninit => cases hc

theorem hist_extends {cs : List Call} {s s' : Sim} (h : Hist s cs s') (hc : ∀ c ∈ cs, loadsOrClears c = false) :
    Extends SafeRel s s' := by
  induction h with
  | nil s => exact Extends.refl SafeRel.refl rfl
  | cons h t ih =>
    exact (call_extends h (hc _ (by simp))).trans SafeRel.trans (ih fun c hm => hc c (by simp [hm]))

/-! ### Heap blocks -/

/-- Blocks live beyond those the simulator holds. -/
def xmlBlocks (x : Option Str) : Int := if x.isSome then 1 else 0
def owed (s : Sim) : Int := s.heap.live - blocksOf s.regions - xmlBlocks s.xml

theorem blocksOf_set {rs : List Region} {i : Nat} {r r' : Region} (h : rs[i]? = some r) :
    blocksOf (rs.set i r') + r.blocks = blocksOf rs + r'.blocks := by
  induction rs generalizing i with
  | nil => simp at h
  | cons x xs ih =>
    cases i with
    | zero => simp at h; subst h; simp [blocksOf]; omega
    | succ i =>
      simp at h
      have := ih h
      simp only [blocksOf, List.set_cons_succ, List.map_cons, List.sum_cons] at *
      omega

theorem blocksOf_append (rs : List Region) (x : Region) : blocksOf (rs ++ [x]) = blocksOf rs + x.blocks := by
  simp [blocksOf]

theorem Quiet.owed {s s' : Sim} (h : Quiet s s') : owed s' = owed s := by
  unfold MemSim.owed
  rw [h.heap, h.xml]
  have : ∀ {xs ys : List Region}, List.Forall₂ AccessRel xs ys → blocksOf ys = blocksOf xs := by
    intro xs ys hf
    induction hf with
    | nil => rfl
    | cons h _ ih => simp only [blocksOf, List.map_cons, List.sum_cons] at *; rw [ih, h.blocks]
  rw [this h.regions]

theorem owed_bump (s : Sim) (k : Nat) (l : Int) : owed (bumpHeap s k l) = owed s + l := by
  simp only [owed, bumpHeap]; omega

theorem createRegion_owed (b n : U32) (s : Sim) : Post (createRegion b n s) (fun s' => owed s' = owed s) := by
  rcases createRegion_cases b n s with ⟨k, h⟩ | h <;> rw [h]
  · simp [Post, owed_bump]
  · simp only [Post, owed, bumpHeap, blocksOf_append, newRegion, Region.blocks]
    simp
    omega

theorem makeReadOnly_owed {b : U32} {s : Sim}
    (hfresh : ∀ i r, Reaches s b 1 i → s.regions[i]? = some r → r.readCounts = none) :
    Post (makeRegionReadOnly b s) (fun s' => owed s' = owed s) := by
  rcases makeRegionReadOnly_cases b s with h | ⟨u, h⟩ | ⟨i, a', r, hf, hr, ⟨-, h⟩ | ⟨-, h⟩⟩ <;> rw [h]
  · exact rfl
  · trivial
  · have := blocksOf_set (r' := { r with isReadOnly := true }) hr
    simp only [Post, owed, bumpHeap, Region.blocks] at *
    omega
  · have := blocksOf_set (r' := { r with isReadOnly := true, readCounts := some (List.replicate (r.size.toNat / 2) 0) }) hr
    have h0 := hfresh i r (reaches_find hf) hr
    simp only [Post, owed, bumpHeap, Region.blocks, h0] at *
    simp at this ⊢
    omega

theorem freeLastRegion_owed (s : Sim) : Post (freeLastRegion s) (fun s' => owed s' = owed s) := by
  unfold freeLastRegion
  cases h : s.regions.getLast? with
  | none => exact rfl
  | some r =>
    simp only [Post, owed]
    have he : s.regions.dropLast ++ [r] = s.regions := by
      obtain ⟨ys, e⟩ := List.getLast?_eq_some_iff.1 h
      rw [e]; simp
    have := blocksOf_append s.regions.dropLast r
    rw [he] at this
    omega

theorem reaches_append {s s' : Sim} {x : Region} (hs' : s'.regions = s.regions ++ [x]) (hx : x.isAlias = false) {a : U32} {n i : Nat}
    (h : Reaches s' a n i) : Reaches s a n i ∨ i = s.regions.length := by
  obtain ⟨k, q, hf, h⟩ := h
  rw [hs'] at hf
  by_cases hm : ∃ r ∈ s.regions, Covers r a n
  · obtain ⟨r, hr, hc⟩ := hm
    obtain ⟨k', q', hf'⟩ := FirstCover.exists_of_mem hr hc
    obtain ⟨rfl, rfl⟩ := (firstCover_append (x := x) hf').unique hf
    exact .inl ⟨k', q', hf', h⟩
  · right
    obtain ⟨h1, h2, -⟩ := hf
    rw [List.getElem?_append] at h1
    split at h1
    · exact absurd ⟨q, List.mem_of_getElem? h1, h2⟩ hm
    · rename_i hlt
      have : k - s.regions.length < [x].length := (List.getElem?_eq_some_iff.1 h1).1
      simp at this
      have hk : k = s.regions.length := by omega
      subst hk
      simp at h1
      subst h1
      simp [hx] at h
      exact h.symm

theorem forall₂_flip {R : Region → Region → Prop} : ∀ {xs ys : List Region}, List.Forall₂ R xs ys →
    List.Forall₂ (fun a b => R b a) ys xs
  | _, _, .nil => .nil
  | _, _, .cons h t => .cons h (forall₂_flip t)

theorem Quiet.sameShapes {s s' : Sim} (h : Quiet s s') : SameShapes s.regions s'.regions := by
  have : ∀ {xs ys : List Region}, List.Forall₂ AccessRel xs ys → SameShapes xs ys := by
    intro xs ys hf
    induction hf with
    | nil => rfl
    | cons h _ ih => simp only [SameShapes, List.map_cons] at *; rw [ih, h.shape]
  exact this h.regions

theorem Quiet.reaches {s s' : Sim} (h : Quiet s s') {a : U32} {n i : Nat} (hr : Reaches s' a n i) : Reaches s a n i := by
  obtain ⟨k, q, hf, hi⟩ := hr
  obtain ⟨q', hf', e⟩ := hf.sameShapes h.sameShapes.symm
  refine ⟨k, q', hf', ?_⟩
  obtain ⟨-, -, e3, e4, -⟩ := shape_eq e
  rwa [← e3, ← e4]

theorem Post.tryCatch {m : M Sim α} {f : Exn → M Sim α} {s : Sim} {P : Sim → Prop}
    (hm : Post (m s) P) (hf : ∀ e s', P s' → Post (f e s') P) : Post (M.tryCatch m f s) P := by
  rw [M.tryCatch_apply]
  cases h : m s with
  | ok a s' => rw [h] at hm; exact hm
  | throw e s' => rw [h] at hm; exact hf e s' hm
  | ub r => trivial

theorem flashImage_owed {img : List U8} {n : U32} {s : Sim}
    (hfresh : ∀ i r, Reaches s 0 1 i → s.regions[i]? = some r → r.readCounts = none) :
    Post (createRegionsFromFlashImage img n s) (fun s' => owed s' = owed s) := by
  unfold createRegionsFromFlashImage
  split
  · exact rfl
  · refine Post.bind (createRegion_owed _ _ s) ?_
    intro _ s1 h1 o1
    have hs1 : s1.regions = s.regions ++ [newRegion FLASH_BASE_ADDRESS n] := by
      rcases createRegion_cases FLASH_BASE_ADDRESS n s with ⟨k, h⟩ | h <;> rw [h] at h1 <;> cases h1
      rfl
    unfold loadFromFlashImage
    have hq := loadWords_post (src := img) (n := n.toNat) (a := FLASH_BASE_ADDRESS) (s := s1)
    refine Post.bind (hq.mono fun _ h => h.owed.trans o1) ?_
    intro _ s2 h2 o2
    rw [h2] at hq
    have hfresh2 : ∀ i r, Reaches s2 0 1 i → s2.regions[i]? = some r → r.readCounts = none := by
      intro i r hi hr
      obtain ⟨r1, e1, e2⟩ := forall₂_get (forall₂_flip hq.regions) hr
      have hi1 := hq.reaches hi
      have : r1.readCounts = none := by
        rcases reaches_append hs1 rfl hi1 with hh | rfl
        · have hlt : i < s.regions.length ∨ ¬ i < s.regions.length := Nat.lt_or_ge _ _ |>.imp id (by omega)
          rw [hs1, List.getElem?_append] at e1
          split at e1
          · exact hfresh i r1 hh e1
          · rename_i hn
            have := List.mem_of_getElem? e1
            simp at this
            rw [this]; rfl
        · rw [hs1] at e1
          simp at e1
          rw [← e1]; rfl
      have := e2.counts
      simp_all
    refine Post.tryCatch ?_ ?_
    · refine Post.bind ((makeReadOnly_owed hfresh2).mono fun _ h => h.trans o2) ?_
      intro _ s3 _ o3
      split
      · trivial
      · exact (createRegion_owed _ _ s3).mono fun _ h => h.trans o3
    · intro e s4 o4
      refine Post.bind ((freeLastRegion_owed s4).mono fun _ h => h.trans o4) ?_
      intro _ s5 _ o5
      exact o5

theorem call_owed {c : Call} {s s' : Sim} (h : Step c s s') (hc : Fresh c s) : owed s' = owed s := by
  refine Post.step (P := fun s' => owed s' = owed s) h ?_
  cases c with
  | createRegion b n => exact createRegion_owed b n s
  | createAlias al rd n =>
    rcases createAlias_cases al rd n s with ⟨k, h⟩ | ⟨k, h, -⟩ | ⟨j, a', t, -, -, h⟩ | ⟨u, h, -⟩ <;> simp only [Call.run, h]
    · simp [Post, owed_bump]
    · simp [Post, owed_bump]
    · simp only [Post, owed, bumpHeap, blocksOf_append, newAlias, Region.blocks]
      simp
      omega
    · trivial
  | makeReadOnly b => exact makeReadOnly_owed hc
  | load b img n => exact loadWords_post.mono fun _ h => h.owed
  | flashImage img n => exact flashImage_owed hc
  | read w a =>
    exact Post.bind (read_post.mono fun _ h => h.quiet.owed) (fun _ _ _ h => h)
  | write w a v =>
    simp only [Call.run, write_eq]
    exact writeN_post.mono fun _ h => h.1.owed
  | memoryMap =>
    refine Post.bind ?_ (fun _ _ _ h => h)
    rcases xml_raw s with h | h | ⟨text, h⟩ <;> rw [h]
    · simp [Post, owed_bump]
    · trivial
    · simp only [Post, owed, bumpHeap]
      cases s.xml <;> simp [xmlBlocks] <;> omega
  | mapForWrite a n => exact Post.bind (gdp_post.mono fun _ h => h.quiet.owed) (fun _ _ _ h => h)
  | mapForRead a n => exact Post.bind (gdp_post.mono fun _ h => h.quiet.owed) (fun _ _ _ h => h)
  | readCount a =>
    refine Post.bind ?_ (fun _ _ _ h => h)
    rcases readCount_raw a s with ⟨v, h⟩ | h | ⟨u, h⟩ <;> rw [h] <;> simp [Post]
  | setBreakpoint a n =>
    rcases setWatchpoint_raw a n WATCHPOINT_BREAKPOINT s with ⟨k, h⟩ | ⟨e, k, h⟩ | ⟨u, h⟩ | ⟨i, r, ws, al, k, hr, h, hal⟩ <;>
      simp only [Call.run, setHardwareBreakpoint, h]
    · simp [Post, owed_bump]
    · simp [Post, owed_bump]
    · trivial
    · have := blocksOf_set (r' := { r with watch := ws, watchAlloc := al }) hr
      simp only [Post, owed, bumpHeap, Region.blocks, hal] at *
      by_cases h0 : r.watchAlloc = 0 <;> simp only [h0, if_true, if_false] at this ⊢ <;> omega
  | setWatchpoint a n t =>
    rcases setWatchpoint_raw a n t s with ⟨k, h⟩ | ⟨e, k, h⟩ | ⟨u, h⟩ | ⟨i, r, ws, al, k, hr, h, hal⟩ <;>
      simp only [Call.run, setHardwareWatchpoint, h]
    · simp [Post, owed_bump]
    · simp [Post, owed_bump]
    · trivial
    · have := blocksOf_set (r' := { r with watch := ws, watchAlloc := al }) hr
      simp only [Post, owed, bumpHeap, Region.blocks, hal] at *
      by_cases h0 : r.watchAlloc = 0 <;> simp only [h0, if_true, if_false] at this ⊢ <;> omega
  | clearBreakpoint a n =>
    rcases clearWatchpoint_raw a n WATCHPOINT_BREAKPOINT s with h | ⟨e, h⟩ | ⟨u, h⟩ | ⟨i, r, ws, hr, h⟩ <;>
      simp only [Call.run, clearHardwareBreakpoint, h]
    · exact rfl
    · exact rfl
    · trivial
    · have := blocksOf_set (r' := { r with watch := ws }) hr
      simp only [Post, owed, Region.blocks] at *
      omega
  | clearWatchpoint a n t =>
    rcases clearWatchpoint_raw a n t s with h | ⟨e, h⟩ | ⟨u, h⟩ | ⟨i, r, ws, hr, h⟩ <;>
      simp only [Call.run, clearHardwareWatchpoint, h]
    · exact rfl
    · exact rfl
    · trivial
    · have := blocksOf_set (r' := { r with watch := ws }) hr
      simp only [Post, owed, Region.blocks] at *
      omega
  | wasHit => exact rfl
  | uninit =>
    simp only [Post, Call.run, uninit, owed, blocksOf, xmlBlocks]
    simp

theorem hist_owed {cs : List Call} {s s' : Sim} (h : HistWith Fresh s cs s') : owed s' = owed s := by
  induction h with
  | nil s => rfl
  | cons hc h t ih => exact ih.trans (call_owed h hc)

/-- Counters that are being replaced are lost. -/
theorem makeReadOnly_lost {b : U32} {s : Sim} {i : Nat} {r : Region} (hi : Reaches s b 1 i) (hr : s.regions[i]? = some r)
    (hc : r.readCounts.isSome) (hok : s.heap.fails s.heap.next = false) :
    Post (makeRegionReadOnly b s) (fun s' => owed s' = owed s + 1) := by
  obtain ⟨a1, hf1⟩ := find_reaches hi
  rcases makeRegionReadOnly_cases b s with h | ⟨u, h⟩ | ⟨j, a', r', hf, hr', ⟨hx, h⟩ | ⟨-, h⟩⟩
  · exfalso
    unfold makeRegionReadOnly at h
    simp only [M.bind_apply, hf1, regionAt_eq hr, setRegion, M.modify_apply, throwingZeroedMalloc_eq, bumpHeap] at h
    simp [hok] at h
  · rw [h]; trivial
  · rw [hok] at hx; cases hx
  · rw [hf1] at hf
    cases hf
    rw [hr] at hr'
    cases hr'
    rw [h]
    have := blocksOf_set (r' := { r with isReadOnly := true, readCounts := some (List.replicate (r.size.toNat / 2) 0) }) hr
    obtain ⟨cs, hcs⟩ := Option.isSome_iff_exists.1 hc
    simp only [Post, owed, bumpHeap, Region.blocks, hcs] at *
    simp at this ⊢
    omega

/-- Marking memory read-only without losing counters. -/
theorem makeReadOnly_kept {b : U32} {s : Sim} (hl : ¬ Loses (.makeReadOnly b) s) :
    Post (makeRegionReadOnly b s) (fun s' => owed s' = owed s) := by
  by_cases hok : s.heap.fails s.heap.next = false
  · refine makeReadOnly_owed fun i r hi hr => ?_
    cases hc : r.readCounts with
    | none => rfl
    | some cs => exact (hl ⟨i, r, hi, hr, by simp [hc], hok⟩).elim
  · rcases makeRegionReadOnly_cases b s with h | ⟨u, h⟩ | ⟨i, a', r, hf, hr, ⟨-, h⟩ | ⟨hx, h⟩⟩
    · rw [h]; rfl
    · rw [h]; trivial
    · rw [h]
      have := blocksOf_set (r' := { r with isReadOnly := true }) hr
      simp only [Post, owed, bumpHeap, Region.blocks] at *
      omega
    · exact (hok hx).elim

theorem not_loses {c : Call} {s : Sim} (h : Fresh c s) : ¬ Loses c s := by
  cases c with
  | makeReadOnly b =>
    rintro ⟨i, r, h1, h2, h3, -⟩
    rw [h i r h1 h2] at h3
    cases h3
  | _ => exact fun h => h

theorem call_kept {c : Call} {s s' : Sim} (hc : FlashApart c s) (hl : ¬ Loses c s) (h : Step c s s') : owed s' = owed s := by
  cases c with
  | makeReadOnly b => exact Post.step (P := fun s' => owed s' = owed s) h (makeReadOnly_kept hl)
  | flashImage => exact call_owed h hc
  | _ => exact call_owed h trivial

theorem call_lost {c : Call} {s s' : Sim} (hl : Loses c s) (h : Step c s s') : owed s' = owed s + 1 := by
  cases c with
  | makeReadOnly b =>
    obtain ⟨i, r, h1, h2, h3, h4⟩ := hl
    exact Post.step (P := fun s' => owed s' = owed s + 1) h (makeReadOnly_lost h1 h2 h3 h4)
  | _ => exact hl.elim

theorem losing_owed {cs : List Call} {s s' : Sim} {k : Nat} (h : Losing s cs s' k) : owed s' = owed s + k := by
  induction h with
  | nil s => simp
  | keeps hc hl h t ih => rw [ih, call_kept hc hl h]
  | loses hc hl h t ih => rw [ih, call_lost hl h]; omega

theorem losing_of_hist {cs : List Call} {s s' : Sim} (h : HistWith FlashApart s cs s') : ∃ k, Losing s cs s' k := by
  induction h with
  | nil s => exact ⟨0, .nil s⟩
  | @cons s s1 s2 c cs hc h t ih =>
    obtain ⟨k, hk⟩ := ih
    by_cases hl : Loses c s
    · exact ⟨k + 1, .loses hc hl h hk⟩
    · exact ⟨k, .keeps hc hl h hk⟩

theorem losing_zero {cs : List Call} {s s' : Sim} {k : Nat} (h : Losing s cs s' k) (hk : k = 0) :
    HistWith (fun c s => ¬ Loses c s) s cs s' := by
  induction h with
  | nil s => exact .nil s
  | keeps hc hl h t ih => exact .cons hl h (ih hk)
  | loses => omega

theorem losing_none {cs : List Call} {s s' : Sim} (h : HistWith FlashApart s cs s') (hl : HistWith (fun c s => ¬ Loses c s) s cs s') :
    Losing s cs s' 0 := by
  induction h with
  | nil s => exact .nil s
  | @cons s s1 s2 c cs hc h t ih =>
    cases hl with
    | cons hl' h' t' =>
      have : ∀ {x y : Sim}, Step c s x → Step c s y → x = y := by
        rintro x y (⟨u, e⟩ | ⟨u, e⟩) (⟨v, f⟩ | ⟨v, f⟩) <;> rw [e] at f <;> cases f <;> rfl
      have := this h h'
      subst this
      exact .keeps hc hl' h (ih t')

end Verif.MemSim
