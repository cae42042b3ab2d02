import Verif.Lemmas.Observe
/- The effect of every call on break/watchpoints, the hit count and read counts. -/
namespace Verif.MemSim
open Verif Spec

theorem read_step {w : Width} {a : U32} {s s' : Sim} (h : Step (.read w a) s s') :
    (∃ v, readN w.bytes a s = .ok v s') ∨ ∃ e, readN w.bytes a s = .throw e s' := by
  rcases h with ⟨u, h⟩ | ⟨e, h⟩ <;> simp only [Call.run, M.bind_apply, read_eq] at h <;>
    cases hr : readN w.bytes a s <;> rw [hr] at h <;> simp_all

theorem write_step {w : Width} {a : U32} {v : BitVec w.bits} {s s' : Sim} (h : Step (.write w a v) s s') :
    (∃ u, writeN w.bytes a v.toNat s = .ok u s') ∨ ∃ e, writeN w.bytes a v.toNat s = .throw e s' := by
  rcases h with ⟨u, h⟩ | ⟨e, h⟩ <;> simp only [Call.run, write_eq] at h
  · exact .inl ⟨u, h⟩
  · exact .inr ⟨e, h⟩

theorem map_step {a n : U32} {s s' : Sim} (h : Step (.mapForRead a n) s s') :
    (∃ v, getDataPointer a n.toNat READING false s = .ok v s') ∨ ∃ e, getDataPointer a n.toNat READING false s = .throw e s' := by
  rcases h with ⟨u, h⟩ | ⟨e, h⟩ <;> simp only [Call.run, mapForRead, M.bind_apply] at h <;>
    cases hr : getDataPointer a n.toNat READING false s <;> rw [hr] at h <;> simp_all

theorem makeReadOnly_same {f : Region → β} {d : β} (hf : ∀ r c, f { r with isReadOnly := true, readCounts := c } = f r)
    (b : U32) (s : Sim) : Post (makeRegionReadOnly b s) (fun s' => s'.hits = s.hits ∧ Same f d s s') := by
  rcases makeRegionReadOnly_cases b s with h | ⟨u, h⟩ | ⟨i, a', r, -, hr, ⟨-, h⟩ | ⟨-, h⟩⟩ <;> rw [h]
  · exact ⟨rfl, Same.refl rfl⟩
  · trivial
  · exact ⟨rfl, Same.set hr rfl (hf r r.readCounts)⟩
  · exact ⟨rfl, Same.set hr rfl (hf r _)⟩

theorem freeLast_map (s : Sim) : Post (freeLastRegion s) (fun s' => s'.hits = s.hits ∧
    s'.regions = s.regions.dropLast) := by
  unfold freeLastRegion
  cases h : s.regions.getLast? with
  | none => simp only [Post]; rw [List.getLast?_eq_none_iff] at h; simp [h]
  | some r => exact ⟨rfl, rfl⟩

/-- Setting up a flash image leaves the break/watchpoints of the regions that were there, and adds none. -/
theorem flash_same (img : List U8) (n : U32) (s : Sim) :
    Post (createRegionsFromFlashImage img n s) (fun s' => s'.hits = s.hits ∧ Same Region.watch [] s s') := by
  unfold createRegionsFromFlashImage
  split
  · exact ⟨rfl, Same.refl rfl⟩
  · refine Post.bind (createRegion_same obs_watch _ _ s) ?_
    rintro _ s1 h1 ⟨o1, -⟩
    have hs1 : s1.regions = s.regions ++ [newRegion FLASH_BASE_ADDRESS n] := by
      rcases createRegion_cases FLASH_BASE_ADDRESS n s with ⟨k, h⟩ | h <;> rw [h] at h1 <;> cases h1
      rfl
    have hw1 : s1.regions.map Region.watch = s.regions.map Region.watch ++ [[]] := by rw [hs1]; simp [newRegion]
    unfold loadFromFlashImage
    have hq := loadWords_data (src := img) (n := n.toNat) (a := FLASH_BASE_ADDRESS) (s := s1)
    have key : ∀ t : Sim, DataOnly s1 t → t.hits = s.hits ∧ t.regions.map Region.watch = s.regions.map Region.watch ++ [[]] := by
      intro t h
      refine ⟨h.hits.trans o1, ?_⟩
      obtain ⟨k, e⟩ := h.same obs_watch
      have hl : t.regions.length = s1.regions.length := (forall₂_length h.regions).symm
      have : k = 0 := by
        have := congrArg List.length e
        simp at this
        omega
      rw [e, hw1, this]; simp
    refine Post.bind (hq.mono fun t h => ⟨(key t h).1, 1, (key t h).2⟩) ?_
    rintro _ s2 h2 -
    rw [h2] at hq
    obtain ⟨k1, k2⟩ := key s2 hq
    have hfin : ∀ t : Sim, t.hits = s2.hits ∧ Same Region.watch [] s2 t → t.hits = s.hits ∧ Same Region.watch [] s t :=
      fun t h => ⟨h.1.trans k1, Same.trans ⟨1, k2⟩ h.2⟩
    -- inside the try block the list of watch tables keeps its length until the last call succeeds
    simp only [M.tryCatch_apply, M.bind_apply]
    have hro := makeReadOnly_same (f := Region.watch) (d := []) (fun _ _ => rfl) FLASH_BASE_ADDRESS s2
    have hrs : Post (makeRegionReadOnly FLASH_BASE_ADDRESS s2) (fun t => t.regions.map Region.watch = s2.regions.map Region.watch) := by
      rcases makeRegionReadOnly_cases FLASH_BASE_ADDRESS s2 with h | ⟨u, h⟩ | ⟨i, a', r, -, hr, ⟨-, h⟩ | ⟨-, h⟩⟩ <;> rw [h]
      · exact rfl
      · trivial
      · exact map_set_same (f := Region.watch) hr rfl
      · exact map_set_same (f := Region.watch) hr rfl
    have hdrop : ∀ t : Sim, t.hits = s.hits → t.regions.map Region.watch = s.regions.map Region.watch ++ [[]] →
        ∀ e : Exn, Post ((do freeLastRegion; M.rethrow e : M Sim Unit) t) (fun s' => s'.hits = s.hits ∧ Same Region.watch [] s s') := by
      intro t ht1 ht2 e
      refine Post.bind ((freeLast_map t).mono ?_) (fun _ _ _ h => h)
      rintro t' ⟨g1, g2⟩
      refine ⟨g1.trans ht1, 0, ?_⟩
      rw [g2, List.map_dropLast, ht2]
      simp
    cases h3 : makeRegionReadOnly FLASH_BASE_ADDRESS s2 with
    | ub u => trivial
    | throw e s3 =>
      rw [h3] at hro hrs
      exact hdrop s3 (hro.1.trans k1) (hrs.trans k2) e
    | ok v s3 =>
      rw [h3] at hro hrs
      by_cases hlen : img.length < 4
      · simp only [if_pos hlen]; trivial
      · simp only [if_neg hlen]
        have hc := createRegion_same obs_watch (BitVec.ofNat 32 (leVal (img.take 4)) &&& RAM_ADDRESS_MASK)
          (BitVec.ofNat 32 (leVal (img.take 4)) - (BitVec.ofNat 32 (leVal (img.take 4)) &&& RAM_ADDRESS_MASK)) s3
        rcases createRegion_cases (BitVec.ofNat 32 (leVal (img.take 4)) &&& RAM_ADDRESS_MASK)
          (BitVec.ofNat 32 (leVal (img.take 4)) - (BitVec.ofNat 32 (leVal (img.take 4)) &&& RAM_ADDRESS_MASK)) s3 with ⟨k, h⟩ | h <;>
            rw [h] at hc <;> rw [h]
        · exact hdrop _ (hc.1.trans (hro.1.trans k1)) (hrs.trans k2) _
        · exact hfin _ ⟨hc.1.trans hro.1, Same.trans hro.2 hc.2⟩

theorem counted_same_watch {s : Sim} {i off n : Nat} {r : Region} {t : U32} (hr : s.regions[i]? = some r) :
    Same Region.watch [] s (counted s i r off n t) := by
  unfold counted
  split
  · split
    · exact Same.refl rfl
    · exact Same.set hr rfl rfl
  · exact Same.refl rfl

theorem Same.congr {f : Region → β} {d : β} {s t t' : Sim} (h : Same f d s t) (e : t'.regions = t.regions) : Same f d s t' := by
  obtain ⟨k, h⟩ := h; exact ⟨k, by rw [e]; exact h⟩

/-- Calls that neither set nor clear break/watchpoints. -/
theorem watch_same {c : Call} {s s' : Sim} (hs : Sound s) (h : Step c s s')
    (hc : match c with
      | .setBreakpoint .. | .setWatchpoint .. | .clearBreakpoint .. | .clearWatchpoint .. | .uninit => False
      | _ => True) : Same Region.watch [] s s' := by
  cases c with
  | createRegion b n => exact (Post.step h (same_call obs_watch _ _ trivial)).2
  | createAlias al rd n => exact (Post.step h (same_call obs_watch _ _ trivial)).2
  | load b img n => exact (Post.step h (same_call obs_watch _ _ trivial)).2
  | memoryMap => exact (Post.step h (same_call obs_watch _ _ trivial)).2
  | mapForWrite a n => exact (Post.step h (same_call obs_watch _ _ trivial)).2
  | readCount a => exact (Post.step h (same_call obs_watch _ _ trivial)).2
  | makeReadOnly b => exact (Post.step h (makeReadOnly_same (fun _ _ => rfl) _ _)).2
  | flashImage img n => exact (Post.step h (flash_same _ _ _)).2
  | read w a =>
    by_cases hm : Mapped s a w.bytes
    · obtain ⟨i, r, off, ht⟩ := target_of_mapped hs hm
      have hr := (ht.info hs).get
      rcases read_step h with ⟨v, h⟩ | ⟨e, h⟩ <;> rw [readN_eq hs ht] at h <;> split at h <;> try (cases h; done)
      all_goals split at h <;> cases h <;> exact (counted_same_watch hr).congr rfl
    · rcases read_step h with ⟨v, h⟩ | ⟨e, h⟩ <;> rw [readN_unmapped hm] at h <;> cases h
      exact Same.refl rfl
  | write w a v =>
    by_cases hm : Mapped s a w.bytes
    · obtain ⟨i, r, off, ht⟩ := target_of_mapped hs hm
      have hr := (ht.info hs).get
      rcases write_step h with ⟨v, h⟩ | ⟨e, h⟩ <;> rw [writeN_eq hs ht] at h <;> split at h
      · cases h
      · split at h <;> cases h
        exact Same.set hr rfl rfl
      · cases h; exact Same.refl rfl
      · split at h <;> cases h
    · rcases write_step h with ⟨v, h⟩ | ⟨e, h⟩ <;> rw [writeN_unmapped hm] at h <;> cases h
      exact Same.refl rfl
  | mapForRead a n =>
    by_cases hm : Mapped s a n.toNat
    · obtain ⟨i, r, off, ht⟩ := target_of_mapped hs hm
      have hr := (ht.info hs).get
      rcases map_step h with ⟨v, h⟩ | ⟨e, h⟩ <;> rw [gdp_nocheck hs ht] at h <;> split at h <;> cases h
      · exact counted_same_watch hr
      · exact Same.refl rfl
    · rcases map_step h with ⟨v, h⟩ | ⟨e, h⟩ <;> rw [gdp_unmapped hm] at h <;> cases h
      exact Same.refl rfl
  | wasHit => rcases h with ⟨u, h⟩ | ⟨e, h⟩ <;> cases h; exact Same.refl rfl
  | setBreakpoint => exact hc.elim
  | setWatchpoint => exact hc.elim
  | clearBreakpoint => exact hc.elim
  | clearWatchpoint => exact hc.elim
  | uninit => exact hc.elim

theorem Same.active {s s' : Sim} (h : Same Region.watch [] s s') (i : Nat) (w : Watchpoint) : Active s' i w ↔ Active s i w := by
  constructor
  · rintro ⟨r', h1, h2⟩
    rcases h.back h1 with ⟨r, e1, e2⟩ | e
    · exact ⟨r, e1, e2 ▸ h2⟩
    · rw [e] at h2; cases h2
  · rintro ⟨r, h1, h2⟩
    obtain ⟨r', e1, e2⟩ := h.get h1
    exact ⟨r', e1, e2.symm ▸ h2⟩

theorem active_set {s s' : Sim} {i : Nat} {r r' : Region} (hr : s.regions[i]? = some r)
    (hs : s'.regions = s.regions.set i r') (j : Nat) (w : Watchpoint) :
    Active s' j w ↔ if j = i then w ∈ r'.watch else Active s j w := by
  unfold Active
  rw [hs]
  by_cases h : j = i
  · subst h
    simp [List.getElem?_set_self (List.getElem?_eq_some_iff.1 hr).1]
  · simp only [if_neg h]
    rw [List.getElem?_set_ne (Ne.symm h)]

theorem setWatch_active {s s' : Sim} {a n t : U32} {o : Option Exn} (hs : Sound s)
    (h : (o = none ∧ setWatchpoint a n t s = .ok () s') ∨ (∃ e, o = some e ∧ setWatchpoint a n t s = .throw e s')) (i : Nat) (w : Watchpoint) :
    Active s' i w ↔ (o = none ∧ ∃ r off, Target s a n.toNat i r off ∧ w = namedWatch r off n t) ∨ Active s i w := by
  by_cases hm : Mapped s a n.toNat
  · obtain ⟨k, r, off, ht⟩ := target_of_mapped hs hm
    have hr := (ht.info hs).get
    have hset : (∃ r' off', Target s a n.toNat i r' off' ∧ w = namedWatch r' off' n t) ↔ i = k ∧ w = namedWatch r off n t := by
      constructor
      · rintro ⟨r', off', h1, h2⟩
        obtain ⟨rfl, rfl, rfl⟩ := ht.unique h1
        exact ⟨rfl, h2⟩
      · rintro ⟨rfl, h2⟩
        exact ⟨r, off, ht, h2⟩
    rw [hset]
    rcases setWatchpoint_cases hs (t := t) ht with ⟨hin, e⟩ | ⟨-, -, -, e⟩ | ⟨-, ws, al, k', l, e, -, hmem, -⟩ <;>
      rcases h with ⟨rfl, h⟩ | ⟨x, rfl, h⟩ <;> rw [e] at h <;> cases h
    · constructor
      · exact .inr
      · rintro (⟨-, rfl, rfl⟩ | h)
        · exact ⟨r, hr, hin⟩
        · exact h
    · simp only [reduceCtorEq, false_and, false_or]
      exact Iff.rfl
    · rw [active_set hr rfl]
      split
      · rename_i e; subst e
        simp only [hmem, true_and]
        constructor
        · rintro (h | h)
          · exact .inl h
          · exact .inr ⟨r, hr, h⟩
        · rintro (h | ⟨q, h1, h2⟩)
          · exact .inl h
          · rw [hr] at h1; cases h1; exact .inr h2
      · rename_i hne
        simp [hne]
  · have hno : ¬ ∃ r off, Target s a n.toNat i r off ∧ w = namedWatch r off n t := by
      rintro ⟨r, off, h1, -⟩; exact hm h1.mapped
    rcases h with ⟨rfl, h⟩ | ⟨x, rfl, h⟩ <;> rw [setWatchpoint_unmapped hm] at h <;> cases h
    simp

theorem clearWatch_active {s s' : Sim} {a n t : U32} (hs : Sound s)
    (h : clearWatchpoint a n t s = .ok () s' ∨ (∃ e, clearWatchpoint a n t s = .throw e s')) (i : Nat) (w : Watchpoint) :
    Active s' i w ↔ Active s i w ∧ ¬ ∃ r off, Target s a n.toNat i r off ∧ w = namedWatch r off n t := by
  by_cases hm : Mapped s a n.toNat
  · obtain ⟨k, r, off, ht⟩ := target_of_mapped hs hm
    have hr := (ht.info hs).get
    have hset : (∃ r' off', Target s a n.toNat i r' off' ∧ w = namedWatch r' off' n t) ↔ i = k ∧ w = namedWatch r off n t := by
      constructor
      · rintro ⟨r', off', h1, h2⟩
        obtain ⟨rfl, rfl, rfl⟩ := ht.unique h1
        exact ⟨rfl, h2⟩
      · rintro ⟨rfl, h2⟩
        exact ⟨r, off, ht, h2⟩
    rw [hset]
    rcases clearWatchpoint_cases hs (t := t) ht with ⟨hnot, e⟩ | ⟨-, ws, e, -, hmem⟩ <;>
      rcases h with h | ⟨x, h⟩ <;> rw [e] at h <;> cases h
    · constructor
      · intro h
        refine ⟨h, ?_⟩
        rintro ⟨rfl, rfl⟩
        obtain ⟨q, h1, h2⟩ := h
        rw [hr] at h1; cases h1
        exact hnot h2
      · exact fun h => h.1
    · rw [active_set hr rfl]
      split
      · rename_i e; subst e
        simp only [hmem, true_and]
        constructor
        · rintro ⟨h1, h2⟩
          exact ⟨⟨r, hr, h2⟩, h1⟩
        · rintro ⟨⟨q, h1, h2⟩, h3⟩
          rw [hr] at h1; cases h1; exact ⟨h3, h2⟩
      · rename_i hne
        simp [hne]
  · have hno : ¬ ∃ r off, Target s a n.toNat i r off ∧ w = namedWatch r off n t := by
      rintro ⟨r, off, h1, -⟩; exact hm h1.mapped
    rcases h with h | ⟨x, h⟩ <;> rw [clearWatchpoint_unmapped hm] at h <;> cases h
    simp [hno]

/-- The effect of any call on the set of active break/watchpoints. -/
theorem call_active {c : Call} {s s' : Sim} (hs : Sound s) (h : Step c s s') (i : Nat) (w : Watchpoint) :
    Active s' i w ↔ ((∃ u, c.run s = .ok u s') ∧ Sets c s i w) ∨ (Active s i w ∧ ¬ Clears c s i w) := by
  have plain : (match c with
      | .setBreakpoint .. | .setWatchpoint .. | .clearBreakpoint .. | .clearWatchpoint .. | .uninit => False
      | _ => True) → (Active s' i w ↔ ((∃ u, c.run s = .ok u s') ∧ Sets c s i w) ∨ (Active s i w ∧ ¬ Clears c s i w)) := by
    intro hc
    rw [(watch_same hs h hc).active]
    have h1 : ¬ Sets c s i w := by
      rintro ⟨a, n, t, r, off, h | ⟨h, -⟩, -⟩ <;> subst h <;> exact hc
    have h2 : ¬ Clears c s i w := by
      rintro (h | ⟨a, n, t, r, off, h | ⟨h, -⟩, -⟩) <;> subst h <;> exact hc
    simp [h1, h2]
  cases c with
  | setBreakpoint a n =>
    have hclr : ¬ Clears (.setBreakpoint a n) s i w := by simp [Clears]
    have hset : Sets (.setBreakpoint a n) s i w ↔ ∃ r off, Target s a n.toNat i r off ∧ w = namedWatch r off n WATCHPOINT_BREAKPOINT := by
      constructor
      · rintro ⟨a', n', t, r, off, h | ⟨h, rfl⟩, h1, h2⟩ <;> cases h
        exact ⟨r, off, h1, h2⟩
      · rintro ⟨r, off, h1, h2⟩
        exact ⟨a, n, _, r, off, .inr ⟨rfl, rfl⟩, h1, h2⟩
    rw [hset]
    simp only [hclr, not_false_eq_true, and_true]
    rcases h with ⟨u, h⟩ | ⟨e, h⟩
    · rw [setWatch_active (o := none) hs (.inl ⟨rfl, h⟩)]
      simp [h]
    · rw [setWatch_active (o := some e) hs (.inr ⟨e, rfl, h⟩)]
      simp [h]
  | setWatchpoint a n t =>
    have hclr : ¬ Clears (.setWatchpoint a n t) s i w := by simp [Clears]
    have hset : Sets (.setWatchpoint a n t) s i w ↔ ∃ r off, Target s a n.toNat i r off ∧ w = namedWatch r off n t := by
      constructor
      · rintro ⟨a', n', t, r, off, h | ⟨h, rfl⟩, h1, h2⟩ <;> cases h
        exact ⟨r, off, h1, h2⟩
      · rintro ⟨r, off, h1, h2⟩
        exact ⟨a, n, _, r, off, .inl rfl, h1, h2⟩
    rw [hset]
    simp only [hclr, not_false_eq_true, and_true]
    rcases h with ⟨u, h⟩ | ⟨e, h⟩
    · rw [setWatch_active (o := none) hs (.inl ⟨rfl, h⟩)]
      simp [h]
    · rw [setWatch_active (o := some e) hs (.inr ⟨e, rfl, h⟩)]
      simp [h]
  | clearBreakpoint a n =>
    have hset : ¬ Sets (.clearBreakpoint a n) s i w := by simp [Sets]
    have hclr : Clears (.clearBreakpoint a n) s i w ↔ ∃ r off, Target s a n.toNat i r off ∧ w = namedWatch r off n WATCHPOINT_BREAKPOINT := by
      constructor
      · rintro (h | ⟨a', n', t, r, off, h | ⟨h, rfl⟩, h1, h2⟩) <;> cases h
        exact ⟨r, off, h1, h2⟩
      · rintro ⟨r, off, h1, h2⟩
        exact .inr ⟨a, n, _, r, off, .inr ⟨rfl, rfl⟩, h1, h2⟩
    rw [hclr]
    simp only [hset, and_false, false_or]
    exact clearWatch_active hs (h.imp (fun ⟨_, h⟩ => h) id) i w
  | clearWatchpoint a n t =>
    have hset : ¬ Sets (.clearWatchpoint a n t) s i w := by simp [Sets]
    have hclr : Clears (.clearWatchpoint a n t) s i w ↔ ∃ r off, Target s a n.toNat i r off ∧ w = namedWatch r off n t := by
      constructor
      · rintro (h | ⟨a', n', t, r, off, h | ⟨h, rfl⟩, h1, h2⟩) <;> cases h
        exact ⟨r, off, h1, h2⟩
      · rintro ⟨r, off, h1, h2⟩
        exact .inr ⟨a, n, _, r, off, .inl rfl, h1, h2⟩
    rw [hclr]
    simp only [hset, and_false, false_or]
    exact clearWatch_active hs (h.imp (fun ⟨_, h⟩ => h) id) i w
  | uninit =>
    rcases h with ⟨u, h⟩ | ⟨e, h⟩ <;> cases h
    simp [Active, Clears, Sets]
  | _ => exact plain trivial

/-! ### Hit counts -/

theorem call_hits {c : Call} {s s' : Sim} {k : Nat} (hs : Sound s) (hw : c ≠ .wasHit) (hb : BelowTop c s)
    (hk : HitsIn c s k) (h : Step c s s') : s'.hits = s.hits + k := by
  cases c with
  | createRegion b n => cases hk; exact (Post.step h (same_call obs_watch _ _ trivial)).1
  | createAlias al rd n => cases hk; exact (Post.step h (same_call obs_watch _ _ trivial)).1
  | load b img n => cases hk; exact (Post.step h (same_call obs_watch _ _ trivial)).1
  | memoryMap => cases hk; exact (Post.step h (same_call obs_watch _ _ trivial)).1
  | mapForWrite a n => cases hk; exact (Post.step h (same_call obs_watch _ _ trivial)).1
  | readCount a => cases hk; exact (Post.step h (same_call obs_watch _ _ trivial)).1
  | makeReadOnly b => cases hk; exact (Post.step h (makeReadOnly_same (f := Region.watch) (d := []) (fun _ _ => rfl) _ _)).1
  | flashImage img n => cases hk; exact (Post.step h (flash_same _ _ _)).1
  | read w a =>
    by_cases hm : Mapped s a w.bytes
    · obtain ⟨i, r, off, ht⟩ := target_of_mapped hs hm
      have e := hk.2 i r off ht
      have hsc := scanAt_read (ht.info hs) (hb i r off ht)
      have hk' : (scanAt r off w.bytes READING).1 = k := by rw [hsc, e]
      rcases read_step h with ⟨v, h⟩ | ⟨e, h⟩ <;> rw [readN_eq hs ht] at h <;> split at h <;> try (cases h; done)
      all_goals split at h <;> cases h <;> simp only [hk']
    · rcases read_step h with ⟨v, h⟩ | ⟨e, h⟩ <;> rw [readN_unmapped hm] at h <;> cases h
      rw [hk.1 hm]; rfl
  | write w a v =>
    by_cases hm : Mapped s a w.bytes
    · obtain ⟨i, r, off, ht⟩ := target_of_mapped hs hm
      have e := hk.2 i r off ht
      have hsc := scanAt_write (ht.info hs) (hb i r off ht)
      rcases write_step h with ⟨v, h⟩ | ⟨x, h⟩ <;> rw [writeN_eq hs ht] at h <;> split at h
      · cases h
      · rename_i hro
        rw [if_neg hro] at e
        have hk' : (scanAt r off w.bytes WRITING).1 = k := by rw [hsc, e]
        split at h <;> cases h
        simp only [hk']
      · rename_i hro
        rw [if_pos hro] at e
        cases h; rw [e]; rfl
      · split at h <;> cases h
    · rcases write_step h with ⟨v, h⟩ | ⟨e, h⟩ <;> rw [writeN_unmapped hm] at h <;> cases h
      rw [hk.1 hm]; rfl
  | mapForRead a n =>
    cases hk
    by_cases hm : Mapped s a n.toNat
    · obtain ⟨i, r, off, ht⟩ := target_of_mapped hs hm
      rcases map_step h with ⟨v, h⟩ | ⟨e, h⟩ <;> rw [gdp_nocheck hs ht] at h <;> split at h <;> cases h
      · exact counted_hits
      · rfl
    · rcases map_step h with ⟨v, h⟩ | ⟨e, h⟩ <;> rw [gdp_unmapped hm] at h <;> cases h
      rfl
  | wasHit => exact absurd rfl hw
  | setBreakpoint a n =>
    cases hk
    refine Post.step (P := fun s' => s'.hits = s.hits) h ?_
    rcases setWatchpoint_raw a n WATCHPOINT_BREAKPOINT s with ⟨k, h⟩ | ⟨e, k, h⟩ | ⟨u, h⟩ | ⟨i, r, ws, al, k, hr, h, -⟩ <;>
      simp only [Call.run, setHardwareBreakpoint, h] <;> first | exact rfl | trivial
  | setWatchpoint a n t =>
    cases hk
    refine Post.step (P := fun s' => s'.hits = s.hits) h ?_
    rcases setWatchpoint_raw a n t s with ⟨k, h⟩ | ⟨e, k, h⟩ | ⟨u, h⟩ | ⟨i, r, ws, al, k, hr, h, -⟩ <;>
      simp only [Call.run, setHardwareWatchpoint, h] <;> first | exact rfl | trivial
  | clearBreakpoint a n =>
    cases hk
    refine Post.step (P := fun s' => s'.hits = s.hits) h ?_
    rcases clearWatchpoint_raw a n WATCHPOINT_BREAKPOINT s with h | ⟨e, h⟩ | ⟨u, h⟩ | ⟨i, r, ws, hr, h⟩ <;>
      simp only [Call.run, clearHardwareBreakpoint, h] <;> first | exact rfl | trivial
  | clearWatchpoint a n t =>
    cases hk
    refine Post.step (P := fun s' => s'.hits = s.hits) h ?_
    rcases clearWatchpoint_raw a n t s with h | ⟨e, h⟩ | ⟨u, h⟩ | ⟨i, r, ws, hr, h⟩ <;>
      simp only [Call.run, clearHardwareWatchpoint, h] <;> first | exact rfl | trivial
  | uninit => cases hk; rcases h with ⟨u, h⟩ | ⟨e, h⟩ <;> cases h; rfl

theorem _root_.Verif.Spec.HitSum.sound {cs : List Call} {s s' : Sim} {k : Nat} (h : HitSum s cs s' k) (hs : Sound s) :
    Sound s' ∧ s'.hits = s.hits + k := by
  induction h with
  | nil s => exact ⟨hs, rfl⟩
  | cons hc hw hb hk h t ih =>
    obtain ⟨i1, i2⟩ := ih (step_sound hs hc h)
    exact ⟨i1, by rw [i2, call_hits hs hw hb hk h]; omega⟩

/-! ### Read counts -/

theorem counts_set_ne {s s' : Sim} {i j : Nat} {r q : Region} (hr : s.regions[i]? = some r) (hne : j ≠ i)
    (hs : s'.regions = s.regions.set j q) : s'.regions[i]? = some r := by
  rw [hs, List.getElem?_set_ne hne, hr]

theorem Same.counts {s s' : Sim} (h : Same Region.readCounts none s s') {i : Nat} {r : Region} (hr : s.regions[i]? = some r) :
    ∃ r', s'.regions[i]? = some r' ∧ r'.readCounts = r.readCounts := h.get hr

/-- Setting up a flash image leaves the counters of every region that address 0 does not lead to. -/
theorem flash_counts {img : List U8} {n : U32} {s : Sim} {i : Nat} {r : Region} (hr : s.regions[i]? = some r)
    (hm : ¬ Reaches s 0 1 i) :
    Post (createRegionsFromFlashImage img n s) (fun s' => ∃ r', s'.regions[i]? = some r' ∧ r'.readCounts = r.readCounts) := by
  have hi : i < s.regions.length := (List.getElem?_eq_some_iff.1 hr).1
  unfold createRegionsFromFlashImage
  split
  · exact ⟨r, hr, rfl⟩
  · refine Post.bind ((createRegion_same obs_counts _ _ s).mono fun _ h => h.2.counts hr) ?_
    rintro _ s1 h1 -
    have hs1 : s1.regions = s.regions ++ [newRegion FLASH_BASE_ADDRESS n] := by
      rcases createRegion_cases FLASH_BASE_ADDRESS n s with ⟨k, h⟩ | h <;> rw [h] at h1 <;> cases h1
      rfl
    have hr1 : s1.regions[i]? = some r := by rw [hs1, List.getElem?_append_left hi]; exact hr
    unfold loadFromFlashImage
    have hq := loadWords_data (src := img) (n := n.toNat) (a := FLASH_BASE_ADDRESS) (s := s1)
    have hq2 := loadWords_post (src := img) (n := n.toNat) (a := FLASH_BASE_ADDRESS) (s := s1)
    refine Post.bind (hq.mono fun _ h => (h.same obs_counts).counts hr1) ?_
    rintro _ s2 h2 ⟨r2, hr2, e2⟩
    rw [h2] at hq hq2
    have hl2 : s2.regions.length = s.regions.length + 1 := by
      rw [← forall₂_length hq.regions, hs1]; simp
    have hm2 : ¬ Reaches s2 0 1 i := by
      intro h
      rcases reaches_append hs1 rfl (hq2.reaches h) with hh | hh
      · exact hm hh
      · omega
    -- while in the try block there is one region more than before, and region `i` has its counters
    have inv : ∀ t : Sim, (s.regions.length < t.regions.length ∧ ∃ r', t.regions[i]? = some r' ∧ r'.readCounts = r.readCounts) →
        ∀ e : Exn, Post ((do freeLastRegion; M.rethrow e : M Sim Unit) t)
          (fun s' => ∃ r', s'.regions[i]? = some r' ∧ r'.readCounts = r.readCounts) := by
      rintro t ⟨h1, r', h2, h3⟩ e
      refine Post.bind ((freeLast_map t).mono ?_) (fun _ _ _ h => h)
      rintro t' ⟨-, g⟩
      refine ⟨r', ?_, h3⟩
      rw [g, List.getElem?_dropLast, if_pos (by omega)]
      exact h2
    have hro : Post (makeRegionReadOnly FLASH_BASE_ADDRESS s2) (fun t => s.regions.length < t.regions.length ∧
        ∃ r', t.regions[i]? = some r' ∧ r'.readCounts = r.readCounts) := by
      rcases makeRegionReadOnly_cases FLASH_BASE_ADDRESS s2 with h | ⟨u, h⟩ | ⟨j, a', q, hf, hq, ⟨-, h⟩ | ⟨-, h⟩⟩ <;> rw [h]
      · exact ⟨by omega, r2, hr2, e2⟩
      · trivial
      all_goals
        have hne : j ≠ i := by rintro rfl; exact hm2 (reaches_find hf)
        exact ⟨by simp; omega, r2, counts_set_ne hr2 hne rfl, e2⟩
    simp only [M.tryCatch_apply, M.bind_apply]
    cases h3 : makeRegionReadOnly FLASH_BASE_ADDRESS s2 with
    | ub u => trivial
    | throw e s3 => rw [h3] at hro; exact inv s3 hro e
    | ok v s3 =>
      rw [h3] at hro
      by_cases hlen : img.length < 4
      · simp only [if_pos hlen]; trivial
      · simp only [if_neg hlen]
        obtain ⟨g1, r3, g2, g3⟩ := hro
        rcases createRegion_cases (BitVec.ofNat 32 (leVal (img.take 4)) &&& RAM_ADDRESS_MASK)
          (BitVec.ofNat 32 (leVal (img.take 4)) - (BitVec.ofNat 32 (leVal (img.take 4)) &&& RAM_ADDRESS_MASK)) s3 with ⟨k, h⟩ | h <;>
            rw [h]
        · exact inv (bumpHeap s3 k 0) ⟨g1, r3, g2, g3⟩ _
        · refine ⟨r3, ?_, g3⟩
          simp only
          rw [List.getElem?_append_left (by omega)]
          exact g2

/-- The effect of a counted read, or of none. -/
theorem counted_counts {s : Sim} {i j off n : Nat} {r q : Region} {cs : List U32} (hr : s.regions[i]? = some r)
    (hc : r.readCounts = some cs) (hq : s.regions[j]? = some q) :
    ∃ r', (counted s j q off n READING).regions[i]? = some r' ∧
      r'.readCounts = some (if j = i ∧ n = 2 then cs.modify (off / 2) (· + 1) else cs) := by
  unfold counted
  by_cases h2 : n = 2
  · simp only [h2, and_true, if_true]
    by_cases hj : j = i
    · subst hj
      rw [hr] at hq; cases hq
      simp only [hc, if_true]
      exact ⟨_, List.getElem?_set_self (List.getElem?_eq_some_iff.1 hr).1, rfl⟩
    · simp only [if_neg hj]
      split
      · exact ⟨r, hr, hc⟩
      · exact ⟨r, counts_set_ne hr hj rfl, hc⟩
  · simp only [h2, and_false, if_false]
    exact ⟨r, hr, hc⟩

/-- The effect of any call on the counters of a region that it does not mark. -/
theorem call_counts {c : Call} {s s' : Sim} {i : Nat} {r : Region} {cs : List U32} (hs : Sound s)
    (hm : ¬ Remarks i c s) (h : Step c s s') (hr : s.regions[i]? = some r) (hc : r.readCounts = some cs) :
    ∃ r' cs', s'.regions[i]? = some r' ∧ r'.readCounts = some cs' ∧
      ∀ k, (ReadsHalf i k c s → cs'[k]? = cs[k]?.map (· + 1)) ∧ (¬ ReadsHalf i k c s → cs'[k]? = cs[k]?) := by
  have finish : (∃ r', s'.regions[i]? = some r' ∧ r'.readCounts = r.readCounts) → (∀ k, ¬ ReadsHalf i k c s) →
      ∃ r' cs', s'.regions[i]? = some r' ∧ r'.readCounts = some cs' ∧
      ∀ k, (ReadsHalf i k c s → cs'[k]? = cs[k]?.map (· + 1)) ∧ (¬ ReadsHalf i k c s → cs'[k]? = cs[k]?) := by
    rintro ⟨r', h1, h2⟩ hn
    exact ⟨r', cs, h1, by rw [h2, hc], fun k => ⟨fun h => absurd h (hn k), fun _ => rfl⟩⟩
  have bump : ∀ (a : U32) (n j off : Nat) (q : Region), Target s a n j q off →
      (∀ k, ReadsHalf i k c s ↔ n = 2 ∧ j = i ∧ off / 2 = k) →
      s'.regions = (counted s j q off n READING).regions →
      ∃ r' cs', s'.regions[i]? = some r' ∧ r'.readCounts = some cs' ∧
      ∀ k, (ReadsHalf i k c s → cs'[k]? = cs[k]?.map (· + 1)) ∧ (¬ ReadsHalf i k c s → cs'[k]? = cs[k]?) := by
    intro a n j off q ht hrh he
    obtain ⟨r', e1, e2⟩ := counted_counts (off := off) (n := n) hr hc (ht.info hs).get
    refine ⟨r', _, by rw [he]; exact e1, e2, ?_⟩
    intro k
    rw [hrh]
    by_cases hh : j = i ∧ n = 2
    · rw [if_pos hh, List.getElem?_modify]
      simp only [hh.1, hh.2, true_and]
      exact ⟨fun e => by simp [e], fun e => by simp [e]⟩
    · rw [if_neg hh]
      exact ⟨fun e => absurd ⟨e.2.1, e.1⟩ hh, fun _ => rfl⟩
  cases c with
  | createRegion b n =>
    exact finish ((Post.step h (same_call obs_counts _ _ trivial)).2.counts hr) (by rintro k ⟨a, q, off, h | ⟨n, h, -⟩, -⟩ <;> cases h)
  | createAlias al rd n =>
    exact finish ((Post.step h (same_call obs_counts _ _ trivial)).2.counts hr) (by rintro k ⟨a, q, off, h | ⟨n, h, -⟩, -⟩ <;> cases h)
  | load b img n =>
    exact finish ((Post.step h (same_call obs_counts _ _ trivial)).2.counts hr) (by rintro k ⟨a, q, off, h | ⟨n, h, -⟩, -⟩ <;> cases h)
  | memoryMap =>
    exact finish ((Post.step h (same_call obs_counts _ _ trivial)).2.counts hr) (by rintro k ⟨a, q, off, h | ⟨n, h, -⟩, -⟩ <;> cases h)
  | mapForWrite a n =>
    exact finish ((Post.step h (same_call obs_counts _ _ trivial)).2.counts hr) (by rintro k ⟨a, q, off, h | ⟨n, h, -⟩, -⟩ <;> cases h)
  | readCount a =>
    exact finish ((Post.step h (same_call obs_counts _ _ trivial)).2.counts hr) (by rintro k ⟨a, q, off, h | ⟨n, h, -⟩, -⟩ <;> cases h)
  | makeReadOnly b =>
    refine finish (Post.step (P := fun s' => ∃ r', s'.regions[i]? = some r' ∧ r'.readCounts = r.readCounts) h ?_)
      (by rintro k ⟨a, q, off, h | ⟨n, h, -⟩, -⟩ <;> cases h)
    rcases makeRegionReadOnly_cases b s with h | ⟨u, h⟩ | ⟨j, a', q, hf, hq, ⟨-, h⟩ | ⟨-, h⟩⟩ <;> simp only [Call.run, h]
    · exact ⟨r, hr, rfl⟩
    · trivial
    all_goals
      have hne : j ≠ i := by rintro rfl; exact hm (.inr (.inl ⟨b, rfl, reaches_find hf⟩))
      exact ⟨r, counts_set_ne hr hne rfl, rfl⟩
  | flashImage img n =>
    exact finish (Post.step h (flash_counts hr fun hh => hm (.inr (.inr ⟨img, n, rfl, hh⟩))))
      (by rintro k ⟨a, q, off, h | ⟨n, h, -⟩, -⟩ <;> cases h)
  | read w a =>
    by_cases hmp : Mapped s a w.bytes
    · obtain ⟨j, q, off, ht⟩ := target_of_mapped hs hmp
      refine bump a w.bytes j off q ht ?_ ?_
      · intro k
        constructor
        · rintro ⟨a', q', off', h | ⟨n, h, -⟩, h1, h2⟩
          · cases h
            obtain ⟨rfl, rfl, rfl⟩ := ht.unique h1
            exact ⟨rfl, rfl, h2⟩
          · cases h
        · rintro ⟨h1, rfl, h3⟩
          have : w = .w16 := by cases w <;> simp_all [Width.bytes]
          subst this
          exact ⟨a, q, off, .inl rfl, ht, h3⟩
      · rcases read_step h with ⟨v, h⟩ | ⟨e, h⟩ <;> rw [readN_eq hs ht] at h <;> split at h <;> try (cases h; done)
        all_goals split at h <;> cases h <;> rfl
    · refine finish ?_ ?_
      · rcases read_step h with ⟨v, h⟩ | ⟨e, h⟩ <;> rw [readN_unmapped hmp] at h <;> cases h
        exact ⟨r, hr, rfl⟩
      · rintro k ⟨a', q', off', h | ⟨n, h, -⟩, h1, h2⟩ <;> cases h
        exact hmp h1.mapped
  | write w a v =>
    refine finish ?_ (by rintro k ⟨a, q, off, h | ⟨n, h, -⟩, -⟩ <;> cases h)
    by_cases hmp : Mapped s a w.bytes
    · obtain ⟨j, q, off, ht⟩ := target_of_mapped hs hmp
      have hq := (ht.info hs).get
      have : Same Region.readCounts none s s' := by
        rcases write_step h with ⟨v, h⟩ | ⟨e, h⟩ <;> rw [writeN_eq hs ht] at h <;> split at h
        · cases h
        · split at h <;> cases h
          exact Same.set hq rfl rfl
        · cases h; exact Same.refl rfl
        · split at h <;> cases h
      exact this.counts hr
    · rcases write_step h with ⟨v, h⟩ | ⟨e, h⟩ <;> rw [writeN_unmapped hmp] at h <;> cases h
      exact ⟨r, hr, rfl⟩
  | mapForRead a n =>
    by_cases hmp : Mapped s a n.toNat
    · obtain ⟨j, q, off, ht⟩ := target_of_mapped hs hmp
      refine bump a n.toNat j off q ht ?_ ?_
      · intro k
        constructor
        · rintro ⟨a', q', off', h | ⟨n, h, h2⟩, h1, h3⟩
          · cases h
          · cases h
            rw [← h2] at h1
            obtain ⟨rfl, rfl, rfl⟩ := ht.unique h1
            exact ⟨h2, rfl, h3⟩
        · rintro ⟨h1, rfl, h3⟩
          exact ⟨a, q, off, .inr ⟨n, rfl, h1⟩, h1 ▸ ht, h3⟩
      · rcases map_step h with ⟨v, h⟩ | ⟨e, h⟩ <;> rw [gdp_nocheck hs ht] at h <;> split at h <;> cases h
        · rfl
        · rename_i hh; exact absurd hh.1.symm WRITING_ne_READING
    · refine finish ?_ ?_
      · rcases map_step h with ⟨v, h⟩ | ⟨e, h⟩ <;> rw [gdp_unmapped hmp] at h <;> cases h
        exact ⟨r, hr, rfl⟩
      · rintro k ⟨a', q', off', h | ⟨n, h, h3⟩, h1, h2⟩ <;> cases h
        rw [← h3] at h1
        exact hmp h1.mapped
  | wasHit =>
    refine finish ?_ (by rintro k ⟨a, q, off, h | ⟨n, h, -⟩, -⟩ <;> cases h)
    rcases h with ⟨u, h⟩ | ⟨e, h⟩ <;> cases h
    exact ⟨r, hr, rfl⟩
  | setBreakpoint a n =>
    refine finish (Post.step (P := fun s' => ∃ r', s'.regions[i]? = some r' ∧ r'.readCounts = r.readCounts) h ?_)
      (by rintro k ⟨a, q, off, h | ⟨n, h, -⟩, -⟩ <;> cases h)
    rcases setWatchpoint_raw a n WATCHPOINT_BREAKPOINT s with ⟨k, h⟩ | ⟨e, k, h⟩ | ⟨u, h⟩ | ⟨j, q, ws, al, k, hq, h, -⟩ <;>
      simp only [Call.run, setHardwareBreakpoint, h]
    · exact ⟨r, hr, rfl⟩
    · exact ⟨r, hr, rfl⟩
    · trivial
    · exact (Same.set (d := none) (f := Region.readCounts) (r' := { q with watch := ws, watchAlloc := al }) hq rfl rfl).counts hr
  | setWatchpoint a n t =>
    refine finish (Post.step (P := fun s' => ∃ r', s'.regions[i]? = some r' ∧ r'.readCounts = r.readCounts) h ?_)
      (by rintro k ⟨a, q, off, h | ⟨n, h, -⟩, -⟩ <;> cases h)
    rcases setWatchpoint_raw a n t s with ⟨k, h⟩ | ⟨e, k, h⟩ | ⟨u, h⟩ | ⟨j, q, ws, al, k, hq, h, -⟩ <;>
      simp only [Call.run, setHardwareWatchpoint, h]
    · exact ⟨r, hr, rfl⟩
    · exact ⟨r, hr, rfl⟩
    · trivial
    · exact (Same.set (d := none) (f := Region.readCounts) (r' := { q with watch := ws, watchAlloc := al }) hq rfl rfl).counts hr
  | clearBreakpoint a n =>
    refine finish (Post.step (P := fun s' => ∃ r', s'.regions[i]? = some r' ∧ r'.readCounts = r.readCounts) h ?_)
      (by rintro k ⟨a, q, off, h | ⟨n, h, -⟩, -⟩ <;> cases h)
    rcases clearWatchpoint_raw a n WATCHPOINT_BREAKPOINT s with h | ⟨e, h⟩ | ⟨u, h⟩ | ⟨j, q, ws, hq, h⟩ <;>
      simp only [Call.run, clearHardwareBreakpoint, h]
    · exact ⟨r, hr, rfl⟩
    · exact ⟨r, hr, rfl⟩
    · trivial
    · exact (Same.set (d := none) (f := Region.readCounts) (r' := { q with watch := ws }) hq rfl rfl).counts hr
  | clearWatchpoint a n t =>
    refine finish (Post.step (P := fun s' => ∃ r', s'.regions[i]? = some r' ∧ r'.readCounts = r.readCounts) h ?_)
      (by rintro k ⟨a, q, off, h | ⟨n, h, -⟩, -⟩ <;> cases h)
    rcases clearWatchpoint_raw a n t s with h | ⟨e, h⟩ | ⟨u, h⟩ | ⟨j, q, ws, hq, h⟩ <;>
      simp only [Call.run, clearHardwareWatchpoint, h]
    · exact ⟨r, hr, rfl⟩
    · exact ⟨r, hr, rfl⟩
    · trivial
    · exact (Same.set (d := none) (f := Region.readCounts) (r' := { q with watch := ws }) hq rfl rfl).counts hr
  | uninit => exact absurd (.inl rfl) hm

/-- A counted read is never a marking. -/
theorem _root_.Verif.Spec.ReadsHalf.not_remarks {i h : Nat} {c : Call} {s : Sim} (hr : ReadsHalf i h c s) : ¬ Remarks i c s := by
  obtain ⟨a, r, off, h1 | ⟨n, h1, -⟩, -⟩ := hr <;> subst h1 <;> simp [Remarks]

theorem _root_.Verif.Spec.NumReads.count {i k m : Nat} {cs : List Call} {s s' : Sim} (h : NumReads i k s cs s' m) (hs : Sound s)
    {r : Region} {ns : List U32} (hr : s.regions[i]? = some r) (hc : r.readCounts = some ns) :
    Sound s' ∧ ∃ r' ns', s'.regions[i]? = some r' ∧ r'.readCounts = some ns' ∧
      ns'[k]? = ns[k]?.map (· + BitVec.ofNat 32 m) := by
  induction h generalizing r ns with
  | nil s => exact ⟨hs, r, ns, hr, hc, by simp⟩
  | reads hcf hrd st t ih =>
    obtain ⟨r1, ns1, e1, e2, e3⟩ := call_counts hs hrd.not_remarks st hr hc
    obtain ⟨i1, r2, ns2, f1, f2, f3⟩ := ih (step_sound hs hcf st) e1 e2
    refine ⟨i1, r2, ns2, f1, f2, ?_⟩
    rw [f3, (e3 k).1 hrd, Option.map_map]
    congr 1
    funext x
    simp only [Function.comp]
    bv_omega
  | other hcf hrd hm st t ih =>
    obtain ⟨r1, ns1, e1, e2, e3⟩ := call_counts hs hm st hr hc
    obtain ⟨i1, r2, ns2, f1, f2, f3⟩ := ih (step_sound hs hcf st) e1 e2
    exact ⟨i1, r2, ns2, f1, f2, by rw [f3, (e3 k).2 hrd]⟩

theorem hist_active {cs : List Call} {s s' : Sim} (h : CarefulHist s cs s') (hs : Sound s) (i : Nat) (w : Watchpoint) :
    Active s' i w ↔ LastSet i w s cs s' ∨ (Active s i w ∧ HistWith (fun c s => ¬ Clears c s i w) s cs s') := by
  induction h with
  | nil s =>
    constructor
    · exact fun h => .inr ⟨h, .nil _⟩
    · rintro (h | h)
      · cases h
      · exact h.1
  | @cons s s1 s2 c cs hc h t ih =>
    have hdet : ∀ s1', Step c s s1' → s1' = s1 := by
      rintro s1' (⟨u, h'⟩ | ⟨e, h'⟩) <;> rcases h with ⟨u', h⟩ | ⟨e', h⟩ <;> rw [h] at h' <;> cases h' <;> rfl
    rw [ih (step_sound hs hc h), call_active hs h]
    constructor
    · rintro (h1 | ⟨⟨⟨u, h1⟩, h2⟩ | ⟨h1, h2⟩, h3⟩)
      · exact .inl (.later h h1)
      · exact .inl (.here h2 h1 h3)
      · exact .inr ⟨h1, .cons h2 h h3⟩
    · rintro (h1 | ⟨h1, h2⟩)
      · cases h1 with
        | here h2 h3 h4 =>
          have := hdet _ (.inl ⟨_, h3⟩)
          subst this
          exact .inr ⟨.inl ⟨⟨_, h3⟩, h2⟩, h4⟩
        | later h2 h3 =>
          have := hdet _ h2
          subst this
          exact .inl h3
      · cases h2 with
        | cons h2 h3 h4 =>
          have := hdet _ h3
          subst this
          exact .inr ⟨.inr ⟨h1, h2⟩, h4⟩

end Verif.MemSim
