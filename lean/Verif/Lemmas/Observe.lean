import Verif.Lemmas.Flash
import Verif.Spec.Watch
/- What the calls do to break/watchpoints, hit counts and read counts. -/
namespace Verif.MemSim
open Verif Spec

/-! ### The scan -/

theorem scan_exact {ws : List Watchpoint} (hs : SortedWatch ws) {a : U32} {n : Nat} (htop : a.toNat + n < 2 ^ 32) :
    scanWatch ws a (a + BitVec.ofNat 32 n) n READING =
      ((ws.takeWhile fun p => !stopBy p a.toNat n).countP (hitBy · a.toNat n WATCHPOINT_READ), ws.any (stopBy · a.toNat n)) := by
  have hend : (a + BitVec.ofNat 32 n).toNat = a.toNat + n := by
    simp only [BitVec.toNat_add, BitVec.toNat_ofNat]; omega
  induction ws with
  | nil => rfl
  | cons w ws ih =>
    rw [SortedWatch, List.pairwise_cons] at hs
    unfold scanWatch
    simp only [ih hs.2]
    have hin : accessInRange w a (a + BitVec.ofNat 32 n) = (decide (w.startAddress.toNat ≤ a.toNat) &&
        decide (a.toNat + n ≤ w.endAddress.toNat)) := by simp only [accessInRange, hend]
    have hR : READING &&& w.type = w.type &&& WATCHPOINT_READ := BitVec.and_comm ..
    by_cases h0 : READING &&& w.type = 0
    · have hnb : w.type ≠ WATCHPOINT_BREAKPOINT := by
        intro e; rw [e] at h0; exact absurd h0 (by decide)
      rw [if_pos h0]
      rw [hR] at h0
      have hst : stopBy w a.toNat n = false := by simp [stopBy, hnb]
      have hht : hitBy w a.toNat n WATCHPOINT_READ = false := by simp [hitBy, h0]
      simp [List.takeWhile, hst, hht]
    · rw [if_neg h0]
      rw [hR] at h0
      by_cases hb : w.type = WATCHPOINT_BREAKPOINT
      · rw [if_pos hb]
        have hht : hitBy w a.toNat n WATCHPOINT_READ = false := by simp [hitBy, hb]
        by_cases hst : stopBy w a.toNat n = true
        · have : n = 2 ∧ accessInRange w a (a + BitVec.ofNat 32 n) = true := by
            simp only [stopBy, Bool.and_eq_true, decide_eq_true_eq] at hst
            refine ⟨hst.1.1.2, ?_⟩
            rw [hin]; simp [hst.1.2, hst.2]
          rw [if_pos this]
          simp [List.takeWhile, hst]
        · have : ¬ (n = 2 ∧ accessInRange w a (a + BitVec.ofNat 32 n) = true) := by
            rintro ⟨h1, h2⟩
            apply hst
            rw [hin] at h2
            simp only [Bool.and_eq_true, decide_eq_true_eq] at h2
            simp [stopBy, hb, h1]
            rw [h1] at h2
            exact h2
          rw [if_neg this]
          simp only [Bool.not_eq_true] at hst
          simp [List.takeWhile, hst, hht]
      · rw [if_neg hb]
        have hst : stopBy w a.toNat n = false := by simp [stopBy, hb]
        have hht : hitBy w a.toNat n WATCHPOINT_READ = accessInRange w a (a + BitVec.ofNat 32 n) := by
          have h0' : decide (w.type &&& WATCHPOINT_READ ≠ 0) = true := by simpa using h0
          rw [hin]; simp only [hitBy, h0']; simp [hb]
        by_cases hi : accessInRange w a (a + BitVec.ofNat 32 n) = true
        · rw [if_pos hi]
          simp [List.takeWhile, hst, hht, hi]
        · rw [if_neg hi]
          rw [Bool.not_eq_true] at hi
          rw [hi] at hht
          by_cases hgt : w.startAddress.toNat > a.toNat
          · rw [if_pos hgt]
            have h1 : ∀ p ∈ ws, stopBy p a.toNat n = false := by
              intro p hp
              have := hs.1 p hp
              simp only [stopBy]
              rw [show decide (p.startAddress.toNat ≤ a.toNat) = false from by simp; omega]
              simp
            have h2 : ∀ p ∈ ws, hitBy p a.toNat n WATCHPOINT_READ = false := by
              intro p hp
              have := hs.1 p hp
              simp only [hitBy]
              rw [show decide (p.startAddress.toNat ≤ a.toNat) = false from by simp; omega]
              simp
            simp only [List.takeWhile, hst, Bool.not_false, List.any_cons, Bool.false_or, List.countP_cons, hht]
            ext
            · simp only [Bool.false_eq_true, if_false, Nat.add_zero]
              symm
              rw [List.countP_eq_zero]
              intro p hp
              rw [h2 p ((List.takeWhile_sublist _).mem hp)]
              simp
            · simp only
              symm
              rw [List.any_eq_false]
              intro p hp
              rw [h1 p hp]
              simp
          · rw [if_neg hgt]
            simp [List.takeWhile, hst, hht]

theorem scan_exact_write {ws : List Watchpoint} (hs : SortedWatch ws) {a : U32} {n : Nat} (htop : a.toNat + n < 2 ^ 32) :
    scanWatch ws a (a + BitVec.ofNat 32 n) n WRITING = (ws.countP (hitBy · a.toNat n WATCHPOINT_WRITE), false) := by
  have hend : (a + BitVec.ofNat 32 n).toNat = a.toNat + n := by
    simp only [BitVec.toNat_add, BitVec.toNat_ofNat]; omega
  induction ws with
  | nil => rfl
  | cons w ws ih =>
    rw [SortedWatch, List.pairwise_cons] at hs
    unfold scanWatch
    simp only [ih hs.2]
    have hin : accessInRange w a (a + BitVec.ofNat 32 n) = (decide (w.startAddress.toNat ≤ a.toNat) &&
        decide (a.toNat + n ≤ w.endAddress.toNat)) := by simp only [accessInRange, hend]
    have hR : WRITING &&& w.type = w.type &&& WATCHPOINT_WRITE := BitVec.and_comm ..
    by_cases h0 : WRITING &&& w.type = 0
    · rw [if_pos h0]
      rw [hR] at h0
      have hht : hitBy w a.toNat n WATCHPOINT_WRITE = false := by simp [hitBy, h0]
      simp [hht]
    · rw [if_neg h0]
      have hb : w.type ≠ WATCHPOINT_BREAKPOINT := by
        intro e; rw [e] at h0; exact h0 (by decide)
      rw [hR] at h0
      rw [if_neg hb]
      have hht : hitBy w a.toNat n WATCHPOINT_WRITE = accessInRange w a (a + BitVec.ofNat 32 n) := by
        have h0' : decide (w.type &&& WATCHPOINT_WRITE ≠ 0) = true := by simpa using h0
        rw [hin]; simp only [hitBy, h0']; simp [hb]
      by_cases hi : accessInRange w a (a + BitVec.ofNat 32 n) = true
      · rw [if_pos hi]
        simp [hht, hi]
      · rw [if_neg hi]
        rw [Bool.not_eq_true] at hi
        rw [hi] at hht
        by_cases hgt : w.startAddress.toNat > a.toNat
        · rw [if_pos hgt]
          have h2 : ∀ p ∈ ws, hitBy p a.toNat n WATCHPOINT_WRITE = false := by
            intro p hp
            have := hs.1 p hp
            simp only [hitBy]
            rw [show decide (p.startAddress.toNat ≤ a.toNat) = false from by simp; omega]
            simp
          ext
          · simp only [List.countP_cons, hht, Bool.false_eq_true, if_false, Nat.add_zero]
            symm
            rw [List.countP_eq_zero]
            intro p hp
            rw [h2 p hp]
            simp
          · rfl
        · rw [if_neg hgt]
          simp [hht]

theorem addr_toNat {r : Region} {off n : Nat} (htop : r.baseAddress.toNat + off + n < 2 ^ 32) :
    (r.baseAddress + BitVec.ofNat 32 off).toNat = r.baseAddress.toNat + off := by
  simp only [BitVec.toNat_add, BitVec.toNat_ofNat]; omega

theorem scanAt_read {s : Sim} {n i off : Nat} {r : Region} (hi : TargetInfo s n i r off)
    (htop : r.baseAddress.toNat + off + n < 2 ^ 32) :
    scanAt r off n READING =
      ((r.watch.takeWhile fun p => !stopBy p (r.baseAddress.toNat + off) n).countP
        (hitBy · (r.baseAddress.toNat + off) n WATCHPOINT_READ), r.watch.any (stopBy · (r.baseAddress.toNat + off) n)) := by
  have e := addr_toNat htop
  rw [scanAt, scan_exact hi.ok.2.2.1 (by omega), e]

theorem scanAt_write {s : Sim} {n i off : Nat} {r : Region} (hi : TargetInfo s n i r off)
    (htop : r.baseAddress.toNat + off + n < 2 ^ 32) :
    scanAt r off n WRITING = (r.watch.countP (hitBy · (r.baseAddress.toNat + off) n WATCHPOINT_WRITE), false) := by
  have e := addr_toNat htop
  rw [scanAt, scan_exact_write hi.ok.2.2.1 (by omega), e]

/-! ### Loads touch contents only -/

theorem gdp_load {s : Sim} {a : U32} {n : Nat} {t : U32} (hn : n ≠ 2) :
    Post (getDataPointer a n t false s) (fun s' => s' = s) := by
  unfold getDataPointer
  refine Post.bind find_post ?_
  rintro ⟨i, a'⟩ s1 _ rfl
  refine Post.bind regionAt_post ?_
  rintro r s2 _ rfl
  simp only
  split
  · exact rfl
  · refine Post.bind (P := fun s' => s' = s2) ?_ ?_
    · unfold countRead
      rw [if_neg (fun h => hn h.2)]
      exact rfl
    · rintro _ s3 _ rfl
      exact rfl

/-- Only the contents of regions changed. -/
structure DataOnly (s s' : Sim) : Prop where
  hits : s'.hits = s.hits
  regions : List.Forall₂ (fun r r' => ∃ d, r' = { r with data := d }) s.regions s'.regions

theorem dataRel_refl (r : Region) : ∃ d, r = { r with data := d } := ⟨r.data, rfl⟩
theorem dataRel_trans (a b c : Region) (h : ∃ d, b = { a with data := d }) (h' : ∃ d, c = { b with data := d }) :
    ∃ d, c = { a with data := d } := by
  obtain ⟨d, rfl⟩ := h; obtain ⟨d', rfl⟩ := h'; exact ⟨d', rfl⟩

theorem DataOnly.refl (s : Sim) : DataOnly s s := ⟨rfl, forall₂_refl dataRel_refl _⟩
theorem DataOnly.trans {a b c : Sim} (h : DataOnly a b) (h' : DataOnly b c) : DataOnly a c :=
  ⟨h'.hits.trans h.hits, forall₂_trans dataRel_trans h.regions h'.regions⟩

theorem hostWrite_data {s : Sim} {p : Nat × Nat} {bs : List U8} : Post (hostWrite p bs s) (DataOnly s) := by
  unfold hostWrite
  rw [M.bind_apply]
  cases hr : regionAt p.1 s with
  | ok r s1 =>
    obtain ⟨rfl, hg⟩ := regionAt_ok hr
    simp only
    split
    · exact ⟨rfl, forall₂_set dataRel_refl hg ⟨_, rfl⟩⟩
    · trivial
  | throw e s1 =>
    have := regionAt_post (s := s) (i := p.1); rw [hr] at this
    simp only [Post] at this ⊢
    rw [this]; exact DataOnly.refl s
  | ub u => trivial

theorem loadN_data {s : Sim} {a : U32} {bs : List U8} (hn : bs.length ≠ 2) : Post (loadN a bs s) (DataOnly s) := by
  unfold loadN
  refine Post.bind ((gdp_load hn).mono (by rintro _ rfl; exact DataOnly.refl _)) ?_
  intro p s1 h1 hd
  exact hostWrite_data.mono fun _ h => hd.trans h

theorem loadBytes_data {n : Nat} {a : U32} {src : List U8} {s : Sim} : Post (loadBytes n a src s) (DataOnly s) := by
  induction n generalizing a src s with
  | zero => cases src <;> exact DataOnly.refl s
  | succ n ih =>
    cases src with
    | nil => trivial
    | cons b src =>
      refine Post.bind (loadN_data (by simp)) ?_
      intro _ s1 _ h1
      exact ih.mono fun _ h => h1.trans h

theorem loadWords_data {src : List U8} {n : Nat} {a : U32} {s : Sim} : Post (loadWords src n a s) (DataOnly s) := by
  fun_induction loadWords src n a generalizing s with
  | case1 b0 b1 b2 b3 rest n a h ih =>
    refine Post.bind (loadN_data (by simp)) ?_
    intro _ s1 _ h1
    exact ih.mono fun _ h => h1.trans h
  | case2 => exact loadBytes_data
  | case3 => trivial
  | case4 => exact loadBytes_data

/-! ### Observations that most calls do not change -/

/-- `f` is an observation of regions that contents do not affect and that new regions all show as `d`. -/
structure Obs (f : Region → β) (d : β) : Prop where
  data : ∀ r x, f { r with data := x } = f r
  new : ∀ b n, f (newRegion b n) = d
  newAlias : ∀ a r n j t, f (newAlias a r n j t) = d

/-- The observations are as before, possibly followed by those of new regions. -/
def Same (f : Region → β) (d : β) (s s' : Sim) : Prop :=
  ∃ k, s'.regions.map f = s.regions.map f ++ List.replicate k d

theorem Same.refl {f : Region → β} {d : β} {s s' : Sim} (h : s'.regions = s.regions) : Same f d s s' := ⟨0, by simp [h]⟩

theorem Same.trans {f : Region → β} {d : β} {a b c : Sim} (h : Same f d a b) (h' : Same f d b c) : Same f d a c := by
  obtain ⟨k, e⟩ := h; obtain ⟨k', e'⟩ := h'
  exact ⟨k + k', by rw [e', e, List.append_assoc, List.replicate_append_replicate]⟩

theorem map_set_same {f : Region → β} {rs : List Region} {i : Nat} {r r' : Region} (h : rs[i]? = some r) (hf : f r' = f r) :
    (rs.set i r').map f = rs.map f := by
  apply List.ext_getElem?
  intro j
  simp only [List.getElem?_map, List.getElem?_set]
  split
  · rename_i e; subst e
    rw [if_pos (List.getElem?_eq_some_iff.1 h).1, h]
    simp [hf]
  · rfl

theorem Same.set {f : Region → β} {d : β} {s s' : Sim} {i : Nat} {r r' : Region} (h : s.regions[i]? = some r)
    (hs : s'.regions = s.regions.set i r') (hf : f r' = f r) : Same f d s s' :=
  ⟨0, by rw [hs, map_set_same h hf]; simp⟩

theorem DataOnly.same {f : Region → β} {d : β} (ho : Obs f d) {s s' : Sim} (h : DataOnly s s') : Same f d s s' := by
  refine ⟨0, ?_⟩
  have : ∀ {xs ys : List Region}, List.Forall₂ (fun r r' => ∃ d, r' = { r with data := d }) xs ys → ys.map f = xs.map f := by
    intro xs ys h
    induction h with
    | nil => rfl
    | cons h t ih =>
      obtain ⟨d, rfl⟩ := h
      simp [ih, ho.data]
  simp [this h.regions]

theorem Same.get {f : Region → β} {d : β} {s s' : Sim} (h : Same f d s s') {i : Nat} {r : Region}
    (hr : s.regions[i]? = some r) : ∃ r', s'.regions[i]? = some r' ∧ f r' = f r := by
  obtain ⟨k, e⟩ := h
  have hi := (List.getElem?_eq_some_iff.1 hr).1
  have : (s'.regions.map f)[i]? = some (f r) := by
    rw [e, List.getElem?_append_left (by simpa using hi)]
    simp [hr]
  rw [List.getElem?_map] at this
  cases h' : s'.regions[i]? with
  | none => simp [h'] at this
  | some r' => exact ⟨r', rfl, by simpa [h'] using this⟩

theorem Same.back {f : Region → β} {d : β} {s s' : Sim} (h : Same f d s s') {i : Nat} {r' : Region}
    (hr : s'.regions[i]? = some r') : (∃ r, s.regions[i]? = some r ∧ f r' = f r) ∨ f r' = d := by
  obtain ⟨k, e⟩ := h
  have : (s'.regions.map f)[i]? = some (f r') := by simp [hr]
  rw [e, List.getElem?_append] at this
  split at this
  · rw [List.getElem?_map] at this
    cases h' : s.regions[i]? with
    | none => simp [h'] at this
    | some r => exact .inl ⟨r, rfl, by simp [h'] at this; exact this.symm⟩
  · have := List.mem_of_getElem? this
    simp at this
    exact .inr this.2

theorem createRegion_same {f : Region → β} {d : β} (ho : Obs f d) (b n : U32) (s : Sim) :
    Post (createRegion b n s) (fun s' => s'.hits = s.hits ∧ Same f d s s') := by
  rcases createRegion_cases b n s with ⟨k, h⟩ | h <;> rw [h]
  · exact ⟨rfl, Same.refl rfl⟩
  · exact ⟨rfl, 1, by simp [ho.new]⟩

theorem gdp_write_eq {s : Sim} {a : U32} {n : Nat} : Post (getDataPointer a n WRITING false s) (fun s' => s' = s) := by
  unfold getDataPointer
  refine Post.bind find_post ?_
  rintro ⟨i, a'⟩ s1 _ rfl
  refine Post.bind regionAt_post ?_
  rintro r s2 _ rfl
  simp only
  split
  · exact rfl
  · refine Post.bind (P := fun s' => s' = s2) ?_ ?_
    · unfold countRead
      rw [if_neg (fun h => WRITING_ne_READING h.1)]
      exact rfl
    · rintro _ s3 _ rfl
      exact rfl

/-- Calls that change neither break/watchpoints nor counters nor the hit count. -/
theorem same_call {f : Region → β} {d : β} (ho : Obs f d) (c : Call) (s : Sim)
    (hc : match c with
      | .createRegion .. | .createAlias .. | .load .. | .memoryMap | .mapForWrite .. | .readCount .. => True
      | _ => False) :
    Post (c.run s) (fun s' => s'.hits = s.hits ∧ Same f d s s') := by
  cases c with
  | createRegion b n => exact createRegion_same ho b n s
  | createAlias al rd n =>
    rcases createAlias_cases al rd n s with ⟨k, h⟩ | ⟨k, h, -⟩ | ⟨j, a', t, -, -, h⟩ | ⟨u, h, -⟩ <;> simp only [Call.run, h]
    · exact ⟨rfl, Same.refl rfl⟩
    · exact ⟨rfl, Same.refl rfl⟩
    · exact ⟨rfl, 1, by simp [ho.newAlias]⟩
    · trivial
  | load b img n => exact loadWords_data.mono fun _ h => ⟨h.hits, h.same ho⟩
  | memoryMap =>
    refine Post.bind ?_ (fun _ _ _ h => h)
    rcases xml_raw s with h | h | ⟨text, h⟩ <;> rw [h]
    · exact ⟨rfl, Same.refl rfl⟩
    · trivial
    · exact ⟨rfl, Same.refl rfl⟩
  | mapForWrite a n =>
    exact Post.bind (gdp_write_eq.mono (by rintro _ rfl; exact ⟨rfl, Same.refl rfl⟩)) (fun _ _ _ h => h)
  | readCount a =>
    refine Post.bind ?_ (fun _ _ _ h => h)
    rcases readCount_raw a s with ⟨v, h⟩ | h | ⟨u, h⟩ <;> rw [h]
    · exact ⟨rfl, Same.refl rfl⟩
    · exact ⟨rfl, Same.refl rfl⟩
    · trivial
  | _ => exact hc.elim

theorem obs_watch : Obs Region.watch [] := ⟨fun _ _ => rfl, fun _ _ => rfl, fun _ _ _ _ _ => rfl⟩
theorem obs_counts : Obs Region.readCounts none := ⟨fun _ _ => rfl, fun _ _ => rfl, fun _ _ _ _ _ => rfl⟩

end Verif.MemSim
