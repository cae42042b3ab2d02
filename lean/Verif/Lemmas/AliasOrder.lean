import Verif.Lemmas.MapFlash
/- Where aliases lead: the invariant of all histories, and what happens to aliases of aliases. -/
namespace Verif.Spec
open Verif MemSim Spec

/-- What accesses do not change about a region. -/
def sh (r : Region) : (U32 × U32 × Bool × Option Nat × U32) × Nat := (shape r, r.data.length)

theorem sh_eq {r q : Region} (h : sh r = sh q) : r.baseAddress = q.baseAddress ∧ r.size = q.size ∧ r.isAlias = q.isAlias ∧
    r.redirect = q.redirect ∧ r.redirectAddress = q.redirectAddress ∧ r.data.length = q.data.length := by
  simp only [sh, Prod.mk.injEq] at h
  obtain ⟨h1, h2, h3, h4, h5⟩ := shape_eq h.1
  exact ⟨h1, h2, h3, h4, h5, h.2⟩

theorem sh_get {L L' : List Region} (h : L'.map sh = L.map sh) {k : Nat} {p : Region} (hk : L'[k]? = some p) :
    ∃ p0, L[k]? = some p0 ∧ sh p = sh p0 := by
  have : (L'.map sh)[k]? = some (sh p) := by rw [List.getElem?_map, hk]; rfl
  rw [h, List.getElem?_map] at this
  cases hl : L[k]? with
  | none => rw [hl] at this; cases this
  | some p0 => rw [hl] at this; exact ⟨p0, rfl, (Option.some.inj this).symm⟩

theorem sh_cover {L L' : List Region} (h : L'.map sh = L.map sh) {a : U32} {n k : Nat} {q : Region} (hf : FirstCover L a n k q) :
    ∃ q', FirstCover L' a n k q' ∧ sh q' = sh q := by
  obtain ⟨q', h1, h2⟩ := sh_get h.symm hf.1
  obtain ⟨g1, g2, -⟩ := sh_eq h2
  refine ⟨q', ⟨h1, ?_, ?_⟩, h2.symm⟩
  · have := hf.2.1
    unfold Covers at this ⊢
    rw [← g1, ← g2]; exact this
  · intro j hj p hp
    obtain ⟨p0, e1, e2⟩ := sh_get h hp
    obtain ⟨g1, g2, -⟩ := sh_eq e2
    have := hf.2.2 j hj p0 e1
    unfold Covers at this ⊢
    rw [g1, g2]; exact this

/-- Every alias has been resolved to an ordinary region: the first that contains its redirect address, or, if that is an alias,
the region which that one leads to, created even earlier. Ordinary regions have as many bytes as they say. -/
def Resolved (L : List Region) : Prop :=
  ∀ (k : Nat) (p : Region), L[k]? = some p →
    if p.isAlias then
      ∃ k0 q0 i t, k0 < k ∧ FirstCover L p.redirectAddress 1 k0 q0 ∧ p.redirect = some i ∧ L[i]? = some t ∧ t.isAlias = false ∧
        if q0.isAlias then i < k0 else i = k0
    else p.data.length = p.size.toNat

theorem resolved_congr {L L' : List Region} (h : Resolved L) (hs : L'.map sh = L.map sh) : Resolved L' := by
  intro k p hk
  obtain ⟨p0, e1, e2⟩ := sh_get hs hk
  obtain ⟨g1, g2, g3, g4, g5, g6⟩ := sh_eq e2
  have := h k p0 e1
  rw [g3]
  by_cases ha : p0.isAlias
  · rw [if_pos ha] at this ⊢
    obtain ⟨k0, q0, i, t, h1, h2, h3, h4, h5, h6⟩ := this
    obtain ⟨q', f1, f2⟩ := sh_cover hs h2
    obtain ⟨t', f3, f4⟩ := sh_get hs.symm h4
    obtain ⟨-, -, e3, -⟩ := sh_eq f2
    obtain ⟨-, -, e4, -⟩ := sh_eq f4
    refine ⟨k0, q', i, t', h1, by rw [g5]; exact f1, by rw [g4]; exact h3, f3, by rw [← e4]; exact h5, ?_⟩
    rw [e3]; exact h6
  · rw [if_neg ha] at this ⊢
    rw [g6, g2]; exact this

theorem cover_append {L : List Region} {r : Region} {a : U32} {n k : Nat} {q : Region} (h : FirstCover L a n k q) : FirstCover (L ++ [r]) a n k q := by
  have hlt := (List.getElem?_eq_some_iff.1 h.1).1
  refine ⟨by rw [List.getElem?_append_left hlt]; exact h.1, h.2.1, fun j hj p hp => ?_⟩
  rw [List.getElem?_append_left (by omega)] at hp
  exact h.2.2 j hj p hp

theorem resolved_append {L : List Region} (h : Resolved L) {r : Region}
    (hr : if r.isAlias then
      ∃ k0 q0 i t, FirstCover L r.redirectAddress 1 k0 q0 ∧ r.redirect = some i ∧ L[i]? = some t ∧ t.isAlias = false ∧
        if q0.isAlias then i < k0 else i = k0
    else r.data.length = r.size.toNat) : Resolved (L ++ [r]) := by
  have left : ∀ {i : Nat} {t : Region}, L[i]? = some t → (L ++ [r])[i]? = some t := fun ht => by
    rw [List.getElem?_append_left (List.getElem?_eq_some_iff.1 ht).1]; exact ht
  intro k p hk
  by_cases hlt : k < L.length
  · rw [List.getElem?_append_left hlt] at hk
    have := h k p hk
    split at this
    · rename_i ha
      rw [if_pos ha]
      obtain ⟨k0, q0, i, t, h1, h2, h3, h4, h5, h6⟩ := this
      exact ⟨k0, q0, i, t, h1, cover_append h2, h3, left h4, h5, h6⟩
    · rename_i ha
      rw [if_neg ha]; exact this
  · rw [List.getElem?_append_right (by omega)] at hk
    have hz : k - L.length = 0 := by
      have := (List.getElem?_eq_some_iff.1 hk).1
      simp at this; omega
    rw [hz] at hk
    cases hk
    by_cases ha : r.isAlias
    · rw [if_pos ha] at hr ⊢
      obtain ⟨k0, q0, i, t, h2, h3, h4, h5, h6⟩ := hr
      have := (List.getElem?_eq_some_iff.1 h2.1).1
      exact ⟨k0, q0, i, t, by omega, cover_append h2, h3, left h4, h5, h6⟩
    · rw [if_neg ha] at hr ⊢; exact hr

theorem resolved_dropLast {L : List Region} (h : Resolved L) : Resolved L.dropLast := by
  intro k p hk
  have keep : ∀ {j : Nat}, j ≤ k → L.dropLast[j]? = L[j]? := by
    intro j hj
    have := (List.getElem?_eq_some_iff.1 hk).1
    rw [List.length_dropLast] at this
    rw [List.getElem?_dropLast, if_pos (by omega)]
  rw [keep (Nat.le_refl _)] at hk
  have := h k p hk
  split at this
  · rename_i ha
    rw [if_pos ha]
    obtain ⟨k0, q0, i, t, h1, h2, h3, h4, h5, h6⟩ := this
    have hi : i ≤ k := by split at h6 <;> omega
    refine ⟨k0, q0, i, t, h1, ⟨by rw [keep (by omega)]; exact h2.1, h2.2.1, fun j hj x hx => ?_⟩, h3, by rw [keep hi]; exact h4, h5, h6⟩
    rw [keep (by omega)] at hx
    exact h2.2.2 j hj x hx
  · rename_i ha
    rw [if_neg ha]; exact this

abbrev ResolvedS (s : Sim) : Prop := Resolved s.regions

theorem resolved_same {s s' : Sim} (h : ResolvedS s) (hr : s'.regions = s.regions) : ResolvedS s' := by
  unfold ResolvedS; rw [hr]; exact h

theorem resolved_set {s s' : Sim} (h : ResolvedS s) {i : Nat} {r r' : Region} (hr : s.regions[i]? = some r)
    (hs : s'.regions = s.regions.set i r') (e : sh r' = sh r) : ResolvedS s' := by
  refine resolved_congr h ?_
  rw [hs, List.map_set, e]
  apply List.ext_getElem?
  intro j
  by_cases hj : i = j
  · subst hj
    have := (List.getElem?_eq_some_iff.1 hr).1
    rw [List.getElem?_set_self (by simpa using this), List.getElem?_map, hr]; rfl
  · rw [List.getElem?_set_ne hj]

theorem _root_.Verif.MemSim.Quiet.resolved {s s' : Sim} (h : ResolvedS s) (hq : Quiet s s') : ResolvedS s' := by
  refine resolved_congr h ?_
  have : ∀ {xs ys : List Region}, List.Forall₂ AccessRel xs ys → ys.map sh = xs.map sh := by
    intro xs ys h
    induction h with
    | nil => rfl
    | cons h t ih => rw [List.map_cons, List.map_cons, ih, sh, sh, h.shape, h.len]
  exact this hq.regions

theorem resolved_create {s : Sim} (h : ResolvedS s) (b n : U32) : Post (createRegion b n s) ResolvedS := by
  rcases createRegion_cases b n s with ⟨k, e⟩ | e <;> rw [e]
  · exact resolved_same h rfl
  · exact resolved_append h (r := newRegion b n) (by simp [newRegion])

theorem resolved_mark {s : Sim} (h : ResolvedS s) (b : U32) : Post (makeRegionReadOnly b s) ResolvedS := by
  rcases makeRegionReadOnly_cases b s with e | ⟨u, e⟩ | ⟨j, a', r, hf, hr, ⟨-, e⟩ | ⟨-, e⟩⟩ <;> rw [e]
  · exact h
  · trivial
  · exact resolved_set (r' := { r with isReadOnly := true }) h hr rfl rfl
  · exact resolved_set (r' := { r with isReadOnly := true, readCounts := some _ }) h hr rfl rfl

theorem resolved_flash {img : List U8} {n : U32} {s : Sim} (h : ResolvedS s) :
    Post (createRegionsFromFlashImage img n s) ResolvedS := by
  unfold createRegionsFromFlashImage
  split
  · exact h
  · refine Post.bind (resolved_create h _ _) ?_
    intro _ s1 e1 h1
    refine Post.bind (P := ResolvedS) (loadWords_post.mono fun _ hq => hq.resolved h1) ?_
    intro _ s2 e2 h2
    refine Post.tryCatch ?_ ?_
    · refine Post.bind (resolved_mark h2 _) ?_
      intro _ s3 e3 h3
      split
      · trivial
      · exact resolved_create h3 _ _
    · intro e s4 h4
      refine Post.bind ((freeLast_map s4).mono ?_) (fun _ _ _ h => h)
      rintro t ⟨-, g⟩
      unfold ResolvedS
      rw [g]
      exact resolved_dropLast h4

theorem resolved_alias {s : Sim} (h : ResolvedS s) {al rd n : U32} {j : Nat} {a' : U32} {t : Region}
    (hf : findMatchingRegion rd 1 s = .ok (j, a') s) (hj : s.regions[j]? = some t) : Resolved (s.regions ++ [newAlias al rd n j t]) := by
  refine resolved_append h ?_
  rw [if_pos (show (newAlias al rd n j t).isAlias = true from rfl)]
  unfold findMatchingRegion at hf
  cases hff : findFrom 0 s.regions rd 1 with
  | none => rw [hff] at hf; cases hf
  | some x =>
    obtain ⟨k0, q0⟩ := x
    have hc := findFrom_zero.1 hff
    rw [hff] at hf
    dsimp only at hf
    have hq := h k0 q0 hc.1
    by_cases ha : q0.isAlias
    · rw [if_pos ha] at hq hf
      obtain ⟨k1, q1, i, t', h1, h2, h3, h4, h5, h6⟩ := hq
      rw [h3] at hf
      cases hf
      rw [hj] at h4
      cases h4
      refine ⟨k0, q0, j, t, hc, rfl, hj, h5, ?_⟩
      rw [if_pos ha]
      split at h6 <;> omega
    · rw [if_neg ha] at hf
      cases hf
      have : t = q0 := Option.some.inj (hj.symm.trans hc.1)
      subst this
      exact ⟨_, t, _, t, hc, rfl, hj, by simpa using ha, by rw [if_neg ha]⟩

theorem call_resolved {c : Call} {s s' : Sim} (h : ResolvedS s) (hst : Step c s s') : ResolvedS s' := by
  refine Post.step hst ?_
  cases c with
  | createRegion b n => exact resolved_create h b n
  | createAlias al rd n =>
    rcases createAlias_cases al rd n s with ⟨k, e⟩ | ⟨k, e, -⟩ | ⟨j, a', t, hf, hj, e⟩ | ⟨u, e, -⟩ <;> simp only [Call.run, e]
    · exact resolved_same h rfl
    · exact resolved_same h rfl
    · exact resolved_alias h hf hj
    · trivial
  | makeReadOnly b => exact resolved_mark h b
  | load b img n => exact loadWords_post.mono fun _ hq => hq.resolved h
  | flashImage img n => exact resolved_flash h
  | read w a => exact Post.bind (read_post.mono fun _ hq => hq.quiet.resolved h) (fun _ _ _ h => h)
  | write w a v =>
    simp only [Call.run, write_eq]
    exact writeN_post.mono fun _ hq => hq.1.resolved h
  | memoryMap =>
    refine Post.bind ?_ (fun _ _ _ h => h)
    rcases xml_raw s with e | e | ⟨text, e⟩ <;> rw [e]
    · exact resolved_same h rfl
    · trivial
    · exact resolved_same h rfl
  | mapForWrite a n => exact Post.bind (gdp_post.mono fun _ hq => hq.quiet.resolved h) (fun _ _ _ h => h)
  | mapForRead a n => exact Post.bind (gdp_post.mono fun _ hq => hq.quiet.resolved h) (fun _ _ _ h => h)
  | readCount a =>
    refine Post.bind ?_ (fun _ _ _ h => h)
    rcases readCount_raw a s with ⟨v, e⟩ | e | ⟨u, e⟩ <;> rw [e]
    · exact h
    · exact h
    · trivial
  | setBreakpoint a n =>
    rcases setWatchpoint_raw a n WATCHPOINT_BREAKPOINT s with ⟨k, e⟩ | ⟨x, k, e⟩ | ⟨u, e⟩ | ⟨i, r, ws, al, k, hr, e, -⟩ <;>
      simp only [Call.run, setHardwareBreakpoint, e]
    · exact resolved_same h rfl
    · exact resolved_same h rfl
    · trivial
    · exact resolved_set (r' := { r with watch := ws, watchAlloc := al }) h hr rfl rfl
  | setWatchpoint a n t =>
    rcases setWatchpoint_raw a n t s with ⟨k, e⟩ | ⟨x, k, e⟩ | ⟨u, e⟩ | ⟨i, r, ws, al, k, hr, e, -⟩ <;>
      simp only [Call.run, setHardwareWatchpoint, e]
    · exact resolved_same h rfl
    · exact resolved_same h rfl
    · trivial
    · exact resolved_set (r' := { r with watch := ws, watchAlloc := al }) h hr rfl rfl
  | clearBreakpoint a n =>
    rcases clearWatchpoint_raw a n WATCHPOINT_BREAKPOINT s with e | ⟨x, e⟩ | ⟨u, e⟩ | ⟨i, r, ws, hr, e⟩ <;>
      simp only [Call.run, clearHardwareBreakpoint, e]
    · exact h
    · exact h
    · trivial
    · exact resolved_set (r' := { r with watch := ws }) h hr rfl rfl
  | clearWatchpoint a n t =>
    rcases clearWatchpoint_raw a n t s with e | ⟨x, e⟩ | ⟨u, e⟩ | ⟨i, r, ws, hr, e⟩ <;>
      simp only [Call.run, clearHardwareWatchpoint, e]
    · exact h
    · exact h
    · trivial
    · exact resolved_set (r' := { r with watch := ws }) h hr rfl rfl
  | wasHit => exact resolved_same h rfl
  | uninit => intro k q hk; cases k <;> cases hk


theorem resolved_nil {s : Sim} (h : s.regions = []) : ResolvedS s := by
  unfold ResolvedS; rw [h]; intro k p hk; cases k <;> cases hk

theorem hist_resolved {cs : List Call} {s s' : Sim} (h : Hist s cs s') (hi : ResolvedS s) : ResolvedS s' := by
  induction h with
  | nil s => exact hi
  | cons h t ih => exact ih (call_resolved hi h)

theorem scan_wide (ws : List Watchpoint) (a b : U32) (n : Nat) (t : U32) (hn : n ≠ 2) : (scanWatch ws a b n t).2 = false := by
  induction ws with
  | nil => rfl
  | cons w ws ih =>
    unfold scanWatch
    split
    · exact ih
    · split
      · rw [if_neg (fun h => hn h.1)]; exact ih
      · split
        · exact ih
        · split
          · rfl
          · exact ih

/-- An access to the first bytes of an alias of an alias is an access outside the memory it leads to. -/
theorem chained_escapes {s : Sim} {k k0 : Nat} {p q : Region} {w : Width} (hr : ResolvedS s)
    (hfit : ∀ r ∈ s.regions, r.isAlias = false → r.baseAddress.toNat + r.size.toNat ≤ 2 ^ 32)
    (hp : FirstCover s.regions p.baseAddress w.bytes k p) (ha : p.isAlias = true)
    (hq : FirstCover s.regions p.redirectAddress 1 k0 q) (hqa : q.isAlias = true) (hw : w ≠ .w16) :
    ∃ i t, p.redirect = some i ∧ s.regions[i]? = some t ∧
    (∃ u, IMemory.read w p.baseAddress s = .ub u) ∧ ∀ v, t.isReadOnly = false → ∃ u, IMemory.write w p.baseAddress v s = .ub u := by
  have hres := hr k p hp.1
  rw [if_pos ha] at hres
  obtain ⟨k1, q1, i, t, h1, h2, h3, ht, h5, h6⟩ := hres
  obtain ⟨rfl, rfl⟩ : k1 = k0 ∧ q1 = q := by
    have e : k1 = k0 := by
      rcases Nat.lt_trichotomy k1 k0 with hlt | heq | hlt
      · exact absurd h2.2.1 (hq.2.2 k1 hlt q1 h2.1)
      · exact heq
      · exact absurd hq.2.1 (h2.2.2 k0 hlt q hq.1)
    subst e
    exact ⟨rfl, Option.some.inj (h2.1.symm.trans hq.1)⟩
  rw [if_pos hqa] at h6
  refine ⟨i, t, h3, ht, ?_⟩
  have hnot := hq.2.2 i h6 t ht
  have hd := hr i t ht
  rw [if_neg (by rw [h5]; decide)] at hd
  have hfit := hfit t (List.mem_of_getElem? ht) h5
  generalize hrd : p.redirectAddress = rd at *
  have hfind : findMatchingRegion p.baseAddress w.bytes s = .ok (i, rd) s := by
    unfold findMatchingRegion
    rw [findFrom_zero.2 hp]
    simp only [ha, h3, if_true, BitVec.sub_self, BitVec.zero_add, hrd]
  have hat : regionAt i s = .ok t s := regionAt_eq ht
  have hw2 : w.bytes ≠ 2 := by cases w <;> first | decide | exact absurd rfl hw
  have hw1 : 0 < w.bytes := by cases w <;> decide
  have hoff : ¬ (rd - t.baseAddress).toNat + w.bytes ≤ t.data.length := by
    rw [hd, BitVec.toNat_sub]
    have h1 := rd.isLt
    have h2 := t.baseAddress.isLt
    simp only [Covers] at hnot
    omega
  have hcheck : ∀ ty, (∃ u, checkForBreakWatchPoint t rd w.bytes ty s = .ub u) ∨
      ∃ h, checkForBreakWatchPoint t rd w.bytes ty s = .ok () { s with hits := h } := by
    intro ty
    unfold checkForBreakWatchPoint
    have := scan_wide t.watch rd (rd + BitVec.ofNat 32 w.bytes) w.bytes ty hw2
    generalize scanWatch t.watch rd (rd + BitVec.ofNat 32 w.bytes) w.bytes ty = x at this
    obtain ⟨m, b⟩ := x
    simp only at this
    subst this
    simp only
    split
    · exact .inl ⟨_, rfl⟩
    · exact .inr ⟨_, rfl⟩
  have hcount : ∀ off ty, countRead i t off w.bytes ty s = .ok () s := by
    intro off ty
    unfold countRead
    rw [if_neg (fun h => hw2 h.2)]
    rfl
  constructor
  · rw [read_eq]
    have : ∃ u, readN w.bytes p.baseAddress s = .ub u := by
      unfold readN getDataPointer
      simp only [M.bind_apply, hfind, hat, show ¬ (READING = WRITING ∧ t.isReadOnly = true) from fun h => absurd h.1 (by decide), if_false,
        hcount, M.pure_apply, if_true]
      rcases hcheck READING with ⟨u, e⟩ | ⟨m, e⟩ <;> rw [e]
      · exact ⟨u, rfl⟩
      · simp only [hostRead, M.bind_apply, regionAt, ht, if_neg hoff, M.ub_apply]
        exact ⟨_, rfl⟩
    obtain ⟨u, hu⟩ := this
    rw [hu]
    exact ⟨u, rfl⟩
  · intro v hro
    rw [write_eq]
    unfold writeN getDataPointer
    simp only [M.bind_apply, hfind, hat, hro, Bool.false_eq_true, and_false, if_false, hcount, M.pure_apply, if_true]
    rcases hcheck WRITING with ⟨u, e⟩ | ⟨m, e⟩ <;> rw [e]
    · exact ⟨u, rfl⟩
    · simp only [hostWrite, M.bind_apply, regionAt, ht, leBytes_length, if_neg hoff, M.ub_apply]
      exact ⟨_, rfl⟩

end Verif.Spec
