import Verif.Lemmas.Create
/- Break/watchpoint tables. -/
namespace Verif.MemSim
open Verif Spec

abbrev SortedWatch (ws : List Watchpoint) : Prop :=
  ws.Pairwise (fun w w' => w.startAddress.toNat ≤ w'.startAddress.toNat)

theorem findWatch_true {ws : List Watchpoint} {key : Watchpoint} {k i : Nat} (h : findWatch k ws key = (i, true)) :
    ∃ l1 l2, ws = l1 ++ key :: l2 ∧ i = k + l1.length := by
  induction ws generalizing k with
  | nil => simp [findWatch] at h
  | cons w ws ih =>
    unfold findWatch at h
    split at h
    · rename_i e
      simp at h
      exact ⟨[], ws, by simp [e], by simp [h]⟩
    · split at h
      · simp at h
      · obtain ⟨l1, l2, e1, e2⟩ := ih h
        exact ⟨w :: l1, l2, by simp [e1], by simp [e2]; omega⟩

theorem findWatch_false {ws : List Watchpoint} {key : Watchpoint} {k i : Nat} (h : findWatch k ws key = (i, false))
    (hs : SortedWatch ws) :
    ∃ l1 l2, ws = l1 ++ l2 ∧ i = k + l1.length ∧ key ∉ l1 ∧
      (∀ w ∈ l1, w.startAddress.toNat ≤ key.startAddress.toNat) ∧
      (∀ w ∈ l2, key.startAddress.toNat < w.startAddress.toNat) := by
  induction ws generalizing k with
  | nil => simp [findWatch] at h; exact ⟨[], [], by simp [h]⟩
  | cons w ws ih =>
    unfold findWatch at h
    rw [SortedWatch, List.pairwise_cons] at hs
    split at h
    · simp at h
    · rename_i hne
      split at h
      · rename_i hlt
        simp at h
        refine ⟨[], w :: ws, rfl, by simp [h], by simp, by simp, ?_⟩
        intro x hx
        rcases List.mem_cons.1 hx with rfl | hx
        · exact hlt
        · have := hs.1 x hx; omega
      · obtain ⟨l1, l2, e1, e2, e3, e4, e5⟩ := ih h hs.2
        refine ⟨w :: l1, l2, by simp [e1], by simp [e2]; omega, by simp [hne, e3], ?_, e5⟩
        intro x hx
        rcases List.mem_cons.1 hx with rfl | hx
        · omega
        · exact e4 x hx

theorem insertIdx_append (l1 l2 : List Watchpoint) (x : Watchpoint) :
    (l1 ++ l2).insertIdx l1.length x = l1 ++ x :: l2 := by
  induction l1 with
  | nil => simp
  | cons a l ih => simp [ih]

theorem eraseIdx_append_cons (l1 l2 : List Watchpoint) (x : Watchpoint) :
    (l1 ++ x :: l2).eraseIdx l1.length = l1 ++ l2 := by
  induction l1 with
  | nil => simp
  | cons a l ih => simp [ih]

/-- What the search finds, and what inserting there gives. -/
theorem findWatch_insert {ws : List Watchpoint} {key : Watchpoint} {i : Nat} (h : findWatch 0 ws key = (i, false))
    (hs : SortedWatch ws) (hn : ws.Nodup) :
    key ∉ ws ∧ SortedWatch (ws.insertIdx i key) ∧ (ws.insertIdx i key).Nodup ∧
    (ws.insertIdx i key).length = ws.length + 1 ∧ ∀ w, w ∈ ws.insertIdx i key ↔ w = key ∨ w ∈ ws := by
  obtain ⟨l1, l2, rfl, rfl, e3, e4, e5⟩ := findWatch_false h hs
  have hk : key ∉ l2 := fun hm => by have := e5 key hm; omega
  simp only [Nat.zero_add, insertIdx_append]
  refine ⟨by simp [e3, hk], ?_, ?_, by simp; omega, ?_⟩
  · rw [SortedWatch, List.pairwise_append] at hs ⊢
    refine ⟨hs.1, ?_, ?_⟩
    · rw [List.pairwise_cons]
      exact ⟨fun w hw => by have := e5 w hw; omega, hs.2.1⟩
    · intro a ha b hb
      rcases List.mem_cons.1 hb with rfl | hb
      · exact e4 a ha
      · exact hs.2.2 a ha b hb
  · rw [List.nodup_append] at hn ⊢
    refine ⟨hn.1, ?_, ?_⟩
    · rw [List.nodup_cons]; exact ⟨hk, hn.2.1⟩
    · intro a ha b hb
      rcases List.mem_cons.1 hb with rfl | hb
      · exact fun h => e3 (h ▸ ha)
      · exact hn.2.2 a ha b hb
  · intro w
    simp only [List.mem_append, List.mem_cons]
    constructor
    · rintro (h | h | h) <;> simp [h]
    · rintro (h | h | h) <;> simp [h]

theorem findWatch_erase {ws : List Watchpoint} {key : Watchpoint} {i : Nat} (h : findWatch 0 ws key = (i, true))
    (hs : SortedWatch ws) (hn : ws.Nodup) :
    key ∈ ws ∧ SortedWatch (ws.eraseIdx i) ∧ (ws.eraseIdx i).Nodup ∧ (ws.eraseIdx i).length ≤ ws.length ∧
    ∀ w, w ∈ ws.eraseIdx i ↔ w ≠ key ∧ w ∈ ws := by
  obtain ⟨l1, l2, rfl, rfl⟩ := findWatch_true h
  have hsub : (l1 ++ l2).Sublist (l1 ++ key :: l2) :=
    List.Sublist.append_left (List.sublist_cons_self _ _) _
  simp only [Nat.zero_add, eraseIdx_append_cons]
  refine ⟨by simp, hs.sublist hsub, hn.sublist hsub, by simp, ?_⟩
  intro w
  rw [List.nodup_append] at hn
  obtain ⟨h1, h2, h3⟩ := hn
  rw [List.nodup_cons] at h2
  simp only [List.mem_append, List.mem_cons]
  constructor
  · rintro (h | h)
    · exact ⟨fun e => h3 w h key (by simp) e, .inl h⟩
    · exact ⟨fun e => h2.1 (e ▸ h), .inr (.inr h)⟩
  · rintro ⟨h, h' | h' | h'⟩
    · exact .inl h'
    · exact absurd h' h
    · exact .inr h'

theorem findWatch_mem {ws : List Watchpoint} {key : Watchpoint} (hs : SortedWatch ws) (hn : ws.Nodup) :
    (findWatch 0 ws key).2 = true ↔ key ∈ ws := by
  cases h : findWatch 0 ws key with
  | mk i b =>
    cases b
    · simp [(findWatch_insert h hs hn).1]
    · simp [(findWatch_erase h hs hn).1]

/-- The watchpoint that a set/clear call names, when it leads to offset `off` of region `r`. -/
def namedWatch (r : Region) (off : Nat) (n t : U32) : Watchpoint :=
  { type := t, startAddress := r.baseAddress + BitVec.ofNat 32 off,
    endAddress := r.baseAddress + BitVec.ofNat 32 off + n }

/-- `setWatchpoint` in a sound simulator. -/
theorem setWatchpoint_cases {s : Sim} (hs : Sound s) {a n t : U32} {i off : Nat} {r : Region}
    (h : Target s a n.toNat i r off) :
    (namedWatch r off n t ∈ r.watch ∧ setWatchpoint a n t s = .ok () s) ∨
    (namedWatch r off n t ∉ r.watch ∧ s.heap.fails s.heap.next = true ∧ r.watch.length = r.watchAlloc ∧
      setWatchpoint a n t s = .throw ⟨.outOfMemory, []⟩ (bumpHeap s 1 0)) ∨
    (namedWatch r off n t ∉ r.watch ∧ ∃ ws al k l,
      setWatchpoint a n t s = .ok () { bumpHeap s k l with
        regions := s.regions.set i { r with watch := ws, watchAlloc := al } } ∧
      PlainOK { r with watch := ws, watchAlloc := al } ∧
      (∀ w, w ∈ ws ↔ w = namedWatch r off n t ∨ w ∈ r.watch) ∧ al ≠ 0 ∧
      l = if r.watchAlloc = 0 then 1 else 0) := by
  have hi := h.info hs
  obtain ⟨o1, o2, o3, o4, o5⟩ := hi.ok
  simp only [setWatchpoint, M.bind_apply, find_target hs h, regionAt_eq hi.get]
  have e : (Watchpoint.mk t (r.baseAddress + BitVec.ofNat 32 off)
      (r.baseAddress + BitVec.ofNat 32 off + n)) = namedWatch r off n t := rfl
  rw [e]
  cases hf : findWatch 0 r.watch (namedWatch r off n t) with
  | mk k b =>
    cases b
    · obtain ⟨g1, g2, g3, g4, g5⟩ := findWatch_insert hf o3 o4
      right
      simp only
      by_cases hl : r.watch.length + 1 > r.watchAlloc
      · simp only [if_pos hl, M.bind_apply, realloc]
        by_cases hfail : s.heap.fails s.heap.next = true
        · left
          simp only [hfail, if_true]
          exact ⟨g1, trivial, by omega, by simp [bumpHeap]⟩
        · right
          simp only [hfail, Bool.false_eq_true, if_false]
          refine ⟨g1, r.watch.insertIdx k (namedWatch r off n t), r.watch.length + 1, 1,
            (if r.watchAlloc = 0 then 1 else 0), ?_, ?_, g5, by omega, rfl⟩
          · simp [setRegion, bumpHeap]
          · exact ⟨o1, o2, g2, g3, by simp [g4]⟩
      · right
        simp only [if_neg hl]
        refine ⟨g1, r.watch.insertIdx k (namedWatch r off n t), r.watchAlloc, 0, 0, ?_, ?_, g5, by omega, by
          rw [if_neg (by omega)]⟩
        · simp [setRegion, bumpHeap]
        · exact ⟨o1, o2, g2, g3, by simp only [g4]; omega⟩
    · left
      exact ⟨(findWatch_mem o3 o4).1 (by rw [hf]), rfl⟩

/-- `clearWatchpoint` in a sound simulator. -/
theorem clearWatchpoint_cases {s : Sim} (hs : Sound s) {a n t : U32} {i off : Nat} {r : Region}
    (h : Target s a n.toNat i r off) :
    (namedWatch r off n t ∉ r.watch ∧ clearWatchpoint a n t s = .ok () s) ∨
    (namedWatch r off n t ∈ r.watch ∧ ∃ ws,
      clearWatchpoint a n t s = .ok () { s with regions := s.regions.set i { r with watch := ws } } ∧
      PlainOK { r with watch := ws } ∧ (∀ w, w ∈ ws ↔ w ≠ namedWatch r off n t ∧ w ∈ r.watch)) := by
  have hi := h.info hs
  obtain ⟨o1, o2, o3, o4, o5⟩ := hi.ok
  simp only [clearWatchpoint, M.bind_apply, find_target hs h, regionAt_eq hi.get]
  have e : (Watchpoint.mk t (r.baseAddress + BitVec.ofNat 32 off)
      (r.baseAddress + BitVec.ofNat 32 off + n)) = namedWatch r off n t := rfl
  rw [e]
  cases hf : findWatch 0 r.watch (namedWatch r off n t) with
  | mk k b =>
    cases b
    · left
      refine ⟨fun hm => ?_, rfl⟩
      have := (findWatch_mem o3 o4).2 hm
      rw [hf] at this
      cases this
    · right
      obtain ⟨g1, g2, g3, g4, g5⟩ := findWatch_erase hf o3 o4
      exact ⟨g1, r.watch.eraseIdx k, rfl, ⟨o1, o2, g2, g3, Nat.le_trans g4 o5⟩, g5⟩

theorem setWatchpoint_unmapped {s : Sim} {a n t : U32} (h : ¬ Mapped s a n.toNat) :
    setWatchpoint a n t s = .throw ⟨.busError, []⟩ s := by
  simp [setWatchpoint, find_unmapped h]

theorem clearWatchpoint_unmapped {s : Sim} {a n t : U32} (h : ¬ Mapped s a n.toNat) :
    clearWatchpoint a n t s = .throw ⟨.busError, []⟩ s := by
  simp [clearWatchpoint, find_unmapped h]

end Verif.MemSim
