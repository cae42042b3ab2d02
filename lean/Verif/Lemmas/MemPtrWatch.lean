import Verif.Lemmas.MemPtrMore
/-
Breakpoints, watchpoints and the memory map: the program with pointers and the list of regions agree.
-/
namespace Verif.MemPtr
open Verif MemSim

variable {own : List Own} {k : Nat} {p p' : PSim} {s s' : Sim}

/-! ### Breakpoints and watchpoints -/

theorem findWatch_loop (h : Rep own k p s) {i : Nat} {o : Own} {r : Region} (ho : own[i]? = some o) (hr : s.regions[i]? = some r)
    (w : Watchpoint) : ∀ (left j : Nat), r.watch.length = j + left →
    findWatchLoop o.watch w left j p = .ok (findWatch j (r.watch.drop j) w) p := by
  intro left
  induction left with
  | zero =>
    intro j hl
    rw [List.drop_eq_nil_of_le (by omega)]
    rfl
  | succ left ih =>
    intro j hl
    have hj : j < r.watch.length := by omega
    rw [List.drop_eq_getElem_cons hj]
    unfold findWatchLoop findWatch
    rw [M.bind_apply, entry_rep h ho hr (List.getElem?_eq_getElem hj) rfl]
    simp only
    by_cases h1 : w = r.watch[j]
    · rw [if_pos h1, if_pos h1]
      rfl
    · rw [if_neg h1, if_neg h1]
      by_cases h2 : w.startAddress.toNat < r.watch[j].startAddress.toNat
      · rw [if_pos h2, if_pos h2]
        rfl
      · rw [if_neg h2, if_neg h2]
        exact ih (j + 1) (by omega)

theorem findWatch_le (w : Watchpoint) : ∀ (ws : List Watchpoint) (j : Nat), (findWatch j ws w).1 ≤ j + ws.length := by
  intro ws
  induction ws with
  | nil => intro j; simp [findWatch]
  | cons v ws ih =>
    intro j
    unfold findWatch
    split
    · simp
    · split
      · simp
      · have := ih (j + 1)
        simp only [List.length_cons]
        omega

theorem findWatch_lt (w : Watchpoint) : ∀ (ws : List Watchpoint) (j : Nat), (findWatch j ws w).2 = true → (findWatch j ws w).1 < j + ws.length := by
  intro ws
  induction ws with
  | nil => intro j; simp [findWatch]
  | cons v ws ih =>
    intro j
    unfold findWatch
    split
    · simp
    · split
      · simp
      · intro h
        have := ih (j + 1) h
        simp only [List.length_cons]
        omega

theorem Holds.put_watch {ns : List Nat} {f : Nat → Option Block} {o : Own} {nxt : Ptr} {r : Region} (h : Holds ns f o nxt r) {x : Nat}
    {ws : List Watchpoint} {rest : List (Option Watchpoint)} (hw : o.watch = some x) (ha : r.watchAlloc ≠ 0)
    (hl : ws.length + rest.length = r.watchAlloc) :
    Holds ns (put (put f x (some (.watch (ws.map some ++ rest)))) o.node (some (.node (nodeOf ns o nxt { r with watch := ws })))) o nxt
      { r with watch := ws } := by
  obtain ⟨h1, h2, h3⟩ := h.apart
  have h2 := h2 x hw
  refine ⟨put_eq _ _ _, by rw [put_ne h1.symm, put_ne h2.2.symm]; exact h.data, .inr ⟨x, rest, hw, ha, by rw [put_ne h2.1, put_eq], hl⟩, ?_⟩
  rcases h.counts with hc | ⟨c, cs, a, b, d⟩
  · exact .inl hc
  · have h3 := h3 c a
    exact .inr ⟨c, cs, a, b, by rw [put_ne h3.1, put_ne (h3.2.2 x hw)]; exact d⟩

theorem put_put (f : Nat → Option Block) (x : Nat) (a b : Option Block) : put (put f x a) x b = put f x b := by
  funext y
  unfold put
  split <;> rfl

theorem insert_at {α : Type} (A B : List α) (w : α) : (A ++ B).insertIdx A.length w = A ++ w :: B := by
  induction A with
  | nil => simp
  | cons a A ih => simp [ih]

theorem erase_at {α : Type} (A B : List α) (w : α) : (A ++ w :: B).eraseIdx A.length = A ++ B := by
  induction A with
  | nil => simp
  | cons a A ih => simp [ih]

/-- Making room for an entry and writing it. -/
theorem moved_up {α : Type} (A B rest : List α) (c w : α) :
    ((A ++ B ++ c :: rest).take (A.length + 1) ++ ((A ++ B ++ c :: rest).drop A.length).take B.length ++
      (A ++ B ++ c :: rest).drop (A.length + 1 + B.length)).set A.length w = A ++ w :: B ++ rest := by
  have h1 : ((A ++ B ++ c :: rest).drop A.length).take B.length = B := by
    rw [List.append_assoc, List.drop_left, List.take_left]
  have h2 : (A ++ B ++ c :: rest).drop (A.length + 1 + B.length) = rest := by
    rw [show A.length + 1 + B.length = (A ++ B ++ [c]).length by simp; omega, show A ++ B ++ c :: rest = (A ++ B ++ [c]) ++ rest by simp, List.drop_left]
  obtain ⟨y, hy⟩ : ∃ y, (A ++ B ++ c :: rest).take (A.length + 1) = A ++ [y] := by
    rw [List.append_assoc, List.take_append, List.take_of_length_le (by omega), show A.length + 1 - A.length = 1 by omega]
    cases B with
    | nil => exact ⟨c, rfl⟩
    | cons b B => exact ⟨b, rfl⟩
  rw [h1, h2, hy]
  simp [List.set_append_right]

/-- Closing the gap of an entry. -/
theorem moved_down {α : Type} (A B rest : List α) (w : α) :
    ∃ v, (A ++ w :: B ++ rest).take A.length ++ ((A ++ w :: B ++ rest).drop (A.length + 1)).take B.length ++
      (A ++ w :: B ++ rest).drop (A.length + B.length) = A ++ B ++ v :: rest := by
  have h1 : (A ++ w :: B ++ rest).take A.length = A := by rw [List.append_assoc, List.take_left]
  have h2 : ((A ++ w :: B ++ rest).drop (A.length + 1)).take B.length = B := by
    rw [show A.length + 1 = (A ++ [w]).length by simp, show A ++ w :: B ++ rest = (A ++ [w]) ++ (B ++ rest) by simp, List.drop_left, List.take_left]
  have h3 : ∃ v, (A ++ w :: B ++ rest).drop (A.length + B.length) = v :: rest := by
    have hne : w :: B ≠ [] := nofun
    refine ⟨(w :: B).getLast hne, ?_⟩
    have e : A ++ w :: B ++ rest = (A ++ (w :: B).dropLast) ++ ((w :: B).getLast hne :: rest) := by
      conv => lhs; rw [← List.dropLast_append_getLast hne]
      simp
    rw [e, show A.length + B.length = (A ++ (w :: B).dropLast).length by simp, List.drop_left]
  obtain ⟨v, hv⟩ := h3
  exact ⟨v, by rw [h1, h2, hv]⟩

theorem insert_ok {ns : List Nat} {o : Own} {nxt : Ptr} {r : Region} (hh : Holds ns p.heap.blocks o nxt r) {x j : Nat}
    {rest : List (Option Watchpoint)} {c : Option Watchpoint} (w : Watchpoint) (hw : o.watch = some x) (ha : r.watchAlloc ≠ 0)
    (hb : p.heap.blocks x = some (.watch (r.watch.map some ++ c :: rest))) (hl : r.watch.length + (rest.length + 1) = r.watchAlloc)
    (hj : j ≤ r.watch.length) :
    ∃ F, (do
        let n ← nodeAt (some o.node)
        memmove n.pWatchpoints (j + 1) j (n.watchpointCount - j)
        setEntry n.pWatchpoints j w
        setNode (some o.node) fun n => { n with watchpointCount := n.watchpointCount + 1 } : M PSim Unit) p =
        .ok () { p with heap := { p.heap with blocks := F } } ∧
      Holds ns F o nxt { r with watch := r.watch.insertIdx j w } ∧ ∀ y, y ∉ o.all → F y = p.heap.blocks y := by
  obtain ⟨A, B, hAB, hA⟩ : ∃ A B, r.watch = A ++ B ∧ A.length = j :=
    ⟨r.watch.take j, r.watch.drop j, (List.take_append_drop _ _).symm, by simp; omega⟩
  subst hA
  have hlen : r.watch.length = A.length + B.length := by rw [hAB]; simp
  have hne := (hh.apart).2.1 x hw
  rw [M.bind_apply, nodeAt_ok hh.node]
  simp only [nodeOf, hw]
  rw [M.bind_apply]
  unfold memmove
  rw [M.bind_apply, watchAt_ok hb]
  simp only
  rw [if_pos (by simp; omega), setBlock_ok _ hb]
  simp only
  rw [M.bind_apply]
  unfold setEntry
  rw [M.bind_apply, watchAt_ok (put_eq _ _ _)]
  simp only
  rw [if_pos (by simp; omega), setBlock_ok _ (put_eq _ _ _)]
  simp only
  rw [setNode_ok _ (by simp only; rw [put_ne hne.1.symm, put_ne hne.1.symm]; exact hh.node)]
  refine ⟨_, rfl, ?_, ?_⟩
  · have key := hh.put_watch (ws := A ++ w :: B) (rest := rest) hw ha (by simp; omega)
    have hW := moved_up (A.map some) (B.map some) rest c (some w)
    rw [← List.map_append, ← hAB] at hW
    simp only [List.length_map] at hW
    rw [hAB, insert_at, ← hAB, put_put, hlen, show A.length + B.length - A.length = B.length by omega, hW]
    have e : (A.map some ++ some w :: B.map some) = (A ++ w :: B).map some := by simp
    rw [e]
    have e2 : nodeOf ns o nxt { r with watch := A ++ w :: B } = { nodeOf ns o nxt r with watchpointCount := r.watch.length + 1 } := by
      simp [nodeOf]
      omega
    rw [e2] at key
    exact key
  · intro y hy
    have a1 : y ≠ o.node := fun e => hy (mem_all.2 (.inl e))
    have a2 : y ≠ x := fun e => hy (mem_all.2 (.inr (.inr (.inl (by rw [hw, e])))))
    simp only
    rw [put_ne a1, put_ne a2, put_ne a2]

theorem erase_ok {ns : List Nat} {o : Own} {nxt : Ptr} {r : Region} (hh : Holds ns p.heap.blocks o nxt r) {j : Nat} (hj : j < r.watch.length) :
    ∃ F, (do
        memmove o.watch j (j + 1) (r.watch.length - j - 1)
        setNode (some o.node) fun n => { n with watchpointCount := n.watchpointCount - 1 } : M PSim Unit) p =
        .ok () { p with heap := { p.heap with blocks := F } } ∧
      Holds ns F o nxt { r with watch := r.watch.eraseIdx j } ∧ ∀ y, y ∉ o.all → F y = p.heap.blocks y := by
  obtain ⟨A, w, B, hAB, hA⟩ : ∃ A w B, r.watch = A ++ w :: B ∧ A.length = j :=
    ⟨r.watch.take j, r.watch[j], r.watch.drop (j + 1), by rw [← List.drop_eq_getElem_cons hj, List.take_append_drop], by simp; omega⟩
  subst hA
  have hlen : r.watch.length = A.length + (B.length + 1) := by rw [hAB]; simp
  rcases hh.watch with ⟨-, -, hw⟩ | ⟨x, rest, hw, ha, hb, hl⟩
  · rw [hw] at hj
    exact absurd hj (Nat.not_lt_zero _)
  have hne := (hh.apart).2.1 x hw
  rw [hw, M.bind_apply]
  unfold memmove
  rw [M.bind_apply, watchAt_ok hb]
  simp only
  rw [if_pos (by simp; omega), setBlock_ok _ hb]
  simp only
  rw [setNode_ok _ (by simp only; rw [put_ne hne.1.symm]; exact hh.node)]
  refine ⟨_, rfl, ?_, ?_⟩
  · obtain ⟨v, hv⟩ := moved_down (A.map some) (B.map some) rest (some w)
    have e : A.map some ++ some w :: B.map some = r.watch.map some := by rw [hAB]; simp
    rw [e] at hv
    simp only [List.length_map] at hv
    have key := hh.put_watch (ws := A ++ B) (rest := v :: rest) hw ha (by simp; omega)
    rw [hAB, erase_at, ← hAB, hlen, show A.length + (B.length + 1) - A.length - 1 = B.length by omega, hv]
    rw [List.map_append] at key
    have e2 : nodeOf ns o nxt { r with watch := A ++ B } = { nodeOf ns o nxt r with watchpointCount := r.watch.length - 1 } := by
      simp [nodeOf]
      omega
    rw [e2] at key
    exact key
  · intro y hy
    have a1 : y ≠ o.node := fun e => hy (mem_all.2 (.inl e))
    have a2 : y ≠ x := fun e => hy (mem_all.2 (.inr (.inr (.inl (by rw [hw, e])))))
    simp only
    rw [put_ne a1, put_ne a2]

theorem clear_rep (h : Rep own k p s) (a n t : U32) :
    Both (fun _ p' _ s' => ∃ own' k', Rep own' k' p' s') (fun p' s' => ∃ own' k', Rep own' k' p' s')
      (clearWatchpoint a n t p) (MemSim.clearWatchpoint a n t s) := by
  unfold clearWatchpoint MemSim.clearWatchpoint
  refine Both.bind ((find_rep h a n.toNat).mono (fun _ _ _ _ => id) (fun p' s' e => ⟨own, k, by rw [e.1, e.2]; exact h⟩)) ?_
  rintro ⟨x, a1⟩ p' ⟨i, a2⟩ s' ⟨rfl, rfl, hx, o, r, ho, hr, hp⟩
  simp only at hx ho hr hp
  subst hx hp
  have hh := h.holds i o r ho hr
  simp only
  rw [M.bind_apply, M.bind_apply, h.nodeAt ho hr]
  simp only [regionAt, hr, nodeOf]
  rw [M.bind_apply, findWatch_loop h ho hr _ r.watch.length 0 (by omega), List.drop_zero]
  have hlt := findWatch_lt { type := t, startAddress := a1, endAddress := a1 + n } r.watch 0
  cases hf : findWatch 0 r.watch { type := t, startAddress := a1, endAddress := a1 + n } with
  | mk j b =>
    rw [hf] at hlt
    cases b with
    | false => exact ⟨own, k, h⟩
    | true =>
      simp only [if_true]
      obtain ⟨F, hF, hH, hs⟩ := erase_ok hh (j := j) (by have := hlt rfl; simp only at this; omega)
      rw [hF]
      simp only [setRegion, M.modify_apply]
      exact ⟨own, k, h.touch ho hr ⟨rfl, rfl⟩ hH hs⟩

theorem realloc_no {x : Ptr} {b : Block} (hf : p.heap.fails p.heap.next = true) :
    realloc x b p = .ok none { p with heap := { p.heap with next := p.heap.next + 1 } } := by
  unfold realloc
  rw [M.bind_apply, malloc_no hf]
  rfl

theorem realloc_null {b : Block} (hf : ¬ p.heap.fails p.heap.next = true) :
    realloc none b p = .ok (some p.heap.next)
      { p with heap := { p.heap with next := p.heap.next + 1, live := p.heap.live + 1, blocks := put p.heap.blocks p.heap.next (some b) } } := by
  unfold realloc
  rw [M.bind_apply, malloc_yes hf]
  rfl

theorem realloc_some {x : Nat} {b b' : Block} (hf : ¬ p.heap.fails p.heap.next = true) (hx : p.heap.blocks x = some b') (hne : x ≠ p.heap.next) :
    realloc (some x) b p = .ok (some p.heap.next)
      { p with heap := { p.heap with next := p.heap.next + 1, live := p.heap.live, blocks := put (put p.heap.blocks p.heap.next (some b)) x none } } := by
  unfold realloc
  rw [M.bind_apply, malloc_yes hf]
  simp only
  rw [M.bind_apply, free_ok (b := b') (by simp only; rw [put_ne hne]; exact hx)]
  simp only [Int.add_sub_cancel]
  rfl

theorem Holds.grown {ns : List Nat} {f G : Nat → Option Block} {o : Own} {nxt : Ptr} {r : Region} (hh : Holds ns f o nxt r) {N : Nat}
    (hN : ∀ y ∈ o.all, y < N) (hG : G N = some (.watch (r.watch.map some ++ [none])))
    (hs : ∀ y ∈ o.all, o.watch ≠ some y → G y = f y) :
    Holds ns (put G o.node (some (.node (nodeOf ns { o with watch := some N } nxt { r with watchAlloc := r.watch.length + 1 }))))
      { o with watch := some N } nxt { r with watchAlloc := r.watch.length + 1 } := by
  obtain ⟨h1, h2, h3⟩ := hh.apart
  have hn := hN o.node (mem_all.2 (.inl rfl))
  refine ⟨put_eq _ _ _, ?_, .inr ⟨N, [none], rfl, by simp, ?_, rfl⟩, ?_⟩
  · rw [put_ne h1.symm, hs o.data (mem_all.2 (.inr (.inl rfl))) fun e => (h2 _ e).2 rfl]
    exact hh.data
  · rw [put_ne (by omega)]
    exact hG
  · rcases hh.counts with hc | ⟨c, cs, a, b, d⟩
    · exact .inl hc
    · refine .inr ⟨c, cs, a, b, ?_⟩
      have h3 := h3 c a
      rw [put_ne h3.1, hs c (mem_all.2 (.inr (.inr (.inr a)))) fun e => h3.2.2 c e rfl]
      exact d

theorem grow_ok (h : Rep own k p s) {i : Nat} {o : Own} {r : Region} (ho : own[i]? = some o) (hr : s.regions[i]? = some r)
    (hg : r.watch.length + 1 > r.watchAlloc) :
    ∃ F, growWatchpointArrayIfNeeded (some o.node) (r.watch.length + 1) p =
        (if p.heap.fails p.heap.next = true then .throw ⟨.outOfMemory, []⟩ { p with heap := { p.heap with next := p.heap.next + 1 } }
         else .ok () { p with heap := { p.heap with next := p.heap.next + 1, live := p.heap.live + (if r.watchAlloc = 0 then 1 else 0), blocks := F } }) ∧
      Holds (nodesOf own) F { o with watch := some p.heap.next } (nodesOf own)[i + 1]? { r with watchAlloc := r.watch.length + 1 } ∧
      F p.heap.next = some (.watch (r.watch.map some ++ [none])) ∧ ∀ y, y ∉ o.all → y < p.heap.next → F y = p.heap.blocks y := by
  have hh := h.holds i o r ho hr
  have hnode : o.node < p.heap.next := h.fresh i o ho _ (mem_all.2 (.inl rfl))
  have hna : (nodeOf (nodesOf own) o (nodesOf own)[i + 1]? r).watchpointAlloc = r.watchAlloc := rfl
  have hnw : (nodeOf (nodesOf own) o (nodesOf own)[i + 1]? r).pWatchpoints = o.watch := rfl
  unfold growWatchpointArrayIfNeeded
  rw [M.bind_apply, h.nodeAt ho hr]
  simp only [hna, hnw]
  rw [if_pos hg]
  rcases hh.watch with ⟨hw, h1, h2⟩ | ⟨x, rest, hw, ha, hb, hl⟩
  · have hG := hh.grown (h.fresh i o ho) (put_eq p.heap.blocks p.heap.next (some (.watch (r.watch.map some ++ [none]))))
      (fun y hy _ => put_ne (by have := h.fresh i o ho y hy; omega))
    refine ⟨_, ?_, hG, ?_, ?_⟩
    · have e : ([] : List (Option Watchpoint)).take (r.watch.length + 1) ++ List.replicate (r.watch.length + 1 - ([] : List (Option Watchpoint)).length) none =
          r.watch.map some ++ [none] := by
        rw [h2]
        rfl
      rw [hw]
      simp only [M.bind_apply, M.pure_apply, e]
      by_cases hf : p.heap.fails p.heap.next = true
      · rw [realloc_no hf, if_pos hf]
        rfl
      · rw [realloc_null hf, if_neg hf]
        simp only
        rw [M.bind_apply, setNode_ok _ (by simp only; rw [put_ne (by omega)]; exact hh.node)]
        simp only
        rw [setNode_ok _ (put_eq _ _ _)]
        simp only [put_put]
        rw [if_pos h1]
        rfl
    · rw [put_ne (by omega), put_eq]
    · intro y hy hlt
      rw [put_ne fun e => hy (mem_all.2 (.inl e)), put_ne (by omega)]
  · have hx : x < p.heap.next := h.fresh i o ho _ (mem_all.2 (.inr (.inr (.inl hw))))
    have hxn := ((hh.apart).2.1 x hw).1
    have hrest : rest = [] := List.eq_nil_of_length_eq_zero (by omega)
    subst hrest
    have hG := hh.grown (N := p.heap.next) (G := put (put p.heap.blocks p.heap.next (some (.watch (r.watch.map some ++ [none])))) x none)
      (h.fresh i o ho) (by rw [put_ne (by omega), put_eq])
      (fun y hy hyx => by
        have := h.fresh i o ho y hy
        rw [put_ne (fun e => hyx (by rw [hw, e])), put_ne (by omega)])
    refine ⟨_, ?_, hG, ?_, ?_⟩
    · rw [hw]
      simp only
      rw [M.bind_apply, watchAt_ok hb]
      have e : (r.watch.map some ++ []).take (r.watch.length + 1) ++ List.replicate (r.watch.length + 1 - (r.watch.map some ++ ([] : List (Option Watchpoint))).length) none =
          r.watch.map some ++ [none] := by
        rw [List.append_nil, List.take_of_length_le (by simp), List.length_map, show r.watch.length + 1 - r.watch.length = 1 by omega]
        rfl
      simp only [e]
      rw [M.bind_apply]
      by_cases hf : p.heap.fails p.heap.next = true
      · rw [realloc_no hf, if_pos hf]
        rfl
      · rw [realloc_some hf hb (by omega), if_neg hf]
        simp only
        rw [M.bind_apply, setNode_ok _ (by simp only; rw [put_ne hxn.symm, put_ne (by omega)]; exact hh.node)]
        simp only
        rw [setNode_ok _ (put_eq _ _ _)]
        simp only [put_put]
        rw [if_neg ha, Int.add_zero]
        rfl
    · rw [put_ne (by omega), put_ne (by omega), put_eq]
    · intro y hy hlt
      rw [put_ne fun e => hy (mem_all.2 (.inl e)), put_ne fun e => hy (mem_all.2 (.inr (.inr (.inl (by rw [hw, e]))))), put_ne (by omega)]

theorem set_rep (h : Rep own k p s) (a n t : U32) :
    Both (fun _ p' _ s' => ∃ own' k', Rep own' k' p' s') (fun p' s' => ∃ own' k', Rep own' k' p' s')
      (setWatchpoint a n t p) (MemSim.setWatchpoint a n t s) := by
  unfold setWatchpoint MemSim.setWatchpoint
  refine Both.bind ((find_rep h a n.toNat).mono (fun _ _ _ _ => id) (fun p' s' e => ⟨own, k, by rw [e.1, e.2]; exact h⟩)) ?_
  rintro ⟨x, a1⟩ p' ⟨i, a2⟩ s' ⟨rfl, rfl, hx, o, r, ho, hr, hp⟩
  simp only at hx ho hr hp
  subst hx hp
  have hh := h.holds i o r ho hr
  simp only
  rw [M.bind_apply, M.bind_apply, h.nodeAt ho hr]
  simp only [regionAt, hr, show (nodeOf (nodesOf own) o (nodesOf own)[i + 1]? r).pWatchpoints = o.watch from rfl,
    show (nodeOf (nodesOf own) o (nodesOf own)[i + 1]? r).watchpointCount = r.watch.length from rfl]
  rw [M.bind_apply, findWatch_loop h ho hr _ r.watch.length 0 (by omega), List.drop_zero]
  have hle := findWatch_le { type := t, startAddress := a1, endAddress := a1 + n } r.watch 0
  cases hf : findWatch 0 r.watch { type := t, startAddress := a1, endAddress := a1 + n } with
  | mk j b =>
    rw [hf] at hle
    simp only at hle
    cases b with
    | true => exact ⟨own, k, h⟩
    | false =>
      simp only [Bool.false_eq_true, if_false]
      rw [M.bind_apply]
      have hna : (nodeOf (nodesOf own) o (nodesOf own)[i + 1]? r).watchpointAlloc = r.watchAlloc := rfl
      have hnw : (nodeOf (nodesOf own) o (nodesOf own)[i + 1]? r).pWatchpoints = o.watch := rfl
      by_cases hg : r.watch.length + 1 > r.watchAlloc
      · rw [if_pos hg, M.bind_apply]
        obtain ⟨F, hF, hH, hFN, hFs⟩ := grow_ok h ho hr hg
        rw [hF]
        unfold MemSim.realloc
        by_cases hf : p'.heap.fails p'.heap.next = true
        · rw [if_pos hf, if_pos (by rw [← h.fail_iff]; exact hf)]
          refine ⟨rfl, own, k, h.grow (fun _ _ => rfl) ?_ rfl rfl rfl rfl rfl rfl rfl h.hits ?_ h.live⟩
          · simp only; omega
          · simp only; rw [h.next]
        · have hf2 : ¬ s'.heap.fails s'.heap.next = true := by rw [← h.fail_iff]; exact hf
          rw [if_neg hf, if_neg hf2]
          simp only [if_true]
          obtain ⟨G, hG, hGH, hGs⟩ := insert_ok
            (p := { p' with heap := { p'.heap with next := p'.heap.next + 1, live := p'.heap.live + (if r.watchAlloc = 0 then 1 else 0), blocks := F } })
            hH { type := t, startAddress := a1, endAddress := a1 + n } (j := j) (rest := []) rfl (by simp) hFN rfl (by simp only; omega)
          simp only at hG
          rw [hG]
          simp only [setRegion, M.modify_apply]
          refine ⟨_, k, h.upd (o' := { o with watch := some p'.heap.next })
            (r' := { r with watchAlloc := r.watch.length + 1, watch := r.watch.insertIdx j { type := t, startAddress := a1, endAddress := a1 + n } }) ho hr rfl ⟨rfl, rfl⟩ hGH ?_ ?_ ?_ rfl rfl rfl rfl rfl rfl rfl h.hits ?_ ?_⟩
          · intro y hy hlt
            simp only
            rw [hGs y]
            · exact hFs y hy hlt
            · intro hy2
              rcases mem_all.1 hy2 with e | e | e | e
              · exact hy (mem_all.2 (.inl e))
              · exact hy (mem_all.2 (.inr (.inl e)))
              · cases e; omega
              · exact hy (mem_all.2 (.inr (.inr (.inr e))))
          · intro y hy
            simp only
            rcases mem_all.1 hy with e | e | e | e
            · have hy' := mem_all.2 (.inl e : y = o.node ∨ _)
              exact ⟨.inl hy', by have := h.fresh i o ho y hy'; omega⟩
            · have hy' := mem_all.2 (.inr (.inl e) : y = o.node ∨ y = o.data ∨ _)
              exact ⟨.inl hy', by have := h.fresh i o ho y hy'; omega⟩
            · cases e
              exact ⟨.inr (Nat.le_refl _), by omega⟩
            · have hy' := mem_all.2 (.inr (.inr (.inr e)) : y = o.node ∨ y = o.data ∨ o.watch = some y ∨ o.counts = some y)
              exact ⟨.inl hy', by have := h.fresh i o ho y hy'; omega⟩
          · simp only; omega
          · simp only; rw [h.next]
          · simp only [decide_eq_true_eq]; rw [h.live]
      · rw [if_neg hg]
        have hgrow : growWatchpointArrayIfNeeded (some o.node) (r.watch.length + 1) p' = .ok () p' := by
          unfold growWatchpointArrayIfNeeded
          rw [M.bind_apply, h.nodeAt ho hr]
          simp only [hna]
          rw [if_neg hg]
          rfl
        rw [hgrow]
        simp only
        rcases hh.watch with ⟨-, h1, h2⟩ | ⟨x, rest, hw, ha, hb, hl⟩
        · rw [h1] at hg; omega
        · cases rest with
          | nil => simp only [List.length_nil] at hl; omega
          | cons c rest =>
            obtain ⟨F, hF, hH, hs⟩ := insert_ok hh { type := t, startAddress := a1, endAddress := a1 + n } hw ha hb hl (j := j) (by omega)
            rw [hF]
            simp only [setRegion, M.modify_apply]
            exact ⟨own, k, h.touch ho hr ⟨rfl, rfl⟩ hH hs⟩

/-! ### The memory map -/

theorem count_loop (h : Rep own k p s) : ∀ (fuel i : Nat), own.length - i ≤ fuel →
    countLoop fuel (nodesOf own)[i]? p = .ok (own.length - i) p := by
  intro fuel
  induction fuel with
  | zero =>
    intro i hi
    rw [List.getElem?_eq_none (by simp [nodesOf]; omega), show own.length - i = 0 by omega]
    rfl
  | succ fuel ih =>
    intro i hi
    by_cases hl : i < own.length
    · obtain ⟨r, hr⟩ := h.region (List.getElem?_eq_getElem hl)
      rw [node_get (List.getElem?_eq_getElem hl)]
      unfold countLoop
      rw [M.bind_apply, h.nodeAt (List.getElem?_eq_getElem hl) hr]
      simp only [nodeOf]
      rw [M.bind_apply, ih (i + 1) (by omega)]
      simp only
      rw [show own.length - i = own.length - (i + 1) + 1 by omega]
      rfl
    · rw [List.getElem?_eq_none (by simp [nodesOf]; omega), show own.length - i = 0 by omega]
      rfl

theorem append_loop (h : Rep own k p s) : ∀ (fuel i : Nat) (text : Str) (size : Nat), own.length - i ≤ fuel →
    appendLoop fuel (nodesOf own)[i]? text size p =
      match appendMemoryMapRegions (s.regions.drop i) text size with
      | some res => .ok res p
      | none => .ub .assertFailed := by
  intro fuel
  induction fuel with
  | zero =>
    intro i text size hi
    rw [List.drop_eq_nil_of_le (by rw [← h.len]; omega), List.getElem?_eq_none (by simp [nodesOf]; omega)]
    rfl
  | succ fuel ih =>
    intro i text size hi
    by_cases hl : i < own.length
    · obtain ⟨r, hr⟩ := h.region (List.getElem?_eq_getElem hl)
      have hi' := (List.getElem?_eq_some_iff.1 hr).1
      have hrr : s.regions[i] = r := (List.getElem?_eq_some_iff.1 hr).2
      rw [List.drop_eq_getElem_cons hi', hrr, node_get (List.getElem?_eq_getElem hl)]
      unfold appendLoop
      rw [M.bind_apply, h.nodeAt (List.getElem?_eq_getElem hl) hr]
      have he : nodeElement (nodeOf (nodesOf own) own[i] (nodesOf own)[i + 1]? r) = xmlElement r := rfl
      simp only [he]
      unfold appendMemoryMapRegions
      simp only
      by_cases hc : ((xmlElement r).length : Int) < toInt32 size
      · rw [if_pos hc, if_pos hc]
        exact ih (i + 1) _ _ (by omega)
      · rw [if_neg hc, if_neg hc]
        rfl
    · rw [List.drop_eq_nil_of_le (by rw [← h.len]; omega), List.getElem?_eq_none (by simp [nodesOf]; omega)]
      rfl

theorem map_rep (h : Rep own k p s) :
    Both (fun x p' y s' => x = y ∧ ∃ own' k', Rep own' k' p' s') (fun p' s' => ∃ own' k', Rep own' k' p' s')
      (getMemoryMapXML p) (MemSim.getMemoryMapXML s) := by
  unfold getMemoryMapXML MemSim.getMemoryMapXML
  generalize xmlHeader = xh
  generalize xmlTrailer = xt
  generalize xmlExampleLine = xl
  rw [M.bind_apply, M.get_apply, M.bind_apply, M.get_apply]
  simp only
  rw [M.bind_apply, h.head, count_loop h _ 0 (by have := h.enough; omega)]
  simp only [Nat.sub_zero]
  rw [M.bind_apply, M.bind_apply, ← h.len]
  unfold MemSim.realloc
  by_cases hf : p.heap.fails p.heap.next = true
  · rw [realloc_no hf, if_pos (by rw [← h.fail_iff]; exact hf)]
    refine ⟨rfl, own, k, h.grow (fun _ _ => rfl) ?_ rfl rfl rfl rfl rfl rfl rfl h.hits ?_ h.live⟩
    · simp only; omega
    · simp only; rw [h.next]
  · rw [if_neg (by rw [← h.fail_iff]; exact hf)]
    simp only [if_true]
    have noXml : ∀ x t, p.pMemoryMapXML = some x → s.xml = some t → p.heap.blocks x = some (.text t) →
        ∀ (j : Nat) (o : Own), own[j]? = some o → ∀ y ∈ o.all, y ≠ x := by
      intro x t _ _ hb j o ho y hy e
      subst e
      obtain ⟨r, hr⟩ := h.region ho
      obtain ⟨b, hb1, hb2⟩ := (h.holds j o r ho hr).there hy
      rw [hb] at hb1
      cases hb1
      exact hb2 t rfl
    obtain ⟨G, L, hG, hGn, hGs, hL⟩ : ∃ G L, realloc p.pMemoryMapXML (.text []) p = .ok (some p.heap.next)
        { p with heap := { p.heap with next := p.heap.next + 1, live := L, blocks := G } } ∧
        G p.heap.next = some (.text []) ∧ (∀ (j : Nat) (o : Own), own[j]? = some o → ∀ y ∈ o.all, G y = p.heap.blocks y) ∧
        L = s.heap.live + (if s.xml.isNone = true then 1 else 0) := by
      rcases h.xml with ⟨hx, hx'⟩ | ⟨x, t, hx, hx', hxb, hlt⟩
      · have hre := realloc_null (b := .text []) hf
        rw [← hx] at hre
        rw [hx']
        refine ⟨_, p.heap.live + 1, hre, put_eq _ _ _, fun j o ho y hy => put_ne (by have := h.fresh j o ho y hy; omega), by rw [h.live]; rfl⟩
      · have hre := realloc_some (b := .text []) hf hxb (by omega)
        rw [← hx] at hre
        rw [hx']
        refine ⟨put (put p.heap.blocks p.heap.next (some (.text []))) x none, p.heap.live, hre, by rw [put_ne (by omega), put_eq], fun j o ho y hy => ?_, by rw [h.live]; simp⟩
        rw [put_ne (noXml x t hx hx' hxb j o ho y hy), put_ne (by have := h.fresh j o ho y hy; omega)]
    rw [hG]
    simp only
    rw [M.bind_apply, M.modify_apply]
    simp only
    have xmlRep : ∀ (p1 : PSim) (t : Str) (s1 : Sim), p1.pHeadRegion = p.pHeadRegion → p1.pTailRegion = p.pTailRegion →
        p1.pMemoryMapXML = some p.heap.next → p1.hits = p.hits → p1.heap.fails = p.heap.fails → p1.heap.next = p.heap.next + 1 → p1.heap.live = L →
        (∀ (j : Nat) (o : Own), own[j]? = some o → ∀ y ∈ o.all, p1.heap.blocks y = p.heap.blocks y) → p1.heap.blocks p.heap.next = some (.text t) →
        s1.regions = s.regions → s1.hits = s.hits → s1.xml = some t → s1.heap.fails = s.heap.fails → s1.heap.next = s.heap.next + 1 →
        s1.heap.live = s.heap.live + (if s.xml.isNone = true then 1 else 0) → Rep own k p1 s1 := by
      intro p1 t s1 e1 e2 e3 e4 e5 e6 e7 e8 e9 e10 e11 e12 e13 e14 e15
      exact h.other e8 (by omega) e1 e2 (.inr ⟨_, t, e3, e12, e9, by omega⟩) e5 e10 e13 (by rw [e4, e11]; exact h.hits)
        (by rw [e6, e14, h.next]) (by rw [e7, e15, hL])
    by_cases ha : xh.length + 1 + (xt.length + 1) + own.length * (xl.length + 1) < xh.length + 1
    · rw [if_pos ha, if_pos ha]
      exact ⟨rfl, nofun, nofun⟩
    · rw [if_neg ha, if_neg ha]
      have h1 := xmlRep { p with pMemoryMapXML := some p.heap.next, heap := { p.heap with next := p.heap.next + 1, live := L, blocks := G } } []
        { s with xml := some [], heap := { s.heap with next := s.heap.next + 1, live := s.heap.live + (if s.xml.isNone = true then 1 else 0) } }
        rfl rfl rfl rfl rfl rfl rfl hGs hGn rfl rfl rfl rfl rfl rfl
      have hal := append_loop h1 p.heap.next 0 xh (xh.length + 1 + (xt.length + 1) + own.length * (xl.length + 1) - xh.length)
        (by have := h.enough; omega)
      rw [List.drop_zero] at hal
      rw [M.bind_apply, hal]
      cases appendMemoryMapRegions s.regions xh (xh.length + 1 + (xt.length + 1) + own.length * (xl.length + 1) - xh.length) with
      | none => exact ⟨rfl, nofun, nofun⟩
      | some res =>
        obtain ⟨text, size⟩ := res
        simp only
        by_cases hsz : size < xt.length + 1
        · rw [if_pos hsz, if_pos hsz]
          exact ⟨rfl, nofun, nofun⟩
        · rw [if_neg hsz, if_neg hsz, M.bind_apply, setBlock_ok _ (by exact hGn)]
          simp only [M.bind_apply, M.modify_apply, M.pure_apply]
          refine ⟨rfl, own, k, xmlRep _ _ _ rfl rfl rfl rfl rfl rfl rfl ?_ (put_eq _ _ _) rfl rfl rfl rfl rfl rfl⟩
          intro j o ho y hy
          simp only
          rw [put_ne (by have := h.fresh j o ho y hy; omega)]
          exact hGs j o ho y hy

end Verif.MemPtr
