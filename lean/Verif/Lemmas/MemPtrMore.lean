import Verif.Lemmas.MemPtrRegions
/-
Aliases, releasing regions, watchpoints and the memory map: the program with pointers and the list of regions agree.
-/
namespace Verif.MemPtr
open Verif MemSim

variable {own : List Own} {k : Nat} {p p' : PSim} {s s' : Sim}

theorem Both.tryCatch {α : Type} {m : M PSim α} {n : M Sim α} {f : Exn → M PSim α} {g : Exn → M Sim α}
    {Q : α → PSim → α → Sim → Prop} {E E' : PSim → Sim → Prop} (h : Both Q E (m p) (n s))
    (h' : ∀ e p' s', E p' s' → Both Q E' (f e p') (g e s')) : Both Q E' (M.tryCatch m f p) (M.tryCatch n g s) := by
  unfold M.tryCatch
  cases hn : n s with
  | ub r =>
    rw [hn] at h
    cases hm : m p with
    | ok a p' => rw [hm] at h; exact h.elim
    | throw e p' => rw [hm] at h; exact h.elim
    | ub r => rw [hm] at h; exact h
  | ok b s' =>
    rw [hn] at h
    cases hm : m p with
    | ok a p' => rw [hm] at h; exact h
    | throw e p' => rw [hm] at h; exact h.elim
    | ub r => rw [hm] at h; exact h.elim
  | throw e s' =>
    rw [hn] at h
    cases hm : m p with
    | ok a p' => rw [hm] at h; exact h.elim
    | throw e' p' =>
      rw [hm] at h
      obtain ⟨rfl, h2⟩ := h
      exact h' _ _ _ h2
    | ub r => rw [hm] at h; exact h.elim

/-! ### Aliases -/

/-- The state inside `MemorySim_CreateAlias` before the region is put into the list. -/
structure Stray (p : PSim) (s : Sim) (p' : PSim) (s' : Sim) : Prop where
  node : ∃ n, p'.heap.blocks p.heap.next = some (.node n) ∧ n.pData = none ∧ n.pWatchpoints = none ∧ n.pReadCounts = none
  same : ∀ x, x < p.heap.next → p'.heap.blocks x = p.heap.blocks x
  le : p.heap.next ≤ p'.heap.next
  head : p'.pHeadRegion = p.pHeadRegion
  tail : p'.pTailRegion = p.pTailRegion
  xml : p'.pMemoryMapXML = p.pMemoryMapXML
  fails : p'.heap.fails = p.heap.fails
  regions : s'.regions = s.regions
  xml' : s'.xml = s.xml
  fails' : s'.heap.fails = s.heap.fails
  hits : Hits p'.hits s'.hits
  next : p'.heap.next = s'.heap.next
  live : p'.heap.live = s'.heap.live

/-- The region an alias is. -/
def aliasOf (a rd n : U32) (i : Nat) (t : Region) : Region :=
  { baseAddress := a, size := if n.toNat > (t.size - (rd - t.baseAddress)).toNat then t.size - (rd - t.baseAddress) else n,
    data := List.replicate n.toNat 0, redirectAddress := rd, redirect := some i, isReadOnly := t.isReadOnly, isAlias := true }

theorem createAlias_rep (h : Rep own k p s) (a rd n : U32) :
    Both (fun _ p' _ s' => ∃ own' k', Rep own' k' p' s') (fun p' s' => Rep own k p' s') (createAlias a rd n p) (MemSim.createAlias a rd n s) := by
  unfold createAlias MemSim.createAlias
  rw [M.bind_apply, M.bind_apply]
  have hfe := h.fail_iff
  by_cases hf : p.heap.fails p.heap.next = true
  · rw [throwing_no hf, throwingL_no (hfe ▸ hf)]
    refine ⟨rfl, h.grow (fun _ _ => rfl) ?_ rfl rfl rfl rfl rfl rfl rfl h.hits ?_ h.live⟩
    · simp only; omega
    · simp only; rw [h.next]
  · rw [throwing_yes hf, throwingL_yes (hfe ▸ hf)]
    simp only
    refine Both.tryCatch (E := Stray p s) ?_ ?_
    · rw [M.bind_apply, setNode_ok _ (put_eq _ _ _)]
      simp only
      rw [M.bind_apply, setNode_ok _ (put_eq _ _ _)]
      simp only
      have hs2 : Stray p s
          { p with heap := { p.heap with next := p.heap.next + 1, live := p.heap.live + 1, blocks := (put (put (put p.heap.blocks p.heap.next (some (.node {}))) p.heap.next (some (.node { baseAddress := a }))) p.heap.next (some (.node { baseAddress := a, redirectAddress := rd }))) } }
          { s with heap := { s.heap with next := s.heap.next + 1, live := s.heap.live + 1 } } := by
        refine ⟨⟨_, put_eq _ _ _, rfl, rfl, rfl⟩, ?_, by simp only; omega, rfl, rfl, rfl, rfl, rfl, rfl, rfl, h.hits, by simp only; rw [h.next], by simp only; rw [h.live]⟩
        intro x hx
        have hne : x ≠ p.heap.next := by omega
        simp only
        rw [put_ne hne, put_ne hne, put_ne hne]
      have h2 := h.grow hs2.same hs2.le hs2.head hs2.tail hs2.xml hs2.fails hs2.regions hs2.xml' hs2.fails' hs2.hits hs2.next hs2.live
      refine Both.bind ((find_rep h2 rd 1).mono (fun _ _ _ _ => id) (fun p' s' e => by rw [e.1, e.2]; exact hs2)) ?_
      rintro ⟨x, a1⟩ p' ⟨i, a2⟩ s' ⟨rfl, rfl, hx, o, r, ho, hr, hp⟩
      simp only at hx ho hr hp
      subst hx hp
      have hon : o.node < p.heap.next := h.fresh i o ho _ (mem_all.2 (.inl rfl))
      have hne : o.node ≠ p.heap.next := by omega
      simp only
      rw [M.bind_apply, M.bind_apply, h2.nodeAt ho hr]
      simp only [regionAt, hr]
      rw [M.bind_apply, nodeAt_ok (put_eq _ _ _)]
      simp only
      rw [M.bind_apply, setNode_ok _ (put_eq _ _ _)]
      simp only
      rw [M.bind_apply, setNode_ok _ (put_eq _ _ _)]
      simp only
      rw [M.bind_apply, M.bind_apply]
      by_cases hg : p.heap.fails (p.heap.next + 1) = true
      · rw [throwing_no (by exact hg), throwingL_no (by simp only; rw [← h.fails, ← h.next]; exact hg)]
        refine ⟨rfl, ⟨_, put_eq _ _ _, rfl, rfl, rfl⟩, ?_, by simp only; omega, rfl, rfl, rfl, rfl, rfl, rfl, rfl, h.hits, by simp only; rw [h.next], by simp only; rw [h.live]⟩
        intro x hx
        have hne : x ≠ p.heap.next := by omega
        simp only
        rw [put_ne hne, put_ne hne, put_ne hne, put_ne hne, put_ne hne]
      · rw [throwing_yes (by exact hg), throwingL_yes (by simp only; rw [← h.fails, ← h.next]; exact hg)]
        simp only
        rw [M.bind_apply, setNode_ok _ (by simp only; rw [put_ne (by omega), put_eq])]
        simp only
        rw [M.bind_apply, setNode_ok _ (put_eq _ _ _)]
        simp only
        rw [M.bind_apply, nodeAt_ok (n := nodeOf (nodesOf own) o (nodesOf own)[i + 1]? r) (by
          simp only
          rw [put_ne hne, put_ne hne, put_ne (by omega), put_ne hne, put_ne hne, put_ne hne, put_ne hne, put_ne hne]
          exact (h.holds i o r ho hr).node)]
        simp only
        rw [M.bind_apply, setNode_ok _ (put_eq _ _ _)]
        simp only [MemSim.addRegionToTail, M.modify_apply]
        have key : ∀ q : PSim, (∃ q', addRegionToTail (some p.heap.next) q = .ok () q' ∧ Rep (own ++ [{ node := p.heap.next, data := p.heap.next + 1 }]) own.length q'
            { s with
              regions := s.regions ++ [aliasOf a rd n i r],
              heap := { s.heap with next := s.heap.next + 1 + 1, live := s.heap.live + 1 + 1 } }) →
            Both (fun (_ : Unit) p' (_ : Unit) s' => ∃ own' k', Rep own' k' p' s') (Stray p s) (addRegionToTail (some p.heap.next) q) (.ok ()
              { s with
                regions := s.regions ++ [aliasOf a rd n i r],
                heap := { s.heap with next := s.heap.next + 1 + 1, live := s.heap.live + 1 + 1 } }) := by
          rintro q ⟨q', e, hr'⟩
          rw [e]
          exact ⟨_, _, hr'⟩
        refine key _ (h.added (o := { node := p.heap.next, data := p.heap.next + 1 }) ?_ ?_ ?_ ?_ h.le (Nat.le_refl _) ?_ rfl rfl rfl rfl rfl rfl rfl h.hits ?_ ?_)
        · intro x hx
          rcases mem_all.1 hx with e | e | e | e
          · simp only at e ⊢; omega
          · simp only at e ⊢; omega
          · cases e
          · cases e
        · refine ⟨?_, ?_, .inl ⟨rfl, rfl, rfl⟩, .inl ⟨rfl, rfl⟩⟩
          · simp only [put_eq, nodeOf, aliasOf, Option.bind_some, Option.map_none, Option.getD_none, List.length_nil]
            rw [List.getElem?_append_left (by have := (List.getElem?_eq_some_iff.1 ho).1; simpa [nodesOf] using this), node_get ho]
            rfl
          · simp only
            rw [put_ne (by omega), put_ne (by omega), put_ne (by omega), put_eq]
            rfl
        · intro x hx
          have hne : x ≠ p.heap.next := by omega
          simp only
          rw [put_ne hne, put_ne hne, put_ne hne, put_ne (by omega), put_ne hne, put_ne hne, put_ne hne, put_ne hne, put_ne hne]
        · refine ⟨fun j hj => ?_, fun _ => nofun⟩
          cases hj
          exact (List.getElem?_eq_some_iff.1 ho).1
        · simp only; omega
        · simp only; rw [h.next]
        · simp only; rw [h.live]
    · rintro e p' s' hs
      obtain ⟨nd, hn, h1, h2, h3⟩ := hs.node
      rw [M.bind_apply, freeStray hn h1 h2 h3]
      simp only [M.bind_apply, MemSim.free, M.rethrow]
      refine ⟨rfl, h.grow ?_ hs.le hs.head hs.tail hs.xml hs.fails hs.regions hs.xml' hs.fails' hs.hits hs.next ?_⟩
      · intro x hx
        simp only
        rw [put_ne (by omega)]
        exact hs.same x hx
      · simp only; rw [hs.live]; rfl

/-! ### Releasing regions -/

theorem freeRegion_ok {ns : List Nat} {o : Own} {nxt : Ptr} {r : Region} (hh : Holds ns p.heap.blocks o nxt r) :
    ∃ F, freeRegion (some o.node) p = .ok () { p with heap := { p.heap with live := p.heap.live - r.blocks, blocks := F } } ∧
      ∀ x, x ∉ o.all → F x = p.heap.blocks x := by
  obtain ⟨h1, h2, h3⟩ := hh.apart
  unfold freeRegion
  simp only
  rw [M.bind_apply, nodeAt_ok hh.node]
  simp only [nodeOf]
  have e0 : free (none : Ptr) = pure () := rfl
  rcases hh.counts with ⟨hc, hc'⟩ | ⟨c, cs, hc, hc', hcb⟩
  · rw [hc, e0, M.bind_apply, M.pure_apply]
    simp only
    rcases hh.watch with ⟨hw, hw', hw2⟩ | ⟨w, rest, hw, hw', hwb, -⟩
    · rw [hw, e0, M.bind_apply, M.pure_apply]
      simp only
      rw [M.bind_apply, free_ok hh.data]
      simp only
      rw [free_ok (by simp only; rw [put_ne h1]; exact hh.node)]
      have hb : p.heap.live - r.blocks = p.heap.live - 1 - 1 := by
        have : r.blocks = 2 := by unfold Region.blocks; rw [hc', if_pos hw']; rfl
        rw [this]
        omega
      rw [hb]
      refine ⟨_, rfl, fun x hx => ?_⟩
      · have a1 : x ≠ o.node := fun e => hx (mem_all.2 (.inl e))
        have a2 : x ≠ o.data := fun e => hx (mem_all.2 (.inr (.inl e)))
        simp only
        rw [put_ne a1, put_ne a2]
    · rw [hw, M.bind_apply, free_ok hwb]
      simp only
      rw [M.bind_apply, free_ok (by simp only; rw [put_ne (h2 w hw).2.symm]; exact hh.data)]
      simp only
      rw [free_ok (by simp only; rw [put_ne h1, put_ne (h2 w hw).1.symm]; exact hh.node)]
      have hb : p.heap.live - r.blocks = p.heap.live - 1 - 1 - 1 := by
        have : r.blocks = 3 := by unfold Region.blocks; rw [hc', if_neg hw']; rfl
        rw [this]
        omega
      rw [hb]
      refine ⟨_, rfl, fun x hx => ?_⟩
      · have a1 : x ≠ o.node := fun e => hx (mem_all.2 (.inl e))
        have a2 : x ≠ o.data := fun e => hx (mem_all.2 (.inr (.inl e)))
        have a3 : x ≠ w := fun e => hx (mem_all.2 (.inr (.inr (.inl (by rw [hw, e])))))
        simp only
        rw [put_ne a1, put_ne a2, put_ne a3]
  · rw [hc, M.bind_apply, free_ok hcb]
    simp only
    obtain ⟨c1, c2, c3⟩ := h3 c hc
    rcases hh.watch with ⟨hw, hw', hw2⟩ | ⟨w, rest, hw, hw', hwb, -⟩
    · rw [hw, e0, M.bind_apply, M.pure_apply]
      simp only
      rw [M.bind_apply, free_ok (by simp only; rw [put_ne c2.symm]; exact hh.data)]
      simp only
      rw [free_ok (by simp only; rw [put_ne h1, put_ne c1.symm]; exact hh.node)]
      have hb : p.heap.live - r.blocks = p.heap.live - 1 - 1 - 1 := by
        have : r.blocks = 3 := by unfold Region.blocks; rw [hc', if_pos hw']; rfl
        rw [this]
        omega
      rw [hb]
      refine ⟨_, rfl, fun x hx => ?_⟩
      · have a1 : x ≠ o.node := fun e => hx (mem_all.2 (.inl e))
        have a2 : x ≠ o.data := fun e => hx (mem_all.2 (.inr (.inl e)))
        have a3 : x ≠ c := fun e => hx (mem_all.2 (.inr (.inr (.inr (by rw [hc, e])))))
        simp only
        rw [put_ne a1, put_ne a2, put_ne a3]
    · rw [hw, M.bind_apply, free_ok (by simp only; rw [put_ne (c3 w hw).symm]; exact hwb)]
      simp only
      rw [M.bind_apply, free_ok (by simp only; rw [put_ne (h2 w hw).2.symm, put_ne c2.symm]; exact hh.data)]
      simp only
      rw [free_ok (by simp only; rw [put_ne h1, put_ne (h2 w hw).1.symm, put_ne c1.symm]; exact hh.node)]
      have hb : p.heap.live - r.blocks = p.heap.live - 1 - 1 - 1 - 1 := by
        have : r.blocks = 4 := by unfold Region.blocks; rw [hc', if_neg hw']; rfl
        rw [this]
        omega
      rw [hb]
      refine ⟨_, rfl, fun x hx => ?_⟩
      · have a1 : x ≠ o.node := fun e => hx (mem_all.2 (.inl e))
        have a2 : x ≠ o.data := fun e => hx (mem_all.2 (.inr (.inl e)))
        have a3 : x ≠ w := fun e => hx (mem_all.2 (.inr (.inr (.inl (by rw [hw, e])))))
        have a4 : x ≠ c := fun e => hx (mem_all.2 (.inr (.inr (.inr (by rw [hc, e])))))
        simp only
        rw [put_ne a1, put_ne a2, put_ne a3, put_ne a4]

theorem last_loop (h : Rep own k p s) : ∀ (fuel i : Nat) (prev : Ptr), i < own.length → own.length - i ≤ fuel →
    lastLoop fuel prev (nodesOf own)[i]? p =
      .ok (if i + 1 = own.length then prev else (nodesOf own)[own.length - 2]?, (nodesOf own)[own.length - 1]?) p := by
  intro fuel
  induction fuel with
  | zero => intro i prev h1 h2; omega
  | succ fuel ih =>
    intro i prev hi hf
    obtain ⟨r, hr⟩ := h.region (List.getElem?_eq_getElem hi)
    rw [node_get (List.getElem?_eq_getElem hi)]
    unfold lastLoop
    rw [M.bind_apply, h.nodeAt (List.getElem?_eq_getElem hi) hr]
    simp only [nodeOf]
    by_cases hl : i + 1 = own.length
    · rw [List.getElem?_eq_none (by simp [nodesOf]; omega), if_pos hl]
      simp only
      rw [show own.length - 1 = i by omega, node_get (List.getElem?_eq_getElem hi)]
      rfl
    · have hi2 : i + 1 < own.length := by omega
      have := ih (i + 1) (some own[i].node) hi2 (by omega)
      rw [node_get (List.getElem?_eq_getElem hi2)] at this ⊢
      simp only
      rw [this, if_neg hl]
      by_cases hl2 : i + 1 + 1 = own.length
      · rw [if_pos hl2, show own.length - 2 = i by omega, node_get (List.getElem?_eq_getElem hi)]
      · rw [if_neg hl2]

/-- The last region goes away. -/
theorem Rep.shrink {o : Own} (h : Rep (own ++ [o]) k p s) (hk : k ≤ own.length)
    (hsame : ∀ x, x ∉ o.all → (nodesOf own).getLast? ≠ some x → p'.heap.blocks x = p.heap.blocks x)
    (htail : ∀ t n, (nodesOf own).getLast? = some t → p.heap.blocks t = some (.node n) → p'.heap.blocks t = some (.node { n with pNext := none }))
    (hle : p.heap.next ≤ p'.heap.next) (e1 : p'.pHeadRegion = (nodesOf own)[0]?) (e2 : p'.pTailRegion = (nodesOf own).getLast?)
    (e3 : p'.pMemoryMapXML = p.pMemoryMapXML)
    (e4 : p'.heap.fails = p.heap.fails) (e5 : s'.regions = s.regions.dropLast) (e6 : s'.xml = s.xml) (e7 : s'.heap.fails = s.heap.fails)
    (e8 : Hits p'.hits s'.hits) (e9 : p'.heap.next = s'.heap.next) (e10 : p'.heap.live = s'.heap.live) : Rep own k p' s' := by
  have hlen : s.regions.length = own.length + 1 := by rw [← h.len]; simp
  have up : ∀ {j b}, own[j]? = some b → j < own.length ∧ (own ++ [o])[j]? = some b := by
    intro j b hb
    have hl := (List.getElem?_eq_some_iff.1 hb).1
    exact ⟨hl, by rw [List.getElem?_append_left hl]; exact hb⟩
  have upr : ∀ {j q}, s.regions.dropLast[j]? = some q → j < own.length ∧ s.regions[j]? = some q := by
    intro j q hq
    have hl := (List.getElem?_eq_some_iff.1 hq).1
    rw [List.length_dropLast] at hl
    rw [List.getElem?_dropLast, if_pos (by omega)] at hq
    exact ⟨by omega, hq⟩
  have hlast : (own ++ [o])[own.length]? = some o := by simp
  have hnl : (nodesOf own).length = own.length := by simp [nodesOf]
  refine ⟨by rw [e5, List.length_dropLast, hlen]; omega, e1, e2, ?_, ?_, hk, ?_, ?_, ?_, e8, by rw [e4, e7]; exact h.fails, e9, e10⟩
  · intro j b q hb hq
    rw [e5] at hq
    obtain ⟨hl, hb2⟩ := up hb
    obtain ⟨-, hq2⟩ := upr hq
    have hold := h.holds j b q hb2 hq2
    rw [nodes_append] at hold
    have hnode : ∀ nxt, nodeOf (nodesOf own ++ [o.node]) b nxt q = nodeOf (nodesOf own) b nxt q := by
      intro nxt
      unfold nodeOf
      cases ht : q.redirect with
      | none => rfl
      | some t =>
        simp only [Option.bind_some]
        rw [List.getElem?_append_left (by rw [hnl]; exact Nat.lt_of_lt_of_le ((h.redir j q hq2).1 t ht) hk)]
    obtain ⟨a1, a2, a3⟩ := hold.apart
    have notO : ∀ x ∈ b.all, x ∉ o.all := h.sep j own.length b o hb2 hlast (by omega)
    have notTail : ∀ x ∈ b.all, x ≠ b.node → p'.heap.blocks x = p.heap.blocks x := by
      intro x hx hxn
      refine hsame x (notO x hx) fun e => ?_
      obtain ⟨jt, hjt⟩ := List.getElem?_of_mem (List.mem_of_getLast? e)
      unfold nodesOf at hjt
      rw [List.getElem?_map] at hjt
      obtain ⟨ot, hot, hon⟩ := Option.map_eq_some_iff.1 hjt
      by_cases hjj : j = jt
      · subst hjj
        rw [hb] at hot
        cases hot
        exact hxn hon.symm
      · exact h.sep j jt b ot hb2 (up hot).2 hjj x hx (mem_all.2 (.inl hon.symm))
    have hnd := hold.node
    rw [hnode] at hnd
    refine ⟨?_, ?_, ?_, ?_⟩
    · by_cases hlast : j + 1 = own.length
      · have ht : (nodesOf own).getLast? = some b.node := by
          rw [List.getLast?_eq_getElem?, hnl, show own.length - 1 = j by omega, node_get hb]
        rw [htail _ _ ht hnd, List.getElem?_eq_none (l := nodesOf own) (i := j + 1) (by omega)]
        rfl
      · rw [List.getElem?_append_left (by omega)] at hnd
        rw [hsame b.node (notO _ (mem_all.2 (.inl rfl)))]
        · exact hnd
        · intro e
          rw [List.getLast?_eq_getElem?, hnl] at e
          have hl' : own.length - 1 < own.length := by omega
          rw [node_get (List.getElem?_eq_getElem hl')] at e
          refine h.sep j (own.length - 1) b own[own.length - 1] hb2 (up (List.getElem?_eq_getElem hl')).2 (by omega) b.node (mem_all.2 (.inl rfl))
            (mem_all.2 (.inl (Option.some.inj e).symm))
    · rw [notTail b.data (mem_all.2 (.inr (.inl rfl))) a1.symm]
      exact hold.data
    · rcases hold.watch with hw | ⟨w, rest, c1, c2, c3, c4⟩
      · exact .inl hw
      · exact .inr ⟨w, rest, c1, c2, by rw [notTail w (mem_all.2 (.inr (.inr (.inl c1)))) (a2 w c1).1]; exact c3, c4⟩
    · rcases hold.counts with hc | ⟨c, cs, c1, c2, c3⟩
      · exact .inl hc
      · exact .inr ⟨c, cs, c1, c2, by rw [notTail c (mem_all.2 (.inr (.inr (.inr c1)))) (a3 c c1).1]; exact c3⟩
  · intro j q hq
    rw [e5] at hq
    exact h.redir j q (upr hq).2
  · exact fun a b oa ob ha hb hab => h.sep a b oa ob (up ha).2 (up hb).2 hab
  · exact fun j b hb x hx => Nat.lt_of_lt_of_le (h.fresh j b (up hb).2 x hx) hle
  · rw [e3, e6]
    rcases h.xml with hx | ⟨x, t, h1, h2, h3, h4⟩
    · exact .inl hx
    · refine .inr ⟨x, t, h1, h2, ?_, by omega⟩
      have noNode : ∀ (j : Nat) (b : Own), (own ++ [o])[j]? = some b → x ∉ b.all := by
        intro j b hb hxb
        obtain ⟨q, hq⟩ := h.region hb
        obtain ⟨bb, hb1, hb2⟩ := (h.holds j b q hb hq).there hxb
        rw [h3] at hb1
        cases hb1
        exact hb2 t rfl
      rw [hsame x (noNode _ _ hlast)]
      · exact h3
      · intro e
        obtain ⟨jt, hjt⟩ := List.getElem?_of_mem (List.mem_of_getLast? e)
        unfold nodesOf at hjt
        rw [List.getElem?_map] at hjt
        obtain ⟨ot, hot, hon⟩ := Option.map_eq_some_iff.1 hjt
        exact noNode jt ot (up hot).2 (mem_all.2 (.inl hon.symm))

theorem freeLast_rep {o : Own} (h : Rep (own ++ [o]) k p s) (hk : k ≤ own.length) :
    Both (fun _ p' _ s' => Rep own k p' s') (fun _ _ => False) (freeLastRegion p) (MemSim.freeLastRegion s) := by
  have hlen : s.regions.length = own.length + 1 := by rw [← h.len]; simp
  have hlast : (own ++ [o])[own.length]? = some o := by simp
  obtain ⟨r, hr⟩ := h.region hlast
  have hh := h.holds _ o r hlast hr
  unfold freeLastRegion MemSim.freeLastRegion
  rw [M.bind_apply, M.get_apply]
  simp only
  rw [M.bind_apply, h.head, last_loop h _ 0 none (by simp) (by have := h.enough; omega), List.getLast?_eq_getElem?, hlen,
    show own.length + 1 - 1 = own.length by omega, hr]
  simp only
  have hnl : (nodesOf own).length = own.length := by simp [nodesOf]
  have e0 : (own ++ [o]).length = own.length + 1 := by simp
  rw [e0, show own.length + 1 - 1 = own.length by omega, node_get hlast]
  have notO : ∀ (j : Nat) (b : Own), own[j]? = some b → ∀ x ∈ b.all, x ∉ o.all := by
    intro j b hb
    have hl := (List.getElem?_eq_some_iff.1 hb).1
    exact h.sep j own.length b o (by rw [List.getElem?_append_left hl]; exact hb) hlast (by omega)
  by_cases hz : 0 + 1 = own.length + 1
  · rw [if_pos hz]
    have hnil : own = [] := List.eq_nil_of_length_eq_zero (by omega)
    subst hnil
    simp only [M.modify_apply, M.bind_apply]
    obtain ⟨F, hF, hFs⟩ := freeRegion_ok (p := { p with pHeadRegion := none, pTailRegion := none }) hh
    rw [hF]
    exact h.shrink hk (fun x hx _ => hFs x hx) nofun (Nat.le_refl _) rfl rfl rfl rfl rfl rfl rfl h.hits h.next (by simp only; rw [h.live])
  · rw [if_neg hz, show own.length + 1 - 2 = own.length - 1 by omega]
    have hl' : own.length - 1 < own.length := by omega
    have ho1 : (own ++ [o])[own.length - 1]? = some own[own.length - 1] := by rw [List.getElem?_append_left hl', List.getElem?_eq_getElem hl']
    obtain ⟨r1, hr1⟩ := h.region ho1
    rw [node_get ho1]
    simp only
    rw [M.bind_apply, setNode_ok _ (h.holds _ _ r1 ho1 hr1).node]
    simp only [M.modify_apply, M.bind_apply]
    have hne : own[own.length - 1].node ∉ o.all := notO _ _ (List.getElem?_eq_getElem hl') _ (mem_all.2 (.inl rfl))
    have hlastn : (nodesOf own).getLast? = some own[own.length - 1].node := by
      rw [List.getLast?_eq_getElem?, hnl, node_get (List.getElem?_eq_getElem hl')]
    have hh2 := hh.congr (f' := put p.heap.blocks own[own.length - 1].node
      (some (.node { nodeOf (nodesOf (own ++ [o])) own[own.length - 1] (nodesOf (own ++ [o]))[own.length - 1 + 1]? r1 with pNext := none })))
      (fun x hx => put_ne fun e => hne (e ▸ hx))
    obtain ⟨F, hF, hFs⟩ := freeRegion_ok (p := { p with pTailRegion := some own[own.length - 1].node, heap := { p.heap with blocks := (put p.heap.blocks own[own.length - 1].node
      (some (.node { nodeOf (nodesOf (own ++ [o])) own[own.length - 1] (nodesOf (own ++ [o]))[own.length - 1 + 1]? r1 with pNext := none }))) } }) hh2
    rw [hF]
    refine h.shrink hk ?_ ?_ (Nat.le_refl _) ?_ ?_ rfl rfl rfl rfl rfl h.hits h.next (by simp only; rw [h.live])
    · intro x hx hxl
      simp only
      rw [hFs x hx]
      exact put_ne fun e => hxl (by rw [hlastn, e])
    · intro t n ht hn
      rw [hlastn] at ht
      cases ht
      simp only
      rw [hFs _ hne]
      simp only
      rw [put_eq]
      rw [(h.holds _ _ r1 ho1 hr1).node] at hn
      cases hn
      rfl
    · simp only
      rw [h.head, nodes_append, List.getElem?_append_left (by omega)]
    · exact hlastn.symm

theorem flash_rep (h : Rep own k p s) (img : List U8) (n : U32) :
    Both (fun _ p' _ s' => ∃ own' k', Rep own' k' p' s') (fun p' s' => ∃ own' k', Rep own' k' p' s')
      (createRegionsFromFlashImage img n p) (MemSim.createRegionsFromFlashImage img n s) := by
  unfold createRegionsFromFlashImage MemSim.createRegionsFromFlashImage
  by_cases hn : n.toNat < 4
  · rw [if_pos hn, if_pos hn]
    exact ⟨rfl, own, k, h⟩
  · rw [if_neg hn, if_neg hn]
    refine Both.bind ((createRegion_rep h _ n).mono (fun _ _ _ _ => id) (fun p' s' e => ⟨_, _, e⟩)) ?_
    rintro _ p1 _ s1 ⟨o, h1⟩
    refine Both.bind ((load_rep h1 _ img n).mono (fun _ _ _ _ => id) (fun p' s' e => ⟨_, _, e⟩)) ?_
    rintro _ p2 _ s2 h2
    refine Both.tryCatch (E := fun p' s' => ∃ own' o', own'.length = own.length ∧ Rep (own' ++ [o']) k p' s') ?_ ?_
    · have last : ∀ own' : List Own, own'.length = (own ++ [o]).length → ∃ own2 o2, own' = own2 ++ [o2] ∧ own2.length = own.length := by
        intro own' hl
        have hne : own' ≠ [] := by intro e; subst e; simp at hl
        refine ⟨own'.dropLast, own'.getLast hne, (List.dropLast_append_getLast hne).symm, ?_⟩
        rw [List.length_dropLast, hl]
        simp
      refine Both.bind ((mro_rep h2 _).mono (fun _ _ _ _ => id) (fun p' s' e => ?_)) ?_
      · obtain ⟨own', hl, h3⟩ := e
        obtain ⟨own2, o2, rfl, hl2⟩ := last own' hl
        exact ⟨own2, o2, hl2, h3⟩
      · rintro _ p3 _ s3 ⟨own', hl, h3⟩
        obtain ⟨own2, o2, rfl, hl2⟩ := last own' hl
        by_cases hi : img.length < 4
        · rw [if_pos hi, if_pos hi]
          exact ⟨rfl, nofun, nofun⟩
        · rw [if_neg hi, if_neg hi]
          exact (createRegion_rep h3 _ _).mono (fun _ _ _ _ ⟨o, e⟩ => ⟨_, _, e⟩) (fun p' s' e => ⟨own2, o2, hl2, e⟩)
    · rintro e p' s' ⟨own', o', hl, h3⟩
      refine Both.bind ((freeLast_rep h3 (by rw [hl]; exact h.le)).mono (fun _ _ _ _ => id) (fun _ _ => False.elim)) ?_
      rintro _ p4 _ s4 h4
      exact ⟨rfl, _, _, h4⟩

theorem uninit_loop (hsep : ∀ (i j : Nat) (a b : Own), own[i]? = some a → own[j]? = some b → i ≠ j → ∀ x ∈ a.all, x ∉ b.all)
    (rs : List Region) (hlen : own.length = rs.length) :
    ∀ (fuel i : Nat) (q : PSim), own.length - i ≤ fuel →
    (∀ (j : Nat) (o : Own) (r : Region), i ≤ j → own[j]? = some o → rs[j]? = some r → Holds (nodesOf own) q.heap.blocks o (nodesOf own)[j + 1]? r) →
    ∃ F, uninitLoop fuel (nodesOf own)[i]? q = .ok () { q with heap := { q.heap with live := q.heap.live - blocksOf (rs.drop i), blocks := F } } ∧
      ∀ x, (∀ (j : Nat) (o : Own), own[j]? = some o → x ∉ o.all) → F x = q.heap.blocks x := by
  intro fuel
  induction fuel with
  | zero =>
    intro i q hi _
    rw [List.getElem?_eq_none (by simp [nodesOf]; omega), List.drop_eq_nil_of_le (by omega)]
    refine ⟨q.heap.blocks, ?_, fun _ _ => rfl⟩
    simp [uninitLoop, blocksOf]
  | succ fuel ih =>
    intro i q hi hh
    by_cases hl : i < own.length
    · have hr : rs[i]? = some rs[i] := List.getElem?_eq_getElem (hlen ▸ hl)
      have ho : own[i]? = some own[i] := List.getElem?_eq_getElem hl
      have hi1 := hh i own[i] rs[i] (Nat.le_refl _) ho hr
      rw [node_get ho]
      unfold uninitLoop
      rw [M.bind_apply, nodeAt_ok hi1.node]
      simp only
      obtain ⟨F, hF, hFs⟩ := freeRegion_ok hi1
      rw [M.bind_apply, hF]
      simp only [nodeOf]
      obtain ⟨G, hG, hGs⟩ := ih (i + 1) { q with heap := { q.heap with live := q.heap.live - rs[i].blocks, blocks := F } } (by omega) (by
        intro j o r hj hoj hrj
        refine (hh j o r (by omega) hoj hrj).congr fun x hx => hFs x ?_
        exact hsep j i o own[i] hoj ho (by omega) x hx)
      rw [hG]
      refine ⟨G, ?_, ?_⟩
      · simp only
        rw [List.drop_eq_getElem_cons (l := rs) (i := i) (hlen ▸ hl)]
        congr 2
        congr 1
        unfold blocksOf
        rw [List.map_cons, List.sum_cons]
        omega
      · intro x hx
        rw [hGs x hx]
        exact hFs x (hx i _ ho)
    · rw [List.getElem?_eq_none (by simp [nodesOf]; omega), List.drop_eq_nil_of_le (by omega)]
      refine ⟨q.heap.blocks, ?_, fun _ _ => rfl⟩
      simp [uninitLoop, blocksOf]

theorem uninit_rep (h : Rep own k p s) : Both (fun _ p' _ s' => Rep [] 0 p' s') (fun _ _ => False) (uninit p) (MemSim.uninit s) := by
  unfold uninit MemSim.uninit
  rw [M.bind_apply, M.get_apply]
  simp only
  obtain ⟨F, hF, hFs⟩ := uninit_loop h.sep s.regions h.len p.heap.next 0 p (by have := h.enough; omega) (fun j o r _ => h.holds j o r)
  rw [M.bind_apply, h.head, hF]
  simp only [M.bind_apply, M.modify_apply, List.drop_zero]
  have done : ∀ {p' : PSim} {s' : Sim}, p'.pHeadRegion = none → p'.pTailRegion = none → p'.pMemoryMapXML = none → p'.heap.fails = p.heap.fails →
      s'.regions = [] → s'.xml = none → s'.heap.fails = s.heap.fails → Hits p'.hits s'.hits → p'.heap.next = s'.heap.next → p'.heap.live = s'.heap.live →
      Rep [] 0 p' s' := by
    intro p' s' e1 e2 e3 e4 e5 e6 e7 e8 e9 e10
    exact ⟨by rw [e5]; rfl, e1, e2, nofun, by rw [e5]; nofun, Nat.le_refl _, nofun, nofun, .inl ⟨e3, e6⟩, e8, by rw [e4, e7]; exact h.fails, e9, e10⟩
  rcases h.xml with ⟨hx, hx'⟩ | ⟨x, t, hx, hx', hxb, -⟩
  · rw [hx, hx']
    have e0 : free (none : Ptr) = pure () := rfl
    simp only [e0, M.pure_apply]
    refine done rfl rfl rfl rfl rfl rfl rfl h.hits h.next ?_
    simp [h.live]
  · rw [hx, hx', free_ok (b := .text t) (by
      simp only
      rw [hFs x, hxb]
      intro j o ho hxo
      obtain ⟨r, hr⟩ := h.region ho
      obtain ⟨b, hb, hbt⟩ := (h.holds j o r ho hr).there hxo
      rw [hxb] at hb
      cases hb
      exact hbt t rfl)]
    refine done rfl rfl rfl rfl rfl rfl rfl h.hits h.next ?_
    simp [h.live]

end Verif.MemPtr
