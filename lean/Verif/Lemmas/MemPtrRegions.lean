import Verif.Lemmas.MemPtrAccess
/-
Creating, changing and releasing regions through pointers, and in the list of regions, agree.
-/
namespace Verif.MemPtr
open Verif MemSim

variable {own : List Own} {k : Nat} {p p' : PSim} {s s' : Sim}

/-- `Rep.update` for states given by their parts. -/
theorem Rep.upd (h : Rep own k p s) {i : Nat} {o o' : Own} {r r' : Region} (ho : own[i]? = some o) (hr : s.regions[i]? = some r)
    (hn : o'.node = o.node) (hd : r'.redirect = r.redirect ∧ r'.isAlias = r.isAlias) (hh : Holds (nodesOf own) p'.heap.blocks o' (nodesOf own)[i + 1]? r')
    (hsame : ∀ x, x ∉ o.all → x < p.heap.next → p'.heap.blocks x = p.heap.blocks x)
    (hnew : ∀ x ∈ o'.all, (x ∈ o.all ∨ p.heap.next ≤ x) ∧ x < p'.heap.next) (hle : p.heap.next ≤ p'.heap.next)
    (e1 : p'.pHeadRegion = p.pHeadRegion) (e2 : p'.pTailRegion = p.pTailRegion) (e3 : p'.pMemoryMapXML = p.pMemoryMapXML)
    (e4 : p'.heap.fails = p.heap.fails) (e5 : s'.regions = s.regions.set i r') (e6 : s'.xml = s.xml) (e7 : s'.heap.fails = s.heap.fails)
    (e8 : Hits p'.hits s'.hits) (e9 : p'.heap.next = s'.heap.next) (e10 : p'.heap.live = s'.heap.live) :
    Rep (own.set i o') k p' s' := by
  have := h.update (next' := p'.heap.next) (live' := p'.heap.live) (hits' := p'.hits) ho hr hn hd hh hsame hnew hle (e8.1 ▸ e8.2)
  refine ⟨?_, ?_, ?_, ?_, ?_, this.le, this.sep, this.fresh, ?_, e8, ?_, e9, e10⟩
  · rw [e5]; exact this.len
  · rw [e1]; exact this.head
  · rw [e2]; exact this.tail
  · rw [e5]; exact this.holds
  · rw [e5]; exact this.redir
  · rw [e3, e6]; exact this.xml
  · rw [e4, e7]; exact h.fails

/-- The regions stay as they are. -/
theorem Rep.other (h : Rep own k p s) (hsame : ∀ (i : Nat) (o : Own), own[i]? = some o → ∀ x ∈ o.all, p'.heap.blocks x = p.heap.blocks x)
    (hle : p.heap.next ≤ p'.heap.next) (e1 : p'.pHeadRegion = p.pHeadRegion) (e2 : p'.pTailRegion = p.pTailRegion)
    (hx : (p'.pMemoryMapXML = none ∧ s'.xml = none) ∨
      ∃ x t, p'.pMemoryMapXML = some x ∧ s'.xml = some t ∧ p'.heap.blocks x = some (.text t) ∧ x < p'.heap.next)
    (e4 : p'.heap.fails = p.heap.fails) (e5 : s'.regions = s.regions) (e7 : s'.heap.fails = s.heap.fails)
    (e8 : Hits p'.hits s'.hits) (e9 : p'.heap.next = s'.heap.next) (e10 : p'.heap.live = s'.heap.live) : Rep own k p' s' := by
  refine ⟨?_, ?_, ?_, ?_, ?_, h.le, h.sep, ?_, hx, e8, ?_, e9, e10⟩
  · rw [e5]; exact h.len
  · rw [e1]; exact h.head
  · rw [e2]; exact h.tail
  · intro i o r ho hr
    rw [e5] at hr
    exact (h.holds i o r ho hr).congr (hsame i o ho)
  · rw [e5]; exact h.redir
  · exact fun i o ho x hx => Nat.lt_of_lt_of_le (h.fresh i o ho x hx) hle
  · rw [e4, e7]; exact h.fails

/-- Only blocks that are new change. -/
theorem Rep.grow (h : Rep own k p s) (hsame : ∀ x, x < p.heap.next → p'.heap.blocks x = p.heap.blocks x)
    (hle : p.heap.next ≤ p'.heap.next) (e1 : p'.pHeadRegion = p.pHeadRegion) (e2 : p'.pTailRegion = p.pTailRegion)
    (e3 : p'.pMemoryMapXML = p.pMemoryMapXML)
    (e4 : p'.heap.fails = p.heap.fails) (e5 : s'.regions = s.regions) (e6 : s'.xml = s.xml) (e7 : s'.heap.fails = s.heap.fails)
    (e8 : Hits p'.hits s'.hits) (e9 : p'.heap.next = s'.heap.next) (e10 : p'.heap.live = s'.heap.live) : Rep own k p' s' := by
  refine h.other (fun i o ho x hx => hsame x (h.fresh i o ho x hx)) hle e1 e2 ?_ e4 e5 e7 e8 e9 e10
  rw [e3, e6]
  rcases h.xml with hx | ⟨x, t, h1, h2, h3, h4⟩
  · exact .inl hx
  · exact .inr ⟨x, t, h1, h2, by rw [hsame x h4]; exact h3, by omega⟩

/-! ### Allocating -/

theorem malloc_no {b : Block} (hf : p.heap.fails p.heap.next = true) :
    malloc b p = .ok none { p with heap := { p.heap with next := p.heap.next + 1 } } := by
  unfold malloc
  rw [if_pos hf]

theorem malloc_yes {b : Block} (hf : ¬ p.heap.fails p.heap.next = true) :
    malloc b p = .ok (some p.heap.next)
      { p with heap := { p.heap with next := p.heap.next + 1, live := p.heap.live + 1, blocks := put p.heap.blocks p.heap.next (some b) } } := by
  unfold malloc
  rw [if_neg hf]

theorem throwing_no {b : Block} (hf : p.heap.fails p.heap.next = true) :
    throwingZeroedMalloc b p = .throw ⟨.outOfMemory, []⟩ { p with heap := { p.heap with next := p.heap.next + 1 } } := by
  unfold throwingZeroedMalloc
  rw [M.bind_apply, malloc_no hf]
  rfl

theorem throwing_yes {b : Block} (hf : ¬ p.heap.fails p.heap.next = true) :
    throwingZeroedMalloc b p = .ok (some p.heap.next)
      { p with heap := { p.heap with next := p.heap.next + 1, live := p.heap.live + 1, blocks := put p.heap.blocks p.heap.next (some b) } } := by
  unfold throwingZeroedMalloc
  rw [M.bind_apply, malloc_yes hf]
  rfl

theorem throwingL_no (hf : s.heap.fails s.heap.next = true) :
    MemSim.throwingZeroedMalloc s = .throw ⟨.outOfMemory, []⟩ { s with heap := { s.heap with next := s.heap.next + 1 } } := by
  unfold MemSim.throwingZeroedMalloc
  rw [M.bind_apply]
  unfold MemSim.malloc
  simp only [if_pos hf]
  rfl

theorem throwingL_yes (hf : ¬ s.heap.fails s.heap.next = true) :
    MemSim.throwingZeroedMalloc s = .ok () { s with heap := { s.heap with next := s.heap.next + 1, live := s.heap.live + 1 } } := by
  unfold MemSim.throwingZeroedMalloc
  rw [M.bind_apply]
  unfold MemSim.malloc
  simp only [if_neg hf]
  rfl

theorem Rep.fail_iff (h : Rep own k p s) : p.heap.fails p.heap.next = s.heap.fails s.heap.next := by rw [h.fails, h.next]

/-! ### Marking read-only -/

theorem Holds.put_node {ns : List Nat} {f : Nat → Option Block} {o : Own} {nxt nxt' : Ptr} {r r' : Region} (h : Holds ns f o nxt r)
    (hdata : r'.data = r.data) (hwatch : r'.watch = r.watch) (halloc : r'.watchAlloc = r.watchAlloc) (hcounts : r'.readCounts = r.readCounts) :
    Holds ns (put f o.node (some (.node (nodeOf ns o nxt' r')))) o nxt' r' := by
  obtain ⟨h1, h2, h3⟩ := h.apart
  refine ⟨put_eq _ _ _, by rw [put_ne h1.symm, hdata]; exact h.data, ?_, ?_⟩
  · rw [hwatch, halloc]
    rcases h.watch with hw | ⟨w, rest, a, b, c, d⟩
    · exact .inl hw
    · exact .inr ⟨w, rest, a, b, by rw [put_ne (h2 w a).1]; exact c, d⟩
  · rw [hcounts]
    rcases h.counts with hc | ⟨c, cs, a, b, d⟩
    · exact .inl hc
    · exact .inr ⟨c, cs, a, b, by rw [put_ne (h3 c a).1]; exact d⟩

theorem mro_rep (h : Rep own k p s) (b : U32) :
    Both (fun _ p' _ s' => ∃ own', own'.length = own.length ∧ Rep own' k p' s') (fun p' s' => ∃ own', own'.length = own.length ∧ Rep own' k p' s')
      (makeRegionReadOnly b p) (MemSim.makeRegionReadOnly b s) := by
  unfold makeRegionReadOnly MemSim.makeRegionReadOnly
  refine Both.bind ((find_rep h b 1).mono (fun _ _ _ _ => id) (fun p' s' e => ⟨own, rfl, by rw [e.1, e.2]; exact h⟩)) ?_
  rintro ⟨x, a1⟩ p' ⟨i, a2⟩ s' ⟨rfl, rfl, hx, o, r, ho, hr, hp⟩
  simp only at hx ho hr hp
  subst hx hp
  have hh := h.holds i o r ho hr
  have hlt : o.node < p'.heap.next := h.fresh i o ho _ (mem_all.2 (.inl rfl))
  simp only
  rw [M.bind_apply, M.bind_apply, setNode_ok _ hh.node]
  simp only [regionAt, hr]
  rw [M.bind_apply, M.bind_apply, nodeAt_ok (put_eq _ _ _)]
  simp only [setRegion, M.modify_apply]
  rw [M.bind_apply, M.bind_apply]
  have hfe := h.fail_iff
  have hh1 : Holds (nodesOf own) (put p'.heap.blocks o.node (some (.node (nodeOf (nodesOf own) o (nodesOf own)[i + 1]? { r with isReadOnly := true }))))
      o (nodesOf own)[i + 1]? { r with isReadOnly := true } := hh.put_node rfl rfl rfl rfl
  by_cases hf : p'.heap.fails p'.heap.next = true
  · rw [throwing_no (by exact hf), throwingL_no (by simp only; rw [← hfe]; exact hf)]
    refine ⟨rfl, own, rfl, ?_⟩
    have := h.upd (o' := o) (r' := { r with isReadOnly := true }) (p' := { p' with heap := { p'.heap with next := p'.heap.next + 1, blocks := put p'.heap.blocks o.node (some (.node (nodeOf (nodesOf own) o (nodesOf own)[i + 1]? { r with isReadOnly := true }))) } })
      (s' := { s' with regions := s'.regions.set i { r with isReadOnly := true }, heap := { s'.heap with next := s'.heap.next + 1 } })
      ho hr rfl ⟨rfl, rfl⟩ hh1 (fun y hy _ => put_ne fun e => hy (mem_all.2 (.inl e))) (fun y hy => ⟨.inl hy, by
        have := h.fresh i o ho y hy; simp only; omega⟩) (by simp only; omega) rfl rfl rfl rfl rfl rfl rfl h.hits
      (by simp only; rw [h.next]) h.live
    rw [set_get ho] at this
    exact this
  · rw [throwing_yes (by exact hf), throwingL_yes (by simp only; rw [← hfe]; exact hf)]
    simp only
    have hne : o.node ≠ p'.heap.next := by omega
    rw [M.bind_apply, setNode_ok _ (by simp only; rw [put_ne hne, put_eq]), M.modify_apply]
    simp only
    rw [setNode_ok _ (by simp only; rw [put_eq])]
    refine ⟨own.set i { o with counts := some p'.heap.next }, by simp, ?_⟩
    refine h.upd (o' := { o with counts := some p'.heap.next })
      (r' := { r with isReadOnly := true, readCounts := some (List.replicate (r.size.toNat / 2) 0) }) ho hr rfl ⟨rfl, rfl⟩ ?_ ?_ ?_ ?_ rfl rfl rfl rfl ?_ rfl rfl
      h.hits ?_ ?_
    · have hd : o.data < p'.heap.next := h.fresh i o ho _ (mem_all.2 (.inr (.inl rfl)))
      obtain ⟨h1, h2, h3⟩ := hh.apart
      refine ⟨?_, ?_, ?_, .inr ⟨_, _, rfl, rfl, ?_⟩⟩
      · simp only [put_eq, nodeOf, Option.map_some, List.length_replicate, Option.getD_some]
      · simp only
        rw [put_ne h1.symm, put_ne h1.symm, put_ne (by omega), put_ne h1.symm]
        exact hh.data
      · rcases hh.watch with hw | ⟨w, rest, a, b, c, d⟩
        · exact .inl hw
        · refine .inr ⟨w, rest, a, b, ?_, d⟩
          have hw : w < p'.heap.next := h.fresh i o ho _ (mem_all.2 (.inr (.inr (.inl a))))
          simp only
          rw [put_ne (h2 w a).1, put_ne (h2 w a).1, put_ne (by omega), put_ne (h2 w a).1]
          exact c
      · simp only
        rw [put_ne (by omega), put_ne (by omega), put_eq]
        rfl
    · intro y hy hlt
      have hy1 : y ≠ o.node := fun e => hy (mem_all.2 (.inl e))
      simp only
      rw [put_ne hy1, put_ne hy1, put_ne (by omega), put_ne hy1]
    · intro y hy
      simp only
      rcases mem_all.1 hy with e | e | e | e
      · have hy' := mem_all.2 (.inl e : y = o.node ∨ _)
        exact ⟨.inl hy', by have := h.fresh i o ho y hy'; omega⟩
      · have hy' := mem_all.2 (.inr (.inl e) : y = o.node ∨ y = o.data ∨ _)
        exact ⟨.inl hy', by have := h.fresh i o ho y hy'; omega⟩
      · have hy' := mem_all.2 (.inr (.inr (.inl e)) : y = o.node ∨ y = o.data ∨ o.watch = some y ∨ _)
        exact ⟨.inl hy', by have := h.fresh i o ho y hy'; omega⟩
      · cases e
        exact ⟨.inr (Nat.le_refl _), by omega⟩
    · simp only; omega
    · simp only [List.set_set]
    · simp only; rw [h.next]
    · simp only; rw [h.live]

/-! ### Creating regions -/

theorem nodes_append (own : List Own) (o : Own) : nodesOf (own ++ [o]) = nodesOf own ++ [o.node] := by
  simp [nodesOf]

/-- A region is added at the end. -/
theorem Rep.append (h : Rep own k p s) {o : Own} {r : Region} {k' : Nat} (hold : ∀ x ∈ o.all, p.heap.next ≤ x ∧ x < p'.heap.next)
    (hh : Holds (nodesOf own ++ [o.node]) p'.heap.blocks o none r)
    (hsame : ∀ x, x < p.heap.next → p.pTailRegion ≠ some x → p'.heap.blocks x = p.heap.blocks x)
    (htail : ∀ t n, p.pTailRegion = some t → p.heap.blocks t = some (.node n) → p'.heap.blocks t = some (.node { n with pNext := some o.node }))
    (hr : Leads r k') (hk : k ≤ k') (hk' : k' ≤ own.length) (hle : p.heap.next ≤ p'.heap.next)
    (e1 : p'.pHeadRegion = if p.pTailRegion = none then some o.node else p.pHeadRegion) (e2 : p'.pTailRegion = some o.node)
    (e3 : p'.pMemoryMapXML = p.pMemoryMapXML)
    (e4 : p'.heap.fails = p.heap.fails) (e5 : s'.regions = s.regions ++ [r]) (e6 : s'.xml = s.xml) (e7 : s'.heap.fails = s.heap.fails)
    (e8 : Hits p'.hits s'.hits) (e9 : p'.heap.next = s'.heap.next) (e10 : p'.heap.live = s'.heap.live) : Rep (own ++ [o]) k' p' s' := by
  have hcase : ∀ {j b}, (own ++ [o])[j]? = some b → (j < own.length ∧ own[j]? = some b) ∨ (j = own.length ∧ b = o) := by
    intro j b hj
    rcases Nat.lt_trichotomy j own.length with hl | hl | hl
    · rw [List.getElem?_append_left hl] at hj
      exact .inl ⟨hl, hj⟩
    · subst hl
      rw [List.getElem?_append_right (Nat.le_refl _), Nat.sub_self] at hj
      cases hj
      exact .inr ⟨rfl, rfl⟩
    · rw [List.getElem?_eq_none (by simp; omega)] at hj
      cases hj
  have hnl : (nodesOf own).length = own.length := by simp [nodesOf]
  refine ⟨?_, ?_, ?_, ?_, ?_, by simp; omega, ?_, ?_, ?_, e8, by rw [e4, e7]; exact h.fails, e9, e10⟩
  · rw [e5]; simp [h.len]
  · rw [e1, nodes_append, h.tail]
    by_cases hn : own = []
    · subst hn
      rfl
    · have : nodesOf own ≠ [] := by simpa [nodesOf] using hn
      rw [if_neg (by simpa using this), h.head, List.getElem?_append_left (List.length_pos_of_ne_nil this)]
  · rw [e2, nodes_append]
    simp
  · intro j b q hb hq
    rw [nodes_append]
    rw [e5] at hq
    rcases hcase hb with ⟨hl, hb⟩ | ⟨rfl, rfl⟩
    · rw [List.getElem?_append_left (h.len ▸ hl)] at hq
      have hold := h.holds j b q hb hq
      have hredir : ∀ t, q.redirect = some t → (nodesOf own ++ [o.node])[t]? = (nodesOf own)[t]? := fun t ht =>
        List.getElem?_append_left (by rw [hnl]; exact Nat.lt_of_lt_of_le ((h.redir j q hq).1 t ht) h.le)
      have hnode : ∀ nxt, nodeOf (nodesOf own ++ [o.node]) b nxt q = nodeOf (nodesOf own) b nxt q := by
        intro nxt
        unfold nodeOf
        cases ht : q.redirect with
        | none => rfl
        | some t =>
          simp only [Option.bind_some]
          rw [hredir t ht]
      obtain ⟨a1, a2, a3⟩ := hold.apart
      have notTail : ∀ x ∈ b.all, x ≠ b.node → p'.heap.blocks x = p.heap.blocks x := by
        intro x hx hxn
        refine hsame x (h.fresh j b hb x hx) fun e => ?_
        rw [h.tail] at e
        obtain ⟨jt, hjt⟩ := List.getElem?_of_mem (List.mem_of_getLast? e)
        unfold nodesOf at hjt
        rw [List.getElem?_map] at hjt
        obtain ⟨ot, hot, hon⟩ := Option.map_eq_some_iff.1 hjt
        by_cases hjj : j = jt
        · subst hjj
          rw [hb] at hot
          cases hot
          exact hxn hon.symm
        · exact h.sep j jt b ot hb hot hjj x hx (mem_all.2 (.inl hon.symm))
      refine ⟨?_, ?_, ?_, ?_⟩
      · rw [hnode]
        by_cases hlast : j + 1 = own.length
        · have ht : p.pTailRegion = some b.node := by
            rw [h.tail, List.getLast?_eq_getElem?, hnl, show own.length - 1 = j by omega, node_get hb]
          rw [htail _ _ ht hold.node, List.getElem?_append_right (by omega), hnl, hlast, Nat.sub_self]
          rfl
        · rw [List.getElem?_append_left (by omega), hsame b.node (h.fresh j b hb _ (mem_all.2 (.inl rfl)))]
          · exact hold.node
          · intro e
            rw [h.tail, List.getLast?_eq_getElem?, hnl] at e
            have hl' : own.length - 1 < own.length := by omega
            rw [node_get (List.getElem?_eq_getElem hl')] at e
            refine h.sep j (own.length - 1) b own[own.length - 1] hb (List.getElem?_eq_getElem hl') (by omega) b.node (mem_all.2 (.inl rfl))
              (mem_all.2 (.inl (Option.some.inj e).symm))
      · rw [notTail b.data (mem_all.2 (.inr (.inl rfl))) a1.symm]
        exact hold.data
      · rcases hold.watch with hw | ⟨w, rest, c1, c2, c3, c4⟩
        · exact .inl hw
        · exact .inr ⟨w, rest, c1, c2, by rw [notTail w (mem_all.2 (.inr (.inr (.inl c1)))) (a2 w c1).1]; exact c3, c4⟩
      · rcases hold.counts with hc | ⟨c, cs, c1, c2, c3⟩
        · exact .inl hc
        · exact .inr ⟨c, cs, c1, c2, by rw [notTail c (mem_all.2 (.inr (.inr (.inr c1)))) (a3 c c1).1]; exact c3⟩
    · rw [h.len, List.getElem?_append_right (Nat.le_refl _), Nat.sub_self] at hq
      cases hq
      rw [List.getElem?_eq_none (by simp [nodesOf])]
      exact hh
  · intro j q hq
    rw [e5] at hq
    by_cases hl : j < s.regions.length
    · rw [List.getElem?_append_left hl] at hq
      exact ⟨fun t ht => Nat.lt_of_lt_of_le ((h.redir j q hq).1 t ht) hk, (h.redir j q hq).2⟩
    · rw [List.getElem?_append_right (by omega)] at hq
      cases hj : j - s.regions.length with
      | zero => rw [hj] at hq; cases hq; exact hr
      | succ n => rw [hj] at hq; cases hq
  · intro a b oa ob ha hb hab x hx hxb
    rcases hcase ha with ⟨la, ha'⟩ | ⟨la, ea⟩ <;> rcases hcase hb with ⟨lb, hb'⟩ | ⟨lb, eb⟩
    · exact h.sep a b oa ob ha' hb' hab x hx hxb
    · have h1 := h.fresh a oa ha' x hx
      have h2 := (hold x (eb ▸ hxb)).1
      omega
    · have h1 := h.fresh b ob hb' x hxb
      have h2 := (hold x (ea ▸ hx)).1
      omega
    · omega
  · intro j b hb x hx
    rcases hcase hb with ⟨-, hb'⟩ | ⟨-, rfl⟩
    · exact Nat.lt_of_lt_of_le (h.fresh j b hb' x hx) hle
    · exact (hold x hx).2
  · rw [e3, e6]
    rcases h.xml with hx | ⟨x, t, h1, h2, h3, h4⟩
    · exact .inl hx
    · refine .inr ⟨x, t, h1, h2, ?_, by omega⟩
      rw [hsame x h4]
      · exact h3
      · intro e
        rw [h.tail] at e
        obtain ⟨jt, hjt⟩ := List.getElem?_of_mem (List.mem_of_getLast? e)
        unfold nodesOf at hjt
        rw [List.getElem?_map] at hjt
        obtain ⟨ot, hot, hon⟩ := Option.map_eq_some_iff.1 hjt
        obtain ⟨rt, hrt⟩ := h.region hot
        have := (h.holds jt ot rt hot hrt).node
        rw [hon, h3] at this
        cases this

/-- The tail, if there is one, is a node that was there before. -/
theorem Rep.tail_node (h : Rep own k p s) {t : Nat} (ht : p.pTailRegion = some t) : t < p.heap.next ∧ ∃ n, p.heap.blocks t = some (.node n) := by
  rw [h.tail] at ht
  obtain ⟨jt, hjt⟩ := List.getElem?_of_mem (List.mem_of_getLast? ht)
  refine ⟨h.node_lt hjt, ?_⟩
  unfold nodesOf at hjt
  rw [List.getElem?_map] at hjt
  obtain ⟨ot, hot, hon⟩ := Option.map_eq_some_iff.1 hjt
  obtain ⟨rt, hrt⟩ := h.region hot
  exact ⟨_, hon ▸ (h.holds jt ot rt hot hrt).node⟩

/-- What `addRegionToTail` does. -/
def tailBlocks (p : PSim) (x : Nat) : Nat → Option Block :=
  match p.pTailRegion with
  | none => p.heap.blocks
  | some t =>
    match p.heap.blocks t with
    | some (.node n) => put p.heap.blocks t (some (.node { n with pNext := some x }))
    | _ => p.heap.blocks

theorem addRegion_ok (x : Nat) (ht : ∀ t, p.pTailRegion = some t → ∃ n, p.heap.blocks t = some (.node n)) :
    addRegionToTail (some x) p = .ok () { p with
      pHeadRegion := if p.pTailRegion = none then some x else p.pHeadRegion, pTailRegion := some x,
      heap := { p.heap with blocks := tailBlocks p x } } := by
  unfold addRegionToTail tailBlocks
  rw [M.bind_apply, M.get_apply]
  simp only
  cases h : p.pTailRegion with
  | none =>
    simp only [M.modify_apply, M.bind_apply]
    rfl
  | some t =>
    obtain ⟨n, hn⟩ := ht t h
    simp only [hn]
    rw [M.bind_apply, setNode_ok _ hn]
    simp only [M.modify_apply]
    rfl

/-- `addRegionToTail` puts the region `o` behind the others. `q` is the state before, in which the new blocks are already there. -/
theorem Rep.added (h : Rep own k p s) {q : PSim} {o : Own} {r : Region} {k' : Nat} (hold : ∀ x ∈ o.all, p.heap.next ≤ x ∧ x < q.heap.next)
    (hh : Holds (nodesOf own ++ [o.node]) q.heap.blocks o none r) (hsame : ∀ x, x < p.heap.next → q.heap.blocks x = p.heap.blocks x)
    (hr : Leads r k') (hk : k ≤ k') (hk' : k' ≤ own.length) (hle : p.heap.next ≤ q.heap.next)
    (e1 : q.pHeadRegion = p.pHeadRegion) (e2 : q.pTailRegion = p.pTailRegion) (e3 : q.pMemoryMapXML = p.pMemoryMapXML)
    (e4 : q.heap.fails = p.heap.fails) (e5 : s'.regions = s.regions ++ [r]) (e6 : s'.xml = s.xml) (e7 : s'.heap.fails = s.heap.fails)
    (e8 : Hits q.hits s'.hits) (e9 : q.heap.next = s'.heap.next) (e10 : q.heap.live = s'.heap.live) :
    ∃ q', addRegionToTail (some o.node) q = .ok () q' ∧ Rep (own ++ [o]) k' q' s' := by
  have ht : ∀ t, q.pTailRegion = some t → t < p.heap.next ∧ ∃ n, q.heap.blocks t = some (.node n) := by
    intro t ht
    obtain ⟨a, n, b⟩ := h.tail_node (e2 ▸ ht)
    exact ⟨a, n, by rw [hsame t a]; exact b⟩
  refine ⟨_, addRegion_ok o.node fun t a => (ht t a).2, ?_⟩
  have far : ∀ x, q.pTailRegion ≠ some x → tailBlocks q o.node x = q.heap.blocks x := by
    intro x hx
    unfold tailBlocks
    cases htt : q.pTailRegion with
    | none => rfl
    | some t =>
      obtain ⟨n, hn⟩ := (ht t htt).2
      simp only [hn]
      exact put_ne fun e => hx (by rw [htt, e])
  have notTail : ∀ x ∈ o.all, q.pTailRegion ≠ some x := by
    intro x hx e
    have h1 := (ht x e).1
    have h2 := (hold x hx).1
    omega
  refine h.append hold ?_ ?_ ?_ hr hk hk' hle (by simp only [e1, e2]) rfl e3 e4 e5 e6 e7 e8 e9 e10
  · exact hh.congr fun x hx => far x (notTail x hx)
  · intro x hx hxt
    simp only
    rw [far x (by rw [e2]; exact hxt)]
    exact hsame x hx
  · intro t n htt hn
    have h1 : q.pTailRegion = some t := by rw [e2]; exact htt
    have h2 : q.heap.blocks t = some (.node n) := by rw [hsame t (ht t h1).1]; exact hn
    simp only [tailBlocks, h1, h2]
    rw [put_eq]

theorem freeStray {x : Nat} {n : Node} (hn : p.heap.blocks x = some (.node n)) (h1 : n.pData = none) (h2 : n.pWatchpoints = none)
    (h3 : n.pReadCounts = none) : freeRegion (some x) p =
      .ok () { p with heap := { p.heap with live := p.heap.live - 1, blocks := put p.heap.blocks x none } } := by
  unfold freeRegion
  simp only
  rw [M.bind_apply, nodeAt_ok hn]
  simp only [h1, h2, h3]
  have : free (none : Ptr) = pure () := rfl
  simp only [this, M.bind_apply, M.pure_apply]
  exact free_ok hn

theorem tryCatch_ok {σ α : Type} {m : M σ α} {f : Exn → M σ α} {s s' : σ} {a : α} (h : m s = .ok a s') : M.tryCatch m f s = .ok a s' := by
  unfold M.tryCatch
  rw [h]

theorem tryCatch_throw {σ α : Type} {m : M σ α} {f : Exn → M σ α} {s s' : σ} {e : Exn} (h : m s = .throw e s') :
    M.tryCatch m f s = f e s' := by
  unfold M.tryCatch
  rw [h]

theorem createRegion_rep (h : Rep own k p s) (b n : U32) :
    Both (fun _ p' _ s' => ∃ o, Rep (own ++ [o]) k p' s') (fun p' s' => Rep own k p' s') (createRegion b n p) (MemSim.createRegion b n s) := by
  unfold createRegion MemSim.createRegion
  rw [M.bind_apply, M.bind_apply]
  have hfe := h.fail_iff
  by_cases hf : p.heap.fails p.heap.next = true
  · rw [throwing_no (by exact hf), throwingL_no (hfe ▸ hf)]
    refine ⟨rfl, h.grow (fun _ _ => rfl) ?_ rfl rfl rfl rfl rfl rfl rfl h.hits ?_ h.live⟩
    · simp only; omega
    · simp only; rw [h.next]
  · rw [throwing_yes (by exact hf), throwingL_yes (hfe ▸ hf)]
    simp only
    rw [M.bind_apply]
    by_cases hg : p.heap.fails (p.heap.next + 1) = true
    · rw [tryCatch_throw (e := ⟨.outOfMemory, []⟩) (by
        rw [M.bind_apply, setNode_ok _ (put_eq _ _ _)]
        simp only
        rw [M.bind_apply, setNode_ok _ (put_eq _ _ _)]
        simp only
        rw [M.bind_apply, throwing_no (by exact hg)])]
      rw [tryCatch_throw (throwingL_no (s := { s with heap := { s.heap with next := s.heap.next + 1, live := s.heap.live + 1 } })
        (by simp only; rw [← h.fails, ← h.next]; exact hg))]
      rw [M.bind_apply, freeStray (put_eq _ _ _) rfl rfl rfl]
      simp only [M.bind_apply, MemSim.free, M.rethrow]
      refine ⟨rfl, h.grow ?_ ?_ rfl rfl rfl rfl rfl rfl rfl h.hits ?_ ?_⟩
      · intro x hx
        have hne : x ≠ p.heap.next := by omega
        simp only
        rw [put_ne hne, put_ne hne, put_ne hne, put_ne hne]
      · simp only; omega
      · simp only; rw [h.next]
      · simp only; rw [h.live]; rfl
    · obtain ⟨q', hq, hrep⟩ := h.added (o := { node := p.heap.next, data := p.heap.next + 1 }) (k' := k)
        (r := { baseAddress := b, size := n, data := List.replicate n.toNat 0 })
        (q := { p with heap := { p.heap with next := p.heap.next + 1 + 1, live := p.heap.live + 1 + 1, blocks := (put (put (put (put (put p.heap.blocks p.heap.next (some (.node {}))) p.heap.next (some (.node { baseAddress := b })))
            p.heap.next (some (.node { baseAddress := b, size := n }))) (p.heap.next + 1) (some (.bytes (List.replicate n.toNat 0))))
            p.heap.next (some (.node { baseAddress := b, size := n, pData := some (p.heap.next + 1) }))) } })
        (s' := { s with regions := s.regions ++ [{ baseAddress := b, size := n, data := List.replicate n.toNat 0 }],
                        heap := { s.heap with next := s.heap.next + 1 + 1, live := s.heap.live + 1 + 1 } })
        (by
          intro x hx
          rcases mem_all.1 hx with e | e | e | e
          · simp only at e ⊢; omega
          · simp only at e ⊢; omega
          · cases e
          · cases e)
        (by
          refine ⟨put_eq _ _ _, ?_, .inl ⟨rfl, rfl, rfl⟩, .inl ⟨rfl, rfl⟩⟩
          simp only
          rw [put_ne (by omega), put_eq])
        (by
          intro x hx
          have hne : x ≠ p.heap.next := by omega
          simp only
          rw [put_ne hne, put_ne (by omega), put_ne hne, put_ne hne, put_ne hne])
        ⟨nofun, nofun⟩ (Nat.le_refl _) h.le (by simp only; omega) rfl rfl rfl rfl rfl rfl rfl h.hits (by simp only; rw [h.next]) (by simp only; rw [h.live])
      rw [tryCatch_ok (a := ()) (s' := q') (by
        rw [M.bind_apply, setNode_ok _ (put_eq _ _ _)]
        simp only
        rw [M.bind_apply, setNode_ok _ (put_eq _ _ _)]
        simp only
        rw [M.bind_apply, throwing_yes (by exact hg)]
        simp only
        rw [M.bind_apply, setNode_ok _ (by simp only; rw [put_ne (by omega), put_eq])]
        exact hq)]
      rw [tryCatch_ok (throwingL_yes (s := { s with heap := { s.heap with next := s.heap.next + 1, live := s.heap.live + 1 } })
        (by simp only; rw [← h.fails, ← h.next]; exact hg))]
      exact ⟨_, hrep⟩

end Verif.MemPtr
