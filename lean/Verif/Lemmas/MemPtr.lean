import Verif.Model.MemPtr
import Verif.Model.IMemory
import Mathlib.Data.List.Nodup
import Mathlib.Data.List.Perm.Subperm
/-
The simulator with its pointers (Model/MemPtr.lean) and the simulator with a list of regions (Model/MemorySim.lean): what it means
that they represent the same thing, and that each operation keeps it so.
-/
namespace Verif.MemPtr
open Verif MemSim

/-- The blocks of one region. -/
structure Own where
  node : Nat
  data : Nat
  watch : Ptr := none
  counts : Ptr := none

def Own.all (o : Own) : List Nat := [o.node, o.data] ++ o.watch.toList ++ o.counts.toList

def nodesOf (own : List Own) : List Nat := own.map Own.node

/-- The node of a region. -/
def nodeOf (ns : List Nat) (o : Own) (nxt : Ptr) (r : Region) : Node :=
  { pNext := nxt, pRedirect := r.redirect.bind fun j => ns[j]?, pData := some o.data, pWatchpoints := o.watch, pReadCounts := o.counts,
    baseAddress := r.baseAddress, redirectAddress := r.redirectAddress, size := r.size, watchpointCount := r.watch.length,
    watchpointAlloc := r.watchAlloc, readCounts := (r.readCounts.map List.length).getD 0, isReadOnly := r.isReadOnly, isAlias := r.isAlias }

/-- The heap holds the region `r` in the blocks `o`. -/
structure Holds (ns : List Nat) (f : Nat → Option Block) (o : Own) (nxt : Ptr) (r : Region) : Prop where
  node : f o.node = some (.node (nodeOf ns o nxt r))
  data : f o.data = some (.bytes r.data)
  watch : (o.watch = none ∧ r.watchAlloc = 0 ∧ r.watch = []) ∨
    ∃ w rest, o.watch = some w ∧ r.watchAlloc ≠ 0 ∧ f w = some (.watch (r.watch.map some ++ rest)) ∧ r.watch.length + rest.length = r.watchAlloc
  counts : (o.counts = none ∧ r.readCounts = none) ∨ ∃ c cs, o.counts = some c ∧ r.readCounts = some cs ∧ f c = some (.counts cs)

/-- An alias leads to some region before the `k`-th. -/
def Leads (r : Region) (k : Nat) : Prop := (∀ j, r.redirect = some j → j < k) ∧ (r.isAlias = true → r.redirect ≠ none)

/-- The counters of hits agree, and their `int` has not overflowed. -/
def Hits (a b : Nat) : Prop := a = b ∧ b < 2 ^ 31

/-- The two simulators are in the same state; `own` are the blocks of the regions, and no alias leads to the `k`-th region or
one behind it. -/
structure Rep (own : List Own) (k : Nat) (p : PSim) (s : Sim) : Prop where
  len : own.length = s.regions.length
  head : p.pHeadRegion = (nodesOf own)[0]?
  tail : p.pTailRegion = (nodesOf own).getLast?
  holds : ∀ (i : Nat) (o : Own) (r : Region), own[i]? = some o → s.regions[i]? = some r → Holds (nodesOf own) p.heap.blocks o (nodesOf own)[i + 1]? r
  redir : ∀ (i : Nat) (r : Region), s.regions[i]? = some r → Leads r k
  le : k ≤ own.length
  sep : ∀ (i j : Nat) (a b : Own), own[i]? = some a → own[j]? = some b → i ≠ j → ∀ x ∈ a.all, x ∉ b.all
  fresh : ∀ (i : Nat) (o : Own), own[i]? = some o → ∀ x ∈ o.all, x < p.heap.next
  xml : (p.pMemoryMapXML = none ∧ s.xml = none) ∨
    ∃ x t, p.pMemoryMapXML = some x ∧ s.xml = some t ∧ p.heap.blocks x = some (.text t) ∧ x < p.heap.next
  hits : Hits p.hits s.hits
  fails : p.heap.fails = s.heap.fails
  next : p.heap.next = s.heap.next
  live : p.heap.live = s.heap.live

/-- Two outcomes agree; if they are undefined, then not because a released block was used or a loop did not end. -/
def Both (Q : α → PSim → β → Sim → Prop) (E : PSim → Sim → Prop) : Out PSim α → Out Sim β → Prop
  | .ok a p, .ok b s => Q a p b s
  | .throw e p, .throw e' s => e = e' ∧ E p s
  | .ub r, .ub r' => r = r' ∧ r ≠ .dangling ∧ r ≠ .outOfFuel
  | _, _ => False

theorem Both.bind {m : M PSim α} {n : M Sim β} {f : α → M PSim γ} {g : β → M Sim δ} {p : PSim} {s : Sim}
    {Q : α → PSim → β → Sim → Prop} {E : PSim → Sim → Prop} {Q' : γ → PSim → δ → Sim → Prop}
    (h : Both Q E (m p) (n s)) (h' : ∀ a p' b s', Q a p' b s' → Both Q' E (f a p') (g b s')) : Both Q' E ((m >>= f) p) ((n >>= g) s) := by
  rw [M.bind_apply, M.bind_apply]
  cases hn : n s with
  | ub r =>
    rw [hn] at h
    cases hm : m p with
    | ok a p' => rw [hm] at h; exact h.elim
    | throw e p' => rw [hm] at h; exact h.elim
    | ub r => rw [hm] at h; exact h
  | ok b s' =>
    rw [hn] at h
    cases hm : m p with
    | ok a p' => rw [hm] at h; exact h' a p' b s' h
    | throw e p' => rw [hm] at h; exact h.elim
    | ub r => rw [hm] at h; exact h.elim
  | throw e s' =>
    rw [hn] at h
    cases hm : m p with
    | ok a p' => rw [hm] at h; exact h.elim
    | throw e' p' => rw [hm] at h; exact h
    | ub r => rw [hm] at h; exact h.elim

theorem Both.mono {Q Q' : α → PSim → β → Sim → Prop} {E E' : PSim → Sim → Prop} {x : Out PSim α} {y : Out Sim β} (h : Both Q E x y)
    (hq : ∀ a p b s, Q a p b s → Q' a p b s) (he : ∀ p s, E p s → E' p s) : Both Q' E' x y := by
  cases x <;> cases y <;> first | exact hq _ _ _ _ h | exact ⟨h.1, he _ _ h.2⟩ | exact h

/-! ### Blocks of a region -/

theorem put_eq (f : Nat → Option Block) (x : Nat) (b : Option Block) : put f x b x = b := if_pos rfl
theorem put_ne {f : Nat → Option Block} {x y : Nat} {b : Option Block} (h : y ≠ x) : put f x b y = f y := if_neg h

theorem mem_all {o : Own} {x : Nat} : x ∈ o.all ↔ x = o.node ∨ x = o.data ∨ o.watch = some x ∨ o.counts = some x := by
  unfold Own.all
  simp [Option.mem_toList]

theorem Holds.congr {ns : List Nat} {f f' : Nat → Option Block} {o : Own} {nxt : Ptr} {r : Region} (h : Holds ns f o nxt r)
    (e : ∀ x ∈ o.all, f' x = f x) : Holds ns f' o nxt r := by
  refine ⟨?_, ?_, ?_, ?_⟩
  · rw [e _ (mem_all.2 (.inl rfl))]; exact h.node
  · rw [e _ (mem_all.2 (.inr (.inl rfl)))]; exact h.data
  · rcases h.watch with hw | ⟨w, rest, h1, h2, h3, h4⟩
    · exact .inl hw
    · exact .inr ⟨w, rest, h1, h2, by rw [e _ (mem_all.2 (.inr (.inr (.inl h1))))]; exact h3, h4⟩
  · rcases h.counts with hc | ⟨c, cs, h1, h2, h3⟩
    · exact .inl hc
    · exact .inr ⟨c, cs, h1, h2, by rw [e _ (mem_all.2 (.inr (.inr (.inr h1))))]; exact h3⟩

/-- Every block of a region is there, and is not a text. -/
theorem Holds.there {ns : List Nat} {f : Nat → Option Block} {o : Own} {nxt : Ptr} {r : Region} (h : Holds ns f o nxt r) {x : Nat}
    (hx : x ∈ o.all) : ∃ b, f x = some b ∧ ∀ t, b ≠ .text t := by
  rcases mem_all.1 hx with rfl | rfl | hx | hx
  · exact ⟨_, h.node, fun _ => nofun⟩
  · exact ⟨_, h.data, fun _ => nofun⟩
  · rcases h.watch with hw | ⟨w, rest, h1, h2, h3, h4⟩
    · rw [hw.1] at hx; cases hx
    · rw [h1] at hx; cases hx; exact ⟨_, h3, fun _ => nofun⟩
  · rcases h.counts with hc | ⟨c, cs, h1, h2, h3⟩
    · rw [hc.1] at hx; cases hx
    · rw [h1] at hx; cases hx; exact ⟨_, h3, fun _ => nofun⟩

variable {own : List Own} {k : Nat} {p : PSim} {s : Sim}

theorem Rep.node_lt (h : Rep own k p s) {i x : Nat} (hx : (nodesOf own)[i]? = some x) : x < p.heap.next := by
  unfold nodesOf at hx
  rw [List.getElem?_map] at hx
  obtain ⟨o, ho, rfl⟩ := Option.map_eq_some_iff.1 hx
  exact h.fresh i o ho _ (mem_all.2 (.inl rfl))

/-- There are at most as many regions as there were allocations. -/
theorem Rep.enough (h : Rep own k p s) : own.length ≤ p.heap.next := by
  have hn : (nodesOf own).Nodup := by
    unfold List.Nodup
    rw [List.pairwise_iff_getElem]
    intro i j hi hj hij e
    have hi' : i < own.length := by simpa [nodesOf] using hi
    have hj' : j < own.length := by simpa [nodesOf] using hj
    have := h.sep i j own[i] own[j] (List.getElem?_eq_getElem hi') (List.getElem?_eq_getElem hj') (by omega) own[i].node (mem_all.2 (.inl rfl))
    refine this (mem_all.2 (.inl ?_))
    simpa [nodesOf] using e
  have hs : nodesOf own ⊆ List.range p.heap.next := by
    intro x hx
    obtain ⟨i, hi⟩ := List.getElem?_of_mem hx
    exact List.mem_range.2 (h.node_lt hi)
  have := (hn.subperm hs).length_le
  simpa [nodesOf] using this

theorem node_get {i : Nat} {o : Own} (ho : own[i]? = some o) : (nodesOf own)[i]? = some o.node := by
  unfold nodesOf
  rw [List.getElem?_map, ho]
  rfl

theorem Rep.nodeAt (h : Rep own k p s) {i : Nat} {o : Own} {r : Region} (ho : own[i]? = some o) (hr : s.regions[i]? = some r) :
    MemPtr.nodeAt (some o.node) p = .ok (nodeOf (nodesOf own) o (nodesOf own)[i + 1]? r) p := by
  unfold MemPtr.nodeAt blockAt
  rw [M.bind_apply]
  simp only [(h.holds i o r ho hr).node]
  rfl

theorem Rep.region (h : Rep own k p s) {i : Nat} {o : Own} (ho : own[i]? = some o) : ∃ r, s.regions[i]? = some r := by
  have := (List.getElem?_eq_some_iff.1 ho).1
  exact ⟨_, List.getElem?_eq_getElem (h.len ▸ this)⟩

theorem Rep.owner (h : Rep own k p s) {i : Nat} {r : Region} (hr : s.regions[i]? = some r) : ∃ o, own[i]? = some o := by
  have := (List.getElem?_eq_some_iff.1 hr).1
  exact ⟨_, List.getElem?_eq_getElem (h.len ▸ this)⟩

/-! ### Finding regions -/

theorem find_loop (h : Rep own k p s) (a : U32) (n : Nat) : ∀ (fuel i : Nat), own.length - i ≤ fuel →
    match findFrom i (s.regions.drop i) a n with
    | none => findLoop fuel (nodesOf own)[i]? a n p = .throw ⟨.busError, []⟩ p
    | some (j, r) => s.regions[j]? = some r ∧ findLoop fuel (nodesOf own)[i]? a n p =
        .ok (if r.isAlias then (r.redirect.bind fun j => (nodesOf own)[j]?, (a - r.baseAddress) + r.redirectAddress) else ((nodesOf own)[j]?, a)) p := by
  intro fuel
  induction fuel with
  | zero =>
    intro i hi
    rw [List.drop_eq_nil_of_le (by rw [← h.len]; omega), List.getElem?_eq_none (by simp [nodesOf]; omega)]
    rfl
  | succ fuel ih =>
    intro i hi
    by_cases hl : i < own.length
    · obtain ⟨r, hr⟩ := h.region (List.getElem?_eq_getElem hl)
      have hi' := (List.getElem?_eq_some_iff.1 hr).1
      rw [List.drop_eq_getElem_cons hi', node_get (List.getElem?_eq_getElem hl)]
      have hrr : s.regions[i] = r := (List.getElem?_eq_some_iff.1 hr).2
      rw [hrr]
      unfold findFrom findLoop
      rw [M.bind_apply, h.nodeAt (List.getElem?_eq_getElem hl) hr]
      have hc : (nodeOf (nodesOf own) own[i] (nodesOf own)[i + 1]? r).contains a n = r.contains a n := rfl
      simp only [hc]
      by_cases hcon : r.contains a n
      · rw [if_pos hcon, if_pos hcon]
        simp only
        refine ⟨hr, ?_⟩
        rw [node_get (List.getElem?_eq_getElem hl)]
        by_cases ha : r.isAlias = true
        · rw [if_pos (show (nodeOf _ _ _ r).isAlias = true from ha), if_pos ha]; rfl
        · rw [if_neg (show ¬ (nodeOf _ _ _ r).isAlias = true from ha), if_neg ha]; rfl
      · rw [if_neg hcon, if_neg hcon]
        exact ih (i + 1) (by omega)
    · rw [List.drop_eq_nil_of_le (by rw [← h.len]; omega), List.getElem?_eq_none (by simp [nodesOf]; omega)]
      rfl

/-- `findMatchingRegion` finds the same region. -/
theorem find_rep (h : Rep own k p s) (a : U32) (n : Nat) :
    Both (fun x p' y s' => p' = p ∧ s' = s ∧ x.2 = y.2 ∧ ∃ o r, own[y.1]? = some o ∧ s.regions[y.1]? = some r ∧ x.1 = some o.node)
      (fun p' s' => p' = p ∧ s' = s) (findMatchingRegion a n p) (MemSim.findMatchingRegion a n s) := by
  have key := find_loop h a n p.heap.next 0 (by have := h.enough; omega)
  unfold findMatchingRegion MemSim.findMatchingRegion
  rw [M.bind_apply, M.get_apply]
  simp only
  rw [h.head]
  rw [List.drop_zero] at key
  cases hf : findFrom 0 s.regions a n with
  | none =>
    rw [hf] at key
    simp only at key ⊢
    rw [key]
    exact ⟨rfl, rfl, rfl⟩
  | some jr =>
    obtain ⟨j, r⟩ := jr
    rw [hf] at key
    simp only at key ⊢
    rw [key.2]
    by_cases ha : r.isAlias
    · simp only [if_pos ha]
      cases hj : r.redirect with
      | none => exact absurd hj ((h.redir j r key.1).2 ha)
      | some j' =>
        have hlt : j' < own.length := Nat.lt_of_lt_of_le ((h.redir j r key.1).1 j' hj) h.le
        obtain ⟨r', hr'⟩ := h.region (List.getElem?_eq_getElem hlt)
        exact ⟨rfl, rfl, rfl, own[j'], r', List.getElem?_eq_getElem hlt, hr', node_get (List.getElem?_eq_getElem hlt)⟩
    · simp only [if_neg ha]
      obtain ⟨o, ho⟩ := h.owner key.1
      exact ⟨rfl, rfl, rfl, o, r, ho, key.1, node_get ho⟩

/-! ### Changing a region -/

theorem nodes_set {i : Nat} {o o' : Own} (ho : own[i]? = some o) (hn : o'.node = o.node) : nodesOf (own.set i o') = nodesOf own := by
  unfold nodesOf
  rw [List.map_set, hn]
  refine List.ext_getElem? fun j => ?_
  by_cases hj : i = j
  · subst hj
    have := (List.getElem?_eq_some_iff.1 ho).1
    rw [List.getElem?_set_self (by simpa using this), List.getElem?_map, ho]
    rfl
  · rw [List.getElem?_set_ne hj]

/-- One region changes, in its own blocks or in new ones. -/
theorem Rep.update (h : Rep own k p s) {i : Nat} {o o' : Own} {r r' : Region} {f' : Nat → Option Block} {next' : Nat} {live' : Int} {hits' : Nat}
    (ho : own[i]? = some o) (hr : s.regions[i]? = some r) (hn : o'.node = o.node) (hd : r'.redirect = r.redirect ∧ r'.isAlias = r.isAlias)
    (hh : Holds (nodesOf own) f' o' (nodesOf own)[i + 1]? r')
    (hsame : ∀ x, x ∉ o.all → x < p.heap.next → f' x = p.heap.blocks x)
    (hnew : ∀ x ∈ o'.all, (x ∈ o.all ∨ p.heap.next ≤ x) ∧ x < next') (hle : p.heap.next ≤ next') (hit : hits' < 2 ^ 31) :
    Rep (own.set i o') k
      { p with hits := hits', heap := { p.heap with next := next', live := live', blocks := f' } }
      { s with hits := hits', regions := s.regions.set i r', heap := { s.heap with next := next', live := live' } } := by
  have hil := (List.getElem?_eq_some_iff.1 ho).1
  have hns := nodes_set ho hn
  have other : ∀ {j b}, (own.set i o')[j]? = some b → (j = i ∧ b = o') ∨ (j ≠ i ∧ own[j]? = some b) := by
    intro j b hj
    by_cases hji : i = j
    · subst hji
      rw [List.getElem?_set_self hil] at hj
      exact .inl ⟨rfl, (Option.some.inj hj).symm⟩
    · rw [List.getElem?_set_ne hji] at hj
      exact .inr ⟨fun e => hji e.symm, hj⟩
  refine ⟨by simpa using h.len, by rw [hns]; exact h.head, by rw [hns]; exact h.tail, ?_, ?_, by simpa using h.le, ?_, ?_, ?_, ⟨rfl, hit⟩, h.fails, rfl, rfl⟩
  · intro j b q hb hq
    rw [hns]
    rcases other hb with ⟨rfl, rfl⟩ | ⟨hji, hb⟩
    · rw [List.getElem?_set_self (h.len ▸ hil)] at hq
      cases hq
      exact hh
    · rw [List.getElem?_set_ne (fun e => hji e.symm)] at hq
      refine (h.holds j b q hb hq).congr fun x hx => hsame x ?_ (h.fresh j b hb x hx)
      exact h.sep j i b o hb ho hji x hx
  · intro j q hq
    by_cases hji : i = j
    · subst hji
      simp only at hq
      rw [List.getElem?_set_self (h.len ▸ hil)] at hq
      cases hq
      unfold Leads
      rw [hd.1, hd.2]
      exact h.redir i r hr
    · simp only at hq
      rw [List.getElem?_set_ne hji] at hq
      exact h.redir j q hq
  · intro a b oa ob ha hb hab x hx hxb
    rcases other ha with ⟨ea, eo⟩ | ⟨hai, ha'⟩ <;> rcases other hb with ⟨eb, eo'⟩ | ⟨hbi, hb'⟩
    · exact hab (ea.trans eb.symm)
    · rcases (hnew x (eo ▸ hx)).1 with h1 | h1
      · exact h.sep i b o ob ho hb' (fun e => hbi e.symm) x h1 hxb
      · have := h.fresh b ob hb' x hxb; omega
    · rcases (hnew x (eo' ▸ hxb)).1 with h1 | h1
      · exact h.sep a i oa o ha' ho hai x hx h1
      · have := h.fresh a oa ha' x hx; omega
    · exact h.sep a b oa ob ha' hb' hab x hx hxb
  · intro j b hb x hx
    rcases other hb with ⟨rfl, rfl⟩ | ⟨hji, hb⟩
    · exact (hnew x hx).2
    · exact Nat.lt_of_lt_of_le (h.fresh j b hb x hx) hle
  · rcases h.xml with hx | ⟨x, t, h1, h2, h3, h4⟩
    · exact .inl hx
    · refine .inr ⟨x, t, h1, h2, ?_, Nat.lt_of_lt_of_le h4 hle⟩
      simp only
      rw [hsame x ?_ h4]
      · exact h3
      · intro hxo
        obtain ⟨b, hb, hbt⟩ := (h.holds i o r ho hr).there hxo
        rw [h3] at hb
        cases hb
        exact hbt t rfl

end Verif.MemPtr
