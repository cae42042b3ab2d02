import Verif.Lemmas.MemPtr
/-
Accesses through pointers and accesses to the list of regions agree.
-/
namespace Verif.MemPtr
open Verif MemSim

variable {own : List Own} {k : Nat} {p : PSim} {s : Sim}

theorem blockAt_ok {p : PSim} {x : Nat} {b : Block} (h : p.heap.blocks x = some b) : blockAt (some x) p = .ok b p := by
  unfold blockAt
  simp only [h]

theorem nodeAt_ok {p : PSim} {x : Nat} {n : Node} (h : p.heap.blocks x = some (.node n)) : nodeAt (some x) p = .ok n p := by
  unfold nodeAt
  rw [M.bind_apply, blockAt_ok h]
  rfl

theorem watchAt_ok {p : PSim} {x : Nat} {ws : List (Option Watchpoint)} (h : p.heap.blocks x = some (.watch ws)) :
    watchAt (some x) p = .ok ws p := by
  unfold watchAt
  rw [M.bind_apply, blockAt_ok h]
  rfl

theorem countsAt_ok {p : PSim} {x : Nat} {cs : List U32} (h : p.heap.blocks x = some (.counts cs)) : countsAt (some x) p = .ok cs p := by
  unfold countsAt
  rw [M.bind_apply, blockAt_ok h]
  rfl

theorem setBlock_ok {p : PSim} {x : Nat} {b : Block} (b' : Block) (h : p.heap.blocks x = some b) :
    setBlock (some x) b' p = .ok () { p with heap := { p.heap with blocks := put p.heap.blocks x (some b') } } := by
  unfold setBlock
  simp only [h]

theorem setNode_ok {p : PSim} {x : Nat} {n : Node} (g : Node → Node) (h : p.heap.blocks x = some (.node n)) :
    setNode (some x) g p = .ok () { p with heap := { p.heap with blocks := put p.heap.blocks x (some (.node (g n))) } } := by
  unfold setNode
  rw [M.bind_apply, nodeAt_ok h]
  exact setBlock_ok _ h

theorem free_ok {p : PSim} {x : Nat} {b : Block} (h : p.heap.blocks x = some b) :
    free (some x) p = .ok () { p with heap := { p.heap with live := p.heap.live - 1, blocks := put p.heap.blocks x none } } := by
  unfold free
  simp only [h]

/-- The blocks of a region are different blocks. -/
theorem Holds.apart {ns : List Nat} {f : Nat → Option Block} {o : Own} {nxt : Ptr} {r : Region} (h : Holds ns f o nxt r) :
    o.node ≠ o.data ∧ (∀ w, o.watch = some w → w ≠ o.node ∧ w ≠ o.data) ∧
      (∀ c, o.counts = some c → c ≠ o.node ∧ c ≠ o.data ∧ ∀ w, o.watch = some w → c ≠ w) := by
  have hw : ∀ w, o.watch = some w → ∃ ws, f w = some (.watch ws) := by
    intro w e
    rcases h.watch with h1 | ⟨w', rest, h1, -, h3, -⟩
    · rw [h1.1] at e; cases e
    · rw [h1] at e; cases e; exact ⟨_, h3⟩
  have hc : ∀ c, o.counts = some c → ∃ cs, f c = some (.counts cs) := by
    intro c e
    rcases h.counts with h1 | ⟨c', cs, h1, -, h3⟩
    · rw [h1.1] at e; cases e
    · rw [h1] at e; cases e; exact ⟨_, h3⟩
  have hn := h.node
  have hd := h.data
  refine ⟨fun e => ?_, fun w hwe => ?_, fun c hce => ?_⟩
  · rw [e, hd] at hn; cases hn
  · obtain ⟨ws, h1⟩ := hw w hwe
    exact ⟨fun e => (by rw [e, hn] at h1; cases h1), fun e => (by rw [e, hd] at h1; cases h1)⟩
  · obtain ⟨cs, h1⟩ := hc c hce
    refine ⟨fun e => (by rw [e, hn] at h1; cases h1), fun e => (by rw [e, hd] at h1; cases h1), fun w hwe e => ?_⟩
    obtain ⟨ws, h2⟩ := hw w hwe
    rw [e, h2] at h1; cases h1

theorem Holds.put_data {ns : List Nat} {f : Nat → Option Block} {o : Own} {nxt : Ptr} {r : Region} (h : Holds ns f o nxt r) (bs : List U8) :
    Holds ns (put f o.data (some (.bytes bs))) o nxt { r with data := bs } := by
  obtain ⟨h1, h2, h3⟩ := h.apart
  refine ⟨by rw [put_ne h1]; exact h.node, put_eq _ _ _, ?_, ?_⟩
  · rcases h.watch with hw | ⟨w, rest, a, b, c, d⟩
    · exact .inl hw
    · exact .inr ⟨w, rest, a, b, by rw [put_ne (h2 w a).2]; exact c, d⟩
  · rcases h.counts with hc | ⟨c, cs, a, b, d⟩
    · exact .inl hc
    · exact .inr ⟨c, cs, a, b, by rw [put_ne (h3 c a).2.1]; exact d⟩

theorem Holds.put_counts {ns : List Nat} {f : Nat → Option Block} {o : Own} {nxt : Ptr} {r : Region} (h : Holds ns f o nxt r) {c : Nat}
    {cs cs' : List U32} (hc : o.counts = some c) (hcs : r.readCounts = some cs) (hl : cs'.length = cs.length) :
    Holds ns (put f c (some (.counts cs'))) o nxt { r with readCounts := some cs' } := by
  obtain ⟨h1, h2, h3⟩ := h.apart
  have h3 := h3 c hc
  refine ⟨?_, by rw [put_ne h3.2.1.symm]; exact h.data, ?_, .inr ⟨c, cs', hc, rfl, put_eq _ _ _⟩⟩
  · rw [put_ne h3.1.symm, h.node]
    simp only [nodeOf, hcs, Option.map_some, hl]
  · rcases h.watch with hw | ⟨w, rest, a, b, c, d⟩
    · exact .inl hw
    · exact .inr ⟨w, rest, a, b, by rw [put_ne (h3.2.2 w a).symm]; exact c, d⟩

theorem set_get {α : Type} {l : List α} {i : Nat} {a : α} (h : l[i]? = some a) : l.set i a = l := by
  refine List.ext_getElem? fun j => ?_
  by_cases hj : i = j
  · subst hj
    rw [List.getElem?_set_self (List.getElem?_eq_some_iff.1 h).1, h]
  · rw [List.getElem?_set_ne hj]

/-- A region changes in its own blocks. -/
theorem Rep.touch (h : Rep own k p s) {i : Nat} {o : Own} {r r' : Region} {f' : Nat → Option Block}
    (ho : own[i]? = some o) (hr : s.regions[i]? = some r) (hd : r'.redirect = r.redirect ∧ r'.isAlias = r.isAlias)
    (hh : Holds (nodesOf own) f' o (nodesOf own)[i + 1]? r') (hsame : ∀ x, x ∉ o.all → f' x = p.heap.blocks x) :
    Rep own k { p with heap := { p.heap with blocks := f' } } { s with regions := s.regions.set i r' } := by
  have := h.update (o' := o) (next' := p.heap.next) (live' := p.heap.live) (hits' := p.hits) ho hr rfl hd hh (fun x hx _ => hsame x hx)
    (fun x hx => ⟨.inl hx, h.fresh i o ho x hx⟩) (Nat.le_refl _) (h.hits.1 ▸ h.hits.2)
  rw [set_get ho] at this
  have e1 : s.heap.next = p.heap.next := h.next.symm
  have e2 : s.heap.live = p.heap.live := h.live.symm
  have e3 : s.hits = p.hits := h.hits.1.symm
  rw [← e1, ← e2, ← e3] at this
  have e4 : ({ p with hits := s.hits, heap := { p.heap with next := s.heap.next, live := s.heap.live, blocks := f' } } : PSim) =
      { p with heap := { p.heap with blocks := f' } } := by rw [e1, e2, e3]
  rw [e4] at this
  exact this

theorem Rep.hit (h : Rep own k p s) {n : Nat} (hn : n < 2 ^ 31) : Rep own k { p with hits := n } { s with hits := n } :=
  ⟨h.len, h.head, h.tail, h.holds, h.redir, h.le, h.sep, h.fresh, h.xml, ⟨rfl, hn⟩, h.fails, h.next, h.live⟩

/-! ### Through host pointers -/

theorem bytes_rep (h : Rep own k p s) {i : Nat} {o : Own} {r : Region} (ho : own[i]? = some o) (hr : s.regions[i]? = some r) :
    bytesAt (some o.data) p = .ok r.data p := by
  unfold bytesAt blockAt
  rw [M.bind_apply]
  simp only [(h.holds i o r ho hr).data]
  rfl

theorem hostRead_rep (h : Rep own k p s) {i off n : Nat} {o : Own} (ho : own[i]? = some o) :
    Both (fun x p' y s' => x = y ∧ p' = p ∧ s' = s) (fun _ _ => False) (hostRead (some o.data, off) n p) (MemSim.hostRead (i, off) n s) := by
  obtain ⟨r, hr⟩ := h.region ho
  unfold hostRead MemSim.hostRead
  rw [M.bind_apply, M.bind_apply, bytes_rep h ho hr]
  simp only [regionAt, hr]
  by_cases hl : off + n ≤ r.data.length
  · rw [if_pos hl, if_pos hl]
    exact ⟨rfl, rfl, rfl⟩
  · rw [if_neg hl, if_neg hl]
    exact ⟨rfl, nofun, nofun⟩

theorem hostWrite_rep (h : Rep own k p s) {i off : Nat} {new : List U8} {o : Own} (ho : own[i]? = some o) :
    Both (fun _ p' _ s' => Rep own k p' s') (fun _ _ => False) (hostWrite (some o.data, off) new p) (MemSim.hostWrite (i, off) new s) := by
  obtain ⟨r, hr⟩ := h.region ho
  unfold hostWrite MemSim.hostWrite
  rw [M.bind_apply, M.bind_apply, bytes_rep h ho hr]
  simp only [regionAt, hr]
  by_cases hl : off + new.length ≤ r.data.length
  · rw [if_pos hl, if_pos hl]
    unfold setBlock setRegion
    simp only [(h.holds i o r ho hr).data, M.modify_apply]
    refine h.touch ho hr ⟨rfl, rfl⟩ ((h.holds i o r ho hr).put_data _) fun x hx => put_ne fun e => hx ?_
    exact mem_all.2 (.inr (.inl e))
  · rw [if_neg hl, if_neg hl]
    exact ⟨rfl, nofun, nofun⟩

/-! ### Counting reads -/

theorem bump_rep (h : Rep own k p s) {i off size : Nat} {type : U32} {o : Own} {r : Region} (ho : own[i]? = some o) (hr : s.regions[i]? = some r) :
    Both (fun _ p' _ s' => Rep own k p' s' ∧ ∃ r', s'.regions[i]? = some r' ∧ r'.watch = r.watch) (fun _ _ => False)
      (countRead (nodeOf (nodesOf own) o (nodesOf own)[i + 1]? r) off size type p) (MemSim.countRead i r off size type s) := by
  have hh := h.holds i o r ho hr
  unfold countRead MemSim.countRead
  rw [show (nodeOf (nodesOf own) o (nodesOf own)[i + 1]? r).pReadCounts = o.counts from rfl]
  by_cases ht : type = READING ∧ size = 2
  · rw [if_pos ht]
    rcases hh.counts with ⟨h1, h2⟩ | ⟨c, cs, h1, h2, h3⟩
    · rw [if_neg (by rw [h1]; simp), h2]
      exact ⟨h, r, hr, rfl⟩
    · rw [if_pos ⟨ht.1, ht.2, by rw [h1]; rfl⟩, h2]
      unfold bumpCount
      rw [M.bind_apply, h1, countsAt_ok h3]
      simp only
      cases hc : cs[off / 2]? with
      | none => exact ⟨rfl, nofun, nofun⟩
      | some v =>
        simp only [setBlock_ok _ h3, setRegion, M.modify_apply]
        refine ⟨h.touch ho hr ?_ (hh.put_counts h1 h2 (by simp)) fun x hx => put_ne fun e => hx ?_, ?_⟩
        · exact ⟨rfl, rfl⟩
        · exact mem_all.2 (.inr (.inr (.inr (by rw [h1, e]))))
        · exact ⟨_, List.getElem?_set_self (List.getElem?_eq_some_iff.1 hr).1, rfl⟩
  · rw [if_neg ht, if_neg fun hx => ht ⟨hx.1, hx.2.1⟩]
    exact ⟨h, r, hr, rfl⟩

/-! ### Checking for breakpoints and watchpoints -/

theorem entry_rep (h : Rep own k p s) {i j : Nat} {o : Own} {r : Region} (ho : own[i]? = some o) (hr : s.regions[i]? = some r) {w : Watchpoint}
    (hw : r.watch[j]? = some w) {q : PSim} (hq : q.heap.blocks = p.heap.blocks) : watchEntry o.watch j q = .ok w q := by
  rcases (h.holds i o r ho hr).watch with ⟨-, -, h3⟩ | ⟨x, rest, h1, -, h3, -⟩
  · rw [h3] at hw; cases hw
  · unfold watchEntry
    have hj := (List.getElem?_eq_some_iff.1 hw).1
    rw [← hq] at h3
    rw [M.bind_apply, h1, watchAt_ok h3]
    simp only
    rw [List.getElem?_append_left (by simpa using hj), List.getElem?_map, hw]
    rfl

theorem check_loop (h : Rep own k p s) {i : Nat} {o : Own} {r : Region} (ho : own[i]? = some o) (hr : s.regions[i]? = some r)
    (a e : U32) (size : Nat) (type : U32) : ∀ (left j : Nat) (q : PSim), r.watch.length = j + left → q.heap.blocks = p.heap.blocks →
    q.hits < 2 ^ 31 →
    checkLoop o.watch left j a e size type q =
      if q.hits + (scanWatch (r.watch.drop j) a e size type).1 ≥ 2 ^ 31 then .ub .signedOverflow
      else if (scanWatch (r.watch.drop j) a e size type).2 then
        .throw ⟨.hardwareBreakpoint, []⟩ { q with hits := q.hits + (scanWatch (r.watch.drop j) a e size type).1 }
      else .ok () { q with hits := q.hits + (scanWatch (r.watch.drop j) a e size type).1 } := by
  intro left
  induction left with
  | zero =>
    intro j q hl _ hlt
    rw [List.drop_eq_nil_of_le (by omega), if_neg (by simp only [scanWatch]; omega)]
    rfl
  | succ left ih =>
    intro j q hl hq hlt
    have hj : j < r.watch.length := by omega
    have he := entry_rep h ho hr (List.getElem?_eq_getElem hj) hq
    rw [List.drop_eq_getElem_cons hj] 
    unfold checkLoop
    unfold scanWatch 
    rw [M.bind_apply, he]
    simp only
    by_cases h1 : type &&& r.watch[j].type = 0
    · simp only [if_pos h1]
      exact ih (j + 1) q (by omega) hq hlt
    · simp only [if_neg h1]
      by_cases h2 : r.watch[j].type = WATCHPOINT_BREAKPOINT
      · simp only [if_pos h2]
        by_cases h3 : size = 2 ∧ accessInRange r.watch[j] a e
        · simp only [if_pos h3]
          rw [if_neg (by omega)]
          rfl
        · simp only [if_neg h3]
          exact ih (j + 1) q (by omega) hq hlt
      · simp only [if_neg h2]
        by_cases h3 : accessInRange r.watch[j] a e
        · simp only [if_pos h3]
          rw [M.bind_apply]
          unfold countHit
          by_cases hb : q.hits + 1 ≥ 2 ^ 31
          · rw [if_pos hb, if_pos (by omega)]
          · rw [if_neg hb]
            simp only
            rw [ih (j + 1) { q with hits := q.hits + 1 } (by omega) hq (by simp only; omega)]
            simp only [Nat.add_assoc, Nat.add_comm 1]
        · simp only [if_neg h3]
          by_cases h4 : r.watch[j].startAddress.toNat > a.toNat
          · simp only [if_pos h4]
            rw [if_neg (by omega)]
            rfl
          · simp only [if_neg h4]
            exact ih (j + 1) q (by omega) hq hlt

theorem check_rep (h : Rep own k p s) {i size : Nat} {a type : U32} {o : Own} {r r0 : Region} (ho : own[i]? = some o)
    (hr : s.regions[i]? = some r) (hw : r.watch = r0.watch) :
    Both (fun _ p' _ s' => Rep own k p' s') (fun p' s' => Rep own k p' s')
      (checkForBreakWatchPoint (some o.node) a size type p) (MemSim.checkForBreakWatchPoint r0 a size type s) := by
  unfold checkForBreakWatchPoint MemSim.checkForBreakWatchPoint
  rw [M.bind_apply, h.nodeAt ho hr, ← hw]
  have key := check_loop h ho hr a (a + BitVec.ofNat 32 size) size type r.watch.length 0 p (by omega) rfl (h.hits.1 ▸ h.hits.2)
  rw [List.drop_zero, h.hits.1] at key
  simp only [nodeOf]
  rw [key]
  by_cases hb : s.hits + (scanWatch r.watch a (a + BitVec.ofNat 32 size) size type).1 ≥ 2 ^ 31
  · rw [if_pos hb, if_pos hb]
    exact ⟨rfl, nofun, nofun⟩
  · rw [if_neg hb, if_neg hb]
    by_cases h2 : (scanWatch r.watch a (a + BitVec.ofNat 32 size) size type).2
    · rw [if_pos h2, if_pos h2]
      exact ⟨rfl, h.hit (by omega)⟩
    · rw [if_neg h2, if_neg h2]
      exact h.hit (by omega)

/-! ### Accesses -/

theorem gdp_rep (h : Rep own k p s) (a : U32) (size : Nat) (type : U32) (check : Bool) :
    Both (fun x p' y s' => Rep own k p' s' ∧ x.2 = y.2 ∧ ∃ o, own[y.1]? = some o ∧ x.1 = some o.data) (fun p' s' => Rep own k p' s')
      (getDataPointer a size type check p) (MemSim.getDataPointer a size type check s) := by
  unfold getDataPointer MemSim.getDataPointer
  refine Both.bind ((find_rep h a size).mono (fun _ _ _ _ => id) (fun p' s' e => by rw [e.1, e.2]; exact h)) ?_
  rintro ⟨x, a1⟩ p' ⟨i, a2⟩ s' ⟨rfl, rfl, hx, o, r, ho, hr, hp⟩
  simp only at hx ho hr hp
  subst hx hp
  refine Both.bind (Q := fun n p1 r1 s1 => n = nodeOf (nodesOf own) o (nodesOf own)[i + 1]? r ∧ p1 = p' ∧ r1 = r ∧ s1 = s') ?_ ?_
  · rw [h.nodeAt ho hr]
    simp only [regionAt, hr]
    exact ⟨rfl, rfl, rfl, rfl⟩
  rintro n p1 r1 s1 ⟨rfl, rfl, rfl, rfl⟩
  by_cases hw : type = WRITING ∧ r1.isReadOnly = true
  · rw [if_pos (show type = WRITING ∧ (nodeOf _ _ _ r1).isReadOnly = true from hw), if_pos hw]
    exact ⟨rfl, h⟩
  · rw [if_neg (show ¬ (type = WRITING ∧ (nodeOf _ _ _ r1).isReadOnly = true) from hw), if_neg hw]
    refine Both.bind ((bump_rep h ho hr).mono (fun _ _ _ _ => id) (fun _ _ => False.elim)) ?_
    rintro _ p2 _ s2 ⟨h2, r2, hr2, hw2⟩
    have last : ∀ p3 s3, Rep own k p3 s3 →
        nodeAt (some o.node) p3 = .ok (nodeOf (nodesOf own) o (nodesOf own)[i + 1]? ((s3.regions[i]?).getD r1)) p3 := by
      intro p3 s3 h3
      obtain ⟨r3, hr3⟩ := h3.region ho
      rw [h3.nodeAt ho hr3, hr3]
      rfl
    by_cases hc : check
    · rw [if_pos hc, if_pos hc]
      refine Both.bind (check_rep h2 ho hr2 hw2) ?_
      rintro _ p3 _ s3 h3
      simp only
      rw [M.bind_apply, last p3 s3 h3]
      exact ⟨h3, rfl, o, ho, rfl⟩
    · rw [if_neg hc, if_neg hc]
      simp only
      rw [M.bind_apply, last p2 s2 h2]
      exact ⟨h2, rfl, o, ho, rfl⟩

theorem readN_rep (h : Rep own k p s) (n : Nat) (a : U32) :
    Both (fun x p' y s' => x = y ∧ Rep own k p' s') (fun p' s' => Rep own k p' s') (readN n a p) (MemSim.readN n a s) := by
  unfold readN MemSim.readN
  refine Both.bind (gdp_rep h a n READING true) ?_
  rintro ⟨x, x2⟩ p' ⟨i, y2⟩ s' ⟨h', e, o, ho, hx⟩
  simp only at e ho hx
  subst e hx
  refine Both.bind ((hostRead_rep h' ho).mono (fun _ _ _ _ => id) (fun _ _ => False.elim)) ?_
  rintro bs p2 bs' s2 ⟨rfl, rfl, rfl⟩
  exact ⟨rfl, h'⟩

theorem writeN_rep (h : Rep own k p s) (n : Nat) (a : U32) (v : Nat) :
    Both (fun _ p' _ s' => Rep own k p' s') (fun p' s' => Rep own k p' s') (writeN n a v p) (MemSim.writeN n a v s) := by
  unfold writeN MemSim.writeN
  refine Both.bind (gdp_rep h a n WRITING true) ?_
  rintro ⟨x, x2⟩ p' ⟨i, y2⟩ s' ⟨h', e, o, ho, hx⟩
  simp only at e ho hx
  subst e hx
  exact (hostWrite_rep h' ho).mono (fun _ _ _ _ => id) (fun _ _ => False.elim)

theorem loadN_rep (h : Rep own k p s) (a : U32) (bs : List U8) :
    Both (fun _ p' _ s' => Rep own k p' s') (fun p' s' => Rep own k p' s') (loadN a bs p) (MemSim.loadN a bs s) := by
  unfold loadN MemSim.loadN
  refine Both.bind (gdp_rep h a bs.length LOADING false) ?_
  rintro ⟨x, x2⟩ p' ⟨i, y2⟩ s' ⟨h', e, o, ho, hx⟩
  simp only at e ho hx
  subst e hx
  exact (hostWrite_rep h' ho).mono (fun _ _ _ _ => id) (fun _ _ => False.elim)

theorem loadBytes_rep (n : Nat) : ∀ (a : U32) (src : List U8) {p : PSim} {s : Sim}, Rep own k p s →
    Both (fun _ p' _ s' => Rep own k p' s') (fun p' s' => Rep own k p' s') (loadBytes n a src p) (MemSim.loadBytes n a src s) := by
  induction n with
  | zero => intro a src p s h; exact h
  | succ n ih =>
    intro a src p s h
    cases src with
    | nil => exact ⟨rfl, nofun, nofun⟩
    | cons b src => exact Both.bind (loadN_rep h a [b]) fun _ _ _ _ h' => ih _ _ h'

theorem loadWords_rep (m : Nat) : ∀ (src : List U8) (n : Nat) (a : U32) {p : PSim} {s : Sim}, src.length ≤ m → Rep own k p s →
    Both (fun _ p' _ s' => Rep own k p' s') (fun p' s' => Rep own k p' s') (loadWords src n a p) (MemSim.loadWords src n a s) := by
  induction m with
  | zero =>
    intro src n a p s hl h
    cases List.eq_nil_of_length_eq_zero (Nat.le_zero.1 hl)
    unfold loadWords MemSim.loadWords
    by_cases hn : 4 < n
    · rw [if_pos hn, if_pos hn]; exact ⟨rfl, nofun, nofun⟩
    · rw [if_neg hn, if_neg hn]; exact loadBytes_rep n a [] h
  | succ m ih =>
    intro src n a p s hl h
    match src, hl with
    | b0 :: b1 :: b2 :: b3 :: rest, hl =>
      unfold loadWords MemSim.loadWords
      by_cases hn : 4 < n
      · rw [if_pos hn, if_pos hn]
        exact Both.bind (loadN_rep h a _) fun _ _ _ _ h' => ih rest _ _ (by simp at hl; omega) h'
      · rw [if_neg hn, if_neg hn]; exact loadBytes_rep n a _ h
    | [], _ =>
      unfold loadWords MemSim.loadWords
      by_cases hn : 4 < n
      · rw [if_pos hn, if_pos hn]; exact ⟨rfl, nofun, nofun⟩
      · rw [if_neg hn, if_neg hn]; exact loadBytes_rep n a _ h
    | [_], _ =>
      unfold loadWords MemSim.loadWords
      by_cases hn : 4 < n
      · rw [if_pos hn, if_pos hn]; exact ⟨rfl, nofun, nofun⟩
      · rw [if_neg hn, if_neg hn]; exact loadBytes_rep n a _ h
    | [_, _], _ =>
      unfold loadWords MemSim.loadWords
      by_cases hn : 4 < n
      · rw [if_pos hn, if_pos hn]; exact ⟨rfl, nofun, nofun⟩
      · rw [if_neg hn, if_neg hn]; exact loadBytes_rep n a _ h
    | [_, _, _], _ =>
      unfold loadWords MemSim.loadWords
      by_cases hn : 4 < n
      · rw [if_pos hn, if_pos hn]; exact ⟨rfl, nofun, nofun⟩
      · rw [if_neg hn, if_neg hn]; exact loadBytes_rep n a _ h

theorem load_rep (h : Rep own k p s) (b : U32) (img : List U8) (n : U32) :
    Both (fun _ p' _ s' => Rep own k p' s') (fun p' s' => Rep own k p' s') (loadFromFlashImage b img n p) (MemSim.loadFromFlashImage b img n s) :=
  loadWords_rep img.length img n.toNat b (Nat.le_refl _) h

theorem count_rep (h : Rep own k p s) (a : U32) :
    Both (fun x p' y s' => x = y ∧ Rep own k p' s') (fun p' s' => Rep own k p' s') (getFlashReadCount a p) (MemSim.getFlashReadCount a s) := by
  unfold getFlashReadCount MemSim.getFlashReadCount
  refine Both.bind ((find_rep h a 2).mono (fun _ _ _ _ => id) (fun p' s' e => by rw [e.1, e.2]; exact h)) ?_
  rintro ⟨x, a1⟩ p' ⟨i, a2⟩ s' ⟨rfl, rfl, hx, o, r, ho, hr, hp⟩
  simp only at hx ho hr hp
  subst hx hp
  simp only
  rw [M.bind_apply, M.bind_apply, h.nodeAt ho hr]
  simp only [regionAt, hr]
  by_cases hw : ¬ r.isReadOnly = true
  · rw [if_pos (show ¬ (nodeOf _ _ _ r).isReadOnly = true from hw), if_pos hw]
    exact ⟨rfl, h⟩
  · rw [if_neg (show ¬ ¬ (nodeOf _ _ _ r).isReadOnly = true from hw), if_neg hw]
    rw [show (nodeOf (nodesOf own) o (nodesOf own)[i + 1]? r).baseAddress = r.baseAddress from rfl]
    rcases (h.holds i o r ho hr).counts with ⟨h1, h2⟩ | ⟨c, cs, h1, h2, h3⟩
    · rw [h2, show (nodeOf (nodesOf own) o (nodesOf own)[i + 1]? r).pReadCounts = o.counts from rfl, h1]
      exact ⟨rfl, nofun, nofun⟩
    · rw [h2, show (nodeOf (nodesOf own) o (nodesOf own)[i + 1]? r).pReadCounts = o.counts from rfl, h1]
      rw [M.bind_apply, countsAt_ok h3]
      simp only
      cases cs[(a1 - r.baseAddress).toNat / 2]? with
      | none => exact ⟨rfl, nofun, nofun⟩
      | some v => exact ⟨rfl, h⟩

theorem hit_rep (h : Rep own k p s) :
    Both (fun x p' y s' => x = y ∧ Rep own k p' s') (fun p' s' => Rep own k p' s') (wasWatchpointEncountered p) (MemSim.wasWatchpointEncountered s) :=
  ⟨h.hits.1, h.hit (by omega)⟩

end Verif.MemPtr
