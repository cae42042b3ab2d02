import Verif.Spec.MemPtr
import Verif.Lemmas.MemPtrWatch
import Verif.Lemmas.MemPtrFrame
import Verif.Props.MemHistory
/-
C113: the linked data structures of the simulator.
-/
namespace Verif.Props
open Verif MemSim Spec MemPtr

private abbrev Same (p : PSim) (s : Sim) : Prop := ∃ own k, Rep own k p s

private theorem both_read {own : List Own} {k : Nat} {p : PSim} {s : Sim} (h : Rep own k p s) (w : Width) (a : U32) :
    Both (fun x p' y s' => BitVec.ofNat w.bits x = y ∧ Rep own k p' s') (fun p' s' => Rep own k p' s')
      (MemPtr.readN w.bytes a p) (IMemory.read w a s) := by
  have hr := readN_rep h w.bytes a
  rw [read_eq]
  cases h1 : MemPtr.readN w.bytes a p <;> cases h2 : MemSim.readN w.bytes a s <;> rw [h1, h2] at hr
  · exact ⟨by rw [hr.1], hr.2⟩
  all_goals exact hr

private theorem both_map {own : List Own} {k : Nat} {p : PSim} {s : Sim} (h : Rep own k p s) (a : U32) (n : Nat) (t : U32) :
    Both (fun _ p' _ s' => Same p' s') Same (MemPtr.getDataPointer a n t false p)
      ((do let _ ← MemSim.getDataPointer a n t false : M Sim Unit) s) := by
  have hr := gdp_rep h a n t false
  rw [M.bind_apply]
  cases h1 : MemPtr.getDataPointer a n t false p <;> cases h2 : MemSim.getDataPointer a n t false s <;> rw [h1, h2] at hr
  · exact ⟨_, _, hr.1⟩
  any_goals exact hr
  exact ⟨hr.1, _, _, hr.2⟩

/-- Whatever is done, the simulator with its pointers and the list of regions do the same. -/
private theorem act_same {p : PSim} {s : Sim} (h : Same p s) (c : Act) :
    Both (fun x p' y s' => x = y ∧ Same p' s') Same (c.onPointers p) (c.onList s) := by
  obtain ⟨own, k, h⟩ := h
  have same : ∀ {p' s'}, Rep own k p' s' → Same p' s' := fun h => ⟨_, _, h⟩
  cases c with
  | call c =>
    cases c with
    | createRegion b n => exact Both.bind ((createRegion_rep h b n).mono (fun _ _ _ _ ⟨_, e⟩ => ⟨_, _, e⟩) fun _ _ => same) fun _ _ _ _ e => ⟨rfl, e⟩
    | createAlias a r n => exact Both.bind ((createAlias_rep h a r n).mono (fun _ _ _ _ => id) fun _ _ => same) fun _ _ _ _ e => ⟨rfl, e⟩
    | makeReadOnly b => exact Both.bind ((mro_rep h b).mono (fun _ _ _ _ ⟨_, _, e⟩ => ⟨_, _, e⟩) fun _ _ ⟨_, _, e⟩ => ⟨_, _, e⟩) fun _ _ _ _ e => ⟨rfl, e⟩
    | load b img n => exact Both.bind ((load_rep h b img n).mono (fun _ _ _ _ => same) fun _ _ => same) fun _ _ _ _ e => ⟨rfl, e⟩
    | flashImage img n => exact Both.bind (flash_rep h img n) fun _ _ _ _ e => ⟨rfl, e⟩
    | read w a => exact Both.bind ((both_read h w a).mono (fun _ _ _ _ => id) fun _ _ => same) fun _ _ _ _ e => ⟨by rw [e.1], same e.2⟩
    | write w a v =>
      refine Both.bind (m := MemPtr.writeN w.bytes a v.toNat) (n := IMemory.write w a v) (Q := fun _ p' _ s' => Same p' s') ?_ fun _ _ _ _ e => ⟨rfl, e⟩
      rw [write_eq]
      exact (writeN_rep h w.bytes a v.toNat).mono (fun _ _ _ _ => same) fun _ _ => same
    | memoryMap => exact Both.bind (map_rep h) fun _ _ _ _ e => ⟨by rw [e.1], e.2⟩
    | mapForWrite a n => exact Both.bind (both_map h a n.toNat WRITING) fun _ _ _ _ e => ⟨rfl, e⟩
    | mapForRead a n => exact Both.bind (both_map h a n.toNat READING) fun _ _ _ _ e => ⟨rfl, e⟩
    | readCount a => exact Both.bind ((count_rep h a).mono (fun _ _ _ _ => id) fun _ _ => same) fun _ _ _ _ e => ⟨by rw [e.1], same e.2⟩
    | setBreakpoint a n => exact Both.bind (set_rep h a n _) fun _ _ _ _ e => ⟨rfl, e⟩
    | clearBreakpoint a n => exact Both.bind (clear_rep h a n _) fun _ _ _ _ e => ⟨rfl, e⟩
    | setWatchpoint a n t => exact Both.bind (set_rep h a n t) fun _ _ _ _ e => ⟨rfl, e⟩
    | clearWatchpoint a n t => exact Both.bind (clear_rep h a n t) fun _ _ _ _ e => ⟨rfl, e⟩
    | wasHit => exact Both.bind ((hit_rep h).mono (fun _ _ _ _ => id) fun _ _ => same) fun _ _ _ _ e => ⟨by rw [e.1], same e.2⟩
    | uninit => exact Both.bind ((uninit_rep h).mono (fun _ _ _ _ e => ⟨_, _, e⟩) fun _ _ => False.elim) fun _ _ _ _ e => ⟨rfl, e⟩
  | peek a n =>
    refine Both.bind ((gdp_rep h a n.toNat READING false).mono (fun _ _ _ _ => id) fun _ _ => same) ?_
    rintro ⟨x, x2⟩ p' ⟨i, y2⟩ s' ⟨h', e, o, ho, hx⟩
    simp only at e ho hx
    subst e hx
    exact Both.bind ((hostRead_rep h' ho).mono (fun _ _ _ _ => id) fun _ _ => False.elim) fun _ _ _ _ e => ⟨by rw [e.1], by rw [e.2.1, e.2.2]; exact same h'⟩
  | poke a n bs =>
    refine Both.bind ((gdp_rep h a n.toNat WRITING false).mono (fun _ _ _ _ => id) fun _ _ => same) ?_
    rintro ⟨x, x2⟩ p' ⟨i, y2⟩ s' ⟨h', e, o, ho, hx⟩
    simp only at e ho hx
    subst e hx
    exact Both.bind ((hostWrite_rep h' ho).mono (fun _ _ _ _ => same) fun _ _ => False.elim) fun _ _ _ _ e => ⟨rfl, e⟩

private theorem same_init (st : Store) : Same (MemPtr.init st) (MemSim.init (heapOf st)) :=
  ⟨[], 0, rfl, rfl, rfl, nofun, nofun, Nat.le_refl _, nofun, nofun, .inl ⟨rfl, rfl⟩, ⟨rfl, show 0 < 2 ^ 31 by decide⟩, rfl, rfl, rfl⟩

private theorem same_run (cs : List Act) : ∀ {p : PSim} {s : Sim}, Same p s →
    outcomes Act.onPointers cs p = outcomes Act.onList cs s ∧ Outcome.undefined .dangling ∉ outcomes Act.onPointers cs p ∧
    Outcome.undefined .outOfFuel ∉ outcomes Act.onPointers cs p ∧
    (∀ s', after Act.onList cs s = some s' → ∃ p', after Act.onPointers cs p = some p' ∧ Same p' s') := by
  induction cs with
  | nil => exact fun h => ⟨rfl, nofun, nofun, fun s' e => by cases e; exact ⟨_, rfl, h⟩⟩
  | cons c cs ih =>
    intro p s h
    have hb := act_same h c
    unfold outcomes after
    cases h1 : c.onPointers p <;> cases h2 : c.onList s <;> rw [h1, h2] at hb <;> try exact hb.elim
    · obtain ⟨rfl, hb⟩ := hb
      obtain ⟨e1, e2, e3, e4⟩ := ih hb
      simp only
      exact ⟨by rw [e1], by simpa using e2, by simpa using e3, e4⟩
    · obtain ⟨rfl, hb⟩ := hb
      obtain ⟨e1, e2, e3, e4⟩ := ih hb
      simp only
      exact ⟨by rw [e1], by simpa using e2, by simpa using e3, e4⟩
    · obtain ⟨rfl, n1, n2⟩ := hb
      refine ⟨rfl, by simpa using fun e => n1 e.symm, by simpa using fun e => n2 e.symm, nofun⟩

/-- C113. Whatever is done with the simulator, in whatever order, and whichever allocations fail: with its linked regions, its
array of watchpoints that is moved and shifted, and its buffers, it answers, raises exceptions and gets undefined just as an
ordered list of regions does. -/
theorem C113_as_ordered_list (st : Store) (cs : List Act) :
    outcomes Act.onPointers cs (MemPtr.init st) = outcomes Act.onList cs (MemSim.init (heapOf st)) :=
  (same_run cs (same_init st)).1

/-- C113. Whatever is done, careful or not: nothing that was released is used or released again, and every loop over the regions
ends. -/
theorem C113_nothing_released_used (st : Store) (cs : List Act) :
    Outcome.undefined .dangling ∉ outcomes Act.onPointers cs (MemPtr.init st) ∧
    Outcome.undefined .outOfFuel ∉ outcomes Act.onPointers cs (MemPtr.init st) :=
  ⟨(same_run cs (same_init st)).2.1, (same_run cs (same_init st)).2.2.1⟩

private theorem run_list (c : Call) (s : Sim) :
    match c.run s with
    | .ok _ s' => ∃ a, Act.onList (.call c) s = .ok a s'
    | .throw e s' => Act.onList (.call c) s = .throw e s'
    | .ub u => Act.onList (.call c) s = .ub u := by
  cases c <;> simp only [Act.onList, Call.run, M.bind_apply]
  all_goals split <;> simp_all <;> split at * <;> simp_all

private theorem last_undefined {cs : List Call} {s s' : Sim} {c : Call} (h : HistWith Careful s cs s') {u : UB}
    (hu : Outcome.undefined u ∈ outcomes Act.onList ((cs ++ [c]).map .call) s) : c.run s' = .ub u := by
  induction h with
  | nil s =>
    have := run_list c s
    simp only [List.nil_append, List.map_cons, List.map_nil, outcomes] at hu
    cases h : c.run s <;> rw [h] at this <;> simp only at this
    · obtain ⟨a, ha⟩ := this
      rw [ha] at hu
      simp at hu
    · rw [this] at hu; simp at hu
    · rw [this] at hu; simp at hu; rw [hu]
  | @cons s s1 s2 d cs hd hs ht ih =>
    have := run_list d s
    simp only [List.cons_append, List.map_cons, outcomes] at hu
    rcases hs with ⟨a, ha⟩ | ⟨e, ha⟩ <;> rw [ha] at this <;> simp only at this
    · obtain ⟨a, ha⟩ := this
      rw [ha] at hu
      simp only [List.mem_cons, reduceCtorEq, false_or] at hu
      exact ih hu
    · rw [this] at hu
      simp only [List.mem_cons, reduceCtorEq, false_or] at hu
      exact ih hu

/-- C113. As long as the rules of `Careful` are kept, no null pointer is followed and no array is left: only the assertion in the
memory map and the `int` counter of hits can stop the simulator (C19 and C11 say when). -/
theorem C113_no_wild_pointer {st : Store} {cs : List Call} {c : Call} {s : Sim} {u : UB}
    (h : CarefulHist (MemSim.init (heapOf st)) cs s) (hc : Careful c s)
    (hu : Outcome.undefined u ∈ outcomes Act.onPointers ((cs ++ [c]).map .call) (MemPtr.init st)) :
    u = .assertFailed ∨ u = .signedOverflow := by
  rw [C113_as_ordered_list] at hu
  rcases C11_no_invalid_access_partial h hc (last_undefined h hu) with e | e
  · exact .inl e
  · exact .inr e.1

/-- C113. The number of blocks allocated and not released is, after any history, as for the list of regions; C25 says how many are
left when the simulator is given up. -/
theorem C113_blocks_live {st : Store} {cs : List Act} {s : Sim} (h : after Act.onList cs (MemSim.init (heapOf st)) = some s) :
    ∃ p, after Act.onPointers cs (MemPtr.init st) = some p ∧ p.heap.live = s.heap.live := by
  obtain ⟨p, h1, own, k, h2⟩ := (same_run cs (same_init st)).2.2.2 s h
  exact ⟨p, h1, h2.live⟩

private theorem after_hist {P : Call → Sim → Prop} {cs : List Call} {s s' : Sim} (h : HistWith P s cs s') :
    after Act.onList (cs.map .call ++ [.call .uninit]) s = after Act.onList [.call .uninit] s' := by
  induction h with
  | nil s => rfl
  | @cons s s1 s2 d cs hd hs ht ih =>
    have := run_list d s
    simp only [List.cons_append, List.map_cons, after]
    rcases hs with ⟨a, ha⟩ | ⟨e, ha⟩ <;> rw [ha] at this <;> simp only at this
    · obtain ⟨a, ha⟩ := this
      rw [ha]
      exact ih
    · rw [this]
      exact ih

/-- C113. If no memory is marked read-only twice, then giving up the simulator releases every block it ever allocated: none is left,
whatever failed on the way. -/
theorem C113_all_released {st : Store} {cs : List Call} {s : Sim} (h : HistWith Fresh (MemSim.init (heapOf st)) cs s) :
    ∃ p, after Act.onPointers (cs.map .call ++ [.call .uninit]) (MemPtr.init st) = some p ∧ p.pHeadRegion = none ∧
      p.pTailRegion = none ∧ p.pMemoryMapXML = none ∧ p.heap.live = st.live := by
  obtain ⟨s', h1, h2, h3, h4⟩ := C25_uninit_releases_all_partial h
  have ha : after Act.onList (cs.map .call ++ [.call .uninit]) (MemSim.init (heapOf st)) = some s' := by
    rw [after_hist h]
    simp only [after, Act.onList, Call.run, M.bind_apply, h1, M.pure_apply]
  obtain ⟨p, h5, own, k, h6⟩ := (same_run _ (same_init st)).2.2.2 s' ha
  have hl : own = [] := List.eq_nil_of_length_eq_zero (by rw [h6.len, h2]; rfl)
  subst hl
  refine ⟨p, h5, h6.head, h6.tail, ?_, by rw [h6.live, h4]; rfl⟩
  rcases h6.xml with e | ⟨x, t, -, e, -⟩
  · exact e.1
  · rw [h3] at e; cases e

private theorem run_without {x : Nat} (cs : List Act) : ∀ {p : PSim}, x < p.heap.next →
    Outcome.undefined .dangling ∉ outcomes Act.onPointers cs (without x p) →
    outcomes Act.onPointers cs p = outcomes Act.onPointers cs (without x p) ∧
    ∀ p', after Act.onPointers cs p = some p' → p'.heap.blocks x = p.heap.blocks x := by
  induction cs with
  | nil => exact fun _ _ => ⟨rfl, fun p' e => by cases e; rfl⟩
  | cons c cs ih =>
    intro p hx hd
    have hf := Frame.act (x := x) c p hx
    unfold outcomes after
    unfold outcomes at hd
    cases h : c.onPointers (without x p) <;> rw [h] at hf hd <;> simp only at hd ⊢
    · obtain ⟨q, e1, rfl, e2, e3⟩ := hf
      obtain ⟨i1, i2⟩ := ih e3 (by simpa using hd)
      rw [e1]
      exact ⟨by rw [← i1], fun p' e => (i2 p' e).trans e2⟩
    · obtain ⟨q, e1, rfl, e2, e3⟩ := hf
      obtain ⟨i1, i2⟩ := ih e3 (by simpa using hd)
      rw [e1]
      exact ⟨by rw [← i1], fun p' e => (i2 p' e).trans e2⟩
    · rcases hf with rfl | e
      · simp at hd
      · rw [e]; exact ⟨rfl, nofun⟩

/-- C113. Memory that somebody else allocated before the simulator was started stays as it was, whatever is done with the simulator:
it is not written and not released. -/
theorem C113_others_untouched {st : Store} {cs : List Act} {x : Nat} {p : PSim} (hx : x < st.next)
    (h : after Act.onPointers cs (MemPtr.init st) = some p) : p.heap.blocks x = st.blocks x :=
  (run_without cs (p := MemPtr.init st) hx
    (C113_nothing_released_used { st with blocks := put st.blocks x none } cs).1).2 p h

/-- C113. Nor does what it holds make a difference to what the caller of the simulator gets to see: it is not read. -/
theorem C113_others_unread (st st' : Store) (cs : List Act) (h1 : st.fails = st'.fails) (h2 : st.next = st'.next) (h3 : st.live = st'.live) :
    outcomes Act.onPointers cs (MemPtr.init st) = outcomes Act.onPointers cs (MemPtr.init st') := by
  rw [C113_as_ordered_list, C113_as_ordered_list]
  unfold heapOf
  rw [h1, h2, h3]

/-! ### Concrete cases -/

/-- Flash, RAM and an alias; watchpoints whose array is moved and shifted; an exception; the memory map twice; all given up, and
started again. -/
def pointerCalls : List Act :=
  demoCalls.map .call ++
  [.call (.clearWatchpoint 0x20000000 8 3), .call (.read .w32 0x8000), .call (.write .w32 0x8000 0xCAFEBABE), .poke 0x20000000 4 [1, 2, 3, 4], .peek 0x20000000 8,
   .call (.write .w8 0x1000 1), .call .wasHit, .call (.readCount 0x1000), .call .memoryMap, .call .memoryMap, .call .uninit,
   .call (.flashImage [0, 1, 0, 0x10, 7] 5), .call (.read .w8 4), .call (.read .w32 0x10000000), .call (.read .w32 0x10000100)]

/-- A heap in which the third allocation of the second half fails. -/
def scarce : Store := { fails := fun n => n == 13 }

#guard outcomes Act.onPointers (pointerCalls.take 18) (MemPtr.init { fails := fun _ => false }) =
    List.replicate 9 (.returned .done) ++
    [.returned (.number 0x201), .returned .done, .returned (.number 0xCAFEBABE), .returned .done, .returned .done,
     .returned (.bytes [1, 2, 3, 4, 0xBE, 0xBA, 0xFE, 0xCA]), .raised ⟨.busError, []⟩, .returned (.number 1),
     .returned (.number 1)]

#guard (outcomes Act.onPointers pointerCalls (MemPtr.init { fails := fun _ => false })).drop 18 =
  (outcomes Act.onList pointerCalls (MemSim.init goodHeap)).drop 18

#guard (outcomes Act.onPointers pointerCalls (MemPtr.init scarce)).drop 20 =
  [.returned .done, .raised ⟨.outOfMemory, []⟩, .raised ⟨.busError, []⟩, .raised ⟨.busError, []⟩, .raised ⟨.busError, []⟩]

example : HistWith Fresh (MemSim.init (heapOf { fails := fun _ => false })) demoCalls demo :=
  execWith_hist freshChk_ok rfl

example : CarefulHist (MemSim.init (heapOf { fails := fun _ => false })) demoCalls demo ∧ Careful .memoryMap demo :=
  ⟨execWith_hist carefulChk_ok rfl, trivial⟩

/-- A heap in which somebody else has two blocks already. -/
def sharedHeap : Store :=
  { fails := fun _ => false, blocks := fun n => if n = 0 then some (.bytes [1, 2, 3]) else if n = 1 then some (.bytes []) else none, next := 2, live := 2 }

#guard ((after Act.onPointers (pointerCalls.take 20) (MemPtr.init sharedHeap)).map fun p =>
  (match p.heap.blocks 0, p.heap.blocks 1 with | some (.bytes a), some (.bytes b) => a = [1, 2, 3] && b = [] | _, _ => false) &&
  decide (10 < p.heap.next ∧ 10 < p.heap.live)) =
  some true

-- Marking memory read-only runs out of memory; asking for its read counts then follows a null pointer, as C11 says.
#guard outcomes Act.onPointers [.call (.createRegion 0 8), .call (.makeReadOnly 0), .call (.readCount 0), .call .wasHit]
    (MemPtr.init { fails := fun n => n == 2 }) =
    [.returned .done, .raised ⟨.outOfMemory, []⟩, .undefined .nullDeref]

end Verif.Props
