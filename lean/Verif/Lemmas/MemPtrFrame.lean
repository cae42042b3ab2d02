import Verif.Spec.MemPtr
/-
A block of the heap that the simulator did not allocate makes no difference to what it does, unless it would have used a pointer that
leads nowhere without the block.
-/
namespace Verif.MemPtr
open Verif MemSim Spec

/-- The state without the block `x`. -/
def without (x : Nat) (p : PSim) : PSim := { p with heap := { p.heap with blocks := put p.heap.blocks x none } }

/-- `o` is the outcome with the block `x`, which holds `b`, and `o'` the one without it. -/
def FrameO (x : Nat) (b : Option Block) : Out PSim α → Out PSim α → Prop
  | o, .ok a p' => ∃ p, o = .ok a p ∧ p' = without x p ∧ p.heap.blocks x = b ∧ x < p.heap.next
  | o, .throw e p' => ∃ p, o = .throw e p ∧ p' = without x p ∧ p.heap.blocks x = b ∧ x < p.heap.next
  | o, .ub r => r = .dangling ∨ o = .ub r

/-- The block `x` makes no difference to `m`, and `m` none to the block. -/
def Frame (x : Nat) (m : M PSim α) : Prop :=
  ∀ p, x < p.heap.next → FrameO x (p.heap.blocks x) (m p) (m (without x p))

variable {x : Nat}

theorem Frame.pure (a : α) : Frame x (Pure.pure a : M PSim α) := fun p h => ⟨p, rfl, rfl, rfl, h⟩
theorem Frame.ub (r : UB) : Frame x (M.ub r : M PSim α) := fun _ _ => .inr rfl
theorem Frame.throw (c : Exc) : Frame x (M.throw c : M PSim α) := fun p h => ⟨p, rfl, rfl, rfl, h⟩
theorem Frame.rethrow (e : Exn) : Frame x (M.rethrow e : M PSim α) := fun p h => ⟨p, rfl, rfl, rfl, h⟩

theorem Frame.bind {m : M PSim α} {f : α → M PSim β} (h : Frame x m) (hf : ∀ a, Frame x (f a)) : Frame x (m >>= f) := by
  intro p hp
  have := h p hp
  rw [M.bind_apply, M.bind_apply]
  cases e : m (without x p) with
  | ok a p' =>
    rw [e] at this
    obtain ⟨q, e1, rfl, e2, e3⟩ := this
    rw [e1, ← e2]
    exact hf a q e3
  | throw c p' =>
    rw [e] at this
    obtain ⟨q, e1, rfl, e2, e3⟩ := this
    rw [e1]
    exact ⟨q, rfl, rfl, e2, e3⟩
  | ub r =>
    rw [e] at this
    rcases this with h | h
    · exact .inl h
    · rw [h]; exact .inr rfl

theorem Frame.tryCatch {m : M PSim α} {f : Exn → M PSim α} (h : Frame x m) (hf : ∀ e, Frame x (f e)) : Frame x (M.tryCatch m f) := by
  intro p hp
  have := h p hp
  unfold M.tryCatch
  cases e : m (without x p) with
  | ok a p' =>
    rw [e] at this
    obtain ⟨q, e1, rfl, e2, e3⟩ := this
    rw [e1]
    exact ⟨q, rfl, rfl, e2, e3⟩
  | throw c p' =>
    rw [e] at this
    obtain ⟨q, e1, rfl, e2, e3⟩ := this
    rw [e1, ← e2]
    exact hf c q e3
  | ub r =>
    rw [e] at this
    rcases this with h | h
    · exact .inl h
    · rw [h]; exact .inr rfl

/-- Looking at the state, but not at the blocks. -/
theorem Frame.get {f : PSim → M PSim β} (hs : ∀ p, f (without x p) = f p) (hf : ∀ p, Frame x (f p)) : Frame x (M.get >>= f) := by
  intro p hp
  show FrameO x _ (f p p) (f (without x p) (without x p))
  rw [hs]
  exact hf p p hp

theorem Frame.modify {f : PSim → PSim} (h1 : ∀ p, (f p).heap = p.heap) (h2 : ∀ p, f (without x p) = without x (f p)) : Frame x (M.modify f) := by
  intro p hp
  exact ⟨f p, rfl, h2 p, by rw [h1], by rw [h1]; exact hp⟩

theorem put_swap {f : Nat → Option Block} {y : Nat} (h : y ≠ x) (b c : Option Block) : put (put f x b) y c = put (put f y c) x b := by
  funext z
  unfold put
  split <;> split <;> simp_all

theorem Frame.malloc (b : Block) : Frame x (malloc b) := by
  intro p hp
  unfold MemPtr.malloc
  show FrameO x _ _ (if p.heap.fails p.heap.next then _ else _)
  split
  · exact ⟨_, rfl, rfl, rfl, Nat.lt_succ_of_lt hp⟩
  · refine ⟨_, rfl, ?_, ?_, Nat.lt_succ_of_lt hp⟩
    · unfold without
      simp only
      rw [put_swap (by omega)]
    · show put _ _ _ _ = _
      unfold put
      rw [if_neg (by omega)]

theorem put_none_at {f : Nat → Option Block} (y : Nat) : put f x none y = none ∨ (y ≠ x ∧ put f x none y = f y) := by
  unfold put
  split
  · exact .inl rfl
  · exact .inr ⟨‹_›, rfl⟩

theorem Frame.free (q : Ptr) : Frame x (free q) := by
  cases q with
  | none => exact .pure _
  | some y =>
    intro p hp
    unfold MemPtr.free
    simp only
    rw [show (without x p).heap.blocks y = put p.heap.blocks x none y from rfl]
    rcases put_none_at (f := p.heap.blocks) (x := x) y with h | ⟨h, h'⟩
    · rw [h]; exact .inl rfl
    · rw [h']
      cases p.heap.blocks y with
      | none => exact .inl rfl
      | some c =>
        refine ⟨_, rfl, ?_, ?_, hp⟩
        · unfold without
          simp only
          rw [put_swap h]
        · show put _ _ _ _ = _
          unfold put
          rw [if_neg (Ne.symm h)]

theorem Frame.blockAt (q : Ptr) : Frame x (blockAt q) := by
  cases q with
  | none => exact .ub _
  | some y =>
    intro p hp
    unfold MemPtr.blockAt
    simp only
    rw [show (without x p).heap.blocks y = put p.heap.blocks x none y from rfl]
    rcases put_none_at (f := p.heap.blocks) (x := x) y with h | ⟨h, h'⟩
    · rw [h]; exact .inl rfl
    · rw [h']
      cases p.heap.blocks y with
      | none => exact .inl rfl
      | some c => exact ⟨_, rfl, rfl, rfl, hp⟩

theorem Frame.setBlock (q : Ptr) (b : Block) : Frame x (setBlock q b) := by
  cases q with
  | none => exact .ub _
  | some y =>
    intro p hp
    unfold MemPtr.setBlock
    simp only
    rw [show (without x p).heap.blocks y = put p.heap.blocks x none y from rfl]
    rcases put_none_at (f := p.heap.blocks) (x := x) y with h | ⟨h, h'⟩
    · rw [h]; exact .inl rfl
    · rw [h']
      cases p.heap.blocks y with
      | none => exact .inl rfl
      | some c =>
        refine ⟨_, rfl, ?_, ?_, hp⟩
        · unfold without
          simp only
          rw [put_swap h]
        · show put _ _ _ _ = _
          unfold put
          rw [if_neg (Ne.symm h)]

theorem Frame.countHit : Frame x countHit := by
  intro p hp
  unfold MemPtr.countHit
  show FrameO x _ _ (if p.hits + 1 ≥ 2 ^ 31 then _ else _)
  split
  · exact .inr rfl
  · exact ⟨_, rfl, rfl, rfl, hp⟩

theorem Frame.wasHit : Frame x wasWatchpointEncountered := fun _ hp => ⟨_, rfl, rfl, rfl, hp⟩

/-- One step towards `Frame`. -/
macro "frame1" : tactic => `(tactic| with_reducible first
  | assumption
  | exact Frame.pure _ | exact Frame.ub _ | exact Frame.throw _ | exact Frame.rethrow _ | exact Frame.malloc _ | exact Frame.free _
  | exact Frame.blockAt _ | exact Frame.setBlock _ _ | exact Frame.countHit
  | (refine Frame.modify ?_ ?_ <;> (with_unfolding_all exact fun _ => rfl))
  | (refine Frame.get ?_ ?_; (with_unfolding_all exact fun _ => rfl); intro _)
  | refine Frame.bind ?_ (fun _ => ?_) | refine Frame.tryCatch ?_ (fun _ => ?_)
  | split)

theorem Frame.nodeAt (q : Ptr) : Frame x (nodeAt q) := by unfold MemPtr.nodeAt; repeat' frame1
theorem Frame.setNode (q : Ptr) (f : Node → Node) : Frame x (setNode q f) := .bind (.nodeAt q) fun _ => .setBlock _ _
theorem Frame.watchAt (q : Ptr) : Frame x (watchAt q) := by unfold MemPtr.watchAt; repeat' frame1
theorem Frame.countsAt (q : Ptr) : Frame x (countsAt q) := by unfold MemPtr.countsAt; repeat' frame1
theorem Frame.bytesAt (q : Ptr) : Frame x (bytesAt q) := by unfold MemPtr.bytesAt; repeat' frame1
theorem Frame.zmalloc (b : Block) : Frame x (throwingZeroedMalloc b) := by unfold throwingZeroedMalloc; repeat' frame1

/-- One step towards `Frame`, with more functions. -/
macro "frame2" : tactic => `(tactic| with_reducible first
  | exact Frame.nodeAt _ | exact Frame.setNode _ _ | exact Frame.watchAt _ | exact Frame.countsAt _ | exact Frame.bytesAt _
  | exact Frame.zmalloc _ | frame1)

theorem Frame.freeRegion (q : Ptr) : Frame x (freeRegion q) := by unfold MemPtr.freeRegion; repeat' frame2

theorem Frame.uninitLoop (fuel : Nat) (q : Ptr) : Frame x (uninitLoop fuel q) := by
  induction fuel generalizing q with
  | zero => cases q <;> unfold MemPtr.uninitLoop <;> repeat' frame2
  | succ f ih =>
    cases q with
    | none => unfold MemPtr.uninitLoop; frame2
    | some y => unfold MemPtr.uninitLoop; exact .bind (.nodeAt _) fun _ => .bind (.freeRegion _) fun _ => ih _

theorem Frame.uninit : Frame x uninit := by
  unfold MemPtr.uninit
  refine .get (fun _ => rfl) fun _ => .bind (.uninitLoop _ _) fun _ => ?_
  repeat' frame2

theorem Frame.addRegionToTail (q : Ptr) : Frame x (addRegionToTail q) := by unfold MemPtr.addRegionToTail; repeat' frame2

theorem Frame.createRegion (a n : U32) : Frame x (createRegion a n) := by
  unfold MemPtr.createRegion
  refine .bind (.zmalloc _) fun _ => .tryCatch ?_ fun _ => .bind (.freeRegion _) fun _ => .rethrow _
  repeat' with_reducible first | exact Frame.addRegionToTail _ | frame2

theorem Frame.findLoop (fuel : Nat) (q : Ptr) (a : U32) (n : Nat) : Frame x (findLoop fuel q a n) := by
  induction fuel generalizing q with
  | zero => cases q <;> unfold MemPtr.findLoop <;> repeat' frame2
  | succ f ih =>
    cases q with
    | none => unfold MemPtr.findLoop; frame2
    | some y => unfold MemPtr.findLoop; repeat' with_reducible first | exact ih _ | frame2

theorem Frame.find (a : U32) (n : Nat) : Frame x (findMatchingRegion a n) := .get (fun _ => rfl) fun _ => .findLoop _ _ _ _

theorem Frame.createAlias (a r n : U32) : Frame x (createAlias a r n) := by
  unfold MemPtr.createAlias
  refine .bind (.zmalloc _) fun _ => .tryCatch ?_ fun _ => .bind (.freeRegion _) fun _ => .rethrow _
  repeat' with_reducible first | exact Frame.addRegionToTail _ | exact Frame.find _ _ | frame2

theorem Frame.makeReadOnly (a : U32) : Frame x (makeRegionReadOnly a) := by
  unfold makeRegionReadOnly
  repeat' with_reducible first | exact Frame.find _ _ | frame2

theorem Frame.watchEntry (q : Ptr) (i : Nat) : Frame x (watchEntry q i) := by unfold MemPtr.watchEntry; repeat' frame2

theorem Frame.checkLoop (q : Ptr) (left i : Nat) (a b : U32) (n : Nat) (t : U32) : Frame x (checkLoop q left i a b n t) := by
  induction left generalizing i with
  | zero => exact .pure _
  | succ l ih =>
    unfold MemPtr.checkLoop
    refine .bind (.watchEntry _ _) fun _ => ?_
    repeat' with_reducible first | exact ih _ | frame2

theorem Frame.bumpCount (q : Ptr) (i : Nat) : Frame x (bumpCount q i) := by unfold MemPtr.bumpCount; repeat' frame2

theorem Frame.getDataPointer (a : U32) (n : Nat) (t : U32) (c : Bool) : Frame x (getDataPointer a n t c) := by
  unfold MemPtr.getDataPointer countRead checkForBreakWatchPoint
  repeat' with_reducible first | exact Frame.find _ _ | exact Frame.bumpCount _ _ | exact Frame.checkLoop _ _ _ _ _ _ _ | frame2

theorem Frame.hostRead (q : Ptr × Nat) (n : Nat) : Frame x (hostRead q n) := by unfold MemPtr.hostRead; repeat' frame2
theorem Frame.hostWrite (q : Ptr × Nat) (bs : List U8) : Frame x (hostWrite q bs) := by unfold MemPtr.hostWrite; repeat' frame2

theorem Frame.readN (n : Nat) (a : U32) : Frame x (readN n a) := .bind (.getDataPointer _ _ _ _) fun _ => .bind (.hostRead _ _) fun _ => .pure _
theorem Frame.writeN (n : Nat) (a : U32) (v : Nat) : Frame x (writeN n a v) := .bind (.getDataPointer _ _ _ _) fun _ => .hostWrite _ _
theorem Frame.loadN (a : U32) (bs : List U8) : Frame x (loadN a bs) := .bind (.getDataPointer _ _ _ _) fun _ => .hostWrite _ _

theorem Frame.loadBytes (n : Nat) (a : U32) (src : List U8) : Frame x (loadBytes n a src) := by
  induction n generalizing a src with
  | zero => exact .pure _
  | succ n ih =>
    cases src with
    | nil => exact .ub _
    | cons b src => exact .bind (.loadN _ _) fun _ => ih _ _

theorem Frame.loadWords (src : List U8) (n : Nat) (a : U32) : Frame x (loadWords src n a) := by
  fun_induction MemPtr.loadWords src n a with
  | case1 b0 b1 b2 b3 rest n a h ih => exact .bind (.loadN _ _) fun _ => ih
  | case2 => exact .loadBytes _ _ _
  | case3 => exact .ub _
  | case4 => exact .loadBytes _ _ _

theorem Frame.lastLoop (fuel : Nat) (q r : Ptr) : Frame x (lastLoop fuel q r) := by
  induction fuel generalizing q r with
  | zero => cases r <;> unfold MemPtr.lastLoop <;> repeat' frame2
  | succ f ih =>
    cases r with
    | none => unfold MemPtr.lastLoop; frame2
    | some y => unfold MemPtr.lastLoop; repeat' with_reducible first | exact ih _ _ | frame2

theorem Frame.freeLast : Frame x freeLastRegion := by
  unfold freeLastRegion
  repeat' with_reducible first | exact Frame.lastLoop _ _ _ | exact Frame.freeRegion _ | frame2

theorem Frame.flashImage (img : List U8) (n : U32) : Frame x (createRegionsFromFlashImage img n) := by
  unfold createRegionsFromFlashImage loadFromFlashImage
  repeat' with_reducible first | exact Frame.createRegion _ _ | exact Frame.loadWords _ _ _ | exact Frame.makeReadOnly _ | exact Frame.freeLast | frame2

theorem Frame.countLoop (fuel : Nat) (q : Ptr) : Frame x (countLoop fuel q) := by
  induction fuel generalizing q with
  | zero => cases q <;> unfold MemPtr.countLoop <;> repeat' frame2
  | succ f ih =>
    cases q with
    | none => unfold MemPtr.countLoop; frame2
    | some y => unfold MemPtr.countLoop; repeat' with_reducible first | exact ih _ | frame2

theorem Frame.appendLoop (fuel : Nat) (q : Ptr) (t : Str) (n : Nat) : Frame x (appendLoop fuel q t n) := by
  induction fuel generalizing q t n with
  | zero => cases q <;> unfold MemPtr.appendLoop <;> repeat' frame2
  | succ f ih =>
    cases q with
    | none => unfold MemPtr.appendLoop; frame2
    | some y =>
      unfold MemPtr.appendLoop
      refine .bind (.nodeAt _) fun _ => ?_
      simp only []
      repeat' with_reducible first | exact ih _ _ _ | frame2

theorem Frame.realloc (q : Ptr) (b : Block) : Frame x (realloc q b) := by unfold MemPtr.realloc; repeat' frame2

theorem Frame.memoryMap : Frame x getMemoryMapXML := by
  unfold getMemoryMapXML
  repeat' with_reducible first | exact Frame.countLoop _ _ | exact Frame.appendLoop _ _ _ _ | exact Frame.realloc _ _ | frame2

theorem Frame.readCount (a : U32) : Frame x (getFlashReadCount a) := by
  unfold getFlashReadCount
  repeat' with_reducible first | exact Frame.find _ _ | frame2

theorem Frame.findWatchLoop (q : Ptr) (w : Watchpoint) (left i : Nat) : Frame x (findWatchLoop q w left i) := by
  induction left generalizing i with
  | zero => exact .pure _
  | succ l ih =>
    unfold MemPtr.findWatchLoop
    refine .bind (.watchEntry _ _) fun _ => ?_
    repeat' with_reducible first | exact ih _ | frame2

theorem Frame.memmove (q : Ptr) (d s n : Nat) : Frame x (memmove q d s n) := by unfold MemPtr.memmove; repeat' frame2
theorem Frame.setEntry (q : Ptr) (i : Nat) (w : Watchpoint) : Frame x (setEntry q i w) := by unfold MemPtr.setEntry; repeat' frame2

theorem Frame.grow (q : Ptr) (n : Nat) : Frame x (growWatchpointArrayIfNeeded q n) := by
  unfold growWatchpointArrayIfNeeded
  repeat' with_reducible first | exact Frame.realloc _ _ | frame2

theorem Frame.setWatch (a n t : U32) : Frame x (setWatchpoint a n t) := by
  unfold MemPtr.setWatchpoint
  repeat' with_reducible first | exact Frame.find _ _ | exact Frame.findWatchLoop _ _ _ _ | exact Frame.grow _ _ | exact Frame.memmove _ _ _ _ | exact Frame.setEntry _ _ _ | frame2

theorem Frame.clearWatch (a n t : U32) : Frame x (clearWatchpoint a n t) := by
  unfold MemPtr.clearWatchpoint
  repeat' with_reducible first | exact Frame.find _ _ | exact Frame.findWatchLoop _ _ _ _ | exact Frame.memmove _ _ _ _ | frame2

/-- Whatever is done with the simulator. -/
theorem Frame.act (c : Act) : Frame x c.onPointers := by
  have done : ∀ {m : M PSim Unit}, Frame x m → Frame x (do m; Pure.pure Ans.done) := fun h => .bind h fun _ => .pure _
  cases c with
  | call c =>
    cases c with
    | createRegion b n => exact done (.createRegion _ _)
    | createAlias a r n => exact done (.createAlias _ _ _)
    | makeReadOnly b => exact done (.makeReadOnly _)
    | load b img n => exact done (.loadWords _ _ _)
    | flashImage img n => exact done (.flashImage _ _)
    | read w a => exact .bind (.readN _ _) fun _ => .pure _
    | write w a v => exact done (.writeN _ _ _)
    | memoryMap => exact .bind .memoryMap fun _ => .pure _
    | mapForWrite a n => exact .bind (.getDataPointer _ _ _ _) fun _ => .pure _
    | mapForRead a n => exact .bind (.getDataPointer _ _ _ _) fun _ => .pure _
    | readCount a => exact .bind (.readCount _) fun _ => .pure _
    | setBreakpoint a n => exact done (.setWatch _ _ _)
    | clearBreakpoint a n => exact done (.clearWatch _ _ _)
    | setWatchpoint a n t => exact done (.setWatch _ _ _)
    | clearWatchpoint a n t => exact done (.clearWatch _ _ _)
    | wasHit => exact .bind .wasHit fun _ => .pure _
    | uninit => exact done .uninit
  | peek a n => exact .bind (.getDataPointer _ _ _ _) fun _ => .bind (.hostRead _ _) fun _ => .pure _
  | poke a n bs => exact .bind (.getDataPointer _ _ _ _) fun _ => .bind (.hostWrite _ _) fun _ => .pure _

end Verif.MemPtr
