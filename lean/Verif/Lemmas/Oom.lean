import Verif.Lemmas.Raw
import Verif.Spec.Alloc
import Verif.Spec.History
import Verif.Spec.CommandLine
/- Failing allocations are reported, and nothing else is reported as one. -/
namespace Verif
open Verif MemSim Spec

/-- Allocations have been made between `h` and `h'`. -/
structure Later (h h' : Heap) : Prop where
  fails : h'.fails = h.fails
  next : h.next ≤ h'.next

/-- `ReportsFailures`, with what is needed for sequencing. -/
def Rep1 (heap : σ → Heap) (h : Heap) : Out σ α → Prop
  | .ok _ s' => Later h (heap s') ∧ ¬ SomeFailed h (heap s')
  | .throw e s' => Later h (heap s') ∧ (e.code = .outOfMemory ↔ SomeFailed h (heap s'))
  | .ub _ => True

/-- The same for all states. -/
structure Rep (heap : σ → Heap) (m : M σ α) : Prop where
  all : ∀ s, Rep1 heap (heap s) (m s)

theorem Rep.reports {heap : σ → Heap} {m : M σ α} (h : Rep heap m) (s : σ) : ReportsFailures heap (heap s) (m s) := by
  have := h.all s
  revert this
  cases m s <;> simp only [Rep1, ReportsFailures]
  · exact fun h => h.2
  · exact fun h => h.2
  · exact id

theorem Later.refl (h : Heap) : Later h h := ⟨rfl, Nat.le_refl _⟩
theorem someFailed_self (h : Heap) : ¬ SomeFailed h h := fun ⟨k, h1, h2, _⟩ => by omega

theorem later_trans {a b c : Heap} (h : Later a b) (h' : Later b c) : Later a c := ⟨h'.fails.trans h.fails, Nat.le_trans h.next h'.next⟩

theorem someFailed_trans {a b c : Heap} (h : Later a b) (h' : Later b c) : SomeFailed a c ↔ SomeFailed a b ∨ SomeFailed b c := by
  constructor
  · rintro ⟨k, h1, h2, h3⟩
    by_cases hk : k < b.next
    · exact .inl ⟨k, h1, hk, h3⟩
    · exact .inr ⟨k, by omega, h2, by rw [h.fails]; exact h3⟩
  · rintro (⟨k, h1, h2, h3⟩ | ⟨k, h1, h2, h3⟩)
    · exact ⟨k, h1, Nat.lt_of_lt_of_le h2 h'.next, h3⟩
    · exact ⟨k, Nat.le_trans h.next h1, h2, by rw [← h.fails]; exact h3⟩

theorem Rep.bind {heap : σ → Heap} {m : M σ α} {f : α → M σ β} (hm : Rep heap m) (hf : ∀ a, Rep heap (f a)) : Rep heap (m >>= f) := by
  refine ⟨fun s => ?_⟩
  have h1 := hm.all s
  rw [M.bind_apply]
  cases h : m s with
  | throw e s' => rw [h] at h1; exact h1
  | ub r => trivial
  | ok a s' =>
    rw [h] at h1
    obtain ⟨l1, n1⟩ := h1
    have h2 := (hf a).all s'
    dsimp only
    cases h' : f a s' with
    | throw e s2 => rw [h'] at h2; obtain ⟨l2, n2⟩ := h2; exact ⟨later_trans l1 l2, by rw [n2, someFailed_trans l1 l2]; simp [n1]⟩
    | ub r => trivial
    | ok b s2 => rw [h'] at h2; obtain ⟨l2, n2⟩ := h2; exact ⟨later_trans l1 l2, by rw [someFailed_trans l1 l2]; simp [n1, n2]⟩

/-- The code does not touch the heap's allocations and raises no out-of-memory exception. -/
structure Neutral (heap : σ → Heap) (m : M σ α) : Prop where
  all : ∀ s, match m s with
    | .ok _ s' => (heap s').fails = (heap s).fails ∧ (heap s').next = (heap s).next
    | .throw e s' => e.code ≠ .outOfMemory ∧ (heap s').fails = (heap s).fails ∧ (heap s').next = (heap s).next
    | .ub _ => True

theorem not_someFailed {h h' : Heap} (h2 : h'.next = h.next) : ¬ SomeFailed h h' :=
  fun ⟨k, a, b, _⟩ => by omega

theorem Neutral.rep {heap : σ → Heap} {m : M σ α} (h : Neutral heap m) : Rep heap m := by
  refine ⟨fun s => ?_⟩
  have h1 := h.all s
  cases hm : m s with
  | ok a s' => rw [hm] at h1; exact ⟨⟨h1.1, Nat.le_of_eq h1.2.symm⟩, not_someFailed h1.2⟩
  | throw e s' => rw [hm] at h1; exact ⟨⟨h1.2.1, Nat.le_of_eq h1.2.2.symm⟩, ⟨fun h => absurd h h1.1, fun h => absurd h (not_someFailed h1.2.2)⟩⟩
  | ub r => trivial

theorem Neutral.bind {heap : σ → Heap} {m : M σ α} {f : α → M σ β} (hm : Neutral heap m) (hf : ∀ a, Neutral heap (f a)) :
    Neutral heap (m >>= f) := by
  refine ⟨fun s => ?_⟩
  have h1 := hm.all s
  rw [M.bind_apply]
  cases h : m s with
  | throw e s' => rw [h] at h1; exact h1
  | ub r => trivial
  | ok a s' =>
    rw [h] at h1
    have h2 := (hf a).all s'
    dsimp only
    cases h' : f a s' with
    | throw e s2 => rw [h'] at h2; exact ⟨h2.1, h2.2.1.trans h1.1, h2.2.2.trans h1.2⟩
    | ub r => trivial
    | ok b s2 => rw [h'] at h2; exact ⟨h2.1.trans h1.1, h2.2.trans h1.2⟩

theorem Neutral.pure (heap : σ → Heap) (a : α) : Neutral heap (Pure.pure a : M σ α) := ⟨fun _ => ⟨rfl, rfl⟩⟩
theorem Neutral.ub (heap : σ → Heap) (r : UB) : Neutral heap (M.ub r : M σ α) := ⟨fun _ => trivial⟩
theorem Neutral.throw (heap : σ → Heap) {c : Exc} {t : Str} (h : c ≠ .outOfMemory) : Neutral heap (M.throw c t : M σ α) :=
  ⟨fun _ => ⟨h, rfl, rfl⟩⟩
theorem Neutral.get (heap : σ → Heap) : Neutral heap (M.get : M σ σ) := ⟨fun _ => ⟨rfl, rfl⟩⟩
theorem Neutral.modify (heap : σ → Heap) {f : σ → σ} (h : ∀ s, (heap (f s)).fails = (heap s).fails ∧ (heap (f s)).next = (heap s).next) :
    Neutral heap (M.modify f) := ⟨h⟩

theorem Neutral.zoom {heap : σ → Heap} {heap' : τ → Heap} {p : τ → σ} {q : σ → τ → τ} {m : M σ α}
    (h1 : ∀ t, heap' t = heap (p t)) (h2 : ∀ s t, heap' (q s t) = heap s) (h : Neutral heap m) : Neutral heap' (M.zoom p q m) := by
  refine ⟨fun t => ?_⟩
  have := h.all (p t)
  rw [M.zoom_apply]
  cases hm : m (p t) <;> rw [hm] at this <;> dsimp only <;> (try rw [h2, h1 t]) <;> exact this

theorem Rep.zoom {heap : σ → Heap} {heap' : τ → Heap} {p : τ → σ} {q : σ → τ → τ} {m : M σ α}
    (h1 : ∀ t, heap' t = heap (p t)) (h2 : ∀ s t, heap' (q s t) = heap s) (h : Rep heap m) : Rep heap' (M.zoom p q m) := by
  refine ⟨fun t => ?_⟩
  have := h.all (p t)
  rw [M.zoom_apply]
  cases hm : m (p t) <;> rw [hm] at this <;> simp only [Rep1] <;> (try rw [h2, h1 t]) <;> exact this

/-- The handler passes the exception on, perhaps with another message. -/
structure Passes (heap : σ → Heap) (hd : Exn → M σ α) : Prop where
  all : ∀ e s, match hd e s with
    | .ok _ _ => False
    | .throw e' s' => e'.code = e.code ∧ (heap s').fails = (heap s).fails ∧ (heap s').next = (heap s).next
    | .ub _ => True

theorem Rep.catch {heap : σ → Heap} {m : M σ α} {hd : Exn → M σ α} (hm : Rep heap m) (hh : Passes heap hd) : Rep heap (M.tryCatch m hd) := by
  refine ⟨fun s => ?_⟩
  have h1 := hm.all s
  rw [M.tryCatch_apply]
  cases h : m s with
  | ok a s' => rw [h] at h1; exact h1
  | ub r => trivial
  | throw e s' =>
    rw [h] at h1
    obtain ⟨l1, n1⟩ := h1
    have h2 := hh.all e s'
    dsimp only
    cases h' : hd e s' with
    | ok b s2 => rw [h'] at h2; exact h2.elim
    | ub r => trivial
    | throw e2 s2 =>
      rw [h'] at h2
      obtain ⟨c, f, n⟩ := h2
      have e1 : SomeFailed (heap s) (heap s2) ↔ SomeFailed (heap s) (heap s') := by
        unfold SomeFailed; rw [n]
      exact ⟨⟨f.trans l1.fails, by rw [n]; exact l1.next⟩, by rw [c, e1]; exact n1⟩

theorem Passes.rethrow (heap : σ → Heap) : Passes heap (fun e => (M.rethrow e : M σ α)) := ⟨fun _ _ => ⟨rfl, rfl, rfl⟩⟩
theorem Passes.throw (heap : σ → Heap) (t : Str) : Passes heap (fun e => (M.throw e.code t : M σ α)) := ⟨fun _ _ => ⟨rfl, rfl, rfl⟩⟩

namespace MemSim

/-- Where the simulator's heap is. -/
abbrev hp : Sim → Heap := Sim.heap

theorem neutral_find (a : U32) (n : Nat) : Neutral hp (findMatchingRegion a n) := by
  refine ⟨fun s => ?_⟩
  unfold findMatchingRegion
  cases findFrom 0 s.regions a n with
  | none => exact ⟨by simp, rfl, rfl⟩
  | some p =>
    obtain ⟨i, r⟩ := p
    dsimp only
    by_cases hr : r.isAlias
    · rw [if_pos hr]
      cases r.redirect <;> first | trivial | exact ⟨rfl, rfl⟩
    · rw [if_neg hr]; exact ⟨rfl, rfl⟩

theorem neutral_regionAt (i : Nat) : Neutral hp (regionAt i) := by
  refine ⟨fun s => ?_⟩
  unfold regionAt
  cases s.regions[i]? <;> first | trivial | exact ⟨rfl, rfl⟩

theorem neutral_setRegion (i : Nat) (r : Region) : Neutral hp (setRegion i r) := Neutral.modify hp fun _ => ⟨rfl, rfl⟩
theorem neutral_addRegion (r : Region) : Neutral hp (addRegionToTail r) := Neutral.modify hp fun _ => ⟨rfl, rfl⟩

theorem neutral_count (i : Nat) (r : Region) (o n : Nat) (t : U32) : Neutral hp (countRead i r o n t) := by
  unfold countRead
  split
  · cases r.readCounts with
    | none => exact Neutral.pure ..
    | some cs =>
      dsimp only
      cases cs[o / 2]? with
      | none => exact Neutral.ub ..
      | some c => exact neutral_setRegion ..
  · exact Neutral.pure ..

theorem neutral_check (r : Region) (a : U32) (n : Nat) (t : U32) : Neutral hp (checkForBreakWatchPoint r a n t) := by
  refine ⟨fun s => ?_⟩
  unfold checkForBreakWatchPoint
  generalize scanWatch r.watch a (a + BitVec.ofNat 32 n) n t = p
  obtain ⟨k, b⟩ := p
  dsimp only
  by_cases hk : s.hits + k ≥ 2 ^ 31
  · rw [if_pos hk]; trivial
  · rw [if_neg hk]
    cases b
    · exact ⟨rfl, rfl⟩
    · exact ⟨by simp, rfl, rfl⟩

theorem neutral_pointer (a : U32) (n : Nat) (t : U32) (c : Bool) : Neutral hp (getDataPointer a n t c) := by
  unfold getDataPointer
  refine (neutral_find a n).bind fun p => ?_
  refine (neutral_regionAt _).bind fun r => ?_
  dsimp only
  split
  · exact Neutral.throw _ (by simp)
  · refine (neutral_count ..).bind fun _ => ?_
    split
    · exact (neutral_check ..).bind fun _ => Neutral.pure ..
    · exact Neutral.pure ..

theorem neutral_hostRead (p : Nat × Nat) (n : Nat) : Neutral hp (hostRead p n) := by
  unfold hostRead
  refine (neutral_regionAt _).bind fun r => ?_
  split
  · exact Neutral.pure ..
  · exact Neutral.ub ..

theorem neutral_hostWrite (p : Nat × Nat) (bs : List U8) : Neutral hp (hostWrite p bs) := by
  unfold hostWrite
  refine (neutral_regionAt _).bind fun r => ?_
  split
  · exact neutral_setRegion ..
  · exact Neutral.ub ..

theorem neutral_read (w : Width) (a : U32) : Neutral hp (IMemory.read w a) := by
  cases w <;> exact Neutral.bind (Neutral.bind (neutral_pointer ..) fun _ => Neutral.bind (neutral_hostRead ..) fun _ => Neutral.pure ..)
    fun _ => Neutral.pure ..

theorem neutral_write (w : Width) (a : U32) (v : BitVec w.bits) : Neutral hp (IMemory.write w a v) := by
  cases w <;> exact Neutral.bind (neutral_pointer ..) fun _ => neutral_hostWrite ..

theorem neutral_loadN (a : U32) (bs : List U8) : Neutral hp (loadN a bs) :=
  Neutral.bind (neutral_pointer ..) fun _ => neutral_hostWrite ..

theorem neutral_loadBytes (n : Nat) : ∀ (a : U32) (src : List U8), Neutral hp (loadBytes n a src) := by
  induction n with
  | zero => intro a src; cases src <;> exact Neutral.pure ..
  | succ n ih =>
    intro a src
    cases src with
    | nil => exact Neutral.ub ..
    | cons b t => exact (neutral_loadN ..).bind fun _ => ih ..

theorem neutral_loadWords (src : List U8) (n : Nat) (a : U32) : Neutral hp (loadWords src n a) := by
  fun_induction loadWords src n a with
  | case1 => exact Neutral.bind (neutral_loadN ..) fun _ => by assumption
  | case2 => exact neutral_loadBytes ..
  | case3 => exact Neutral.ub ..
  | case4 => exact neutral_loadBytes ..

theorem neutral_load (b : U32) (img : List U8) (n : U32) : Neutral hp (loadFromFlashImage b img n) := neutral_loadWords ..

theorem neutral_freeLast : Neutral hp freeLastRegion := by
  refine ⟨fun s => ?_⟩
  unfold freeLastRegion
  cases s.regions.getLast? <;> exact ⟨rfl, rfl⟩

/-- One allocation. -/
theorem malloc_cases (s : Sim) : (malloc s = .ok false { s with heap := { s.heap with next := s.heap.next + 1 } } ∧ s.heap.fails s.heap.next = true) ∨
    (∃ k, malloc s = .ok true { s with heap := { s.heap with next := s.heap.next + 1, live := k } } ∧ s.heap.fails s.heap.next = false) := by
  unfold malloc
  cases h : s.heap.fails s.heap.next
  · exact .inr ⟨_, by simp; rfl⟩
  · exact .inl ⟨by simp, rfl⟩

theorem realloc_cases (b : Bool) (s : Sim) : (realloc b s = .ok false { s with heap := { s.heap with next := s.heap.next + 1 } } ∧ s.heap.fails s.heap.next = true) ∨
    (∃ k, realloc b s = .ok true { s with heap := { s.heap with next := s.heap.next + 1, live := k } } ∧ s.heap.fails s.heap.next = false) := by
  unfold realloc
  cases h : s.heap.fails s.heap.next
  · exact .inr ⟨_, by simp; rfl⟩
  · exact .inl ⟨by simp, rfl⟩

theorem one_failed {h : Heap} {k : Int} : SomeFailed h { h with next := h.next + 1, live := k } ↔ h.fails h.next = true := by
  constructor
  · rintro ⟨j, h1, h2, h3⟩
    have : j = h.next := by simp only at h2; omega
    rwa [this] at h3
  · exact fun h' => ⟨_, Nat.le_refl _, Nat.lt_succ_self _, h'⟩

theorem rep_tzm : Rep hp throwingZeroedMalloc := by
  refine ⟨fun s => ?_⟩
  unfold throwingZeroedMalloc
  rw [M.bind_apply]
  rcases malloc_cases s with ⟨h, hf⟩ | ⟨k, h, hf⟩ <;> rw [h]
  · exact ⟨⟨rfl, Nat.le_succ _⟩, ⟨fun _ => one_failed.2 hf, fun _ => rfl⟩⟩
  · exact ⟨⟨rfl, Nat.le_succ _⟩, fun h => by rw [one_failed.1 h] at hf; cases hf⟩

theorem passes_free (n : Nat) : Passes hp (fun e => (do free n; M.rethrow e : M Sim α)) := ⟨fun _ _ => ⟨rfl, rfl, rfl⟩⟩

theorem rep_createRegion (b n : U32) : Rep hp (createRegion b n) :=
  rep_tzm.bind fun _ => (Rep.catch rep_tzm (passes_free 1)).bind fun _ => (neutral_addRegion _).rep

theorem rep_createAlias (a r n : U32) : Rep hp (createAlias a r n) :=
  rep_tzm.bind fun _ => Rep.catch
    ((neutral_find ..).rep.bind fun _ => (neutral_regionAt _).rep.bind fun _ => rep_tzm.bind fun _ => (neutral_addRegion _).rep)
    (passes_free 1)

theorem rep_makeReadOnly (b : U32) : Rep hp (makeRegionReadOnly b) :=
  (neutral_find ..).rep.bind fun _ => (neutral_regionAt _).rep.bind fun _ => (neutral_setRegion ..).rep.bind fun _ =>
    rep_tzm.bind fun _ => (neutral_setRegion ..).rep

theorem passes_freeLast : Passes hp (fun e => (do freeLastRegion; M.rethrow e : M Sim α)) := by
  refine ⟨fun e s => ?_⟩
  simp only [M.bind_apply, freeLastRegion]
  cases s.regions.getLast? <;> exact ⟨rfl, rfl, rfl⟩

theorem rep_flash (img : List U8) (n : U32) : Rep hp (createRegionsFromFlashImage img n) := by
  unfold createRegionsFromFlashImage
  split
  · exact (Neutral.throw _ (by simp)).rep
  · refine (rep_createRegion ..).bind fun _ => (neutral_load ..).rep.bind fun _ => Rep.catch ?_ passes_freeLast
    refine (rep_makeReadOnly _).bind fun _ => ?_
    split
    · exact (Neutral.ub ..).rep
    · exact rep_createRegion ..

theorem rep_xml : Rep hp getMemoryMapXML := by
  refine ⟨fun s => ?_⟩
  unfold getMemoryMapXML
  rw [M.bind_apply, M.get_apply]
  dsimp only
  rw [M.bind_apply]
  rcases realloc_cases s.xml.isNone s with ⟨h, hf⟩ | ⟨k, h, hf⟩ <;> rw [h]
  · exact ⟨⟨rfl, Nat.le_succ _⟩, ⟨fun _ => one_failed.2 hf, fun _ => rfl⟩⟩
  · simp only [if_true]
    generalize xmlHeader.length = x1
    generalize xmlTrailer.length = x2
    generalize xmlExampleLine.length = x3
    split
    · trivial
    · cases appendMemoryMapRegions s.regions xmlHeader (x1 + 1 + (x2 + 1) + s.regions.length * (x3 + 1) - x1) with
      | none => trivial
      | some p =>
        dsimp only
        split
        · trivial
        · exact ⟨⟨rfl, Nat.le_succ _⟩, fun h => by rw [one_failed.1 h] at hf; cases hf⟩

theorem rep_setWatch (a n t : U32) : Rep hp (setWatchpoint a n t) := by
  unfold setWatchpoint
  refine (neutral_find ..).rep.bind fun p => (neutral_regionAt _).rep.bind fun r => ?_
  dsimp only
  split
  · exact (Neutral.pure ..).rep
  · split
    · refine ⟨fun s => ?_⟩
      rw [M.bind_apply]
      rcases realloc_cases (decide (r.watchAlloc = 0)) s with ⟨h, hf⟩ | ⟨k, h, hf⟩ <;> rw [h]
      · exact ⟨⟨rfl, Nat.le_succ _⟩, ⟨fun _ => one_failed.2 hf, fun _ => rfl⟩⟩
      · exact ⟨⟨rfl, Nat.le_succ _⟩, fun h => by rw [one_failed.1 h] at hf; cases hf⟩
    · exact (neutral_setRegion ..).rep

theorem neutral_clearWatch (a n t : U32) : Neutral hp (clearWatchpoint a n t) := by
  unfold clearWatchpoint
  refine (neutral_find ..).bind fun p => (neutral_regionAt _).bind fun r => ?_
  dsimp only
  split
  · exact neutral_setRegion ..
  · exact Neutral.pure ..

theorem neutral_readCount (a : U32) : Neutral hp (getFlashReadCount a) := by
  unfold getFlashReadCount
  refine (neutral_find ..).bind fun p => (neutral_regionAt _).bind fun r => ?_
  dsimp only
  split
  · exact Neutral.throw _ (by simp)
  · cases r.readCounts with
    | none => exact Neutral.ub ..
    | some cs =>
      dsimp only
      split
      · exact Neutral.pure ..
      · exact Neutral.ub ..

theorem rep_call (c : Call) : Rep hp c.run := by
  cases c <;> simp only [Call.run]
  case createRegion => exact rep_createRegion ..
  case createAlias => exact rep_createAlias ..
  case makeReadOnly => exact rep_makeReadOnly ..
  case load => exact (neutral_load ..).rep
  case flashImage => exact rep_flash ..
  case read => exact ((neutral_read ..).bind fun _ => Neutral.pure ..).rep
  case write => exact (neutral_write ..).rep
  case memoryMap => exact rep_xml.bind fun _ => (Neutral.pure ..).rep
  case mapForWrite => exact ((neutral_pointer ..).bind fun _ => Neutral.pure ..).rep
  case mapForRead => exact ((neutral_pointer ..).bind fun _ => Neutral.pure ..).rep
  case readCount => exact ((neutral_readCount ..).bind fun _ => Neutral.pure ..).rep
  case setBreakpoint => exact rep_setWatch ..
  case clearBreakpoint => exact (neutral_clearWatch ..).rep
  case setWatchpoint => exact rep_setWatch ..
  case clearWatchpoint => exact (neutral_clearWatch ..).rep
  case wasHit => exact ⟨fun s => ⟨Later.refl _, someFailed_self _⟩⟩
  case uninit => exact ⟨fun s => ⟨⟨rfl, Nat.le_refl _⟩, not_someFailed rfl⟩⟩

end MemSim
end Verif
