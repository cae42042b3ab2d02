import Verif.Spec.Again
import Verif.Lemmas.OnlyNamed
/- Start-up does the same in two processes that differ only in their past. -/
namespace Verif.Again
open Verif MemSim Spec Libc Elf CommandLine

/-- Outcomes that agree, with states related by `R`. -/
def ORel (R : σ → σ → Prop) : Out σ α → Out σ α → Prop
  | .ok a s, .ok a' s' => a' = a ∧ R s s'
  | .throw e s, .throw e' s' => e' = e ∧ R s s'
  | .ub r, .ub r' => r' = r
  | _, _ => False

theorem ORel.split {R : σ → σ → Prop} {o o' : Out σ α} (h : ORel R o o') :
    (∃ a s s', o = .ok a s ∧ o' = .ok a s' ∧ R s s') ∨ (∃ e s s', o = .throw e s ∧ o' = .throw e s' ∧ R s s') ∨ ∃ r, o = .ub r ∧ o' = .ub r := by
  cases o <;> cases o'
  · obtain ⟨rfl, h⟩ := h; exact .inl ⟨_, _, _, rfl, rfl, h⟩
  · exact h.elim
  · exact h.elim
  · exact h.elim
  · obtain ⟨rfl, h⟩ := h; exact .inr (.inl ⟨_, _, _, rfl, rfl, h⟩)
  · exact h.elim
  · exact h.elim
  · exact h.elim
  · cases h; exact .inr (.inr ⟨_, rfl, rfl⟩)

def Rel (R : σ → σ → Prop) (m : M σ α) : Prop := ∀ s s', R s s' → ORel R (m s) (m s')

variable {R : σ → σ → Prop}

theorem Rel.pure (a : α) : Rel R (Pure.pure a : M σ α) := fun _ _ h => ⟨rfl, h⟩
theorem Rel.throw (c : Exc) (m : Str) : Rel R (M.throw c m : M σ α) := fun _ _ h => ⟨rfl, h⟩
theorem Rel.throwMsg (c : Exc) (m : Str) : Rel R (M.throwMsg c m : M σ α) := fun _ _ h => ⟨rfl, h⟩
theorem Rel.rethrow (e : Exn) : Rel R (M.rethrow e : M σ α) := fun _ _ h => ⟨rfl, h⟩
theorem Rel.ub (r : UB) : Rel R (M.ub r : M σ α) := fun _ _ _ => rfl
theorem Rel.modify {f : σ → σ} (h : ∀ s s', R s s' → R (f s) (f s')) : Rel R (M.modify f) := fun s s' k => ⟨rfl, h s s' k⟩
theorem Rel.bind {m : M σ α} {k : α → M σ β} (hm : Rel R m) (hk : ∀ a, Rel R (k a)) : Rel R (m >>= k) := by
  intro s s' h
  have := hm s s' h
  rw [M.bind_apply, M.bind_apply]
  revert this
  cases m s <;> cases m s' <;> intro this
  · obtain ⟨rfl, h'⟩ := this; exact hk _ _ _ h'
  · exact this.elim
  · exact this.elim
  · exact this.elim
  · exact this
  · exact this.elim
  · exact this.elim
  · exact this.elim
  · exact this
theorem Rel.tryCatch {m : M σ α} {k : Exn → M σ α} (hm : Rel R m) (hk : ∀ e, Rel R (k e)) : Rel R (M.tryCatch m k) := by
  intro s s' h
  have := hm s s' h
  rw [M.tryCatch_apply, M.tryCatch_apply]
  revert this
  cases m s <;> cases m s' <;> intro this
  · exact this
  · exact this.elim
  · exact this.elim
  · exact this.elim
  · obtain ⟨rfl, h'⟩ := this; exact hk _ _ _ h'
  · exact this.elim
  · exact this.elim
  · exact this.elim
  · exact this
theorem Rel.ite {c : Prop} [Decidable c] {m m' : M σ α} (h : Rel R m) (h' : Rel R m') : Rel R (if c then m else m') := by
  split
  · exact h
  · exact h'
theorem Rel.get {m : σ → M σ α} (h1 : ∀ s s', R s s' → m s' = m s) (h2 : ∀ s, Rel R (m s)) : Rel R (M.get >>= m) := by
  intro s s' h
  rw [M.bind_apply, M.bind_apply, M.get_apply, M.get_apply]
  simp only [h1 s s' h]
  exact h2 s s s' h
theorem Rel.zoom {τ : Type} {T : τ → τ → Prop} {m : M σ α} {pr : τ → σ} {put : σ → τ → τ} (hm : Rel R m)
    (h1 : ∀ t t', T t t' → R (pr t) (pr t')) (h2 : ∀ t t' s s', T t t' → R s s' → T (put s t) (put s' t')) : Rel T (M.zoom pr put m) := by
  intro t t' h
  have := hm _ _ (h1 t t' h)
  rw [M.zoom_apply, M.zoom_apply]
  revert this
  cases m (pr t) <;> cases m (pr t') <;> intro this
  · exact ⟨this.1, h2 _ _ _ _ h this.2⟩
  · exact this.elim
  · exact this.elim
  · exact this.elim
  · exact ⟨this.1, h2 _ _ _ _ h this.2⟩
  · exact this.elim
  · exact this.elim
  · exact this.elim
  · exact this

/-! ### The relations -/

/-- The same number of allocations since `a` and since `a'`, and the same balance. -/
structure HeapRel (a a' h h' : Heap) : Prop where
  fails : h.fails = a.fails
  fails' : h'.fails = a'.fails
  next : ∃ k, h.next = a.next + k ∧ h'.next = a'.next + k
  live : h'.live - a'.live = h.live - a.live

structure FileRel (a a' f f' : Files) : Prop where
  opens : f.opens = a.opens
  opens' : f'.opens = a'.opens
  next : ∃ k, f.next = a.next + k ∧ f'.next = a'.next + k
  live : f'.live - a'.live = f.live - a.live

def SimRel (a a' : Heap) (s s' : Sim) : Prop := ∃ h, s' = { s with heap := h } ∧ HeapRel a a' s.heap h
def HostRel (x x' : Host) (h h' : Host) : Prop :=
  ∃ s f, h' = { h with mem := s, files := f } ∧ SimRel x.mem.heap x'.mem.heap h.mem s ∧ FileRel x.files x'.files h.files f
def ProgRel (x x' : Prog) (p p' : Prog) : Prop :=
  ∃ h e, p' = { p with host := h, err := e } ∧ HostRel x.host x'.host p.host h ∧ ∃ t, p.err = x.err ++ t ∧ e = x'.err ++ t
def LoadRel (x x' : Prog) (s s' : LoadState) : Prop := ∃ p, s' = { s with prog := p } ∧ ProgRel x x' s.prog p
def DRel (x x' : Host) (d d' : Dump.D) : Prop := ∃ h, d' = { d with host := h } ∧ HostRel x x' d.host h
def ObjRel (x x' : Host) (o o' : GdbLog.Obj) : Prop := ∃ h, o' = { o with host := h } ∧ HostRel x x' o.host h

/-! ### The simulator -/

section Sim
variable {a a' : Heap} (ha : ∀ k, a'.fails (a'.next + k) = a.fails (a.next + k))
include ha

theorem fails_same {h h' : Heap} (hr : HeapRel a a' h h') : h'.fails h'.next = h.fails h.next := by
  obtain ⟨k, e1, e2⟩ := hr.next
  rw [hr.fails, hr.fails', e1, e2, ha]

theorem malloc_rel : Rel (SimRel a a') malloc := by
  rintro s _ ⟨h, rfl, hr⟩
  have hf := fails_same ha hr
  obtain ⟨k, e1, e2⟩ := hr.next
  unfold malloc
  simp only [hf]
  by_cases hc : s.heap.fails s.heap.next = true
  · rw [if_pos hc, if_pos hc]
    exact ⟨rfl, _, rfl, hr.fails, hr.fails', ⟨k + 1, by simp only [e1]; omega, by simp only [e2]; omega⟩, hr.live⟩
  · rw [if_neg hc, if_neg hc]
    exact ⟨rfl, _, rfl, hr.fails, hr.fails', ⟨k + 1, by simp only [e1]; omega, by simp only [e2]; omega⟩, by have := hr.live; simp only; omega⟩

theorem zeroed_rel : Rel (SimRel a a') throwingZeroedMalloc :=
  Rel.bind (malloc_rel ha) fun _ => Rel.ite (Rel.pure _) (Rel.throw _ _)
omit ha

theorem free_rel (n : Nat) : Rel (SimRel a a') (free n) := by
  rintro s _ ⟨h, rfl, hr⟩
  exact ⟨rfl, _, rfl, hr.fails, hr.fails', hr.next, by have := hr.live; simp only; omega⟩

theorem uninit_rel : Rel (SimRel a a') MemSim.uninit := by
  rintro s _ ⟨h, rfl, hr⟩
  exact ⟨rfl, _, rfl, hr.fails, hr.fails', hr.next, by have := hr.live; simp only; omega⟩

theorem keeps_rel {f : Sim → Sim} (h1 : ∀ s h, f { s with heap := h } = { f s with heap := h }) (h2 : ∀ s, (f s).heap = s.heap) :
    Rel (SimRel a a') (M.modify f) :=
  Rel.modify (by rintro s _ ⟨h, rfl, hr⟩; exact ⟨h, h1 s h, by rw [h2]; exact hr⟩)

theorem add_rel (r : Region) : Rel (SimRel a a') (addRegionToTail r) := keeps_rel (fun _ _ => rfl) fun _ => rfl
theorem set_rel (i : Nat) (r : Region) : Rel (SimRel a a') (setRegion i r) := keeps_rel (fun _ _ => rfl) fun _ => rfl

theorem regionAt_rel (i : Nat) : Rel (SimRel a a') (regionAt i) := by
  rintro s _ ⟨h, rfl, hr⟩
  unfold regionAt
  simp only
  cases s.regions[i]? with
  | none => rfl
  | some r => exact ⟨rfl, h, rfl, hr⟩

theorem find_rel (x : U32) (n : Nat) : Rel (SimRel a a') (findMatchingRegion x n) := by
  rintro s _ ⟨h, rfl, hr⟩
  unfold findMatchingRegion
  simp only
  cases findFrom 0 s.regions x n with
  | none => exact ⟨rfl, h, rfl, hr⟩
  | some y =>
    obtain ⟨i, r⟩ := y
    simp only
    by_cases hc : r.isAlias = true
    · rw [if_pos hc, if_pos hc]
      cases r.redirect with
      | none => rfl
      | some j => exact ⟨rfl, h, rfl, hr⟩
    · rw [if_neg hc, if_neg hc]; exact ⟨rfl, h, rfl, hr⟩

theorem check_rel (r : Region) (x : U32) (n : Nat) (t : U32) : Rel (SimRel a a') (checkForBreakWatchPoint r x n t) := by
  rintro s _ ⟨h, rfl, hr⟩
  unfold checkForBreakWatchPoint
  simp only
  by_cases h1 : s.hits + (scanWatch r.watch x (x + BitVec.ofNat 32 n) n t).1 ≥ 2 ^ 31
  · rw [if_pos h1, if_pos h1]; rfl
  · rw [if_neg h1, if_neg h1]
    by_cases h2 : (scanWatch r.watch x (x + BitVec.ofNat 32 n) n t).2 = true
    · rw [if_pos h2, if_pos h2]; exact ⟨rfl, h, rfl, hr⟩
    · rw [if_neg h2, if_neg h2]; exact ⟨rfl, h, rfl, hr⟩

theorem count_rel (i : Nat) (r : Region) (o n : Nat) (t : U32) : Rel (SimRel a a') (countRead i r o n t) := by
  unfold countRead
  refine Rel.ite ?_ (Rel.pure _)
  cases r.readCounts with
  | none => exact Rel.pure _
  | some cs =>
    simp only
    cases cs[o / 2]? with
    | none => exact Rel.ub _
    | some c => exact set_rel _ _

theorem pointer_rel (x : U32) (n : Nat) (t : U32) (w : Bool) : Rel (SimRel a a') (getDataPointer x n t w) := by
  unfold getDataPointer
  refine Rel.bind (find_rel _ _) fun y => ?_
  obtain ⟨i, x'⟩ := y
  exact Rel.bind (regionAt_rel _) fun r => Rel.ite (Rel.throw _ _) (Rel.bind (count_rel _ _ _ _ _) fun _ =>
    by
      split
      · exact Rel.bind (check_rel _ _ _ _) fun _ => Rel.pure _
      · exact Rel.bind (Rel.pure _) fun _ => Rel.pure _)

theorem hostWrite_rel (p : Nat × Nat) (bs : List U8) : Rel (SimRel a a') (hostWrite p bs) :=
  Rel.bind (regionAt_rel _) fun _ => Rel.ite (set_rel _ _) (Rel.ub _)
theorem hostRead_rel (p : Nat × Nat) (n : Nat) : Rel (SimRel a a') (hostRead p n) :=
  Rel.bind (regionAt_rel _) fun _ => Rel.ite (Rel.pure _) (Rel.ub _)
theorem writeN_rel (n : Nat) (x : U32) (v : Nat) : Rel (SimRel a a') (writeN n x v) :=
  Rel.bind (pointer_rel _ _ _ _) fun _ => hostWrite_rel _ _
theorem readN_rel (n : Nat) (x : U32) : Rel (SimRel a a') (readN n x) :=
  Rel.bind (pointer_rel _ _ _ _) fun _ => Rel.bind (hostRead_rel _ _) fun _ => Rel.pure _
theorem write_rel (w : Width) (x : U32) (v : BitVec w.bits) : Rel (SimRel a a') (IMemory.write w x v) := by
  cases w <;> exact writeN_rel _ _ _
theorem read_rel (w : Width) (x : U32) : Rel (SimRel a a') (IMemory.read w x) := by
  cases w <;> exact Rel.bind (readN_rel _ _) fun _ => Rel.pure _
theorem loadN_rel (x : U32) (bs : List U8) : Rel (SimRel a a') (loadN x bs) :=
  Rel.bind (pointer_rel _ _ _ _) fun _ => hostWrite_rel _ _

theorem loadBytes_rel (n : Nat) (x : U32) (src : List U8) : Rel (SimRel a a') (loadBytes n x src) := by
  induction n generalizing x src with
  | zero => exact Rel.pure _
  | succ n ih =>
    cases src with
    | nil => exact Rel.ub _
    | cons b src => exact Rel.bind (loadN_rel _ _) fun _ => ih _ _

theorem loadWords_rel (src : List U8) (n : Nat) (x : U32) : Rel (SimRel a a') (loadWords src n x) := by
  fun_induction loadWords src n x with
  | case1 b0 b1 b2 b3 rest n x h ih => exact Rel.bind (loadN_rel _ _) fun _ => ih
  | case2 => exact loadBytes_rel _ _ _
  | case3 => exact Rel.ub _
  | case4 => exact loadBytes_rel _ _ _

theorem loadImage_rel (x : U32) (image : List U8) (n : U32) : Rel (SimRel a a') (loadFromFlashImage x image n) := loadWords_rel _ _ _

include ha
theorem create_rel (x n : U32) : Rel (SimRel a a') (createRegion x n) :=
  Rel.bind (zeroed_rel ha) fun _ => Rel.bind (Rel.tryCatch (zeroed_rel ha) fun e => Rel.bind (free_rel _) fun _ => Rel.rethrow e) fun _ =>
    add_rel _

theorem alias_rel (x y n : U32) : Rel (SimRel a a') (createAlias x y n) :=
  Rel.bind (zeroed_rel ha) fun _ => Rel.tryCatch (Rel.bind (find_rel _ _) fun _ => Rel.bind (regionAt_rel _) fun _ =>
    Rel.bind (zeroed_rel ha) fun _ => add_rel _) fun e => Rel.bind (free_rel _) fun _ => Rel.rethrow e

theorem readOnly_rel (x : U32) : Rel (SimRel a a') (makeRegionReadOnly x) :=
  Rel.bind (find_rel _ _) fun _ => Rel.bind (regionAt_rel _) fun _ => Rel.bind (set_rel _ _) fun _ => Rel.bind (zeroed_rel ha) fun _ => set_rel _ _
omit ha

theorem field_rel (p : List U8) (o n : Nat) : Rel (SimRel a a') (field p o n) := Rel.ite (Rel.pure _) (Rel.ub _)
theorem fetch_rel (b : List U8) (k : Nat) (o n : U32) : Rel (SimRel a a') (fetchSizedByteArray b k o n) := Rel.ite (Rel.throw _ _) (Rel.pure _)
theorem bytesOf_rel (p : List U8) (n : Nat) : Rel (SimRel a a') (bytesOf p n) := Rel.ite (Rel.pure _) (Rel.ub _)

theorem validate_rel (b : List U8) : Rel (SimRel a a') (validateElfHeaderContents b) :=
  Rel.bind (bytesOf_rel _ _) fun _ => Rel.ite (Rel.throw _ _) <| Rel.bind (field_rel _ _ _) fun _ => Rel.ite (Rel.throw _ _) <|
    Rel.bind (field_rel _ _ _) fun _ => Rel.ite (Rel.throw _ _) <| Rel.bind (field_rel _ _ _) fun _ => Rel.ite (Rel.throw _ _) <|
    Rel.bind (field_rel _ _ _) fun _ => Rel.ite (Rel.throw _ _) <| Rel.bind (field_rel _ _ _) fun _ => Rel.ite (Rel.throw _ _) <|
    Rel.bind (field_rel _ _ _) fun _ => Rel.ite (Rel.throw _ _) (Rel.pure _)

theorem loadable_rel (p : List U8) : Rel (SimRel a a') (isFlashLoadableEntry p) :=
  Rel.bind (field_rel _ _ _) fun _ => Rel.ite (Rel.bind (field_rel _ _ _) fun _ => Rel.ite (Rel.bind (field_rel _ _ _) fun _ =>
    Rel.bind (field_rel _ _ _) fun _ => Rel.pure _) (Rel.pure _)) (Rel.pure _)

include ha
theorem entry_rel (b : List U8) (k : Nat) (p : List U8) (c : U32) : Rel (SimRel a a') (loadIfFlashLoadableEntry b k p c) :=
  Rel.bind (loadable_rel _) fun _ => Rel.ite (Rel.bind (field_rel _ _ _) fun _ => Rel.bind (field_rel _ _ _) fun _ =>
    Rel.bind (Rel.tryCatch (fetch_rel _ _ _ _) fun _ => Rel.throw _ _) fun _ => Rel.bind (field_rel _ _ _) fun _ =>
    Rel.bind (create_rel ha _ _) fun _ => Rel.bind (loadImage_rel _ _ _) fun _ => Rel.bind (readOnly_rel ha _) fun _ => Rel.pure _) (Rel.pure _)

theorem entries_rel (b : List U8) (k z : Nat) (n i : Nat) (o c : U32) : Rel (SimRel a a') (loadEntries b k z n i o c) := by
  induction n generalizing i o c with
  | zero => exact Rel.pure _
  | succ n ih =>
    exact Rel.bind (Rel.tryCatch (fetch_rel _ _ _ _) fun _ => Rel.throw _ _) fun _ => Rel.bind (entry_rel ha _ _ _ _) fun _ => ih _ _ _

theorem elf_rel (b : List U8) (k : Nat) : Rel (SimRel a a') (fromMemory b k) :=
  Rel.bind (Rel.tryCatch (fetch_rel _ _ _ _) fun _ => Rel.throw _ _) fun _ => Rel.bind (validate_rel _) fun _ =>
    Rel.bind (Rel.bind (field_rel _ _ _) fun _ => Rel.bind (field_rel _ _ _) fun _ => Rel.bind (field_rel _ _ _) fun _ => entries_rel ha _ _ _ _ _ _ _)
      fun _ => Rel.ite (Rel.throw _ _) (Rel.pure _)
end Sim

/-! ### The loaders -/

section Host
variable {x x' : Host}

theorem HostRel.mem {h h' : Host} (r : HostRel x x' h h') : SimRel x.mem.heap x'.mem.heap h.mem h'.mem := by
  obtain ⟨s, f, rfl, h1, -⟩ := r; exact h1
theorem HostRel.put {h h' : Host} {s s' : Sim} (r : HostRel x x' h h') (k : SimRel x.mem.heap x'.mem.heap s s') :
    HostRel x x' { h with mem := s } { h' with mem := s' } := by
  obtain ⟨_, f, rfl, -, h2⟩ := r; exact ⟨s', f, rfl, k, h2⟩
theorem HostRel.ctx {h h' : Host} (r : HostRel x x' h h') (g : Regs → Regs) :
    HostRel x x' { h with ctx := g h.ctx } { h' with ctx := g h'.ctx } := by
  obtain ⟨s, f, rfl, h1, h2⟩ := r; exact ⟨s, f, rfl, h1, h2⟩

theorem onMem_rel {m : M Sim α} (hm : Rel (SimRel x.mem.heap x'.mem.heap) m) : Rel (HostRel x x') (Host.onMem m) :=
  Rel.zoom hm (fun _ _ h => h.mem) fun _ _ _ _ h k => h.put k

theorem onMemD_rel {m : M Sim α} (hm : Rel (SimRel x.mem.heap x'.mem.heap) m) : Rel (DRel x x') (Dump.onMem m) :=
  Rel.zoom hm (by rintro d _ ⟨h, rfl, hr⟩; exact hr.mem) (by rintro d _ s s' ⟨h, rfl, hr⟩ k; exact ⟨_, rfl, hr.put k⟩)

theorem onMemO_rel {m : M Sim α} (hm : Rel (SimRel x.mem.heap x'.mem.heap) m) : Rel (ObjRel x x') (GdbLog.onMem m) :=
  Rel.zoom hm (by rintro d _ ⟨h, rfl, hr⟩; exact hr.mem) (by rintro d _ s s' ⟨h, rfl, hr⟩ k; exact ⟨_, rfl, hr.put k⟩)

theorem fclose_rel : Rel (HostRel x x') Host.fclose := Rel.modify (by
  rintro h _ ⟨s, f, rfl, h1, h2⟩
  exact ⟨s, _, rfl, h1, h2.opens, h2.opens', h2.next, by have := h2.live; simp only; omega⟩)

theorem fopen_rel (hf : ∀ k n, x'.files.opens (x'.files.next + k) n = x.files.opens (x.files.next + k) n) (name : Str) :
    Rel (HostRel x x') (Host.fopen name) := by
  rintro h _ ⟨s, f, rfl, h1, h2⟩
  obtain ⟨k, e1, e2⟩ := h2.next
  have e : f.opens f.next name = h.files.opens h.files.next name := by rw [h2.opens, h2.opens', e1, e2, hf]
  unfold Host.fopen
  simp only [e]
  cases h.files.opens h.files.next name with
  | none => exact ⟨rfl, s, _, rfl, h1, h2.opens, h2.opens', ⟨k + 1, by simp only [e1]; omega, by simp only [e2]; omega⟩, h2.live⟩
  | some y =>
    exact ⟨rfl, s, _, rfl, h1, h2.opens, h2.opens', ⟨k + 1, by simp only [e1]; omega, by simp only [e2]; omega⟩,
      by have := h2.live; simp only; omega⟩

open Dump in
theorem readInto_rel (rd : Reader) (n : Nat) {put : Str → D → D} (h : ∀ bs d d', DRel x x' d d' → DRel x x' (put bs d) (put bs d')) :
    Rel (DRel x x') (readInto rd n put) := by
  rintro d _ ⟨k, rfl, hr⟩
  unfold readInto
  simp only
  cases rd n d.rest with
  | got bs t => exact ⟨rfl, h bs _ _ ⟨k, rfl, hr⟩⟩
  | bad bs t => exact ⟨rfl, h bs _ _ ⟨k, rfl, hr⟩⟩

open Dump in
theorem setCtx_rel (g : Regs → Regs) {d d' : D} (h : DRel x x' d d') : DRel x x' (d.setCtx g) (d'.setCtx g) := by
  obtain ⟨k, rfl, hr⟩ := h
  exact ⟨_, rfl, hr.ctx g⟩

open Dump in
theorem readBytes_rel (rd : Reader) (n : Nat) : Rel (DRel x x') (readBytes rd n) := readInto_rel _ _ fun _ _ _ h => h

variable (ha : ∀ k, x'.mem.heap.fails (x'.mem.heap.next + k) = x.mem.heap.fails (x.mem.heap.next + k))

open Dump in
theorem loadRegion_rel (rd : Reader) (n : Nat) (y : U32) : Rel (DRel x x') (loadRegionBytes rd n y) := by
  induction n generalizing y with
  | zero => exact Rel.pure _
  | succ n ih =>
    refine Rel.bind (readBytes_rel _ _) fun bs => ?_
    split
    · exact Rel.bind (onMemD_rel (write_rel _ _ _)) fun _ => ih _
    · exact Rel.throw _ _

include ha
open Dump in
theorem next_rel (rd : Reader) : Rel (DRel x x') (readNextMemoryRegion rd) :=
  Rel.bind (readBytes_rel _ _) fun _ => Rel.ite (Rel.throw _ _) (Rel.ite (Rel.pure _) (Rel.ite (Rel.throw _ _)
    (Rel.bind (Rel.tryCatch (Rel.bind (onMemD_rel (create_rel ha _ _)) fun _ => loadRegion_rel _ _ _) fun _ => Rel.throw _ _) fun _ => Rel.pure _)))

open Dump in
theorem regions_rel (rd : Reader) (n : Nat) : Rel (DRel x x') (readMemoryRegions rd n) := by
  induction n with
  | zero => exact Rel.ub _
  | succ n ih => exact Rel.bind (next_rel ha rd) fun _ => Rel.ite (Rel.pure _) ih

open Dump in
theorem readDump_rel (rd : Reader) : Rel (DRel x x') (readDump rd) := by
  unfold readDump
  refine Rel.bind ?_ fun _ => Rel.bind ?_ fun _ => Rel.bind ?_ fun _ => Rel.bind ?_ fun _ => ?_
  · exact Rel.bind (readBytes_rel _ _) fun bs => Rel.ite (Rel.throw _ _) (Rel.ite (Rel.pure _)
      (Rel.ite (Rel.modify (by rintro d _ ⟨h, rfl, hr⟩; exact ⟨h, rfl, hr⟩)) (Rel.throw _ _)))
  · exact Rel.bind (readInto_rel _ _ fun _ _ _ h => setCtx_rel _ h) fun bs => Rel.ite (Rel.throw _ _) (Rel.pure _)
  · unfold readIntegerRegisters
    refine Rel.get (by rintro d _ ⟨h, rfl, hr⟩; rfl) fun d => ?_
    have tail : ∀ n, Rel (DRel x x') (do
        let bs ← readInto rd n (fun bs d => d.setCtx fun c => { c with r := overlay c.r bs })
        if bs.length ≠ n then M.throw .fileFormat (asc "The dump file was too short to contain the integer registers.")
        else do
          let bs ← readInto rd 4 (fun bs d => d.setCtx fun c => { c with psr := overlayWord c.psr bs })
          if bs.length ≠ 4 then M.throw .fileFormat (asc "The dump file was too short to contain the exception PSR.")
          else pure () : M D Unit) := fun n =>
      Rel.bind (readInto_rel _ _ fun _ _ _ h => setCtx_rel _ h) fun bs => Rel.ite (Rel.throw _ _)
        (Rel.bind (readInto_rel _ _ fun _ _ _ h => setCtx_rel _ h) fun bs => Rel.ite (Rel.throw _ _) (Rel.pure _))
    simp only
    exact Rel.ite (Rel.bind (Rel.modify fun _ _ h => setCtx_rel _ h) fun _ => tail _) (tail _)
  · refine Rel.get (by rintro d _ ⟨h, rfl, hr⟩; obtain ⟨s, f, rfl, -, -⟩ := hr; rfl) fun d => Rel.ite (Rel.pure _) ?_
    exact Rel.bind (readInto_rel _ _ fun _ _ _ h => setCtx_rel _ h) fun bs => Rel.ite (Rel.throw _ _) (Rel.pure _)
  · exact Rel.get (by rintro d _ ⟨h, rfl, hr⟩; rfl) fun d => regions_rel ha _ _

variable (hf : ∀ k n, x'.files.opens (x'.files.next + k) n = x.files.opens (x.files.next + k) n)
include hf

open Dump in
theorem readFile_rel (rd : Reader) (name : Str) : Rel (HostRel x x') (readFile rd name) := by
  refine Rel.bind (fopen_rel hf name) fun f => ?_
  cases f with
  | none => exact Rel.throwMsg _ _
  | some f =>
    intro h h' hr
    simp only
    rcases (readDump_rel ha rd { host := h, rest := f.bytes } { host := h', rest := f.bytes } ⟨h', rfl, hr⟩).split with
      ⟨_, d, _, e1, e2, k, rfl, hk⟩ | ⟨e, d, _, e1, e2, k, rfl, hk⟩ | ⟨r, e1, e2⟩
    · rw [e1, e2]; exact fclose_rel _ _ hk
    · rw [e1, e2]; exact Rel.bind fclose_rel (fun _ => Rel.rethrow e) _ _ hk
    · rw [e1, e2]; rfl
omit hf

open GdbLog in
theorem parseLine_rel (l : Str) : Rel (ObjRel x x') (parseLine l) := by
  have hv : ∀ n vs l, Rel (ObjRel x x') (parseValues n vs l) := by
    intro n
    induction n with
    | zero => intro vs l; exact Rel.ub _
    | succ n ih =>
      intro vs l
      unfold parseValues
      refine Rel.ite (Rel.bind ?_ fun x => ih _ _) (Rel.pure _)
      unfold parseNextValue parseValue
      exact Rel.ite (Rel.pure _) (Rel.ub _)
  unfold parseLine
  refine Rel.ite ?_ ?_
  · unfold parseMemoryLine
    exact Rel.ite (Rel.ub _) (Rel.bind (hv _ _ _) fun _ => Rel.pure _)
  · cases isRegisterLine l with
    | none => exact Rel.pure _
    | some off =>
      simp only [parseRegisterLine]
      exact Rel.ite (Rel.ub _) (Rel.ite (Rel.pure _) (Rel.pure _))

open GdbLog in
theorem storeContext_rel (off : Nat) (v : U32) : Rel (ObjRel x x') (storeContext off v) := by
  rintro o _ ⟨h, rfl, hr⟩
  unfold storeContext
  simp only
  split
  · rfl
  · split
    · exact ⟨rfl, _, rfl, hr.ctx fun c => { c with flags := v }⟩
    · split
      · exact ⟨rfl, _, rfl, hr.ctx fun c => { c with r := c.r.set ((off - offsetR 0) / 4) v }⟩
      · split
        · exact ⟨rfl, _, rfl, hr.ctx fun c => { c with psr := v }⟩
        · split
          · exact ⟨rfl, _, rfl, hr.ctx fun c => { c with fpr := c.fpr.set ((off - offsetFPR 0) / 4) v }⟩
          · rfl

open GdbLog in
theorem objModify_rel {g : Obj → Obj} (h1 : ∀ o h, g { o with host := h } = { g o with host := h }) (h2 : ∀ o, (g o).host = o.host) :
    Rel (ObjRel x x') (M.modify g) :=
  Rel.modify (by rintro o _ ⟨h, rfl, hr⟩; exact ⟨h, h1 o h, by rw [h2]; exact hr⟩)

open GdbLog in
theorem first_rel (r : Results) : Rel (ObjRel x x') (firstPassHandler r) := by
  cases r with
  | other => exact Rel.pure _
  | memory y vs =>
    unfold firstPassHandler firstPassMemoryHandler
    refine Rel.get (by rintro d _ ⟨h, rfl, hr⟩; rfl) fun o => ?_
    simp only
    have hm1 : Rel (ObjRel x x') (M.modify fun o : Obj => { o with regionStart := y, regionSize := 0 }) := objModify_rel (ha := ha) (fun _ _ => rfl) fun _ => rfl
    have hm2 : Rel (ObjRel x x') (M.modify fun o : Obj => { o with regionSize := o.regionSize + BitVec.ofNat 32 (vs.length * 4), nextExpectedAddress := y + BitVec.ofNat 32 (vs.length * 4) }) :=
      objModify_rel (ha := ha) (fun _ _ => rfl) fun _ => rfl
    refine Rel.ite (Rel.ite ?_ ?_) hm2
    · exact Rel.bind (onMemO_rel (create_rel ha _ _)) fun _ => Rel.bind hm1 fun _ => hm2
    · exact Rel.bind hm1 fun _ => hm2
  | register off v =>
    unfold firstPassHandler firstPassRegisterHandler
    refine Rel.ite (Rel.bind (Rel.modify ?_) fun _ => storeContext_rel ha _ _) (storeContext_rel ha _ _)
    rintro o _ ⟨h, rfl, hr⟩
    exact ⟨_, rfl, hr.ctx fun c => { c with flags := c.flags ||| FLAGS_FLOATING_POINT }⟩

open GdbLog in
theorem second_rel (r : Results) : Rel (ObjRel x x') (secondPassHandler r) := by
  cases r with
  | other => exact Rel.pure _
  | register off v => exact Rel.pure _
  | memory y vs =>
    have : ∀ i, Rel (ObjRel x x') (writeValues y i vs) := by
      induction vs with
      | nil => intro i; exact Rel.pure _
      | cons v vs ih => intro i; exact Rel.bind (onMemO_rel (write_rel _ _ _)) fun _ => ih _
    exact this 0

open GdbLog in
theorem lines_rel {handler : Results → M Obj Unit} (hh : ∀ r, Rel (ObjRel x x') (handler r)) (bytes : Str) :
    Rel (HostRel x x') (GdbLog.parseLines handler bytes) := by
  have hl : ∀ n t, Rel (ObjRel x x') (GdbLog.parseLoop handler n t) := by
    intro n
    induction n with
    | zero => intro t; exact Rel.ub _
    | succ n ih =>
      intro t
      unfold GdbLog.parseLoop
      cases fgets (LINE_SIZE - 1) t with
      | none => exact Rel.pure _
      | some x => exact Rel.bind (parseLine_rel ha _) fun r => Rel.bind (hh r) fun _ => ih _
  intro h h' hr
  unfold GdbLog.parseLines
  simp only
  have hm : Rel (ObjRel x x') (do
      GdbLog.parseLoop handler (bytes.length + 1) bytes
      let o ← M.get
      if o.regionSize ≠ 0 then GdbLog.onMem (createRegion o.regionStart o.regionSize) else pure ()) :=
    Rel.bind (hl _ _) fun _ => Rel.get (by rintro d _ ⟨h, rfl, hr⟩; rfl) fun o => Rel.ite (onMemO_rel (create_rel ha _ _)) (Rel.pure _)
  rcases (hm { host := h } { host := h' } ⟨h', rfl, hr⟩).split with
      ⟨_, d, _, e1, e2, k, rfl, hk⟩ | ⟨e, d, _, e1, e2, k, rfl, hk⟩ | ⟨r, e1, e2⟩
  · rw [e1, e2]; exact ⟨rfl, hk⟩
  · rw [e1, e2]; exact ⟨rfl, hk⟩
  · rw [e1, e2]; rfl

include hf
open GdbLog in
theorem parse_rel (name : Str) : Rel (HostRel x x') (parse name) := by
  refine Rel.bind (fopen_rel hf name) fun f => ?_
  cases f with
  | none => exact Rel.throwMsg _ _
  | some f =>
    refine Rel.tryCatch (Rel.bind (Rel.modify fun _ _ h => h.ctx fun c => { c with r := (c.r.set regMSP DEFAULT_SP_VALUE).set regPSP DEFAULT_SP_VALUE }) fun _ => Rel.bind (lines_rel ha (first_rel ha) _) fun _ =>
      Rel.bind ?_ fun _ => Rel.bind (lines_rel ha (second_rel ha) _) fun _ => fclose_rel) fun e => Rel.bind fclose_rel fun _ => Rel.rethrow e
    unfold rewindLogFile
    exact Rel.ite (Rel.throw _ _) (Rel.pure _)
end Host

/-! ### Start-up -/

section Prog
variable {x x' : Prog}

theorem ProgRel.host {p p' : Prog} (r : ProgRel x x' p p') : HostRel x.host x'.host p.host p'.host := by
  obtain ⟨h, e, rfl, h1, -⟩ := r; exact h1
theorem ProgRel.put {p p' : Prog} {h h' : Host} (r : ProgRel x x' p p') (k : HostRel x.host x'.host h h') :
    ProgRel x x' { p with host := h } { p' with host := h' } := by
  obtain ⟨_, e, rfl, -, h2⟩ := r; exact ⟨h', e, rfl, k, h2⟩

theorem onHost_rel {m : M Host α} (hm : Rel (HostRel x.host x'.host) m) : Rel (ProgRel x x') (onHost m) :=
  Rel.zoom hm (fun _ _ h => h.host) fun _ _ _ _ h k => h.put k

theorem onMemory_rel {m : M Host α} (hm : Rel (HostRel x.host x'.host) m) : Rel (ProgRel x x') (onMemory m) := by
  intro p p' hr
  have := onHost_rel hm p p' hr
  obtain ⟨h, e, rfl, -⟩ := hr
  unfold onMemory
  by_cases hp : p.memory = true
  · rw [if_pos hp, if_pos (show p.memory = true from hp)]; exact this
  · rw [if_neg hp, if_neg (show ¬ p.memory = true from hp)]; rfl

theorem onProg_rel {m : M Prog α} (hm : Rel (ProgRel x x') m) : Rel (LoadRel x x') (onProg m) :=
  Rel.zoom hm (by rintro s _ ⟨p, rfl, hr⟩; exact hr) (by rintro s _ q q' ⟨p, rfl, -⟩ k; exact ⟨q', rfl, k⟩)

theorem freeP_rel : Rel (ProgRel x x') freeP := onHost_rel (onMem_rel (free_rel _))

theorem size_rel : Rel (LoadRel x x') fileSizeOf := by
  rintro s _ ⟨p, rfl, hr⟩
  unfold fileSizeOf
  simp only
  cases s.pFile with
  | none => rfl
  | some h =>
    simp only
    cases getFileSize h with
    | ok n h' => exact ⟨rfl, p, rfl, hr⟩
    | throw e h' => exact ⟨rfl, p, rfl, hr⟩
    | ub r => rfl

theorem fread_rel : Rel (LoadRel x x') freadAll := by
  rintro s _ ⟨p, rfl, hr⟩
  unfold freadAll
  simp only
  cases s.pFile with
  | none => rfl
  | some h => exact ⟨rfl, p, rfl, hr⟩

theorem loadModify_rel {g : LoadState → LoadState} (h1 : ∀ s p, g { s with prog := p } = { g s with prog := p }) (h2 : ∀ s, (g s).prog = s.prog) :
    Rel (LoadRel x x') (M.modify g) :=
  Rel.modify (by rintro s _ ⟨p, rfl, hr⟩; exact ⟨p, h1 s p, by rw [h2]; exact hr⟩)

variable (hx : SameAhead x x')
include hx

theorem body_rel (name : Str) : Rel (LoadRel x x') (loadFileBody name) := by
  refine Rel.bind (onProg_rel (onHost_rel (fopen_rel hx.files name))) fun f => Rel.bind (loadModify_rel (fun _ _ => rfl) fun _ => rfl) fun _ =>
    Rel.ite (Rel.throwMsg _ _) <| Rel.bind (Rel.tryCatch size_rel fun _ => Rel.throwMsg _ _) fun n =>
    Rel.bind (loadModify_rel (fun _ _ => rfl) fun _ => rfl) fun _ => Rel.bind (onProg_rel (onHost_rel (onMem_rel (malloc_rel hx.heap)))) fun b =>
    Rel.ite ?_ (Rel.throwMsg _ _)
  exact Rel.bind (loadModify_rel (fun _ _ => rfl) fun _ => rfl) fun _ => Rel.bind fread_rel fun bytes => Rel.ite (Rel.throwMsg _ _)
    (onProg_rel (onHost_rel fclose_rel))

theorem fileData_rel (name : Str) : Rel (ProgRel x x') (loadFileData name) := by
  intro p p' hr
  unfold loadFileData
  rcases (body_rel hx name { prog := p } { prog := p' } ⟨p', rfl, hr⟩).split with
      ⟨_, d, _, e1, e2, k, rfl, hk⟩ | ⟨e, d, _, e1, e2, k, rfl, hk⟩ | ⟨r, e1, e2⟩
  · rw [e1, e2]; exact ⟨rfl, hk⟩
  · rw [e1, e2]
    simp only
    have : Rel (ProgRel x x') (loadFileCatch (α := FileData) d.pBuffer.isSome d.pFile.isSome e) := by
      unfold loadFileCatch
      simp only
      have h2 : Rel (ProgRel x x') (if d.pFile.isSome = true then onHost Host.fclose >>= fun _ => M.rethrow e else M.rethrow e : M Prog FileData) :=
        Rel.ite (Rel.bind (onHost_rel fclose_rel) fun _ => Rel.rethrow e) (Rel.rethrow e)
      exact Rel.ite (Rel.bind freeP_rel fun _ => h2) h2
    exact this _ _ hk
  · rw [e1, e2]; rfl

theorem bin_rel (fd : FileData) : Rel (ProgRel x x') (loadBinFile fd) :=
  Rel.get (by rintro p _ ⟨h, e, rfl, -⟩; rfl) fun p => Rel.tryCatch (Rel.bind (onMemory_rel (onMem_rel (create_rel hx.heap _ _))) fun _ =>
    Rel.bind (onMemory_rel (onMem_rel (loadImage_rel _ _ _))) fun _ => onMemory_rel (onMem_rel (readOnly_rel hx.heap _))) fun e => Rel.throw _ _

theorem image_rel : Rel (ProgRel x x') loadImageFile := by
  refine Rel.get (by rintro p _ ⟨h, e, rfl, -⟩; rfl) fun p => ?_
  cases p.elf with
  | some name =>
    exact Rel.bind (fileData_rel hx name) fun fd => Rel.tryCatch (Rel.bind (onMemory_rel (onMem_rel (elf_rel hx.heap _ _))) fun _ => freeP_rel)
      fun e => Rel.bind freeP_rel fun _ => Rel.rethrow e
  | none =>
    simp only
    cases p.bin with
    | none => exact Rel.ub _
    | some name =>
      exact Rel.bind (fileData_rel hx name) fun fd => Rel.tryCatch (Rel.bind (bin_rel hx fd) fun _ => freeP_rel)
        fun e => Rel.bind freeP_rel fun _ => Rel.rethrow e

theorem dump_rel : Rel (ProgRel x x') loadDumpFile := by
  refine Rel.get (by rintro p _ ⟨h, e, rfl, -⟩; rfl) fun p => ?_
  cases p.dump with
  | none => exact Rel.ub _
  | some name =>
    refine Rel.bind ?_ fun t => ?_
    · refine Rel.bind (onHost_rel (fopen_rel hx.files name)) fun f => ?_
      cases f with
      | none => exact Rel.throwMsg _ _
      | some f => exact Rel.bind (onHost_rel fclose_rel) fun _ => Rel.ite (Rel.pure _) (Rel.ite (Rel.pure _) (Rel.pure _))
    · cases t with
      | gdbLog => exact onMemory_rel (parse_rel hx.heap hx.files name)
      | crashCatcherBin => exact onMemory_rel (readFile_rel hx.heap hx.files _ name)
      | crashCatcherHex => exact onMemory_rel (readFile_rel hx.heap hx.files _ name)

theorem aliases_rel (as : List (U32 × U32 × U32)) : Rel (ProgRel x x') (addAliases as) := by
  induction as with
  | nil => exact Rel.pure _
  | cons y as ih => exact Rel.bind (Rel.tryCatch (onMemory_rel (onMem_rel (alias_rel hx.heap _ _ _))) fun _ => Rel.throw _ _) fun _ => ih

theorem stages_rel (as : List (U32 × U32 × U32)) : Rel (ProgRel x x') (memStages as) :=
  Rel.bind (image_rel hx) fun _ => Rel.bind (dump_rel hx) fun _ => aliases_rel hx as
omit hx

theorem heapRel_refl (a a' : Heap) : HeapRel a a' a a' := ⟨rfl, rfl, ⟨0, rfl, rfl⟩, by omega⟩
theorem fileRel_refl (a a' : Files) : FileRel a a' a a' := ⟨rfl, rfl, ⟨0, rfl, rfl⟩, by omega⟩

theorem begin_rel (os : List Opt) (p p' : Prog) : ProgRel p p' (withMemory (chosen os p)) (withMemory (chosen os p')) :=
  ⟨_, p'.err, rfl, ⟨_, p'.host.files, rfl, ⟨p'.host.mem.heap, rfl, heapRel_refl _ _⟩, fileRel_refl _ _⟩, [], by simp [withMemory, chosen, selected, cleared], by simp⟩

theorem ahead_of {a a' h h' : Heap} (ha : ∀ k, a'.fails (a'.next + k) = a.fails (a.next + k)) (hr : HeapRel a a' h h') (k : Nat) :
    h'.fails (h'.next + k) = h.fails (h.next + k) := by
  obtain ⟨n, e1, e2⟩ := hr.next
  rw [hr.fails, hr.fails', e1, e2, Nat.add_assoc, Nat.add_assoc, ha]
theorem ahead_files {a a' f f' : Files} (ha : ∀ k n, a'.opens (a'.next + k) n = a.opens (a.next + k) n) (hr : FileRel a a' f f') (k : Nat) (n : Str) :
    f'.opens (f'.next + k) n = f.opens (f.next + k) n := by
  obtain ⟨i, e1, e2⟩ := hr.next
  rw [hr.opens, hr.opens', e1, e2, Nat.add_assoc, Nat.add_assoc, ha]

/-- What the relation means. -/
theorem left_of {p p' q q' : Prog} (hx : SameAhead p p') (h : ProgRel p p' q q') : SameLeft p q p' q' := by
  obtain ⟨h, e, rfl, ⟨s, f, rfl, ⟨hp, rfl, h1⟩, h2⟩, t, e1, e2⟩ := h
  exact ⟨rfl, rfl, rfl, rfl, rfl, rfl, fun _ => ⟨rfl, rfl, rfl⟩, ⟨t, e1, e2⟩, h2.live, h1.live,
    ⟨ahead_files hx.files h2, ahead_of hx.heap h1⟩⟩

theorem failed_rel {p p' q q' : Prog} (h : ProgRel p p' q q') (e : Exn) : ProgRel p p' (afterFailure e q) (afterFailure e q') := by
  obtain ⟨h, e', rfl, ⟨s, f, rfl, ⟨hp, rfl, h1⟩, h2⟩, t, e1, e2⟩ := h
  refine ⟨(afterFailure e { q with host := { q.host with mem := { q.host.mem with heap := hp }, files := f }, err := e' }).host, e' ++ report e.msg, rfl, ?_,
    t ++ report e.msg, by simp only [afterFailure, e1, List.append_assoc], by simp only [e2, List.append_assoc]⟩
  unfold afterFailure
  simp only
  split
  · exact ⟨_, f, rfl, ⟨_, rfl, h1.fails, h1.fails', h1.next, by have := h1.live; simp only [released]; omega⟩, h2⟩
  · exact ⟨_, f, rfl, ⟨_, rfl, h1⟩, h2⟩

/-- Failing before there is any memory. -/
theorem early_left {p p' : Prog} (hx : SameAhead p p') (os : List Opt) (e : Exn) :
    SameLeft p (afterFailure e (chosen os p)) p' (afterFailure e (chosen os p')) :=
  ⟨rfl, rfl, rfl, rfl, rfl, rfl, fun h => (Bool.false_ne_true h).elim, ⟨report e.msg, rfl, rfl⟩,
    by simp [afterFailure, chosen, selected, cleared], by simp [afterFailure, chosen, selected, cleared],
    ⟨fun k n => hx.files k n, fun k => hx.heap k⟩⟩

theorem startUp_again {p p' : Prog} (hx : SameAhead p p') (args : List Str) : SameEnd p p' (startUp args p) (startUp args p') := by
  rcases split_args args with ⟨os, hs⟩ | ⟨pre, os, rest, m, rfl, hs, hst⟩
  · cases hn : imageFile os with
    | none => rw [startUp_noImage hs hn, startUp_noImage hs hn]; exact ⟨rfl, early_left hx os _⟩
    | some n =>
      cases hd : lastDump os with
      | none => rw [startUp_noDump hs hn hd, startUp_noDump hs hn hd]; exact ⟨rfl, early_left hx os _⟩
      | some d =>
        rw [startUp_full hs hn hd, startUp_full hs hn hd]
        rcases (stages_rel hx (aliases os) _ _ (begin_rel os p p')).split with
          ⟨_, q, q', e1, e2, hk⟩ | ⟨e, q, q', e1, e2, hk⟩ | ⟨r, e1, e2⟩
        · rw [e1, e2]; exact left_of hx hk
        · rw [e1, e2]; exact ⟨rfl, left_of hx (failed_rel hk e)⟩
        · rw [e1, e2]; rfl
  · rw [startUp_stuck hs hst, startUp_stuck hs hst]; exact ⟨rfl, early_left hx os _⟩

/-- Start-up does not change what the world outside answers. -/
theorem startUp_world {args : List Str} {p q : Prog} (h : startUp args p = .ok () q ∨ ∃ e, startUp args p = .throw e q) :
    q.host.files.opens = p.host.files.opens ∧ q.host.mem.heap.fails = p.host.mem.heap.fails := by
  have hx : SameAhead p p := ⟨fun _ _ => rfl, fun _ => rfl⟩
  have fin : ∀ {q q' : Prog}, ProgRel p p q q' → q.host.files.opens = p.host.files.opens ∧ q.host.mem.heap.fails = p.host.mem.heap.fails := by
    rintro q _ ⟨h, e, rfl, ⟨s, f, rfl, ⟨hp, rfl, h1⟩, h2⟩, -⟩
    exact ⟨h2.opens, h1.fails⟩
  rcases split_args args with ⟨os, hs⟩ | ⟨pre, os, rest, m, rfl, hs, hst⟩
  · cases hn : imageFile os with
    | none =>
      rw [startUp_noImage hs hn] at h
      rcases h with h | ⟨e, h⟩
      · cases h
      · cases h; exact ⟨rfl, rfl⟩
    | some n =>
      cases hd : lastDump os with
      | none =>
        rw [startUp_noDump hs hn hd] at h
        rcases h with h | ⟨e, h⟩
        · cases h
        · cases h; exact ⟨rfl, rfl⟩
      | some d =>
        rw [startUp_full hs hn hd] at h
        rcases (stages_rel hx (aliases os) _ _ (begin_rel os p p)).split with
          ⟨_, q, q', e1, e2, hk⟩ | ⟨e, q, q', e1, e2, hk⟩ | ⟨r, e1, e2⟩
        · rw [e1] at h
          rcases h with h | ⟨e, h⟩
          · cases h; exact fin hk
          · cases h
        · rw [e1] at h
          rcases h with h | ⟨e, h⟩
          · cases h
          · cases h; exact fin (failed_rel hk _)
        · rw [e1] at h
          rcases h with h | ⟨e, h⟩
          · cases h
          · cases h
  · rw [startUp_stuck hs hst] at h
    rcases h with h | ⟨e, h⟩
    · cases h
    · cases h; exact ⟨rfl, rfl⟩
end Prog

end Verif.Again
