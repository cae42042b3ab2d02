import Verif.Lemmas.PlatRegs
import Verif.Lemmas.Leak
/-
Lemmas for histories of platform calls.
-/
namespace Verif.Platform
open Verif MemSim Spec

/-- The fault count, the registers and the contents of memory are the same. -/
structure Same (p q : Plat) : Prop where
  faults : q.faults = p.faults
  ctx : q.ctx = p.ctx
  contents : contents q.mem = contents p.mem
  owed : owed q.mem = owed p.mem

theorem Same.refl (p : Plat) : Same p p := ⟨rfl, rfl, rfl, rfl⟩
theorem Same.trans {p q r : Plat} (h : Same p q) (h' : Same q r) : Same p r :=
  ⟨h'.faults.trans h.faults, h'.ctx.trans h.ctx, h'.contents.trans h.contents, h'.owed.trans h.owed⟩

/-- However the code ends, `R` holds between the states before and after. -/
def Keeps (R : Plat → Plat → Prop) (m : M Plat α) : Prop := ∀ p q, Ends (m p) q → R p q

theorem ends_ok {a : α} {s q : σ} (h : Ends (.ok a s : Out σ α) q) : q = s := by
  rcases h with ⟨b, e⟩ | ⟨e, h⟩
  · cases e; rfl
  · cases h

theorem ends_throw {e : Exn} {s q : σ} (h : Ends (.throw e s : Out σ α) q) : q = s := by
  rcases h with ⟨b, e⟩ | ⟨e, h⟩
  · cases e
  · cases h; rfl

theorem ends_ub {r : UB} {q : σ} (h : Ends (.ub r : Out σ α) q) : False := by
  rcases h with ⟨b, e⟩ | ⟨e, h⟩
  · cases e
  · cases h

theorem Keeps.bind {m : M Plat α} {f : α → M Plat β} (h : Keeps Same m) (h' : ∀ a, Keeps Same (f a)) : Keeps Same (m >>= f) := by
  intro p q hq
  rw [M.bind_apply] at hq
  cases e : m p with
  | ok a s => rw [e] at hq; exact (h p s (.inl ⟨a, e⟩)).trans (h' a s q hq)
  | throw x s => rw [e] at hq; have := ends_throw hq; subst this; exact h p _ (.inr ⟨x, e⟩)
  | ub r => rw [e] at hq; exact (ends_ub hq).elim

theorem Keeps.pure (a : α) : Keeps Same (pure a) := by
  intro p q hq; cases ends_ok hq; exact .refl _

theorem Keeps.modify {f : Plat → Plat} (h : ∀ p, Same p (f p)) : Keeps Same (M.modify f) := by
  intro p q hq; cases ends_ok hq; exact h p

theorem Keeps.get {f : Plat → M Plat β} (h : ∀ a, Keeps Same (f a)) : Keeps Same (M.get >>= f) :=
  .bind (by intro p q hq; cases ends_ok hq; exact .refl _) h

theorem Keeps.ite {c : Prop} [Decidable c] {m m' : M Plat α} (h : Keeps Same m) (h' : Keeps Same m') :
    Keeps Same (if c then m else m') := by
  split
  · exact h
  · exact h'

theorem Keeps.onComm (m : M Comm.Comm α) : Keeps Same (onComm m) := by
  intro p q hq
  unfold Platform.onComm at hq
  rw [M.zoom_apply] at hq
  cases e : m p.comm <;> rw [e] at hq
  · cases ends_ok hq; exact ⟨rfl, rfl, rfl, rfl⟩
  · cases ends_throw hq; exact ⟨rfl, rfl, rfl, rfl⟩
  · exact (ends_ub hq).elim

theorem Keeps.onBuf (m : M Buf α) : Keeps Same (onBuf m) := by
  intro p q hq
  unfold Platform.onBuf at hq
  rw [M.zoom_apply] at hq
  cases e : m p.buf <;> rw [e] at hq
  · cases ends_ok hq; exact ⟨rfl, rfl, rfl, rfl⟩
  · cases ends_throw hq; exact ⟨rfl, rfl, rfl, rfl⟩
  · exact (ends_ub hq).elim

theorem contents_gdp {s s' : Sim} (h : GdpPost s s') : contents s' = contents s := by
  unfold contents
  rcases h.regions with e | ⟨i, r, cs, cs', h1, -, e⟩
  · rw [e]
  · rw [e, List.map_set]
    apply List.ext_getElem?
    intro j
    rw [List.getElem?_set]
    by_cases hj : i = j
    · subst hj
      have hlt := (List.getElem?_eq_some_iff.1 h1).1
      have : s.regions[i] = r := by simpa [List.getElem?_eq_getElem hlt] using h1
      simp [this, hlt]
    · simp [hj]

theorem contents_read {w : Width} {a : U32} {s s' : Sim} (h : Ends (IMemory.read w a s) s') : contents s' = contents s := by
  have := read_post (w := w) (a := a) (s := s)
  rcases h with ⟨v, e⟩ | ⟨x, e⟩ <;> rw [e] at this <;> exact contents_gdp this

theorem ends_step {m : M Sim α} {s s' : Sim} (h : Ends (m s) s') :
    Ends ((do let _ ← m : M Sim Unit) s) s' := by
  rcases h with ⟨v, e⟩ | ⟨x, e⟩
  · exact .inl ⟨(), by rw [M.bind_apply, e]; rfl⟩
  · exact .inr ⟨x, by rw [M.bind_apply, e]⟩

theorem read_owed {w : Width} {a : U32} {s s' : Sim} (h : Ends (IMemory.read w a s) s') : owed s' = owed s :=
  call_owed (c := .read w a) (ends_step h) trivial

theorem write_owed {w : Width} {a : U32} {v : BitVec w.bits} {s s' : Sim} (h : Ends (IMemory.write w a v s) s') : owed s' = owed s :=
  call_owed (c := .write w a v) h trivial

theorem xml_owed {s s' : Sim} (h : Ends (getMemoryMapXML s) s') : owed s' = owed s :=
  call_owed (c := .memoryMap) (ends_step h) trivial

theorem Keeps.tryMem_read (w : Width) (a : U32) : Keeps Same (tryMem (IMemory.read w a)) := by
  intro p q hq
  unfold tryMem at hq
  cases e : IMemory.read w a p.mem with
  | ok v s => simp only [e] at hq; cases ends_ok hq; exact ⟨rfl, rfl, contents_read (.inl ⟨_, e⟩), read_owed (.inl ⟨_, e⟩)⟩
  | throw x s => simp only [e] at hq; cases ends_ok hq; exact ⟨rfl, rfl, contents_read (.inr ⟨_, e⟩), read_owed (.inr ⟨_, e⟩)⟩
  | ub r => simp only [e] at hq; exact (ends_ub hq).elim

theorem Keeps.xml : Keeps Same (onMem getMemoryMapXML) := by
  intro p q hq
  unfold Platform.onMem at hq
  rw [M.zoom_apply] at hq
  rcases xml_raw p.mem with e | e | ⟨t, e⟩ <;> rw [e] at hq
  · cases ends_throw hq; exact ⟨rfl, rfl, rfl, xml_owed (.inr ⟨_, e⟩)⟩
  · exact (ends_ub hq).elim
  · cases ends_ok hq; exact ⟨rfl, rfl, rfl, xml_owed (.inl ⟨_, e⟩)⟩

theorem Keeps.say (t : Str) : Keeps Same (say t) := .modify fun _ => ⟨rfl, rfl, rfl, rfl⟩
theorem Keeps.sayIf (v b : U32) (t : Str) : Keeps Same (sayIf v b t) := .ite (.say _) (.pure _)
theorem Keeps.sayAddress (v a : U32) : Keeps Same (sayAddress v a) := by
  unfold Platform.sayAddress
  refine .ite (.bind (.tryMem_read _ _) fun o => ?_) (.pure _)
  cases o
  · exact .pure _
  · exact .bind (.say _) fun _ => .say _

theorem Keeps.mem : Keeps Same displayMemFault := by
  unfold displayMemFault
  refine .bind (.tryMem_read _ _) fun o => ?_
  cases o with
  | none => exact .pure _
  | some v =>
    refine .ite (.pure _) ?_
    exact .bind (.say _) fun _ => .bind (.say _) fun _ => .bind (.say _) fun _ => .bind (.sayAddress _ _) fun _ =>
      .bind (.sayIf _ _ _) fun _ => .bind (.sayIf _ _ _) fun _ => .bind (.sayIf _ _ _) fun _ => .bind (.sayIf _ _ _) fun _ =>
      .sayIf _ _ _

theorem Keeps.bus : Keeps Same displayBusFault := by
  unfold displayBusFault
  refine .bind (.tryMem_read _ _) fun o => ?_
  cases o with
  | none => exact .pure _
  | some v =>
    refine .ite (.pure _) ?_
    exact .bind (.say _) fun _ => .bind (.say _) fun _ => .bind (.say _) fun _ => .bind (.sayAddress _ _) fun _ =>
      .bind (.sayIf _ _ _) fun _ => .bind (.sayIf _ _ _) fun _ => .bind (.sayIf _ _ _) fun _ => .bind (.sayIf _ _ _) fun _ =>
      .bind (.sayIf _ _ _) fun _ => .sayIf _ _ _

theorem Keeps.usage : Keeps Same displayUsageFault := by
  unfold displayUsageFault
  refine .bind (.tryMem_read _ _) fun o => ?_
  cases o with
  | none => exact .pure _
  | some v =>
    refine .ite (.pure _) ?_
    exact .bind (.say _) fun _ => .bind (.say _) fun _ => .bind (.say _) fun _ =>
      .bind (.sayIf _ _ _) fun _ => .bind (.sayIf _ _ _) fun _ => .bind (.sayIf _ _ _) fun _ => .bind (.sayIf _ _ _) fun _ =>
      .bind (.sayIf _ _ _) fun _ => .sayIf _ _ _

theorem Keeps.hard : Keeps Same displayHardFault := by
  unfold displayHardFault
  refine .bind (.say _) fun _ => .bind (.tryMem_read _ _) fun o => ?_
  cases o with
  | none => exact .pure _
  | some v =>
    exact .bind (.say _) fun _ => .bind (.say _) fun _ => .bind (.sayIf _ _ _) fun _ => .bind (.sayIf _ _ _) fun _ =>
      .ite (.bind (.say _) fun _ => .bind .mem fun _ => .bind .bus fun _ => .usage) (.pure _)

theorem Keeps.exceptionNumber : Keeps Same exceptionNumber := .get fun _ => .pure _

theorem Keeps.displayFault : Keeps Same displayFaultCause := by
  unfold displayFaultCause
  refine .bind .exceptionNumber fun n => ?_
  exact .ite (.bind .hard fun _ => .say _) (.ite (.bind .mem fun _ => .say _) (.ite (.bind .bus fun _ => .say _)
    (.ite (.bind .usage fun _ => .say _) (.pure _))))

theorem Keeps.regAt (i : Nat) : Keeps Same (regAt i) := by
  intro p q hq
  unfold Platform.regAt at hq
  cases e : p.ctx.r[i]? <;> simp only [e] at hq
  · exact (ends_ub hq).elim
  · cases ends_ok hq; exact .refl _

/-- The calls other than memory accesses, register writes and those that reset the fault count. -/
def plainCall : PCall → Bool
  | .memRead .. => false
  | .memWrite .. => false
  | .copyFrom => false
  | .wasFault => false
  | .init => false
  | _ => true

theorem plain_keeps {c : PCall} (h : plainCall c = true) : Keeps Same c.run := by
  cases c with
  | init => cases h
  | memRead => cases h
  | memWrite => cases h
  | copyFrom => cases h
  | wasFault => cases h
  | setWait b => exact .modify fun _ => ⟨rfl, rfl, rfl, rfl⟩
  | commHasData => exact .bind (.bind (.onComm _) fun _ => .bind (.modify fun _ => ⟨rfl, rfl, rfl, rfl⟩) fun _ => .pure _) fun _ => .pure _
  | commReceive => exact .bind (.onComm _) fun _ => .pure _
  | commSend c => exact .onComm _
  | commShouldWait => exact .bind (.get fun _ => .pure _) fun _ => .pure _
  | commIsWaiting =>
    exact .bind (.get fun _ => .bind (.onComm _) fun _ => .bind (.modify fun p => by split <;> exact ⟨rfl, rfl, rfl, rfl⟩) fun _ => .pure _)
      fun _ => .pure _
  | cause =>
    refine .bind ?_ fun _ => .pure _
    unfold determineCauseOfException
    refine .bind .exceptionNumber fun n => ?_
    exact .ite (.pure _) (.ite (.pure _) (.ite (.pure _) (.ite (.pure _) (.ite (.pure _) (.ite (.pure _) (.pure _))))))
  | displayFault => exact .displayFault
  | writeT =>
    exact .bind (.regAt _) fun _ => .bind (.onBuf _) fun _ => .bind (.regAt _) fun _ => .bind (.onBuf _) fun _ =>
      .bind (.regAt _) fun _ => .bind (.onBuf _) fun _ => .bind (.regAt _) fun _ => .onBuf _
  | copyTo => exact .get fun p => .bind (.onBuf _) fun _ => .ite (.onBuf _) (.pure _)
  | mapXml => exact .bind .xml fun _ => .pure _
  | mapXmlSize => exact .bind (.bind .xml fun _ => .pure _) fun _ => .pure _
  | targetXml => exact .bind (.get fun _ => .ite (.pure _) (.pure _)) fun _ => .pure _
  | targetXmlSize => exact .bind (.get fun _ => .ite (.pure _) (.pure _)) fun _ => .pure _
  | commCaused => exact .bind (.pure _) fun _ => .pure _
  | commSharing => exact .bind (.pure _) fun _ => .pure _
  | isStepping => exact .bind (.pure _) fun _ => .pure _
  | pcModified => exact .bind (.pure _) fun _ => .pure _
  | semihostParameters => exact .bind (.pure _) fun _ => .pure _
  | isSemihost => exact .bind (.pure _) fun _ => .pure _
  | handleSemihost => exact .bind (.pure _) fun _ => .pure _
  | _ => exact .pure _

theorem step_ends {c : PCall} {p q : Plat} (h : PStep c p q) : Ends (c.run p) q := by
  rcases h with h | ⟨e, h⟩
  · exact .inl ⟨_, h⟩
  · exact .inr ⟨e, h⟩

/-! ### Memory accesses -/

theorem memRead_ok {w : Width} {a : U32} {p : Plat} {v : BitVec w.bits} {s : Sim} (h : IMemory.read w a p.mem = .ok v s) :
    memRead w a p = .ok v { p with mem := s, code := none } := by
  unfold memRead
  have : tryMem (IMemory.read w a) p = .ok (some v) { p with mem := s, code := none } := by unfold tryMem; simp only [h]
  rw [M.bind_ok this]; rfl

theorem memRead_fault {w : Width} {a : U32} {p : Plat} {e : Exn} {s : Sim} (h : IMemory.read w a p.mem = .throw e s) :
    memRead w a p = if p.faults + 1 < 2 ^ 31 then .ok 0 { p with mem := s, code := some e.code, faults := p.faults + 1 }
      else .ub .signedOverflow := by
  unfold memRead
  have : tryMem (IMemory.read w a) p = .ok none { p with mem := s, code := some e.code } := by unfold tryMem; simp only [h]
  rw [M.bind_ok this]
  simp only [M.bind_apply, countFault]
  by_cases hc : p.faults + 1 < 2 ^ 31
  · simp only [if_pos hc, M.pure_apply]
  · simp only [if_neg hc]

theorem memRead_ub {w : Width} {a : U32} {p : Plat} {r : UB} (h : IMemory.read w a p.mem = .ub r) : memRead w a p = .ub r := by
  unfold memRead
  have : tryMem (IMemory.read w a) p = .ub r := by unfold tryMem; simp only [h]
  exact M.bind_ub this

theorem memWrite_ok {w : Width} {a : U32} {v : BitVec w.bits} {p : Plat} {s : Sim} (h : IMemory.write w a v p.mem = .ok () s) :
    memWrite w a v p = .ok () { p with mem := s, code := none } := by
  unfold memWrite
  have : tryMem (IMemory.write w a v) p = .ok (some ()) { p with mem := s, code := none } := by unfold tryMem; simp only [h]
  rw [M.bind_ok this]; rfl

theorem memWrite_fault {w : Width} {a : U32} {v : BitVec w.bits} {p : Plat} {e : Exn} {s : Sim}
    (h : IMemory.write w a v p.mem = .throw e s) :
    memWrite w a v p = if p.faults + 1 < 2 ^ 31 then .ok () { p with mem := s, code := some e.code, faults := p.faults + 1 }
      else .ub .signedOverflow := by
  unfold memWrite
  have : tryMem (IMemory.write w a v) p = .ok none { p with mem := s, code := some e.code } := by unfold tryMem; simp only [h]
  rw [M.bind_ok this]
  simp only [countFault]

theorem memWrite_ub {w : Width} {a : U32} {v : BitVec w.bits} {p : Plat} {r : UB} (h : IMemory.write w a v p.mem = .ub r) :
    memWrite w a v p = .ub r := by
  unfold memWrite
  have : tryMem (IMemory.write w a v) p = .ub r := by unfold tryMem; simp only [h]
  exact M.bind_ub this

/-- What reading into the registers changes. -/
theorem readBytes_ends {store : List U32 → Plat → Plat} {ws : List U32} {R : Plat → Plat → Prop} (hrefl : ∀ p, R p p)
    (htrans : ∀ p q r, R p q → R q r → R p r) (hbuf : ∀ b p, R p { p with buf := b }) (hst : ∀ ws p, R p (store ws p)) :
    ∀ (n : Nat) (acc : Str), Keeps R (readBytesFromBufferAsHex store ws n acc) := by
  intro n
  induction n with
  | zero => intro acc p q hq; cases ends_ok hq; exact hrefl p
  | succ n ih =>
    intro acc p q hq
    change Ends ((onBuf readByteAsHex >>= _) p) q at hq
    rw [M.bind_apply] at hq
    unfold onBuf at hq
    rw [M.zoom_apply] at hq
    cases e : readByteAsHex p.buf with
    | ok v b => rw [e] at hq; exact htrans _ _ _ (hbuf b p) (htrans _ _ _ (hst _ _) (ih _ _ _ hq))
    | throw x b => rw [e] at hq; cases ends_throw hq; exact hbuf b p
    | ub r => rw [e] at hq; exact (ends_ub hq).elim

theorem copyFrom_ends {R : Plat → Plat → Prop} (hrefl : ∀ p, R p p)
    (htrans : ∀ p q r, R p q → R q r → R p r) (hbuf : ∀ b p, R p { p with buf := b })
    (h1 : ∀ ws p, R p (storeR ws p)) (h2 : ∀ ws p, R p (storeFPR ws p)) : Keeps R copyContextFromBuffer := by
  intro p q hq
  unfold copyContextFromBuffer at hq
  simp only [M.bind_apply, M.get_apply] at hq
  cases e : readBytesFromBufferAsHex storeR p.ctx.r (4 * p.ctx.r.length) [] p with
  | ok a s =>
    rw [e] at hq
    refine htrans _ _ _ (readBytes_ends hrefl htrans hbuf h1 _ _ p s (.inl ⟨a, e⟩)) ?_
    simp only at hq
    split at hq
    · exact readBytes_ends hrefl htrans hbuf h2 _ _ s q hq
    · have := ends_ok hq; subst this; exact hrefl _
  | throw x s => rw [e] at hq; have := ends_throw hq; subst this; exact readBytes_ends hrefl htrans hbuf h1 _ _ p _ (.inr ⟨x, e⟩)
  | ub r => rw [e] at hq; exact (ends_ub hq).elim

theorem ends_bind_map {m : M σ α} {f : α → β} {p q : σ} (h : Ends ((m >>= fun a => (pure (f a) : M σ β)) p) q) : Ends (m p) q := by
  rw [M.bind_apply] at h
  cases e : m p with
  | ok a s => rw [e] at h; cases ends_ok h; exact .inl ⟨a, rfl⟩
  | throw x s => rw [e] at h; cases ends_throw h; exact .inr ⟨x, rfl⟩
  | ub r => rw [e] at h; exact (ends_ub h).elim

theorem ends_bind_pure {m : M σ α} {p q : σ} (h : Ends ((m >>= fun _ => (pure () : M σ Unit)) p) q) : Ends (m p) q := by
  rw [M.bind_apply] at h
  cases e : m p with
  | ok a s => rw [e] at h; cases ends_ok h; exact .inl ⟨a, rfl⟩
  | throw x s => rw [e] at h; cases ends_throw h; exact .inr ⟨x, rfl⟩
  | ub r => rw [e] at h; exact (ends_ub h).elim

/-- A refused access adds one to the count. -/
theorem fault_step {c : PCall} {p q : Plat} (hf : Faults c p) (h : PStep c p q) : q.faults = p.faults + 1 := by
  have he := step_ends h
  cases c with
  | memRead w a =>
    obtain ⟨e, s, hr⟩ := hf
    have := ends_bind_pure he
    rw [memRead_fault hr] at this
    split at this
    · cases ends_ok this; rfl
    · exact (ends_ub this).elim
  | memWrite w a v =>
    obtain ⟨e, s, hr⟩ := hf
    change Ends (memWrite w a v p) q at he
    rw [memWrite_fault hr] at he
    split at he
    · cases ends_ok he; rfl
    · exact (ends_ub he).elim
  | _ => exact hf.elim

theorem reset_step {c : PCall} {p q : Plat} (hr : Resets c = true) (h : PStep c p q) : q.faults = 0 := by
  have he := step_ends h
  cases c with
  | wasFault => cases ends_ok (show Ends (.ok () { p with faults := 0 }) q from he); rfl
  | init => cases ends_ok he; rfl
  | _ => cases hr

theorem other_step {c : PCall} {p q : Plat} (hf : ¬ Faults c p) (hr : Resets c = false) (h : PStep c p q) : q.faults = p.faults := by
  have he := step_ends h
  by_cases hp : plainCall c = true
  · exact (plain_keeps hp p q he).faults
  · cases c with
    | memRead w a =>
      have := ends_bind_pure he
      cases e : IMemory.read w a p.mem with
      | ok v s => rw [memRead_ok e] at this; cases ends_ok this; rfl
      | throw x s => exact (hf ⟨x, s, e⟩).elim
      | ub r => rw [memRead_ub e] at this; exact (ends_ub this).elim
    | memWrite w a v =>
      change Ends (memWrite w a v p) q at he
      cases e : IMemory.write w a v p.mem with
      | ok u s => rw [memWrite_ok e] at he; cases ends_ok he; rfl
      | throw x s => exact (hf ⟨x, s, e⟩).elim
      | ub r => rw [memWrite_ub e] at he; exact (ends_ub he).elim
    | copyFrom =>
      exact copyFrom_ends (R := fun p q => q.faults = p.faults) (fun _ => rfl) (fun _ _ _ h1 h2 => h2.trans h1) (fun _ _ => rfl)
        (fun _ _ => rfl) (fun _ _ => rfl) p q he
    | wasFault => cases hr
    | init => cases hr
    | _ => exact (hp rfl).elim

/-- A call that is not meant to change the crashed program's state does not. -/
theorem unchanged_step {c : PCall} {p q : Plat} (hc : c.changesState = false) (h : PStep c p q) :
    q.ctx = p.ctx ∧ contents q.mem = contents p.mem := by
  have he := step_ends h
  by_cases hp : plainCall c = true
  · exact ⟨(plain_keeps hp p q he).ctx, (plain_keeps hp p q he).contents⟩
  · cases c with
    | memRead w a =>
      have := ends_bind_pure he
      cases e : IMemory.read w a p.mem with
      | ok v s => rw [memRead_ok e] at this; cases ends_ok this; exact ⟨rfl, contents_read (.inl ⟨_, e⟩)⟩
      | throw x s =>
        rw [memRead_fault e] at this
        split at this
        · cases ends_ok this; exact ⟨rfl, contents_read (.inr ⟨_, e⟩)⟩
        · exact (ends_ub this).elim
      | ub r => rw [memRead_ub e] at this; exact (ends_ub this).elim
    | wasFault => cases ends_ok (show Ends (.ok () { p with faults := 0 }) q from he); exact ⟨rfl, rfl⟩
    | init => cases ends_ok he; exact ⟨rfl, rfl⟩
    | memWrite => cases hc
    | copyFrom => cases hc
    | _ => exact (hp rfl).elim

/-- No call changes what is owed to the heap. -/
theorem step_owed {c : PCall} {p q : Plat} (h : PStep c p q) : owed q.mem = owed p.mem := by
  have he := step_ends h
  by_cases hp : plainCall c = true
  · exact (plain_keeps hp p q he).owed
  · cases c with
    | memRead w a =>
      have := ends_bind_pure he
      cases e : IMemory.read w a p.mem with
      | ok v s => rw [memRead_ok e] at this; cases ends_ok this; exact read_owed (.inl ⟨_, e⟩)
      | throw x s =>
        rw [memRead_fault e] at this
        split at this
        · cases ends_ok this; exact read_owed (.inr ⟨_, e⟩)
        · exact (ends_ub this).elim
      | ub r => rw [memRead_ub e] at this; exact (ends_ub this).elim
    | memWrite w a v =>
      change Ends (memWrite w a v p) q at he
      cases e : IMemory.write w a v p.mem with
      | ok u s => rw [memWrite_ok e] at he; cases ends_ok he; exact write_owed (.inl ⟨_, e⟩)
      | throw x s =>
        rw [memWrite_fault e] at he
        split at he
        · cases ends_ok he; exact write_owed (.inr ⟨_, e⟩)
        · exact (ends_ub he).elim
      | ub r => rw [memWrite_ub e] at he; exact (ends_ub he).elim
    | wasFault => cases ends_ok (show Ends (.ok () { p with faults := 0 }) q from he); rfl
    | init => cases ends_ok he; rfl
    | copyFrom =>
      exact copyFrom_ends (R := fun p q => owed q.mem = owed p.mem) (fun _ => rfl) (fun _ _ _ h1 h2 => h2.trans h1) (fun _ _ => rfl)
        (fun _ _ => rfl) (fun _ _ => rfl) p q he
    | _ => exact (hp rfl).elim

theorem hist_owed {cs : List PCall} {p q : Plat} (h : PHist p cs q) : owed q.mem = owed p.mem := by
  induction h with
  | nil => rfl
  | cons h _ ih => exact ih.trans (step_owed h)
  | packet b c _ ih => exact ih

end Verif.Platform
