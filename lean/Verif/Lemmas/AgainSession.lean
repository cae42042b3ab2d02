import Verif.Lemmas.Again
/- The same for a debug session. -/
namespace Verif.Again
open Verif MemSim Spec Platform Main CommandLine

/-- Two sessions that differ only in the past of the heap. -/
def PlatRel (a a' : Heap) (p p' : Plat) : Prop := ∃ s, p' = { p with mem := s } ∧ SimRel a a' p.mem s

section Plat
variable {a a' : Heap}

theorem onComm_rel (m : M Comm.Comm α) : Rel (PlatRel a a') (onComm m) := by
  rintro p _ ⟨s, rfl, hr⟩
  unfold onComm
  rw [M.zoom_apply, M.zoom_apply]
  simp only
  cases m p.comm with
  | ok v c => exact ⟨rfl, s, rfl, hr⟩
  | throw e c => exact ⟨rfl, s, rfl, hr⟩
  | ub r => rfl

theorem onBuf_rel (m : M Buf α) : Rel (PlatRel a a') (onBuf m) := by
  rintro p _ ⟨s, rfl, hr⟩
  unfold onBuf
  rw [M.zoom_apply, M.zoom_apply]
  simp only
  cases m p.buf with
  | ok v c => exact ⟨rfl, s, rfl, hr⟩
  | throw e c => exact ⟨rfl, s, rfl, hr⟩
  | ub r => rfl

theorem onMemP_rel {m : M Sim α} (hm : Rel (SimRel a a') m) : Rel (PlatRel a a') (Platform.onMem m) :=
  Rel.zoom hm (by rintro p _ ⟨s, rfl, hr⟩; exact hr) (by rintro p _ t t' ⟨s, rfl, -⟩ k; exact ⟨t', rfl, k⟩)

theorem tryMem_rel {m : M Sim α} (hm : Rel (SimRel a a') m) : Rel (PlatRel a a') (tryMem m) := by
  rintro p _ ⟨s, rfl, hr⟩
  unfold tryMem
  simp only
  rcases (hm _ _ hr).split with ⟨v, t, t', e1, e2, hk⟩ | ⟨e, t, t', e1, e2, hk⟩ | ⟨r, e1, e2⟩
  · rw [e1, e2]; exact ⟨rfl, t', rfl, hk⟩
  · rw [e1, e2]; exact ⟨rfl, t', rfl, hk⟩
  · rw [e1, e2]; rfl

theorem platModify_rel {g : Plat → Plat} (h1 : ∀ p s, g { p with mem := s } = { g p with mem := s }) (h2 : ∀ p, (g p).mem = p.mem) :
    Rel (PlatRel a a') (M.modify g) :=
  Rel.modify (by rintro p _ ⟨s, rfl, hr⟩; exact ⟨s, h1 p s, by rw [h2]; exact hr⟩)

theorem fault_rel : Rel (PlatRel a a') countFault := by
  rintro p _ ⟨s, rfl, hr⟩
  unfold countFault
  simp only
  split
  · exact ⟨rfl, s, rfl, hr⟩
  · rfl

theorem memRead_rel (w : Width) (x : U32) : Rel (PlatRel a a') (memRead w x) := by
  refine Rel.bind (tryMem_rel (read_rel _ _)) fun o => ?_
  cases o with
  | some v => exact Rel.pure _
  | none => exact Rel.bind fault_rel fun _ => Rel.pure _

theorem memWrite_rel (w : Width) (x : U32) (v : BitVec w.bits) : Rel (PlatRel a a') (memWrite w x v) := by
  refine Rel.bind (tryMem_rel (write_rel _ _ _)) fun o => ?_
  cases o with
  | some v => exact Rel.pure _
  | none => exact fault_rel

theorem say_rel (t : Str) : Rel (PlatRel a a') (say t) := platModify_rel (fun _ _ => rfl) fun _ => rfl
theorem sayIf_rel (v b : U32) (t : Str) : Rel (PlatRel a a') (sayIf v b t) := Rel.ite (say_rel _) (Rel.pure _)
theorem tryRead_rel (x : U32) : Rel (PlatRel a a') (tryRead x) := tryMem_rel (read_rel _ _)
theorem sayAddress_rel (v x : U32) : Rel (PlatRel a a') (sayAddress v x) := by
  refine Rel.ite (Rel.bind (tryRead_rel _) fun o => ?_) (Rel.pure _)
  cases o with
  | none => exact Rel.pure _
  | some y => exact Rel.bind (say_rel _) fun _ => say_rel _

theorem memFault_rel : Rel (PlatRel a a') displayMemFault := by
  refine Rel.bind (tryRead_rel _) fun o => ?_
  cases o with
  | none => exact Rel.pure _
  | some v =>
    exact Rel.ite (Rel.pure _) <| Rel.bind (say_rel _) fun _ => Rel.bind (say_rel _) fun _ => Rel.bind (say_rel _) fun _ => Rel.bind (sayAddress_rel _ _) fun _ =>
      Rel.bind (sayIf_rel _ _ _) fun _ => Rel.bind (sayIf_rel _ _ _) fun _ => Rel.bind (sayIf_rel _ _ _) fun _ => Rel.bind (sayIf_rel _ _ _) fun _ => sayIf_rel _ _ _

theorem busFault_rel : Rel (PlatRel a a') displayBusFault := by
  refine Rel.bind (tryRead_rel _) fun o => ?_
  cases o with
  | none => exact Rel.pure _
  | some v =>
    exact Rel.ite (Rel.pure _) <| Rel.bind (say_rel _) fun _ => Rel.bind (say_rel _) fun _ => Rel.bind (say_rel _) fun _ => Rel.bind (sayAddress_rel _ _) fun _ =>
      Rel.bind (sayIf_rel _ _ _) fun _ => Rel.bind (sayIf_rel _ _ _) fun _ => Rel.bind (sayIf_rel _ _ _) fun _ => Rel.bind (sayIf_rel _ _ _) fun _ =>
      Rel.bind (sayIf_rel _ _ _) fun _ => sayIf_rel _ _ _

theorem usageFault_rel : Rel (PlatRel a a') displayUsageFault := by
  refine Rel.bind (tryRead_rel _) fun o => ?_
  cases o with
  | none => exact Rel.pure _
  | some v =>
    exact Rel.ite (Rel.pure _) <| Rel.bind (say_rel _) fun _ => Rel.bind (say_rel _) fun _ => Rel.bind (say_rel _) fun _ =>
      Rel.bind (sayIf_rel _ _ _) fun _ => Rel.bind (sayIf_rel _ _ _) fun _ => Rel.bind (sayIf_rel _ _ _) fun _ => Rel.bind (sayIf_rel _ _ _) fun _ =>
      Rel.bind (sayIf_rel _ _ _) fun _ => sayIf_rel _ _ _

theorem hardFault_rel : Rel (PlatRel a a') displayHardFault := by
  refine Rel.bind (say_rel _) fun _ => Rel.bind (tryRead_rel _) fun o => ?_
  cases o with
  | none => exact Rel.pure _
  | some v =>
    exact Rel.bind (say_rel _) fun _ => Rel.bind (say_rel _) fun _ => Rel.bind (sayIf_rel _ _ _) fun _ => Rel.bind (sayIf_rel _ _ _) fun _ =>
      Rel.ite (Rel.bind (say_rel _) fun _ => Rel.bind memFault_rel fun _ => Rel.bind busFault_rel fun _ => usageFault_rel) (Rel.pure _)

theorem number_rel : Rel (PlatRel a a') exceptionNumber := Rel.get (by rintro p _ ⟨s, rfl, -⟩; rfl) fun _ => Rel.pure _

theorem displayFault_rel : Rel (PlatRel a a') displayFaultCause :=
  Rel.bind number_rel fun _ => Rel.ite (Rel.bind hardFault_rel fun _ => say_rel _) (Rel.ite (Rel.bind memFault_rel fun _ => say_rel _)
    (Rel.ite (Rel.bind busFault_rel fun _ => say_rel _) (Rel.ite (Rel.bind usageFault_rel fun _ => say_rel _) (Rel.pure _))))

theorem regAt_rel (i : Nat) : Rel (PlatRel a a') (regAt i) := by
  rintro p _ ⟨s, rfl, hr⟩
  unfold regAt
  simp only
  cases p.ctx.r[i]? with
  | none => rfl
  | some v => exact ⟨rfl, s, rfl, hr⟩

theorem readBytesP_rel {store : List U32 → Plat → Plat} (h1 : ∀ ws p s, store ws { p with mem := s } = { store ws p with mem := s })
    (h2 : ∀ ws p, (store ws p).mem = p.mem) (ws : List U32) (n : Nat) (acc : Str) : Rel (PlatRel a a') (readBytesFromBufferAsHex store ws n acc) := by
  induction n generalizing acc with
  | zero => exact Rel.pure _
  | succ n ih => exact Rel.bind (onBuf_rel _) fun b => Rel.bind (platModify_rel (h1 _) (h2 _)) fun _ => ih _

theorem copyFrom_rel : Rel (PlatRel a a') copyContextFromBuffer :=
  Rel.get (by rintro p _ ⟨s, rfl, -⟩; rfl) fun p => Rel.bind (readBytesP_rel (store := storeR) (fun _ _ _ => rfl) (fun _ _ => rfl) _ _ _) fun _ =>
    Rel.ite (readBytesP_rel (store := storeFPR) (fun _ _ _ => rfl) (fun _ _ => rfl) _ _ _) (Rel.pure _)

variable (ha : ∀ k, a'.fails (a'.next + k) = a.fails (a.next + k))
include ha

theorem realloc_rel (b : Bool) : Rel (SimRel a a') (realloc b) := by
  rintro s _ ⟨h, rfl, hr⟩
  have hf := fails_same ha hr
  obtain ⟨k, e1, e2⟩ := hr.next
  unfold realloc
  simp only [hf]
  by_cases hc : s.heap.fails s.heap.next = true
  · rw [if_pos hc, if_pos hc]
    exact ⟨rfl, _, rfl, hr.fails, hr.fails', ⟨k + 1, by simp only [e1]; omega, by simp only [e2]; omega⟩, hr.live⟩
  · rw [if_neg hc, if_neg hc]
    exact ⟨rfl, _, rfl, hr.fails, hr.fails', ⟨k + 1, by simp only [e1]; omega, by simp only [e2]; omega⟩, by have := hr.live; simp only; omega⟩

theorem xml_rel : Rel (SimRel a a') getMemoryMapXML := by
  unfold getMemoryMapXML
  refine Rel.get (by rintro s _ ⟨h, rfl, hr⟩; rfl) fun s => ?_
  simp only
  refine Rel.bind (realloc_rel ha _) fun b => ?_
  split
  · split
    · exact Rel.ub _
    · split
      · exact Rel.ub _
      · split
        · exact Rel.ub _
        · exact Rel.bind (keeps_rel (fun _ _ => rfl) fun _ => rfl) fun _ => Rel.pure _
  · exact Rel.throw _ _

theorem call_rel (c : PCall) : Rel (PlatRel a a') c.run := by
  cases c with
  | init => exact platModify_rel (fun _ _ => rfl) fun _ => rfl
  | memRead w x => exact Rel.bind (memRead_rel _ _) fun _ => Rel.pure _
  | memWrite w x v => exact memWrite_rel _ _ _
  | copyFrom => exact copyFrom_rel
  | wasFault =>
    exact Rel.bind (Rel.get (by rintro p _ ⟨s, rfl, -⟩; rfl) fun _ => Rel.bind (platModify_rel (fun _ _ => rfl) fun _ => rfl) fun _ => Rel.pure _) fun _ => Rel.pure _
  | setWait b => exact platModify_rel (fun _ _ => rfl) fun _ => rfl
  | commHasData =>
    exact Rel.bind (Rel.bind (onComm_rel _) fun _ => Rel.bind (platModify_rel (fun _ _ => rfl) fun _ => rfl) fun _ => Rel.pure _) fun _ => Rel.pure _
  | commReceive => exact Rel.bind (onComm_rel _) fun _ => Rel.pure _
  | commSend c => exact onComm_rel _
  | commShouldWait => exact Rel.bind (Rel.get (by rintro p _ ⟨s, rfl, -⟩; rfl) fun _ => Rel.pure _) fun _ => Rel.pure _
  | commIsWaiting =>
    exact Rel.bind (Rel.get (by rintro p _ ⟨s, rfl, -⟩; rfl) fun p => Rel.bind (onComm_rel _) fun _ => Rel.bind (platModify_rel
      (fun q s => by cases p.comm.connected <;> rfl) fun q => by cases p.comm.connected <;> rfl) fun _ => Rel.pure _) fun _ => Rel.pure _
  | cause =>
    exact Rel.bind (Rel.bind number_rel fun n => Rel.ite (Rel.pure _) (Rel.ite (Rel.pure _) (Rel.ite (Rel.pure _) (Rel.ite (Rel.pure _)
      (Rel.ite (Rel.pure _) (Rel.ite (Rel.pure _) (Rel.pure _))))))) fun _ => Rel.pure _
  | displayFault => exact displayFault_rel
  | writeT =>
    exact Rel.bind (regAt_rel _) fun _ => Rel.bind (onBuf_rel _) fun _ => Rel.bind (regAt_rel _) fun _ => Rel.bind (onBuf_rel _) fun _ =>
      Rel.bind (regAt_rel _) fun _ => Rel.bind (onBuf_rel _) fun _ => Rel.bind (regAt_rel _) fun _ => onBuf_rel _
  | copyTo => exact Rel.get (by rintro p _ ⟨s, rfl, -⟩; rfl) fun p => Rel.bind (onBuf_rel _) fun _ => Rel.ite (onBuf_rel _) (Rel.pure _)
  | mapXml => exact Rel.bind (onMemP_rel (xml_rel ha)) fun _ => Rel.pure _
  | mapXmlSize => exact Rel.bind (Rel.bind (onMemP_rel (xml_rel ha)) fun _ => Rel.pure _) fun _ => Rel.pure _
  | targetXml => exact Rel.bind (Rel.get (by rintro p _ ⟨s, rfl, -⟩; rfl) fun _ => Rel.ite (Rel.pure _) (Rel.pure _)) fun _ => Rel.pure _
  | targetXmlSize => exact Rel.bind (Rel.get (by rintro p _ ⟨s, rfl, -⟩; rfl) fun _ => Rel.ite (Rel.pure _) (Rel.pure _)) fun _ => Rel.pure _
  | commCaused => exact Rel.bind (Rel.pure _) fun _ => Rel.pure _
  | commSharing => exact Rel.bind (Rel.pure _) fun _ => Rel.pure _
  | isStepping => exact Rel.bind (Rel.pure _) fun _ => Rel.pure _
  | pcModified => exact Rel.bind (Rel.pure _) fun _ => Rel.pure _
  | semihostParameters => exact Rel.bind (Rel.pure _) fun _ => Rel.pure _
  | isSemihost => exact Rel.bind (Rel.pure _) fun _ => Rel.pure _
  | handleSemihost => exact Rel.bind (Rel.pure _) fun _ => Rel.pure _
  | _ => exact Rel.pure _

theorem step_rel {c : PCall} {p p1 p' : Plat} (h : PStep c p p1) (hr : PlatRel a a' p p') : ∃ p1', PStep c p' p1' ∧ PlatRel a a' p1 p1' := by
  rcases (call_rel ha c p p' hr).split with ⟨v, t, t', e1, e2, hk⟩ | ⟨e, t, t', e1, e2, hk⟩ | ⟨r, e1, e2⟩
  · rcases h with h | ⟨e, h⟩
    · rw [e1] at h; cases h; exact ⟨t', .inl e2, hk⟩
    · rw [e1] at h; cases h
  · rcases h with h | ⟨e, h⟩
    · rw [e1] at h; cases h
    · rw [e1] at h; cases h; exact ⟨t', .inr ⟨_, e2⟩, hk⟩
  · rcases h with h | ⟨e, h⟩
    · rw [e1] at h; cases h
    · rw [e1] at h; cases h

theorem hist_rel {cs : List PCall} {p q p' : Plat} (h : PHist p cs q) (hr : PlatRel a a' p p') : ∃ q', PHist p' cs q' ∧ PlatRel a a' q q' := by
  induction h generalizing p' with
  | nil => exact ⟨p', .nil _, hr⟩
  | cons h _ ih =>
    obtain ⟨p1', h1, hr1⟩ := step_rel ha h hr
    obtain ⟨q', h2, hr2⟩ := ih hr1
    exact ⟨q', .cons h1 h2, hr2⟩
  | packet b c _ ih =>
    obtain ⟨s, rfl, hs⟩ := hr
    obtain ⟨q', h2, hr2⟩ := ih ⟨s, rfl, hs⟩
    exact ⟨q', .packet b c h2, hr2⟩
end Plat

/-- Debugging does not change which allocations fail. -/
theorem hist_fails {cs : List PCall} {p q : Plat} (h : PHist p cs q) : q.mem.heap.fails = p.mem.heap.fails := by
  obtain ⟨q', -, s, -, h, -, hr⟩ := hist_rel (a := p.mem.heap) (a' := p.mem.heap) (fun _ => rfl) h ⟨p.mem, rfl, p.mem.heap, rfl, heapRel_refl _ _⟩
  exact hr.fails

/-- If start-up succeeds in one, it succeeds in the other. -/
theorem startUp_both {p p' q : Prog} (hx : SameAhead p p') {args : List Str} (h : startUp args p = .ok () q) :
    ∃ q', startUp args p' = .ok () q' ∧ ProgRel p p' q q' := by
  rcases split_args args with ⟨os, hs⟩ | ⟨pre, os, rest, m, rfl, hs, hst⟩
  · cases hn : imageFile os with
    | none => rw [startUp_noImage hs hn] at h; cases h
    | some n =>
      cases hd : lastDump os with
      | none => rw [startUp_noDump hs hn hd] at h; cases h
      | some d =>
        rw [startUp_full hs hn hd] at h ⊢
        rcases (stages_rel hx (aliases os) _ _ (begin_rel os p p')).split with
          ⟨_, q, q', e1, e2, hk⟩ | ⟨e, q, q', e1, e2, hk⟩ | ⟨r, e1, e2⟩
        · rw [e1] at h; cases h; rw [e2]; exact ⟨q', rfl, hk⟩
        · rw [e1] at h; cases h
        · rw [e1] at h; cases h
  · rw [startUp_stuck hs hst] at h; cases h

theorem platform_rel {x x' p p' : Prog} (h : ProgRel x x' p p') (w : World) :
    PlatRel x.host.mem.heap x'.host.mem.heap (platform w p) (platform w p') := by
  obtain ⟨h, e, rfl, ⟨s, f, rfl, h1, -⟩, -⟩ := h
  exact ⟨s, rfl, h1⟩

theorem session_of {a a' : Heap} {p p' : Plat} (h : PlatRel a a' p p') : SameSession p p' := by
  obtain ⟨s, rfl, g, rfl, -⟩ := h
  exact ⟨rfl, rfl, rfl, rfl, rfl, rfl, rfl, rfl, rfl, rfl⟩

/-- Nothing that a process does with CrashDebug changes what the world outside answers. -/
theorem used_world {p q : Prog} (h : Used p q) : q.host.files.opens = p.host.files.opens ∧ q.host.mem.heap.fails = p.host.mem.heap.fails := by
  induction h with
  | fresh => exact ⟨rfl, rfl⟩
  | started args _ h ih => obtain ⟨h1, h2⟩ := startUp_world (.inl h); exact ⟨h1.trans ih.1, h2.trans ih.2⟩
  | refused args _ h ih => obtain ⟨h1, h2⟩ := startUp_world (.inr ⟨_, h⟩); exact ⟨h1.trans ih.1, h2.trans ih.2⟩
  | debugged w _ h _ ih => exact ⟨ih.1, (hist_fails h).trans ih.2⟩
  | @released q q' _ h ih =>
    unfold CommandLine.uninit CommandLine.uninitMemory at h
    rw [M.bind_apply] at h
    simp only [M.get_apply] at h
    split at h
    · cases h; exact ih
    · cases h; exact ih

end Verif.Again
