import Verif.Spec.Pending
import Verif.Lemmas.PlatHist
import Verif.Props.Platform
import Verif.Model.Main
/-
C64 in terms of the platform's calls: which error is left pending after a sequence of calls.
-/
namespace Verif.Props
open Verif MemSim Spec Platform

/-- The exception code is the same. -/
def SameCode (p q : Plat) : Prop := q.code = p.code

theorem code_bind {m : M Plat α} {f : α → M Plat β} (h : Keeps SameCode m) (h' : ∀ a, Keeps SameCode (f a)) :
    Keeps SameCode (m >>= f) := by
  intro p q hq
  rw [M.bind_apply] at hq
  cases e : m p with
  | ok a s => rw [e] at hq; exact (h' a s q hq).trans (h p s (.inl ⟨a, e⟩))
  | throw x s => rw [e] at hq; have := ends_throw hq; subst this; exact h p _ (.inr ⟨x, e⟩)
  | ub r => rw [e] at hq; exact (ends_ub hq).elim

theorem code_pure (a : α) : Keeps SameCode (pure a) := by
  intro p q hq; cases ends_ok hq; rfl

theorem code_modify {f : Plat → Plat} (h : ∀ p, (f p).code = p.code) : Keeps SameCode (M.modify f) := by
  intro p q hq; cases ends_ok hq; exact h p

theorem code_get {f : Plat → M Plat β} (h : ∀ a, Keeps SameCode (f a)) : Keeps SameCode (M.get >>= f) :=
  code_bind (by intro p q hq; cases ends_ok hq; rfl) h

theorem code_ite {c : Prop} [Decidable c] {m m' : M Plat α} (h : Keeps SameCode m) (h' : Keeps SameCode m') :
    Keeps SameCode (if c then m else m') := by
  split
  · exact h
  · exact h'

theorem code_zoom {τ : Type} {proj : Plat → τ} {put : τ → Plat → Plat} (hp : ∀ t p, (put t p).code = p.code) (m : M τ α) :
    Keeps SameCode (M.zoom proj put m) := by
  intro p q hq
  rw [M.zoom_apply] at hq
  cases e : m (proj p) with
  | ok v s => rw [e] at hq; cases ends_ok hq; exact hp _ _
  | throw x s => rw [e] at hq; cases ends_throw hq; exact hp _ _
  | ub r => rw [e] at hq; exact (ends_ub hq).elim

theorem code_comm (m : M Comm.Comm α) : Keeps SameCode (onComm m) := by unfold onComm; refine code_zoom ?_ m; intro _ _; rfl
theorem code_buf (m : M Buf α) : Keeps SameCode (onBuf m) := by unfold onBuf; refine code_zoom ?_ m; intro _ _; rfl
theorem code_mem (m : M Sim α) : Keeps SameCode (onMem m) := by unfold onMem; refine code_zoom ?_ m; intro _ _; rfl

theorem code_regAt (i : Nat) : Keeps SameCode (regAt i) := by
  intro p q hq
  unfold regAt at hq
  split at hq
  · cases ends_ok hq; rfl
  · exact (ends_ub hq).elim

/-- Calls that try nothing leave the exception code as it is. -/
theorem untried_keeps {c : PCall} (h : Tries c = false) : Keeps SameCode c.run := by
  cases c with
  | memRead => cases h
  | memWrite => cases h
  | displayFault => cases h
  | commHasData => cases h
  | commIsWaiting => cases h
  | init => exact code_modify fun _ => rfl
  | setWait b => exact code_modify fun _ => rfl
  | commReceive => exact code_bind (code_comm _) fun _ => code_pure _
  | commSend c => exact code_comm _
  | commShouldWait => exact code_bind (code_get fun _ => code_pure _) fun _ => code_pure _
  | cause =>
    refine code_bind ?_ fun _ => code_pure _
    unfold determineCauseOfException
    refine code_bind (code_get fun _ => code_pure _) fun n => ?_
    exact code_ite (code_pure _) (code_ite (code_pure _) (code_ite (code_pure _) (code_ite (code_pure _)
      (code_ite (code_pure _) (code_ite (code_pure _) (code_pure _))))))
  | writeT =>
    exact code_bind (code_regAt _) fun _ => code_bind (code_buf _) fun _ => code_bind (code_regAt _) fun _ =>
      code_bind (code_buf _) fun _ => code_bind (code_regAt _) fun _ => code_bind (code_buf _) fun _ =>
      code_bind (code_regAt _) fun _ => code_buf _
  | copyTo => exact code_get fun p => code_bind (code_buf _) fun _ => code_ite (code_buf _) (code_pure _)
  | copyFrom =>
    exact copyFrom_ends (R := SameCode) (fun _ => rfl) (fun _ _ _ h h' => h'.trans h) (fun _ _ => rfl) (fun _ _ => rfl) (fun _ _ => rfl)
  | wasFault => exact code_bind (code_get fun _ => code_bind (code_modify fun _ => rfl) fun _ => code_pure _) fun _ => code_pure _
  | mapXml => exact code_bind (code_mem _) fun _ => code_pure _
  | mapXmlSize => exact code_bind (code_bind (code_mem _) fun _ => code_pure _) fun _ => code_pure _
  | targetXml => exact code_bind (code_get fun _ => code_ite (code_pure _) (code_pure _)) fun _ => code_pure _
  | targetXmlSize => exact code_bind (code_get fun _ => code_ite (code_pure _) (code_pure _)) fun _ => code_pure _
  | commCaused => exact code_bind (code_pure _) fun _ => code_pure _
  | commSharing => exact code_bind (code_pure _) fun _ => code_pure _
  | isStepping => exact code_bind (code_pure _) fun _ => code_pure _
  | pcModified => exact code_bind (code_pure _) fun _ => code_pure _
  | semihostParameters => exact code_bind (code_pure _) fun _ => code_pure _
  | isSemihost => exact code_bind (code_pure _) fun _ => code_pure _
  | handleSemihost => exact code_bind (code_pure _) fun _ => code_pure _
  | _ => exact code_pure _

theorem straight_keeps {p q : Plat} {cs : List PCall} (h : Straight p cs q) (hc : ∀ c ∈ cs, Tries c = false) : q.code = p.code := by
  induction h with
  | nil => rfl
  | cons h t ih =>
    exact (ih fun c hx => hc c (.tail _ hx)).trans (untried_keeps (hc _ (.head _)) _ _ (step_ends h))

/-- A memory access that returns does so normally, and leaves an error pending exactly if it was refused. -/
theorem access_pending {c : PCall} {p q : Plat} (ha : IsAccess c = true) (h : PStep c p q) :
    c.run p = .ok () q ∧ (q.code ≠ none ↔ Faults c p) := by
  cases c with
  | memRead w a =>
    have hrun : ∀ o, memRead w a p = o → (PCall.memRead w a).run p = (match o with
        | .ok _ s => .ok () s | .throw e s => .throw e s | .ub r => .ub r) := by
      intro o ho
      show (memRead w a >>= fun _ => pure ()) p = _
      rw [M.bind_apply, ho]
      cases o <;> rfl
    cases hr : IMemory.read w a p.mem with
    | ok v s =>
      have e := hrun _ (memRead_ok hr)
      unfold PStep at h
      rw [e] at h ⊢
      rcases h with h | ⟨x, h⟩ <;> cases h
      exact ⟨rfl, by simp [Faults, hr]⟩
    | throw x s =>
      have e := hrun _ (memRead_fault hr)
      unfold PStep at h
      rw [e] at h ⊢
      by_cases hn : p.faults + 1 < 2 ^ 31
      · simp only [if_pos hn] at h ⊢
        rcases h with h | ⟨x, h⟩ <;> cases h
        exact ⟨rfl, by simp [Faults, hr]⟩
      · simp only [if_neg hn] at h
        rcases h with h | ⟨x, h⟩ <;> cases h
    | ub r =>
      have e := hrun _ (memRead_ub hr)
      unfold PStep at h
      rw [e] at h
      rcases h with h | ⟨x, h⟩ <;> cases h
  | memWrite w a v =>
    show memWrite w a v p = _ ∧ _
    change memWrite w a v p = _ ∨ ∃ e, memWrite w a v p = _ at h
    cases hr : IMemory.write w a v p.mem with
    | ok u s =>
      rw [memWrite_ok hr] at h ⊢
      rcases h with h | ⟨x, h⟩ <;> cases h
      exact ⟨rfl, by simp [Faults, hr]⟩
    | throw x s =>
      rw [memWrite_fault hr] at h ⊢
      by_cases hn : p.faults + 1 < 2 ^ 31
      · simp only [if_pos hn] at h ⊢
        rcases h with h | ⟨x, h⟩ <;> cases h
        exact ⟨rfl, by simp [Faults, hr]⟩
      · simp only [if_neg hn] at h
        rcases h with h | ⟨x, h⟩ <;> cases h
    | ub r =>
      rw [memWrite_ub hr] at h
      rcases h with h | ⟨x, h⟩ <;> cases h
  | _ => cases ha

/-- C64, exactly when an error is left pending: after a memory access and any calls that try nothing themselves, an error is
pending if and only if the access was refused, although the access itself returned normally. -/
theorem C64_pending_iff {c : PCall} {cs : List PCall} {p p1 q : Plat} (ha : IsAccess c = true) (h : PStep c p p1)
    (t : Straight p1 cs q) (hc : ∀ d ∈ cs, Tries d = false) : c.run p = .ok () p1 ∧ (q.code ≠ none ↔ Faults c p) := by
  rw [straight_keeps t hc]
  exact access_pending ha h

/-- Looking for input clears a pending error. -/
theorem C64_polling_forgets {p q : Plat} (h : PStep .commHasData p q) : q.code = none := by
  have he := ends_bind_pure (step_ends h)
  change Ends ((onComm Comm.hasReceiveData >>= fun b => M.modify (fun p => { p with code := none }) >>= fun _ => pure b) p) q at he
  rw [M.bind_apply] at he
  unfold onComm at he
  rw [M.zoom_apply] at he
  unfold Comm.hasReceiveData at he
  rw [M.tryCatch_apply] at he
  unfold Comm.hasStdInDataToRead at he
  cases hp : p.comm.poll p.comm.polls with
  | none =>
    rw [hp] at he
    cases ends_ok he
    rfl
  | some b =>
    rw [hp] at he
    cases ends_ok he
    rfl

/-- The demo platform, when no more memory can be allocated. -/
def noHeap : Plat := { platDemo with mem := { platMem with heap := { fails := fun _ => true } } }

/-- C64 fails for the platform: a refused read, and then a request for the memory map for which there is no memory. With the
numbers of include/try_catch.h the handler sees a bus error and not that memory ran out. -/
theorem C64_map_masked_witness : ∃ p1 p2, PStep (.memRead .w32 0xFFFFFFF0) noHeap p1 ∧
    (PCall.mapXml).run p1 = .throw ⟨.outOfMemory, []⟩ p2 ∧
    ∀ w : Main.World, w.number .outOfMemory < w.number .busError → Main.seen w p2.code .outOfMemory = .busError := by
  have hm : IMemory.read .w32 0xFFFFFFF0 noHeap.mem = .throw ⟨.busError, []⟩ noHeap.mem := by rfl
  have h1 : PStep (.memRead .w32 0xFFFFFFF0) noHeap { noHeap with code := some .busError, faults := 1 } := by
    refine .inl ?_
    show (memRead .w32 0xFFFFFFF0 >>= fun _ => pure ()) noHeap = _
    rw [M.bind_apply, memRead_fault hm, if_pos (by decide)]
    rfl
  refine ⟨_, _, h1, rfl, ?_⟩
  intro w hw
  show (if w.number .outOfMemory > w.number .busError then Exc.outOfMemory else .busError) = _
  rw [if_neg (by omega)]

/-- Concrete case: a refused read; then mri asks whether there was a fault and for the signal. -/
example : ∃ p1 q, PStep (.memRead .w32 0xFFFFFFF0) platDemo p1 ∧ Straight p1 [.wasFault, .cause] q ∧
    (∀ d ∈ [PCall.wasFault, .cause], Tries d = false) ∧ Faults (.memRead .w32 0xFFFFFFF0) platDemo := by
  have hm : IMemory.read .w32 0xFFFFFFF0 platDemo.mem = .throw ⟨.busError, []⟩ platDemo.mem := by rfl
  refine ⟨{ platDemo with code := some .busError, faults := 1 }, { platDemo with code := some .busError }, .inl ?_,
    .cons (.inl rfl) (.cons (.inl rfl) (.nil _)), by decide, ⟨_, _, hm⟩⟩
  show (memRead .w32 0xFFFFFFF0 >>= fun _ => pure ()) platDemo = _
  rw [M.bind_apply, memRead_fault hm, if_pos (by decide)]
  rfl

end Verif.Props
