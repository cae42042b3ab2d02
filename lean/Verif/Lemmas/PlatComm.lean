import Verif.Lemmas.PlatHist
import Verif.Spec.Comm
/-
Lemmas about what platform calls do to the channel to GDB.
-/
namespace Verif.Platform
open Verif MemSim Spec

/-- However the code ends, the channel is as it was, and so is the setting whether to wait for GDB. -/
structure Quiet (m : M Plat α) : Prop where
  keeps : Keeps (fun p q => q.comm = p.comm ∧ q.wait = p.wait) m

theorem Quiet.bind {m : M Plat α} {f : α → M Plat β} (h : Quiet m) (h' : ∀ a, Quiet (f a)) : Quiet (m >>= f) := by
  constructor
  intro p q hq
  rw [M.bind_apply] at hq
  cases e : m p with
  | ok a s =>
    rw [e] at hq
    have h1 := h.keeps p s (.inl ⟨a, e⟩)
    have h2 := (h' a).keeps s q hq
    exact ⟨h2.1.trans h1.1, h2.2.trans h1.2⟩
  | throw x s => rw [e] at hq; have := ends_throw hq; subst this; exact h.keeps p _ (.inr ⟨x, e⟩)
  | ub r => rw [e] at hq; exact (ends_ub hq).elim

theorem Quiet.pure (a : α) : Quiet (pure a) := ⟨by intro p q hq; cases ends_ok hq; exact ⟨rfl, rfl⟩⟩

theorem Quiet.modify {f : Plat → Plat} (h : ∀ p, (f p).comm = p.comm ∧ (f p).wait = p.wait) : Quiet (M.modify f) :=
  ⟨by intro p q hq; cases ends_ok hq; exact h p⟩

theorem Quiet.get {f : Plat → M Plat β} (h : ∀ a, Quiet (f a)) : Quiet (M.get >>= f) :=
  .bind ⟨by intro p q hq; cases ends_ok hq; exact ⟨rfl, rfl⟩⟩ h

theorem Quiet.ite {c : Prop} [Decidable c] {m m' : M Plat α} (h : Quiet m) (h' : Quiet m') : Quiet (if c then m else m') := by
  split
  · exact h
  · exact h'

theorem Quiet.onBuf (m : M Buf α) : Quiet (onBuf m) := by
  constructor
  intro p q hq
  unfold Platform.onBuf at hq
  rw [M.zoom_apply] at hq
  cases e : m p.buf <;> rw [e] at hq
  · cases ends_ok hq; exact ⟨rfl, rfl⟩
  · cases ends_throw hq; exact ⟨rfl, rfl⟩
  · exact (ends_ub hq).elim

theorem Quiet.onMem (m : M Sim α) : Quiet (onMem m) := by
  constructor
  intro p q hq
  unfold Platform.onMem at hq
  rw [M.zoom_apply] at hq
  cases e : m p.mem <;> rw [e] at hq
  · cases ends_ok hq; exact ⟨rfl, rfl⟩
  · cases ends_throw hq; exact ⟨rfl, rfl⟩
  · exact (ends_ub hq).elim

theorem Quiet.tryMem (m : M Sim α) : Quiet (tryMem m) := by
  constructor
  intro p q hq
  unfold Platform.tryMem at hq
  cases e : m p.mem <;> simp only [e] at hq
  · cases ends_ok hq; exact ⟨rfl, rfl⟩
  · cases ends_ok hq; exact ⟨rfl, rfl⟩
  · exact (ends_ub hq).elim

theorem Quiet.countFault : Quiet countFault := by
  constructor
  intro p q hq
  unfold Platform.countFault at hq
  split at hq
  · cases ends_ok hq; exact ⟨rfl, rfl⟩
  · exact (ends_ub hq).elim

theorem Quiet.regAt (i : Nat) : Quiet (regAt i) := by
  constructor
  intro p q hq
  unfold Platform.regAt at hq
  cases e : p.ctx.r[i]? <;> simp only [e] at hq
  · exact (ends_ub hq).elim
  · cases ends_ok hq; exact ⟨rfl, rfl⟩

theorem Quiet.say (t : Str) : Quiet (say t) := .modify fun _ => ⟨rfl, rfl⟩
theorem Quiet.sayIf (v b : U32) (t : Str) : Quiet (sayIf v b t) := .ite (.say _) (.pure _)
theorem Quiet.sayAddress (v a : U32) : Quiet (sayAddress v a) := by
  unfold Platform.sayAddress
  refine .ite (.bind (.tryMem _) fun o => ?_) (.pure _)
  cases o
  · exact .pure _
  · exact .bind (.say _) fun _ => .say _

theorem Quiet.mem : Quiet displayMemFault := by
  unfold displayMemFault
  refine .bind (.tryMem _) fun o => ?_
  cases o with
  | none => exact .pure _
  | some v =>
    refine .ite (.pure _) ?_
    exact .bind (.say _) fun _ => .bind (.say _) fun _ => .bind (.say _) fun _ => .bind (.sayAddress _ _) fun _ =>
      .bind (.sayIf _ _ _) fun _ => .bind (.sayIf _ _ _) fun _ => .bind (.sayIf _ _ _) fun _ => .bind (.sayIf _ _ _) fun _ =>
      .sayIf _ _ _

theorem Quiet.bus : Quiet displayBusFault := by
  unfold displayBusFault
  refine .bind (.tryMem _) fun o => ?_
  cases o with
  | none => exact .pure _
  | some v =>
    refine .ite (.pure _) ?_
    exact .bind (.say _) fun _ => .bind (.say _) fun _ => .bind (.say _) fun _ => .bind (.sayAddress _ _) fun _ =>
      .bind (.sayIf _ _ _) fun _ => .bind (.sayIf _ _ _) fun _ => .bind (.sayIf _ _ _) fun _ => .bind (.sayIf _ _ _) fun _ =>
      .bind (.sayIf _ _ _) fun _ => .sayIf _ _ _

theorem Quiet.usage : Quiet displayUsageFault := by
  unfold displayUsageFault
  refine .bind (.tryMem _) fun o => ?_
  cases o with
  | none => exact .pure _
  | some v =>
    refine .ite (.pure _) ?_
    exact .bind (.say _) fun _ => .bind (.say _) fun _ => .bind (.say _) fun _ =>
      .bind (.sayIf _ _ _) fun _ => .bind (.sayIf _ _ _) fun _ => .bind (.sayIf _ _ _) fun _ => .bind (.sayIf _ _ _) fun _ =>
      .bind (.sayIf _ _ _) fun _ => .sayIf _ _ _

theorem Quiet.hard : Quiet displayHardFault := by
  unfold displayHardFault
  refine .bind (.say _) fun _ => .bind (.tryMem _) fun o => ?_
  cases o with
  | none => exact .pure _
  | some v =>
    exact .bind (.say _) fun _ => .bind (.say _) fun _ => .bind (.sayIf _ _ _) fun _ => .bind (.sayIf _ _ _) fun _ =>
      .ite (.bind (.say _) fun _ => .bind .mem fun _ => .bind .bus fun _ => .usage) (.pure _)

theorem Quiet.exceptionNumber : Quiet exceptionNumber := .get fun _ => .pure _

theorem Quiet.displayFault : Quiet displayFaultCause := by
  unfold displayFaultCause
  refine .bind .exceptionNumber fun n => ?_
  exact .ite (.bind .hard fun _ => .say _) (.ite (.bind .mem fun _ => .say _) (.ite (.bind .bus fun _ => .say _)
    (.ite (.bind .usage fun _ => .say _) (.pure _))))

/-- The calls that use the channel, and the one that sets whether to wait for GDB. -/
def loudCall : PCall → Bool
  | .commHasData => true
  | .commReceive => true
  | .commSend _ => true
  | .commIsWaiting => true
  | .setWait _ => true
  | _ => false

theorem quiet_run {c : PCall} (h : loudCall c = false) : Quiet c.run := by
  cases c with
  | setWait b => cases h
  | commHasData => cases h
  | commReceive => cases h
  | commSend c => cases h
  | commIsWaiting => cases h
  | init => exact .modify fun _ => ⟨rfl, rfl⟩
  | memRead w a =>
    refine .bind (.bind (.tryMem _) fun o => ?_) fun _ => .pure _
    cases o
    · exact .bind .countFault fun _ => .pure _
    · exact .pure _
  | memWrite w a v =>
    refine .bind (.tryMem _) fun o => ?_
    cases o
    · exact .countFault
    · exact .pure _
  | copyFrom =>
    exact ⟨copyFrom_ends (fun _ => ⟨rfl, rfl⟩) (fun _ _ _ h h' => ⟨h'.1.trans h.1, h'.2.trans h.2⟩) (fun _ _ => ⟨rfl, rfl⟩)
      (fun _ _ => ⟨rfl, rfl⟩) fun _ _ => ⟨rfl, rfl⟩⟩
  | wasFault => exact .bind (.get fun _ => .bind (.modify fun _ => ⟨rfl, rfl⟩) fun _ => .pure _) fun _ => .pure _
  | commShouldWait => exact .bind (.get fun _ => .pure _) fun _ => .pure _
  | cause =>
    refine .bind ?_ fun _ => .pure _
    unfold determineCauseOfException
    refine .bind .exceptionNumber fun n => ?_
    exact .ite (.pure _) (.ite (.pure _) (.ite (.pure _) (.ite (.pure _) (.ite (.pure _) (.ite (.pure _) (.pure _))))))
  | displayFault => exact .displayFault
  | writeT =>
    exact .bind (.regAt _) fun _ => .bind (.onBuf _) fun _ => .bind (.regAt _) fun _ => .bind (.onBuf _) fun _ =>
      .bind (.regAt _) fun _ => .bind (.onBuf _) fun _ => .bind (.regAt _) fun _ => .onBuf _
  | copyTo => exact .get fun p => .bind (.onBuf _) fun _ => .ite (.onBuf _) (.pure _)
  | mapXml => exact .bind (.onMem _) fun _ => .pure _
  | mapXmlSize => exact .bind (.bind (.onMem _) fun _ => .pure _) fun _ => .pure _
  | targetXml => exact .bind (.get fun _ => .ite (.pure _) (.pure _)) fun _ => .pure _
  | targetXmlSize => exact .bind (.get fun _ => .ite (.pure _) (.pure _)) fun _ => .pure _
  | commCaused => exact .bind (.pure _) fun _ => .pure _
  | commSharing => exact .bind (.pure _) fun _ => .pure _
  | isStepping => exact .bind (.pure _) fun _ => .pure _
  | pcModified => exact .bind (.pure _) fun _ => .pure _
  | semihostParameters => exact .bind (.pure _) fun _ => .pure _
  | isSemihost => exact .bind (.pure _) fun _ => .pure _
  | handleSemihost => exact .bind (.pure _) fun _ => .pure _
  | _ => exact .pure _

/-! ### The calls that use the channel -/

theorem hasData_raw (c : Comm.Comm) : Comm.hasReceiveData c = .ok (readable c) { c with polls := c.polls + 1 } := by
  unfold Comm.hasReceiveData M.tryCatch Comm.hasStdInDataToRead readable
  cases c.poll c.polls with
  | none => rfl
  | some b => cases b <;> rfl

theorem connected_raw (c : Comm.Comm) :
    Comm.isGdbConnected c = if c.connected then .ok true c else .ok (readable c) { c with polls := c.polls + 1 } := by
  change (if c.connected = true then (pure true : M Comm.Comm Bool) else Comm.hasReceiveData) c = _
  by_cases h : c.connected = true
  · rw [if_pos h, if_pos h]; rfl
  · rw [if_neg h, if_neg h]; exact hasData_raw c

theorem plat_hasData (p : Plat) :
    commHasReceiveData p = .ok (readable p.comm) { p with comm := { p.comm with polls := p.comm.polls + 1 }, code := none } := by
  unfold commHasReceiveData onComm
  rw [M.bind_apply, M.zoom_apply, hasData_raw]
  rfl

theorem plat_isWaiting (p : Plat) :
    commIsWaitingForGdbToConnect p =
      if p.comm.connected then .ok false p
      else .ok (!readable p.comm) { p with comm := { p.comm with polls := p.comm.polls + 1 }, code := none } := by
  unfold commIsWaitingForGdbToConnect onComm
  simp only [M.bind_apply, M.get_apply, M.zoom_apply, connected_raw]
  cases h : p.comm.connected <;> rfl

theorem plat_receive (p : Plat) :
    commReceiveChar p = match expected (p.comm.input p.comm.reads) with
      | some v => .ok v { p with comm := { p.comm with reads := p.comm.reads + 1, connected := true } }
      | none => .throw ⟨.file, []⟩ { p with comm := { p.comm with reads := p.comm.reads + 1 } } := by
  unfold commReceiveChar onComm Comm.receiveChar
  rw [M.zoom_apply, M.bind_apply]
  unfold Comm.readStdIn
  cases e : p.comm.input p.comm.reads with
  | error => rfl
  | eof => rfl
  | byte b =>
    have : b.toInt = if b.toNat < 128 then (b.toNat : Int) else (b.toNat : Int) - 256 := by
      rw [BitVec.toInt_eq_toNat_cond]
      by_cases h : b.toNat < 128
      · rw [if_pos (by omega), if_pos h]
      · rw [if_neg (by omega), if_neg h]; rfl
    simp only [expected, this]
    rfl

theorem plat_send (v : Int) (p : Plat) :
    commSendChar v p =
      if p.comm.fails p.comm.writes then .throw ⟨.file, []⟩ { p with comm := { p.comm with writes := p.comm.writes + 1 } }
      else .ok () { p with comm := { p.comm with writes := p.comm.writes + 1, sent := p.comm.sent ++ [BitVec.ofInt 8 v] } } := by
  unfold commSendChar onComm
  rw [M.zoom_apply]
  unfold Comm.sendChar Comm.writeStdOut
  cases h : p.comm.fails p.comm.writes <;> simp

end Verif.Platform
