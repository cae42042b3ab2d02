import Verif.Lemmas.PlatHist
import Verif.Lemmas.Sat
import Verif.Lemmas.PlatPacket
import Verif.Lemmas.Xml
/- Platform calls have a defined outcome and keep the state consistent. -/
namespace Verif.Platform
open Verif MemSim Spec

/-- Consistent memory, nothing watched, complete registers. -/
structure OK (p : Plat) : Prop where
  sound : Sound p.mem
  quiet : Unwatched p.mem
  regs : RegsWF p.ctx

/-- The code has a defined outcome and keeps the state consistent. -/
def Safe (m : M Plat α) : Prop := ∀ p, OK p → Sat (fun _ q => OK q) (fun _ q => OK q) (m p)

theorem Safe.bind {m : M Plat α} {f : α → M Plat β} (hm : Safe m) (hf : ∀ a, Safe (f a)) : Safe (m >>= f) :=
  fun p h => Sat.bind (hm p h) fun a q hq => hf a q hq

theorem Safe.pure (a : α) : Safe (Pure.pure a : M Plat α) := fun _ h => h
theorem Safe.get {f : Plat → M Plat α} (h : ∀ p, OK p → Sat (fun _ q => OK q) (fun _ q => OK q) (f p p)) : Safe (M.get >>= f) :=
  fun p hp => h p hp
theorem Safe.modify {f : Plat → Plat} (h : ∀ p, OK p → OK (f p)) : Safe (M.modify f) := fun p hp => h p hp
theorem Safe.ite {c : Prop} [Decidable c] {m m' : M Plat α} (h : Safe m) (h' : Safe m') : Safe (if c then m else m') := by
  split
  · exact h
  · exact h'

/-- Code that has a defined outcome wherever it starts. -/
def Total (m : M σ α) : Prop := ∀ s, Sat (fun _ _ => True) (fun _ _ => True) (m s)

theorem Total.bind {m : M σ α} {f : α → M σ β} (hm : Total m) (hf : ∀ a, Total (f a)) : Total (m >>= f) :=
  fun s => Sat.bind (hm s) fun a q _ => hf a q
theorem Total.pure (a : α) : Total (Pure.pure a : M σ α) := fun _ => trivial
theorem Total.throw (c : Exc) (t : Str) : Total (M.throw c t : M σ α) := fun _ => trivial
theorem Total.ite {c : Prop} [Decidable c] {m m' : M σ α} (h : Total m) (h' : Total m') : Total (if c then m else m') := by
  split
  · exact h
  · exact h'
theorem Total.catch {m : M σ α} {f : Exn → M σ α} (hm : Total m) (hf : ∀ e, Total (f e)) : Total (M.tryCatch m f) :=
  fun s => Sat.catch (E1 := fun _ _ => True) (hm s) fun e s' _ => hf e s'

theorem Safe.comm {m : M Comm.Comm α} (h : Total m) : Safe (onComm m) := by
  intro p hp
  unfold onComm
  rw [M.zoom_apply]
  have := h p.comm
  cases e : m p.comm <;> rw [e] at this
  · exact ⟨hp.1, hp.2, hp.3⟩
  · exact ⟨hp.1, hp.2, hp.3⟩
  · exact this

theorem Safe.buf {m : M Buf α} (h : Total m) : Safe (onBuf m) := by
  intro p hp
  unfold onBuf
  rw [M.zoom_apply]
  have := h p.buf
  cases e : m p.buf <;> rw [e] at this
  · exact ⟨hp.1, hp.2, hp.3⟩
  · exact ⟨hp.1, hp.2, hp.3⟩
  · exact this

theorem total_writeChar (c : U8) : Total (writeChar c) := by
  intro b
  unfold writeChar
  split <;> trivial

theorem total_readChar : Total readChar := by
  intro b
  unfold readChar
  split <;> trivial

theorem total_nibble (c : U8) : Total (hexNibble c) := .ite (.pure _) (.ite (.pure _) (.ite (.pure _) (.throw _ _)))

theorem total_readByte : Total readByteAsHex :=
  .bind total_readChar fun _ => .bind (total_nibble _) fun _ => .bind total_readChar fun _ => .bind (total_nibble _) fun _ => .pure _

theorem total_writeByte (b : U8) : Total (writeByteAsHex b) := .bind (total_writeChar _) fun _ => total_writeChar _

theorem total_writeBytes (bs : Str) : Total (writeBytesToBufferAsHex bs) := by
  induction bs with
  | nil => exact .pure _
  | cons b bs ih => exact .bind (total_writeByte b) fun _ => ih

theorem total_sendRegister (i : U8) (v : U32) : Total (sendRegisterForTResponse i v) :=
  .bind (total_writeByte _) fun _ => .bind (total_writeChar _) fun _ => .bind (total_writeBytes _) fun _ => total_writeChar _

/-- A read from unwatched, consistent memory. -/
theorem read_sat {s : Sim} (hs : Sound s) (hu : Unwatched s) (w : Width) (a : U32) :
    Sat (fun _ s' => Sound s' ∧ Unwatched s' ∧ s'.regions.length = s.regions.length) (fun e s' => s' = s ∧ e = ⟨.busError, []⟩)
      (IMemory.read w a s) := by
  by_cases hm : Mapped s a w.bytes
  · obtain ⟨i, r, off, ht⟩ := target_of_mapped hs hm
    have hi := ht.info hs
    have hw : r.watch = [] := hu.1 r (List.mem_of_getElem? hi.get)
    have h0 : scanAt r off w.bytes READING = (0, false) := by simp [scanAt, hw, scanWatch]
    have e : readN w.bytes a s = _ := readN_eq hs ht
    rw [h0, if_neg (by have := hu.2; simp only; omega), if_neg (by simp)] at e
    have e' : IMemory.read w a s = .ok (BitVec.ofNat w.bits (leVal ((r.data.drop off).take w.bytes)))
        { counted s i r off w.bytes READING with hits := s.hits + 0 } := by rw [read_eq, e]
    rw [e']
    have hst : Step (.read w a) s { counted s i r off w.bytes READING with hits := s.hits + 0 } := by
      refine .inl ⟨(), ?_⟩
      simp [Call.run, e']
    refine ⟨step_sound (c := .read w a) hs trivial hst, ⟨?_, hu.2⟩, ?_⟩
    · intro q hq
      unfold counted at hq
      split at hq
      · split at hq
        · exact hu.1 q hq
        · rcases List.mem_or_eq_of_mem_set hq with hq | rfl
          · exact hu.1 q hq
          · exact hw
      · exact hu.1 q hq
    · show (counted s i r off w.bytes READING).regions.length = _
      unfold counted
      split
      · split
        · rfl
        · simp
      · rfl
  · rw [read_eq, readN_unmapped hm]
    exact ⟨rfl, rfl⟩

theorem write_sat {s : Sim} (hs : Sound s) (hu : Unwatched s) (w : Width) (a : U32) (v : BitVec w.bits) :
    Sat (fun _ s' => Sound s' ∧ Unwatched s' ∧ s'.regions.length = s.regions.length) (fun e s' => s' = s ∧ e = ⟨.busError, []⟩)
      (IMemory.write w a v s) :=
  (write_inv (P := fun _ => True) (MemInv.init hs hu) trivial).mono (fun _ _ h => ⟨h.1.1, h.1.2.1, h.2.2⟩) fun _ _ h => h

theorem Safe.tryMem {m : M Sim α} (h : ∀ s, Sound s → Unwatched s → Sat (fun _ s' => Sound s' ∧ Unwatched s' ∧
    s'.regions.length = s.regions.length) (fun e s' => s' = s ∧ e = ⟨.busError, []⟩) (m s)) : Safe (tryMem m) := by
  intro p hp
  have := h p.mem hp.1 hp.2
  unfold Platform.tryMem
  cases e : m p.mem with
  | ok v s => rw [e] at this; exact ⟨this.1, this.2.1, hp.3⟩
  | throw x s => rw [e] at this; obtain ⟨rfl, -⟩ := this; exact ⟨hp.1, hp.2, hp.3⟩
  | ub r => rw [e] at this; exact this

theorem Safe.tryRead (a : U32) : Safe (tryRead a) := .tryMem fun _ hs hu => read_sat hs hu .w32 a

theorem Safe.say (t : Str) : Safe (say t) := .modify fun _ h => ⟨h.1, h.2, h.3⟩
theorem Safe.sayIf (v b : U32) (t : Str) : Safe (sayIf v b t) := .ite (.say _) (.pure _)
theorem Safe.sayAddress (v a : U32) : Safe (sayAddress v a) := by
  unfold Platform.sayAddress
  refine .ite (.bind (.tryRead _) fun o => ?_) (.pure _)
  cases o with
  | none => exact .pure _
  | some x => exact .bind (.say _) fun _ => .say _

theorem Safe.mem : Safe displayMemFault := by
  refine .bind (.tryRead _) fun o => ?_
  cases o with
  | none => exact .pure _
  | some v =>
    exact .ite (.pure _) (.bind (.say _) fun _ => .bind (.say _) fun _ => .bind (.say _) fun _ => .bind (.sayAddress _ _) fun _ =>
      .bind (.sayIf _ _ _) fun _ => .bind (.sayIf _ _ _) fun _ => .bind (.sayIf _ _ _) fun _ => .bind (.sayIf _ _ _) fun _ => .sayIf _ _ _)

theorem Safe.bus : Safe displayBusFault := by
  refine .bind (.tryRead _) fun o => ?_
  cases o with
  | none => exact .pure _
  | some v =>
    exact .ite (.pure _) (.bind (.say _) fun _ => .bind (.say _) fun _ => .bind (.say _) fun _ => .bind (.sayAddress _ _) fun _ =>
      .bind (.sayIf _ _ _) fun _ => .bind (.sayIf _ _ _) fun _ => .bind (.sayIf _ _ _) fun _ => .bind (.sayIf _ _ _) fun _ =>
      .bind (.sayIf _ _ _) fun _ => .sayIf _ _ _)

theorem Safe.usage : Safe displayUsageFault := by
  refine .bind (.tryRead _) fun o => ?_
  cases o with
  | none => exact .pure _
  | some v =>
    exact .ite (.pure _) (.bind (.say _) fun _ => .bind (.say _) fun _ => .bind (.say _) fun _ =>
      .bind (.sayIf _ _ _) fun _ => .bind (.sayIf _ _ _) fun _ => .bind (.sayIf _ _ _) fun _ => .bind (.sayIf _ _ _) fun _ =>
      .bind (.sayIf _ _ _) fun _ => .sayIf _ _ _)

theorem Safe.hard : Safe displayHardFault := by
  refine .bind (.say _) fun _ => .bind (.tryRead _) fun o => ?_
  cases o with
  | none => exact .pure _
  | some v =>
    exact .bind (.say _) fun _ => .bind (.say _) fun _ => .bind (.sayIf _ _ _) fun _ => .bind (.sayIf _ _ _) fun _ =>
      .ite (.bind (.say _) fun _ => .bind .mem fun _ => .bind .bus fun _ => .usage) (.pure _)

theorem Safe.exceptionNumber : Safe exceptionNumber := .get fun _ h => h

theorem Safe.displayFault : Safe displayFaultCause :=
  .bind .exceptionNumber fun _ => .ite (.bind .hard fun _ => .say _) (.ite (.bind .mem fun _ => .say _) (.ite (.bind .bus fun _ => .say _)
    (.ite (.bind .usage fun _ => .say _) (.pure _))))

theorem Safe.regAt {i : Nat} (hi : i < 19) : Safe (regAt i) := by
  intro p hp
  unfold Platform.regAt
  have : i < p.ctx.r.length := by rw [hp.regs.1]; exact hi
  rw [List.getElem?_eq_getElem this]
  exact hp

theorem xml_sat {p : Plat} (hp : OK p) (hn : p.mem.regions.length ≤ 19522578) :
    Sat (fun _ q => OK q) (fun _ q => OK q) (onMem getMemoryMapXML p) := by
  unfold Platform.onMem
  rw [M.zoom_apply, xml_eq (room_iff.2 hn)]
  cases p.mem.heap.fails p.mem.heap.next with
  | true => exact ⟨hp.1.congr rfl, hp.2, hp.3⟩
  | false => exact ⟨hp.1.congr rfl, hp.2, hp.3⟩

/-- The memory map with any number of regions. -/
theorem xml_keeps {p q : Plat} (hp : OK p) (h : Ends (onMem getMemoryMapXML p) q) : OK q := by
  unfold Platform.onMem at h
  rw [M.zoom_apply] at h
  cases e : getMemoryMapXML p.mem with
  | ok t s =>
    rw [e] at h
    cases ends_ok h
    obtain ⟨-, -, h3, h4⟩ := xml_ok e
    exact ⟨hp.1.congr h3, ⟨by simp only [h3]; exact hp.2.1, by simp only [h4]; exact hp.2.2⟩, hp.3⟩
  | throw x s =>
    rw [e] at h
    cases ends_throw h
    cases xml_throw e
    exact ⟨hp.1.congr rfl, hp.2, hp.3⟩
  | ub r => rw [e] at h; exact (ends_ub h).elim

/-- Reading into the registers keeps their number. -/
theorem Safe.readBytes {store : List U32 → Plat → Plat} {ws : List U32} (hst : ∀ vs p, vs.length = ws.length → OK p → OK (store vs p)) (n : Nat) :
    ∀ acc, Safe (readBytesFromBufferAsHex store ws n acc) := by
  induction n with
  | zero => exact fun _ => .pure _
  | succ n ih =>
    intro acc
    exact .bind (.buf total_readByte) fun b => .bind (.modify fun p h => hst _ _ (overlay_length _ _) h) fun _ => ih _

theorem Safe.copyFrom : Safe copyContextFromBuffer := by
  refine .get fun p hp => ?_
  have h1 : Safe (readBytesFromBufferAsHex storeR p.ctx.r (4 * p.ctx.r.length) []) :=
    .readBytes (store := storeR) (fun vs q hv hq => ⟨hq.1, hq.2, ⟨show vs.length = 19 from hv.trans hp.regs.1, hq.regs.2⟩⟩) _ _
  have h2 : Safe (readBytesFromBufferAsHex storeFPR p.ctx.fpr (4 * p.ctx.fpr.length) []) :=
    .readBytes (store := storeFPR) (fun vs q hv hq => ⟨hq.1, hq.2, ⟨hq.regs.1, show vs.length = 33 from hv.trans hp.regs.2⟩⟩) _ _
  exact (Safe.bind h1 fun _ => .ite h2 (.pure _)) p hp

theorem total_hasData : Total Comm.hasReceiveData := by
  refine .catch (fun c => ?_) fun _ => .pure _
  unfold Comm.hasStdInDataToRead
  split <;> trivial

theorem total_receive : Total Comm.receiveChar := by
  refine .bind (fun c => ?_) fun _ => .bind (fun _ => trivial) fun _ => .pure _
  unfold Comm.readStdIn
  split <;> trivial

theorem total_send (x : Int) : Total (Comm.sendChar x) := by
  intro c
  unfold Comm.sendChar Comm.writeStdOut
  split <;> trivial

theorem total_connected : Total Comm.isGdbConnected :=
  .bind (fun _ => trivial) fun _ => .ite (.pure _) total_hasData

/-- All calls but the memory accesses and the memory map. -/
theorem safe_call {c : PCall} (hr : ∀ w a, c ≠ .memRead w a) (hw : ∀ w a v, c ≠ .memWrite w a v) (hx : c ≠ .mapXml) (hxs : c ≠ .mapXmlSize) :
    Safe c.run := by
  cases c with
  | memRead w a => exact (hr w a rfl).elim
  | memWrite w a v => exact (hw w a v rfl).elim
  | init => exact .modify fun _ h => ⟨h.1, h.2, h.3⟩
  | setWait b => exact .modify fun _ h => ⟨h.1, h.2, h.3⟩
  | commHasData => exact .bind (.bind (.comm total_hasData) fun _ => .bind (.modify fun _ h => ⟨h.1, h.2, h.3⟩) fun _ => .pure _) fun _ => .pure _
  | commReceive => exact .bind (.comm total_receive) fun _ => .pure _
  | commSend c => exact .comm (total_send c)
  | commShouldWait => exact .bind (.get fun _ h => h) fun _ => .pure _
  | commIsWaiting =>
    refine .bind (.get fun p hp => ?_) fun _ => .pure _
    exact Safe.bind (.comm total_connected) (fun _ => .bind (.modify fun p h => by split <;> exact ⟨h.1, h.2, h.3⟩) fun _ => .pure _) p hp
  | cause =>
    exact .bind (.bind .exceptionNumber fun n => .ite (.pure _) (.ite (.pure _) (.ite (.pure _) (.ite (.pure _) (.ite (.pure _)
      (.ite (.pure _) (.pure _))))))) fun _ => .pure _
  | displayFault => exact .displayFault
  | wasFault => exact .bind (.get fun p hp => Safe.bind (.modify (f := fun p => { p with faults := 0 }) fun _ h => ⟨h.1, h.2, h.3⟩) (fun _ => .pure _) p hp) fun _ => .pure _
  | writeT =>
    exact .bind (.regAt (by decide)) fun _ => .bind (.buf (total_sendRegister _ _)) fun _ => .bind (.regAt (by decide)) fun _ =>
      .bind (.buf (total_sendRegister _ _)) fun _ => .bind (.regAt (by decide)) fun _ => .bind (.buf (total_sendRegister _ _)) fun _ =>
      .bind (.regAt (by decide)) fun _ => .buf (total_sendRegister _ _)
  | copyTo =>
    exact .get fun p hp => Safe.bind (.buf (total_writeBytes _)) (fun _ => .ite (.buf (total_writeBytes _)) (.pure _)) p hp
  | copyFrom => exact .copyFrom
  | mapXml => exact (hx rfl).elim
  | mapXmlSize => exact (hxs rfl).elim
  | targetXml => exact .bind (.get fun p hp => Safe.ite (.pure _) (.pure _) p hp) fun _ => .pure _
  | targetXmlSize => exact .bind (.get fun p hp => Safe.ite (.pure _) (.pure _) p hp) fun _ => .pure _
  | commCaused => exact .bind (.pure _) fun _ => .pure _
  | commSharing => exact .bind (.pure _) fun _ => .pure _
  | isStepping => exact .bind (.pure _) fun _ => .pure _
  | pcModified => exact .bind (.pure _) fun _ => .pure _
  | semihostParameters => exact .bind (.pure _) fun _ => .pure _
  | isSemihost => exact .bind (.pure _) fun _ => .pure _
  | handleSemihost => exact .bind (.pure _) fun _ => .pure _
  | _ => exact .pure _

theorem safe_countFault {p : Plat} (hp : OK p) (hf : p.faults + 1 < 2 ^ 31) : Sat (fun _ q => OK q) (fun _ q => OK q) (countFault p) := by
  unfold countFault
  rw [if_pos hf]
  exact ⟨hp.1, hp.2, hp.3⟩

theorem tryMem_faults {m : M Sim α} {p q : Plat} {o : Option α} (h : tryMem m p = .ok o q) : q.faults = p.faults := by
  unfold tryMem at h
  split at h <;> cases h <;> rfl

/-- Every call, as long as the count of faults and the size of the memory map are within `int`. -/
theorem call_safe {c : PCall} {p : Plat} (hp : OK p) (hn : p.mem.regions.length ≤ 19522578) (hf : p.faults + 1 < 2 ^ 31) : Sat (fun _ q => OK q) (fun _ q => OK q) (c.run p) := by
  have access : ∀ {β γ : Type} {m : M Sim β} (k : Option β → M Plat γ), Safe (tryMem m) → (∀ b, Safe (k (some b))) → (∀ q, OK q → q.faults + 1 < 2 ^ 31 →
      Sat (fun _ q => OK q) (fun _ q => OK q) (k none q)) → Sat (fun _ q => OK q) (fun _ q => OK q) ((tryMem m >>= k) p) := by
    intro β γ m k h1 h2 h3
    have hs := h1 p hp
    rw [M.bind_apply]
    cases e : tryMem m p with
    | ok o q =>
      rw [e] at hs
      cases o with
      | some b => exact h2 b q hs
      | none => exact h3 q hs (by rw [tryMem_faults e]; exact hf)
    | throw x q => rw [e] at hs; exact hs
    | ub r => rw [e] at hs; exact hs
  cases c with
  | memRead w a =>
    refine Sat.bind (Q1 := fun _ q => OK q) ?_ fun _ q h => h
    unfold memRead
    exact access _ (.tryMem fun _ hs hu => read_sat hs hu w a) (fun _ => .pure _) fun q hq hf => Sat.bind (Q1 := fun _ q => OK q) (safe_countFault hq hf) fun _ q h => Safe.pure _ q h
  | memWrite w a v =>
    change Sat _ _ (memWrite w a v p)
    unfold memWrite
    exact access _ (.tryMem fun _ hs hu => write_sat hs hu w a v) (fun _ => .pure ()) fun q hq hf => safe_countFault hq hf
  | mapXml => exact Sat.bind (Q1 := fun _ q => OK q) (xml_sat hp hn) fun _ q h => h
  | mapXmlSize =>
    exact Sat.bind (Q1 := fun _ q => OK q) (Sat.bind (Q1 := fun _ q => OK q) (xml_sat hp hn) fun _ q h => h) fun _ q h => h
  | _ => exact safe_call (by intros; simp) (by intros; simp) (by simp) (by simp) p hp

theorem step_ok {c : PCall} {p q : Plat} (hp : OK p) (h : PStep c p q) : OK q := by
  by_cases hm : (∃ w a, c = .memRead w a) ∨ (∃ w a v, c = .memWrite w a v) ∨ c = .mapXml ∨ c = .mapXmlSize
  · rcases hm with ⟨w, a, rfl⟩ | ⟨w, a, v, rfl⟩ | rfl | rfl
    · have he := ends_bind_pure (step_ends h)
      have hr := read_sat hp.1 hp.2 w a
      cases e : IMemory.read w a p.mem with
      | ok x s =>
        rw [e] at hr
        rw [memRead_ok e] at he
        have := ends_ok he
        subst this
        exact ⟨hr.1, hr.2.1, hp.3⟩
      | throw x s =>
        rw [e] at hr
        rw [memRead_fault e] at he
        split at he
        · cases ends_ok he; obtain ⟨rfl, -⟩ := hr; exact ⟨hp.1, hp.2, hp.3⟩
        · exact (ends_ub he).elim
      | ub r => rw [e] at hr; exact hr.elim
    · have he : Ends (memWrite w a v p) q := step_ends h
      have hr := write_sat hp.1 hp.2 w a v
      cases e : IMemory.write w a v p.mem with
      | ok x s =>
        rw [e] at hr
        rw [memWrite_ok e] at he
        have := ends_ok he
        subst this
        exact ⟨hr.1, hr.2.1, hp.3⟩
      | throw x s =>
        rw [e] at hr
        rw [memWrite_fault e] at he
        split at he
        · cases ends_ok he; obtain ⟨rfl, -⟩ := hr; exact ⟨hp.1, hp.2, hp.3⟩
        · exact (ends_ub he).elim
      | ub r => rw [e] at hr; exact hr.elim
    · exact xml_keeps hp (ends_bind_pure (step_ends h))
    · exact xml_keeps hp (ends_bind_map (ends_bind_pure (step_ends h)))
  · have := safe_call (c := c) (fun w a h => hm (.inl ⟨w, a, h⟩)) (fun w a v h => hm (.inr (.inl ⟨w, a, v, h⟩)))
      (fun h => hm (.inr (.inr (.inl h)))) (fun h => hm (.inr (.inr (.inr h)))) p hp
    rcases h with h | ⟨e, h⟩ <;> rw [h] at this <;> exact this

theorem hist_ok {cs : List PCall} {p q : Plat} (hp : OK p) (h : PHist p cs q) : OK q := by
  induction h with
  | nil => exact hp
  | cons h _ ih => exact ih (step_ok hp h)
  | packet b c _ ih => exact ih ⟨hp.1, hp.2, hp.3⟩

end Verif.Platform
