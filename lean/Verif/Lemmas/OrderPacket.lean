import Verif.Model.OrderPacket
import Verif.Lemmas.Order
namespace Verif.Order
open Verif MemSim Spec Platform

theorem bytes_big {v v' : U32} (h : Reversed (w := .w32) v v') : bytesOn true 4 v.toNat = leBytes 4 v'.toNat := bytesOn_big (w := .w32) h

theorem all_length {ws ws' : List U32} (h : AllReversed ws ws') : ws.length = ws'.length := by
  induction h with
  | nil => rfl
  | cons _ _ ih => simp [ih]

theorem all_get {ws ws' : List U32} (h : AllReversed ws ws') : ∀ {i : Nat} (hi : i < ws.length) (hi' : i < ws'.length), Reversed (w := .w32) ws[i] ws'[i] := by
  induction h with
  | nil => intro i hi; cases hi
  | cons h _ ih =>
    intro i hi hi'
    cases i with
    | zero => exact h
    | succ i => exact ih (by simpa using hi) (by simpa using hi')

theorem bytesOf_big {ws ws' : List U32} (h : AllReversed ws ws') : bytesOfO true ws = Platform.bytesOf ws' := by
  induction h with
  | nil => rfl
  | cons h _ ih =>
    unfold bytesOfO Platform.bytesOf at *
    rw [List.flatMap_cons, List.flatMap_cons, bytes_big h, ih]

/-- Two computations that leave the same packet when they start with the same. -/
def PRel (c c' : Regs) (m m' : M Plat α) : Prop := ∀ p, p.ctx = c →
  (∃ v q, m p = .ok v q ∧ m' { p with ctx := c' } = .ok v { q with ctx := c' } ∧ q.ctx = c) ∨
  (∃ e q, m p = .throw e q ∧ m' { p with ctx := c' } = .throw e { q with ctx := c' } ∧ q.ctx = c) ∨
  (∃ r, m p = .ub r ∧ m' { p with ctx := c' } = .ub r)

theorem PRel.pure {c c' : Regs} (v : α) : PRel c c' (Pure.pure v) (Pure.pure v) := fun p h => .inl ⟨v, p, rfl, rfl, h⟩

theorem PRel.buf {c c' : Regs} (m : M Buf α) : PRel c c' (onBuf m) (onBuf m) := by
  intro p h
  unfold onBuf
  rw [M.zoom_apply, M.zoom_apply]
  simp only
  cases m p.buf with
  | ok v b => exact .inl ⟨v, _, rfl, rfl, h⟩
  | throw e b => exact .inr (.inl ⟨e, _, rfl, rfl, h⟩)
  | ub r => exact .inr (.inr ⟨r, rfl, rfl⟩)

theorem PRel.bind {c c' : Regs} {m m' : M Plat α} {f f' : α → M Plat β} (h : PRel c c' m m') (k : ∀ v, PRel c c' (f v) (f' v)) :
    PRel c c' (m >>= f) (m' >>= f') := by
  intro p hp
  rw [M.bind_apply, M.bind_apply]
  rcases h p hp with ⟨v, q, e1, e2, hq⟩ | ⟨e, q, e1, e2, hq⟩ | ⟨r, e1, e2⟩
  · rw [e1, e2]; exact k v q hq
  · rw [e1, e2]; exact .inr (.inl ⟨e, q, rfl, rfl, hq⟩)
  · rw [e1, e2]; exact .inr (.inr ⟨r, rfl, rfl⟩)

theorem PRel.same {c c' : Regs} {m m' : M Plat Unit} (h : PRel c c' m m') {p : Plat} (hp : p.ctx = c) :
    SamePacket c c' (m p) (m' { p with ctx := c' }) := by
  rcases h p hp with ⟨v, q, e1, e2, hq⟩ | ⟨e, q, e1, e2, hq⟩ | ⟨r, e1, e2⟩
  · rw [e1, e2]; exact ⟨hq, rfl⟩
  · rw [e1, e2]; exact ⟨rfl, hq, rfl⟩
  · rw [e1, e2]; rfl

theorem send_big {c c' : Regs} (h : RegsReversed c c') {i : Nat} (n : U8) {f f' : M Plat Unit} (k : PRel c c' f f') :
    PRel c c' (do onBuf (sendRegisterO true n (← regAt i)); f) (do onBuf (sendRegisterForTResponse n (← regAt i)); f') := by
  intro p hp
  rw [M.bind_apply, M.bind_apply]
  have hl := all_length h.r
  unfold regAt
  simp only [hp]
  by_cases hi : i < c.r.length
  · have hv : Reversed (w := .w32) c.r[i] (c'.r[i]'(hl ▸ hi)) := all_get h.r hi (hl ▸ hi)
    rw [List.getElem?_eq_getElem hi, List.getElem?_eq_getElem (hl ▸ hi)]
    simp only
    have he : sendRegisterO true n c.r[i] = sendRegisterForTResponse n (c'.r[i]'(hl ▸ hi)) := by
      unfold sendRegisterO sendRegisterForTResponse
      rw [bytes_big hv]
    rw [he]
    exact (PRel.buf _).bind (fun _ => k) p hp
  · rw [List.getElem?_eq_none (by omega), List.getElem?_eq_none (by omega)]
    exact .inr (.inr ⟨_, rfl, rfl⟩)

theorem copyTo_big {c c' : Regs} (h : RegsReversed c c') : PRel c c' (copyContextToBufferO true) copyContextToBuffer := by
  intro p hp
  unfold copyContextToBufferO copyContextToBuffer
  rw [M.bind_apply, M.bind_apply]
  simp only [M.get_apply, hp]
  rw [bytesOf_big h.r, bytesOf_big h.fpr]
  have hf : hasFPURegisters c' = hasFPURegisters c := by unfold hasFPURegisters; rw [h.flags]
  rw [hf]
  refine (PRel.buf _).bind (fun _ => ?_) p hp
  split
  · exact PRel.buf _
  · exact PRel.pure _

theorem send_last {c c' : Regs} (h : RegsReversed c c') (i : Nat) (n : U8) :
    PRel c c' (do onBuf (sendRegisterO true n (← regAt i))) (do onBuf (sendRegisterForTResponse n (← regAt i))) := by
  intro p hp
  have := send_big h (i := i) n (PRel.pure ()) p hp
  have e : ∀ m : M Plat Unit, (do m; Pure.pure ()) = m := fun m => by
    funext q; rw [M.bind_apply]; cases m q <;> rfl
  simpa only [e] using this

theorem writeT_big {c c' : Regs} (h : RegsReversed c c') : PRel c c' (writeTResponseRegistersO true) writeTResponseRegisters :=
  send_big h _ (send_big h _ (send_big h _ (send_last h _ _)))

theorem copyTo_little : copyContextToBufferO false = copyContextToBuffer := rfl
theorem writeT_little : writeTResponseRegistersO false = writeTResponseRegisters := rfl

theorem swap_all (ws : List U32) : AllReversed ws (ws.map (swap (w := .w32))) := by
  induction ws with
  | nil => exact .nil
  | cons w ws ih => exact .cons (swap_reversed _) ih

theorem value_reversed {w : Width} {bs : List U8} (hl : bs.length = w.bytes) :
    Reversed (w := w) (BitVec.ofNat w.bits (valueOn true bs)) (BitVec.ofNat w.bits (leVal bs)) := by
  refine reversed_symm ?_
  intro i hi
  show byteOf (BitVec.ofNat w.bits (leVal bs.reverse)) i = byteOf (BitVec.ofNat w.bits (leVal bs)) _
  have h1 := byteOf_leVal (w := w) (bs := bs.reverse) (by simpa using hl) hi
  have h2 := byteOf_leVal (w := w) (bs := bs) hl (i := w.bytes - 1 - i) (by omega)
  rw [List.getElem?_reverse (by omega), hl, h2] at h1
  exact (Option.some.inj h1).symm

theorem overlayWord_big {v v' : U32} (h : Reversed (w := .w32) v v') (bs : List U8) :
    Reversed (w := .w32) (overlayWordO true v bs) (overlayWord v' bs) := by
  unfold overlayWordO overlayWord
  rw [bytes_big h]
  exact value_reversed (w := .w32) (by show _ = 4; simp; omega)

theorem overlay_big {ws ws' : List U32} (h : AllReversed ws ws') : ∀ bs, AllReversed (overlayO true ws bs) (overlay ws' bs) := by
  induction h with
  | nil => exact fun _ => .nil
  | cons h _ ih => exact fun bs => .cons (overlayWord_big h bs) (ih _)

theorem readBytes_big {store : List U32 → Plat → Plat}
    (hs : ∀ {a a' p p'}, AllReversed a a' → SessionReversed p p' → SessionReversed (store a p) (store a' p'))
    {ws ws' : List U32} (h : AllReversed ws ws') : ∀ (n : Nat) (acc : Str) {p p' : Plat}, SessionReversed p p' →
      EndsReversed (readBytesO true store ws n acc p) (readBytesFromBufferAsHex store ws' n acc p') := by
  intro n
  induction n with
  | zero => exact fun acc p p' hr => hr
  | succ n ih =>
    rintro acc p _ ⟨c', rfl, hr⟩
    unfold readBytesO readBytesFromBufferAsHex
    rw [M.bind_apply, M.bind_apply]
    unfold onBuf
    rw [M.zoom_apply, M.zoom_apply]
    simp only
    cases readByteAsHex p.buf with
    | ok v b => exact ih _ (hs (overlay_big h _) ⟨c', rfl, hr⟩)
    | throw e b => exact ⟨rfl, c', rfl, hr⟩
    | ub r => rfl

theorem copyFrom_big {p p' : Plat} (hr : SessionReversed p p') : EndsReversed (copyContextFromBufferO true p) (copyContextFromBuffer p') := by
  obtain ⟨c', rfl, h⟩ := hr
  unfold copyContextFromBufferO copyContextFromBuffer
  rw [M.bind_apply, M.bind_apply]
  simp only [M.get_apply]
  rw [M.bind_apply, M.bind_apply]
  have hf : hasFPURegisters c' = hasFPURegisters p.ctx := by unfold hasFPURegisters; rw [h.flags]
  have h1 := readBytes_big (store := storeR) (fun {a a' p p'} ha hp => by
    obtain ⟨d, rfl, hd⟩ := hp
    exact ⟨{ d with r := a' }, rfl, ha, hd.fpr, hd.flags⟩) h.r (4 * p.ctx.r.length) [] ⟨c', rfl, h⟩
  rw [← all_length h.r, ← all_length h.fpr, hf]
  revert h1
  cases readBytesO true storeR p.ctx.r (4 * p.ctx.r.length) [] p with
  | ok u q =>
    cases readBytesFromBufferAsHex storeR c'.r (4 * p.ctx.r.length) [] { p with ctx := c' } with
    | ok u' q' =>
      intro h1
      simp only
      split
      · exact readBytes_big (store := storeFPR) (fun {a a' p p'} ha hp => by
          obtain ⟨d, rfl, hd⟩ := hp
          exact ⟨{ d with fpr := a' }, rfl, hd.r, ha, hd.flags⟩) h.fpr _ [] h1
      · exact h1
    | throw _ _ => exact False.elim
    | ub _ => exact False.elim
  | throw e q =>
    cases readBytesFromBufferAsHex storeR c'.r (4 * p.ctx.r.length) [] { p with ctx := c' } with
    | ok _ _ => exact False.elim
    | throw _ _ => exact id
    | ub _ => exact False.elim
  | ub r =>
    cases readBytesFromBufferAsHex storeR c'.r (4 * p.ctx.r.length) [] { p with ctx := c' } with
    | ok _ _ => exact False.elim
    | throw _ _ => exact False.elim
    | ub _ => exact id

theorem overlay_little : ∀ (ws : List U32) (bs : List U8), overlayO false ws bs = overlay ws bs
  | [], _ => rfl
  | w :: ws, bs => by
    show overlayWord w bs :: overlayO false ws (bs.drop 4) = _
    rw [overlay_little ws]; rfl

theorem readBytes_little (store : List U32 → Plat → Plat) (ws : List U32) : ∀ (n : Nat) (acc : Str),
    readBytesO false store ws n acc = readBytesFromBufferAsHex store ws n acc
  | 0, _ => rfl
  | n + 1, acc => by
    unfold readBytesO readBytesFromBufferAsHex
    simp only [overlay_little, readBytes_little store ws n]

theorem copyFrom_little : copyContextFromBufferO false = copyContextFromBuffer := by
  unfold copyContextFromBufferO copyContextFromBuffer
  simp only [readBytes_little]

end Verif.Order
