import Verif.Lemmas.PlatReport
import Verif.Lemmas.Dump
/-
Lemmas for the register packets.
-/
namespace Verif.Platform
open Verif MemSim Spec Dump

/-- The buffer after writing `t`. -/
def put (b : Buf) (t : Str) : Buf :=
  { data := b.data.take b.pos ++ t ++ b.data.drop (b.pos + t.length), pos := b.pos + t.length }

theorem put_nil (b : Buf) : put b [] = b := by cases b; simp [put]

theorem put_length {b : Buf} {t : Str} (h : b.pos + t.length ≤ b.data.length) : (put b t).data.length = b.data.length := by
  simp [put]; omega

theorem put_put {b : Buf} {t u : Str} (h : b.pos + t.length ≤ b.data.length) : put (put b t) u = put b (t ++ u) := by
  unfold put
  have hl : (b.data.take b.pos).length = b.pos := by simp; omega
  have hl' : (b.data.take b.pos ++ t).length = b.pos + t.length := by simp [hl]
  have e1 : (b.data.take b.pos ++ t ++ b.data.drop (b.pos + t.length)).take (b.pos + t.length) = b.data.take b.pos ++ t :=
    List.take_left' hl'
  have e2 : (b.data.take b.pos ++ t ++ b.data.drop (b.pos + t.length)).drop (b.pos + t.length + u.length) =
      b.data.drop (b.pos + (t ++ u).length) := by
    rw [← List.drop_drop, List.drop_left' hl', List.drop_drop, List.length_append, Nat.add_assoc]
  simp only [e1, e2]
  simp only [List.append_assoc, List.length_append, Nat.add_assoc]

/-- Code that writes `t`, if there is room. -/
def Writes (m : M Buf Unit) (t : Str) : Prop := ∀ b : Buf, b.pos + t.length ≤ b.data.length → m b = .ok () (put b t)

theorem Writes.seq {m : M Buf Unit} {f : Unit → M Buf Unit} {t u : Str} (h : Writes m t) (h' : Writes (f ()) u) :
    Writes (m >>= f) (t ++ u) := by
  intro b hb
  simp only [List.length_append] at hb
  rw [M.bind_ok (h b (by omega)), h' _ (by rw [put_length (by omega)]; simp [put]; omega), put_put (by omega)]

theorem Writes.nil : Writes (pure ()) [] := by intro b _; rw [put_nil]; rfl

theorem Writes.char (c : U8) : Writes (writeChar c) [c] := by
  intro b hb
  simp only [List.length_singleton] at hb
  unfold writeChar put
  rw [if_pos (by omega), List.set_eq_take_append_cons_drop, if_pos (by omega)]
  simp

theorem Writes.byte (b : U8) : Writes (writeByteAsHex b) (hex2 b) := by
  rw [hex2_eq]
  exact .seq (.char _) (.char _)

theorem Writes.bytes (bs : Str) : Writes (writeBytesToBufferAsHex bs) (hexOf bs) := by
  induction bs with
  | nil => exact .nil
  | cons b bs ih => exact .seq (.byte b) ih

theorem leBytes_le32 (w : U32) : leBytes 4 w.toNat = le32 w := by
  have : leVal (le32 w) = w.toNat := by
    have h := congrArg BitVec.toNat (leVal_le32 w)
    have hlt := leVal_lt (le32 w)
    rw [show (le32 w).length = 4 from rfl, show 256 ^ 4 = 2 ^ 32 by decide] at hlt
    rwa [BitVec.toNat_ofNat, Nat.mod_eq_of_lt hlt] at h
  rw [← this]
  exact leBytes_leVal (le32 w)

theorem bytesOf_eq (ws : List U32) : bytesOf ws = ws.flatMap le32 := by
  unfold bytesOf
  congr 1
  funext w
  exact leBytes_le32 w

theorem hexOf_append (a b : Str) : hexOf (a ++ b) = hexOf a ++ hexOf b := by simp [hexOf]
@[simp] theorem hexOf_length (a : Str) : (hexOf a).length = 2 * a.length := by
  induction a with
  | nil => rfl
  | cons x a ih => simp only [hexOf, List.flatMap_cons, List.length_append, List.length_cons] at ih ⊢; simp only [hex2, List.length_cons, List.length_nil]; omega

theorem hasFPU_eq (c : Regs) : hasFPURegisters c = hasFloat c.flags := by
  unfold hasFPURegisters hasFloat
  have := bit_iff c.flags 0 (by omega)
  rw [show BitVec.twoPow 32 0 = FLAGS_FLOATING_POINT by decide] at this
  by_cases h : c.flags.getLsbD 0 = true
  · rw [h]; exact decide_eq_true (this.2 h)
  · simp only [Bool.not_eq_true] at h
    rw [h]; exact decide_eq_false (fun hh => by rw [this.1 hh] at h; cases h)

theorem onBuf_ok {m : M Buf α} {p : Plat} {a : α} {b : Buf} (h : m p.buf = .ok a b) : onBuf m p = .ok a { p with buf := b } := by
  unfold onBuf; rw [M.zoom_apply, h]

/-- Code that writes to the packet buffer only. -/
theorem onBuf_writes {m : M Buf Unit} {t : Str} (h : Writes m t) {p : Plat} (hr : p.buf.pos + t.length ≤ p.buf.data.length) :
    onBuf m p = .ok () { p with buf := put p.buf t } := onBuf_ok (h _ hr)

theorem copyTo_eq {p : Plat} (hr : p.buf.pos + 2 * (packetBytes p.ctx).length ≤ p.buf.data.length) :
    copyContextToBuffer p = .ok () { p with buf := put p.buf (hexOf (packetBytes p.ctx)) } := by
  unfold copyContextToBuffer packetBytes at *
  simp only [M.bind_apply, M.get_apply]
  rw [bytesOf_eq, bytesOf_eq]
  have h1 : p.buf.pos + (hexOf (p.ctx.r.flatMap le32)).length ≤ p.buf.data.length := by
    rw [hexOf_length]; simp only [List.length_append] at hr; omega
  rw [onBuf_writes (.bytes _) h1]
  simp only
  rw [hasFPU_eq]
  by_cases hf : hasFloat p.ctx.flags = true
  · simp only [hf, if_true] at hr ⊢
    rw [onBuf_writes (.bytes _)]
    · simp only [put_put h1, hexOf_append]
    · simp only [put_length h1]
      simp only [hexOf_length, List.length_append] at hr ⊢
      simp only [put, hexOf_length]
      omega
  · simp only [hf, Bool.false_eq_true, if_false, List.append_nil]; rfl

/-- The text of one register in a stop reply. -/
theorem Writes.reg (i : U8) (v : U32) : Writes (sendRegisterForTResponse i v) (hex2 i ++ ([0x3A] ++ (hexOf (le32 v) ++ [0x3B]))) := by
  unfold sendRegisterForTResponse
  rw [leBytes_le32]
  exact .seq (.byte _) (.seq (.char _) (.seq (.bytes _) (.char _)))

/-! ### Reading -/

theorem hexNibble_some {c : U8} {x : Nat} (h : hexDigit c = some x) (b : Buf) : hexNibble c b = .ok x b := by
  unfold hexDigit at h
  unfold hexNibble
  split at h
  · rename_i h1; cases h; rw [if_pos ⟨h1.1, h1.2⟩]; rfl
  · rename_i h1
    rw [if_neg (fun hh => h1 ⟨hh.1, hh.2⟩)]
    split at h
    · rename_i h2; cases h
      rw [if_neg (by omega), if_pos ⟨h2.1, h2.2⟩]; rfl
    · rename_i h2
      split at h
      · rename_i h3; cases h
        rw [if_pos ⟨h3.1, h3.2⟩]; rfl
      · cases h

theorem hexNibble_none {c : U8} (h : hexDigit c = none) (b : Buf) : hexNibble c b = .throw ⟨.invalidHexDigit, []⟩ b := by
  unfold hexDigit at h
  unfold hexNibble
  split at h
  · cases h
  · split at h
    · cases h
    · split at h
      · cases h
      · rw [if_neg (by omega), if_neg (by omega), if_neg (by omega)]; rfl

theorem readChar_cons {b : Buf} {c : U8} {t : Str} (h : remaining b = c :: t) :
    readChar b = .ok c { b with pos := b.pos + 1 } ∧ remaining { b with pos := b.pos + 1 } = t := by
  unfold remaining at h ⊢
  have h1 : b.data[b.pos]? = some c := by
    have := congrArg (·[0]?) h
    simpa using this
  constructor
  · unfold readChar; rw [h1]
  · have := congrArg (List.drop 1) h
    simpa [List.drop_drop] using this

theorem readChar_nil {b : Buf} (h : remaining b = []) : readChar b = .throw ⟨.bufferOverrun, []⟩ b := by
  unfold remaining at h
  have : b.data[b.pos]? = none := by
    have := congrArg (·[0]?) h
    simpa using this
  unfold readChar; rw [this]

theorem readByte_pair {b : Buf} {hi lo : U8} {x y : Nat} {t : Str} {v : U8} (h : remaining b = hi :: lo :: t)
    (hx : hexDigit hi = some x) (hy : hexDigit lo = some y) (hv : v.toNat = 16 * x + y) :
    readByteAsHex b = .ok v { b with pos := b.pos + 2 } ∧ remaining { b with pos := b.pos + 2 } = t := by
  obtain ⟨h1, h2⟩ := readChar_cons h
  obtain ⟨h3, h4⟩ := readChar_cons h2
  refine ⟨?_, h4⟩
  unfold readByteAsHex
  rw [M.bind_ok h1, M.bind_ok (hexNibble_some hx _), M.bind_ok h3, M.bind_ok (hexNibble_some hy _), ← hv]
  simp

theorem readByte_bad {b : Buf} {c : Exc} (h : BadPair (remaining b) c) :
    ∃ b', readByteAsHex b = .throw ⟨c, []⟩ b' ∧ b'.data = b.data := by
  unfold readByteAsHex
  rcases h with ⟨h, rfl⟩ | ⟨hi, u, h, hx, rfl⟩ | ⟨hi, x, h, hx, rfl⟩ | ⟨hi, x, lo, u, h, hx, hy, rfl⟩
  · exact ⟨b, M.bind_throw (readChar_nil h), rfl⟩
  · obtain ⟨h1, -⟩ := readChar_cons h
    exact ⟨{ b with pos := b.pos + 1 }, by rw [M.bind_ok h1]; exact M.bind_throw (hexNibble_none hx _), rfl⟩
  · obtain ⟨h1, h2⟩ := readChar_cons h
    exact ⟨{ b with pos := b.pos + 1 }, by
      rw [M.bind_ok h1, M.bind_ok (hexNibble_some hx _)]; exact M.bind_throw (readChar_nil h2), rfl⟩
  · obtain ⟨h1, h2⟩ := readChar_cons h
    obtain ⟨h3, h4⟩ := readChar_cons h2
    exact ⟨{ b with pos := b.pos + 1 + 1 }, by
      rw [M.bind_ok h1, M.bind_ok (hexNibble_some hx _), M.bind_ok h3]; exact M.bind_throw (hexNibble_none hy _), rfl⟩

theorem HexPairs.length {t bs : Str} (h : HexPairs t bs) : t.length = 2 * bs.length := by
  induction h with
  | nil => rfl
  | cons _ _ _ _ ih => simp [ih]; omega

/-- The state with another packet buffer. -/
def withBuf (b : Buf) (p : Plat) : Plat := { p with buf := b }

/-- Storing into an array of the context. -/
structure Store (store : List U32 → Plat → Plat) : Prop where
  buf : ∀ ws p, (store ws p).buf = p.buf
  put : ∀ ws p b, store ws (withBuf b p) = withBuf b (store ws p)
  twice : ∀ ws vs p, store ws (store vs p) = store ws p

theorem storeR_ok : Store storeR := ⟨fun _ _ => rfl, fun _ _ _ => rfl, fun _ _ _ => rfl⟩
theorem storeFPR_ok : Store storeFPR := ⟨fun _ _ => rfl, fun _ _ _ => rfl, fun _ _ _ => rfl⟩

/-- The buffer `n` characters further on. -/
def skip (n : Nat) (b : Buf) : Buf := { b with pos := b.pos + n }

theorem remaining_skip {b : Buf} {t u : Str} (h : remaining b = t ++ u) : remaining (skip t.length b) = u := by
  unfold remaining skip at *
  simp only
  rw [← List.drop_drop, h]; simp

/-- Reading the bytes given by `t`, with `acc` read before. -/
theorem readBytes_pairs {store : List U32 → Plat → Plat} (hst : Store store) {ws : List U32} {t bs : Str} (h : HexPairs t bs) :
    ∀ {p : Plat} {acc u : Str} {n : Nat}, remaining p.buf = t ++ u → store (overlay ws acc) p = p →
    readBytesFromBufferAsHex store ws (bs.length + n) acc p =
      readBytesFromBufferAsHex store ws n (acc ++ bs) (withBuf (skip t.length p.buf) (store (overlay ws (acc ++ bs)) p)) := by
  induction h with
  | nil =>
    intro p acc u n hr hs
    rw [List.append_nil, hs, List.length_nil, Nat.zero_add]
    rfl
  | @cons hi lo x y t bs v hx hy hv _ ih =>
    intro p acc u n hr hs
    obtain ⟨h1, h2⟩ := readByte_pair hr hx hy hv
    rw [show (v :: bs).length + n = (bs.length + n) + 1 by rw [List.length_cons]; omega]
    have e1 : onBuf readByteAsHex p = .ok v (withBuf (skip 2 p.buf) p) := onBuf_ok (p := p) h1
    show (onBuf readByteAsHex >>= _) p = _
    rw [M.bind_ok e1, M.bind_ok (M.modify_apply _ _), hst.put]
    rw [ih (u := u) (by exact h2) (by rw [hst.put, hst.twice])]
    rw [List.append_assoc, List.singleton_append, hst.put, hst.twice]
    show readBytesFromBufferAsHex store ws n (acc ++ v :: bs) (withBuf (skip t.length (skip 2 p.buf)) (store (overlay ws (acc ++ v :: bs)) p)) = _
    rw [show skip t.length (skip 2 p.buf) = skip (hi :: lo :: t).length p.buf by
      simp only [skip, List.length_cons]; congr 1; omega]

theorem readBytes_all {store : List U32 → Plat → Plat} (hst : Store store) {ws : List U32} {t bs : Str} (h : HexPairs t bs)
    {p : Plat} {u : Str} (hr : remaining p.buf = t ++ u) (hs : store (overlay ws []) p = p) :
    readBytesFromBufferAsHex store ws bs.length [] p = .ok () (withBuf (skip t.length p.buf) (store (overlay ws bs) p)) := by
  have := readBytes_pairs hst h (n := 0) (acc := []) hr hs
  rw [Nat.add_zero, List.nil_append] at this
  rw [this]; rfl

theorem readBytes_bad {store : List U32 → Plat → Plat} (hst : Store store) {ws : List U32} {t bs : Str} (h : HexPairs t bs)
    {p : Plat} {u : Str} {c : Exc} {n : Nat} (hn : bs.length < n) (hr : remaining p.buf = t ++ u) (hb : BadPair u c)
    (hs : store (overlay ws []) p = p) :
    ∃ b, readBytesFromBufferAsHex store ws n [] p = .throw ⟨c, []⟩ (withBuf b (store (overlay ws bs) p)) ∧
      b.data = p.buf.data := by
  obtain ⟨k, rfl⟩ : ∃ k, n = bs.length + (k + 1) := ⟨n - bs.length - 1, by omega⟩
  rw [readBytes_pairs hst h hr hs, List.nil_append]
  obtain ⟨b', e, hd⟩ := readByte_bad (b := skip t.length p.buf) (by rw [remaining_skip hr]; exact hb)
  refine ⟨b', ?_, hd⟩
  have e1 : onBuf readByteAsHex (withBuf (skip t.length p.buf) (store (overlay ws bs) p)) =
      .throw ⟨c, []⟩ (withBuf b' (store (overlay ws bs) p)) := by
    unfold onBuf; rw [M.zoom_apply]
    simp only [withBuf, e]
  exact M.bind_throw e1

theorem digit_ok {n : Nat} (h : n < 16) : hexDigit (lowerDigit n) = some n := by
  have : ∀ n : Fin 16, hexDigit (lowerDigit n) = some n.val := by decide +kernel
  exact this ⟨n, h⟩

theorem hexPairs_hexOf (bs : Str) : HexPairs (hexOf bs) bs := by
  induction bs with
  | nil => exact .nil
  | cons b bs ih =>
    have := b.isLt
    exact .cons (digit_ok (n := b.toNat / 16) (by omega)) (digit_ok (n := b.toNat % 16) (by omega)) (by omega) ih

theorem HexPairs.split {t a b : Str} (h : HexPairs t (a ++ b)) : ∃ u v, t = u ++ v ∧ HexPairs u a ∧ HexPairs v b := by
  induction a generalizing t with
  | nil => exact ⟨[], t, rfl, .nil, h⟩
  | cons x a ih =>
    cases h with
    | cons hx hy hb h =>
      obtain ⟨u, v, rfl, h1, h2⟩ := ih h
      exact ⟨_ :: _ :: u, v, rfl, .cons hx hy hb h1, h2⟩

theorem flatMap_le32_length (ws : List U32) : (ws.flatMap le32).length = 4 * ws.length := by
  induction ws with
  | nil => rfl
  | cons w ws ih => simp [ih]; omega

theorem copyFrom_eq {p : Plat} {c : Regs} {t u : Str} (hr : c.r.length = p.ctx.r.length) (hf : c.fpr.length = p.ctx.fpr.length)
    (hfl : hasFloat c.flags = hasFloat p.ctx.flags) (hb : remaining p.buf = t ++ u) (ht : HexPairs t (packetBytes c)) :
    copyContextFromBuffer p = .ok () { p with
      ctx := { p.ctx with r := c.r, fpr := if hasFloat p.ctx.flags then c.fpr else p.ctx.fpr },
      buf := { p.buf with pos := p.buf.pos + t.length } } := by
  unfold packetBytes at ht
  obtain ⟨t1, t2, rfl, h1, h2⟩ := HexPairs.split ht
  rw [List.append_assoc] at hb
  unfold copyContextFromBuffer
  simp only [M.bind_apply, M.get_apply]
  have e1 := readBytes_all storeR_ok (ws := p.ctx.r) h1 hb (by rw [overlay_nil]; rfl)
  rw [flatMap_le32_length, hr, overlay_words (by omega), hr, List.drop_length, List.append_nil] at e1
  rw [e1]
  simp only [hasFPU_eq]
  rw [hfl] at h2
  by_cases hh : hasFloat p.ctx.flags = true
  · simp only [hh, if_true] at h2 ⊢
    have e2 := readBytes_all storeFPR_ok (ws := p.ctx.fpr) h2 (p := withBuf (skip t1.length p.buf) (storeR c.r p))
      (u := u) (by exact remaining_skip hb) (by rw [overlay_nil]; rfl)
    rw [flatMap_le32_length, hf, overlay_words (by omega), hf, List.drop_length, List.append_nil] at e2
    rw [e2]
    simp [storeFPR, storeR, withBuf, skip, Nat.add_assoc]
  · simp only [hh, Bool.false_eq_true, if_false] at h2 ⊢
    cases h2
    simp [storeR, withBuf, skip]

end Verif.Platform
