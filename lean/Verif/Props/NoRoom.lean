import Verif.Props.Platform
/-
C60 and C61 for a packet buffer that is too small.
-/
namespace Verif.Props
open Verif MemSim Spec Platform

/-- The buffer is filled to its end with the beginning of the text, and the overrun is raised. -/
def Overruns (m : M Buf Unit) (t : Str) : Prop :=
  ∀ b : Buf, b.pos ≤ b.data.length → b.data.length < b.pos + t.length →
    m b = .throw ⟨.bufferOverrun, []⟩ (put b (t.take (b.data.length - b.pos)))

theorem Overruns.char (c : U8) : Overruns (writeChar c) [c] := by
  intro b h1 h2
  simp only [List.length_singleton] at h2
  have e : b.data.length - b.pos = 0 := by omega
  rw [e, List.take_zero, put_nil]
  unfold writeChar
  rw [if_neg (by omega)]

theorem Overruns.seq {m k : M Buf Unit} {t u : Str} (hw : Writes m t) (h1 : Overruns m t) (h2 : Overruns k u) :
    Overruns (m >>= fun _ => k) (t ++ u) := by
  intro b hb hl
  rw [List.length_append] at hl
  by_cases h : b.pos + t.length ≤ b.data.length
  · have hp : (put b t).pos = b.pos + t.length := rfl
    have hlen := put_length h
    rw [M.bind_ok (hw b h), h2 _ (by rw [hlen, hp]; exact h) (by rw [hlen, hp]; omega), put_put h, hlen, hp, List.take_append,
      List.take_of_length_le (l := t) (by omega), show b.data.length - (b.pos + t.length) = b.data.length - b.pos - t.length by omega]
  · rw [M.bind_throw (h1 b hb (by omega)), List.take_append_of_le_length (by omega)]

theorem Overruns.nil {m : M Buf Unit} : Overruns m [] := fun b h1 h2 => by simp at h2; omega

theorem Overruns.byte (b : U8) : Overruns (writeByteAsHex b) (hex2 b) := by
  rw [hex2_eq]
  have h := Overruns.seq (.char (hexDigitLower (b.toNat / 16))) (.char (hexDigitLower (b.toNat / 16))) (.char (hexDigitLower (b.toNat % 16)))
  exact h

theorem Overruns.bytes (bs : Str) : Overruns (writeBytesToBufferAsHex bs) (hexOf bs) := by
  induction bs with
  | nil => exact .nil
  | cons b bs ih => exact Overruns.seq (.byte b) (.byte b) ih

theorem Overruns.reg (n : U8) (v : U32) :
    Overruns (sendRegisterForTResponse n v) (hex2 n ++ ([0x3A] ++ (hexOf (le32 v) ++ [0x3B]))) := by
  unfold sendRegisterForTResponse
  rw [leBytes_le32]
  exact .seq (.byte n) (.byte n) (.seq (.char _) (.char _) (.seq (.bytes _) (.bytes _) (.char _)))

theorem onBuf_overruns {m : M Buf Unit} {t : Str} (h : Overruns m t) {p : Plat} (h1 : p.buf.pos ≤ p.buf.data.length)
    (h2 : p.buf.data.length < p.buf.pos + t.length) :
    onBuf m p = .throw ⟨.bufferOverrun, []⟩ { p with buf := put p.buf (t.take (p.buf.data.length - p.buf.pos)) } := by
  unfold onBuf M.zoom
  rw [h _ h1 h2]

theorem written_put {b : Buf} {t : Str} (h : b.pos ≤ b.data.length) : written (put b t) = written b ++ t := by
  unfold written put
  exact List.take_left' (by simp; omega)

/-- Platform code that adds the text to the packet, if there is room; otherwise the buffer is filled to its end and the overrun raised. -/
def Sends (p : Plat) (m : M Plat Unit) (t : Str) : Prop :=
  ∀ b : Buf, b.pos ≤ b.data.length →
    (b.pos + t.length ≤ b.data.length → m (withBuf b p) = .ok () (withBuf (put b t) p)) ∧
    (b.data.length < b.pos + t.length →
      m (withBuf b p) = .throw ⟨.bufferOverrun, []⟩ (withBuf (put b (t.take (b.data.length - b.pos))) p))

theorem Sends.buf {p : Plat} {m : M Buf Unit} {t : Str} (h : Writes m t) (h' : Overruns m t) : Sends p (onBuf m) t :=
  fun b hb => ⟨fun h1 => onBuf_writes (p := withBuf b p) h h1, fun h1 => onBuf_overruns (p := withBuf b p) h' hb h1⟩

theorem Sends.seq {p : Plat} {m k : M Plat Unit} {t u : Str} (h1 : Sends p m t) (h2 : Sends p k u) : Sends p (m >>= fun _ => k) (t ++ u) := by
  intro b hb
  rw [List.length_append]
  have hp : (put b t).pos = b.pos + t.length := rfl
  by_cases h : b.pos + t.length ≤ b.data.length
  · have hlen := put_length h
    rw [M.bind_ok ((h1 b hb).1 h)]
    obtain ⟨ha, hc⟩ := h2 (put b t) (by rw [hlen, hp]; exact h)
    constructor
    · intro hl
      rw [ha (by rw [hlen, hp]; omega), put_put h]
    · intro hl
      rw [hc (by rw [hlen, hp]; omega), put_put h, hlen, hp, List.take_append, List.take_of_length_le (l := t) (by omega),
        show b.data.length - (b.pos + t.length) = b.data.length - b.pos - t.length by omega]
  · constructor
    · intro hl; omega
    · intro hl
      rw [M.bind_throw ((h1 b hb).2 (by omega)), List.take_append_of_le_length (by omega)]

theorem Sends.skip {p : Plat} : Sends p (pure ()) [] := by
  intro b hb
  exact ⟨fun _ => by rw [put_nil]; rfl, fun h => by simp at h; omega⟩

theorem Sends.reg {p : Plat} {i : Nat} {n : U8} {v : U32} (h : p.ctx.r[i]? = some v) :
    Sends p (regAt i >>= fun v => onBuf (sendRegisterForTResponse n v)) (hex2 n ++ ([0x3A] ++ (hexOf (le32 v) ++ [0x3B]))) := by
  intro b hb
  have e : regAt i (withBuf b p) = .ok v (withBuf b p) := by unfold regAt; simp only [withBuf, h]
  rw [M.bind_ok e]
  exact Sends.buf (Writes.reg n v) (.reg n v) b hb

theorem Sends.regThen {p : Plat} {i : Nat} {n : U8} {v : U32} {k : M Plat Unit} {u : Str} (h : p.ctx.r[i]? = some v) (hk : Sends p k u) :
    Sends p (regAt i >>= fun v => onBuf (sendRegisterForTResponse n v) >>= fun _ => k) (hex2 n ++ ([0x3A] ++ (hexOf (le32 v) ++ [0x3B])) ++ u) := by
  intro b hb
  have e : regAt i (withBuf b p) = .ok v (withBuf b p) := by unfold regAt; simp only [withBuf, h]
  rw [M.bind_ok e]
  exact Sends.seq (.buf (Writes.reg n v) (.reg n v)) hk b hb

theorem copyTo_sends (p : Plat) : Sends p copyContextToBuffer (hexOf (packetBytes p.ctx)) := by
  have h : Sends p (onBuf (writeBytesToBufferAsHex (bytesOf p.ctx.r)) >>= fun _ =>
      if hasFPURegisters p.ctx then onBuf (writeBytesToBufferAsHex (bytesOf p.ctx.fpr)) else pure ()) (hexOf (packetBytes p.ctx)) := by
    unfold packetBytes
    rw [hexOf_append, bytesOf_eq, bytesOf_eq, hasFPU_eq]
    refine .seq (.buf (.bytes _) (.bytes _)) ?_
    by_cases hf : hasFloat p.ctx.flags = true
    · rw [if_pos hf, if_pos hf]; exact .buf (.bytes _) (.bytes _)
    · rw [if_neg hf, if_neg hf]; exact .skip
  intro b hb
  exact h b hb

/-- C60. A buffer without room for all registers is filled to its end with the beginning of their text, and the overrun is raised.
Nothing else changes. -/
theorem C60_no_room {p : Plat} (hb : p.buf.pos ≤ p.buf.data.length) (h : p.buf.data.length < p.buf.pos + 2 * (packetBytes p.ctx).length) :
    ∃ b, copyContextToBuffer p = .throw ⟨.bufferOverrun, []⟩ { p with buf := b } ∧ b.pos = p.buf.data.length ∧
      b.data = written p.buf ++ (hexOf (packetBytes p.ctx)).take (p.buf.data.length - p.buf.pos) := by
  refine ⟨_, (copyTo_sends p p.buf hb).2 (by rw [hexOf_length]; exact h), ?_, ?_⟩
  · show p.buf.pos + _ = _
    rw [List.length_take, hexOf_length]; omega
  · show p.buf.data.take p.buf.pos ++ _ ++ p.buf.data.drop _ = _
    rw [List.drop_of_length_le (by rw [List.length_take, hexOf_length]; omega), List.append_nil]; rfl

/-- C61. A buffer without room for the stop reply's fields is filled to its end with the beginning of their text, and the overrun is
raised. Nothing else changes. -/
theorem C61_no_room {p : Plat} {r12 sp lr pc : U32} (h12 : p.ctx.r[12]? = some r12) (hsp : p.ctx.r[13]? = some sp)
    (hlr : p.ctx.r[14]? = some lr) (hpc : p.ctx.r[15]? = some pc) (hb : p.buf.pos ≤ p.buf.data.length)
    (h : p.buf.data.length < p.buf.pos + 48) :
    ∃ b, writeTResponseRegisters p = .throw ⟨.bufferOverrun, []⟩ { p with buf := b } ∧ b.pos = p.buf.data.length ∧
      b.data = written p.buf ++
        (stopField "0c" r12 ++ (stopField "0d" sp ++ (stopField "0e" lr ++ stopField "0f" pc))).take (p.buf.data.length - p.buf.pos) := by
  have f : ∀ n s, hex2 n = asc s → ∀ v, hex2 n ++ ([0x3A] ++ (hexOf (le32 v) ++ [0x3B])) = stopField s v := by
    intro n s e v
    rw [e, show ([0x3A] : Str) = asc ":" by decide +kernel, show ([0x3B] : Str) = asc ";" by decide +kernel]; rfl
  have hlen : ∀ n v, (asc n).length = 2 → (stopField n v).length = 12 := by
    intro n v hn
    have h1 : (asc ":").length = 1 := by decide +kernel
    have h2 : (asc ";").length = 1 := by decide +kernel
    simp only [stopField, List.length_append, hexOf_length, hn, h1, h2]
    rfl
  have l12 := hlen "0c" r12 (by decide +kernel)
  have l13 := hlen "0d" sp (by decide +kernel)
  have l14 := hlen "0e" lr (by decide +kernel)
  have l15 := hlen "0f" pc (by decide +kernel)
  have k : Sends p writeTResponseRegisters (stopField "0c" r12 ++ (stopField "0d" sp ++ (stopField "0e" lr ++ stopField "0f" pc))) := by
    rw [← f 12 "0c" (by decide +kernel), ← f 13 "0d" (by decide +kernel), ← f 14 "0e" (by decide +kernel), ← f 15 "0f" (by decide +kernel)]
    exact .regThen h12 (.regThen hsp (.regThen hlr (.reg hpc)))
  refine ⟨_, (k p.buf hb).2 (by simp only [List.length_append]; omega), ?_, ?_⟩
  · show p.buf.pos + _ = _
    rw [List.length_take]; simp only [List.length_append]; omega
  · show p.buf.data.take p.buf.pos ++ _ ++ p.buf.data.drop _ = _
    rw [List.drop_of_length_le (by rw [List.length_take]; simp only [List.length_append]; omega), List.append_nil]; rfl

/-- A buffer with room for ten characters. -/
def smallDemo : Plat := { platDemo with buf := { data := List.replicate 10 0 } }

example : smallDemo.buf.pos ≤ smallDemo.buf.data.length ∧ smallDemo.buf.data.length < smallDemo.buf.pos + 2 * (packetBytes smallDemo.ctx).length ∧
    smallDemo.buf.data.length < smallDemo.buf.pos + 48 ∧ smallDemo.ctx.r[15]? = some 15 := by decide +kernel

end Verif.Props
