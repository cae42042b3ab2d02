import Verif.Lemmas.RegsKept
import Verif.Lemmas.DumpInv
import Verif.Lemmas.DumpFile
import Verif.Lemmas.DumpHex
import Verif.Lemmas.GdbLine
import Verif.Spec.Complete
/- The registers after a dump has been read, whatever became of its memory. -/
namespace Verif.Dump
open Verif MemSim Spec Elf

/-- The code leaves the registers alone. -/
def SameCtx (m : M D α) : Prop :=
  ∀ d c, d.host.ctx = c → Pst (fun _ d' => d'.host.ctx = c) (fun _ d' => d'.host.ctx = c) (m d)

theorem SameCtx.bind {m : M D α} {f : α → M D β} (hm : SameCtx m) (hf : ∀ a, SameCtx (f a)) : SameCtx (m >>= f) :=
  fun d c h => Pst.bind (hm d c h) fun a d' h' => hf a d' c h'

theorem SameCtx.pure (a : α) : SameCtx (Pure.pure a : M D α) := fun _ _ h => h
theorem SameCtx.throw (c : Exc) (m : Str) : SameCtx (M.throw c m : M D α) := fun _ _ h => h
theorem SameCtx.ub (r : UB) : SameCtx (M.ub r : M D α) := fun _ _ _ => trivial

theorem SameCtx.ite {c : Prop} [Decidable c] {m m' : M D α} (h : SameCtx m) (h' : SameCtx m') : SameCtx (if c then m else m') := by
  split
  · exact h
  · exact h'

theorem SameCtx.catch {m : M D α} {f : Exn → M D α} (hm : SameCtx m) (hf : ∀ e, SameCtx (f e)) : SameCtx (M.tryCatch m f) := by
  intro d c h
  have := hm d c h
  rw [M.tryCatch_apply]
  cases e : m d with
  | ok a d' => rw [e] at this; exact this
  | throw x d' => rw [e] at this; exact hf x d' c this
  | ub r => trivial

theorem SameCtx.bytes (rd : Reader) (n : Nat) : SameCtx (readBytes rd n) := by
  intro d c hd
  unfold readBytes readInto
  cases rd n d.rest with
  | got bs t => exact hd
  | bad bs t => exact hd

theorem SameCtx.mem (m : M Sim α) : SameCtx (onMem m) := by
  intro d c h
  unfold onMem
  rw [M.zoom_apply]
  cases m d.host.mem with
  | ok a s => exact h
  | throw e s => exact h
  | ub r => trivial

theorem SameCtx.loop (rd : Reader) (n : Nat) : ∀ a, SameCtx (loadRegionBytes rd n a) := by
  induction n with
  | zero => exact fun _ => .pure _
  | succ n ih =>
    intro a
    refine .bind (.bytes _ _) fun bs => ?_
    split
    · exact .bind (.mem _) fun _ => ih _
    · exact .throw _ _

theorem SameCtx.next (rd : Reader) : SameCtx (readNextMemoryRegion rd) := by
  unfold readNextMemoryRegion createAndLoadMemoryRegion
  exact .bind (.bytes _ _) fun bs => .ite (.throw _ _) (.ite (.pure _) (.ite (.throw _ _)
    (.bind (.catch (.bind (.mem _) fun _ => .loop _ _ _) fun _ => .throw _ _) fun _ => .pure _)))

theorem SameCtx.regions (rd : Reader) (n : Nat) : SameCtx (readMemoryRegions rd n) := by
  induction n with
  | zero => exact .ub _
  | succ n ih => exact .bind (.next rd) fun b => .ite (.pure _) ih

/-- A file that is read without an exception is a whole dump, and its registers are there. -/
theorem dump_regs {d d1 : D} (hv : d.v2 = false) (hc : RegsWF d.host.ctx) (h : readDump binaryRead d = .ok () d1) :
    ∃ df : DumpFile, df.WF ∧ d.rest = encode df ∧ d1.host.ctx = loadedRegs df d.host.ctx := by
  obtain ⟨df, hwf, e⟩ := dump_inv hv h
  refine ⟨df, hwf, e, ?_⟩
  rw [head_eq (t := df.mem.flatMap encodeBlock) hwf hc hv e] at h
  have := SameCtx.regions binaryRead ((df.mem.flatMap encodeBlock).length + 1) (d.afterHead df (df.mem.flatMap encodeBlock)) _ rfl
  rw [h] at this
  exact this

/-- Any text: digits of bytes, then nothing, a lone character, or a pair that is not two digits. -/
theorem text_splits (t : Str) : (∃ bs, HexUpToLone t bs) ∨ ∃ p bs bad, t = p ++ bad ∧ HexText p bs ∧ BadPair bad := by
  induction hl : t.length using Nat.strongRecOn generalizing t with
  | _ n ih =>
    cases t with
    | nil => exact .inl ⟨[], .inl .nil⟩
    | cons c t =>
      by_cases hc : isNewline c = true
      · rcases ih t.length (by rw [← hl]; simp) t rfl with ⟨bs, h⟩ | ⟨p, bs, bad, h1, h2, h3⟩
        · rcases h with h | ⟨t', x, nl, h1, h2, h3⟩
          · exact .inl ⟨bs, .inl (.newline hc h)⟩
          · exact .inl ⟨bs, .inr ⟨c :: t', x, nl, by rw [h1]; rfl, .newline hc h2, h3⟩⟩
        · exact .inr ⟨c :: p, bs, bad, by rw [h1]; rfl, .newline hc h2, h3⟩
      · have hsplit : t = t.takeWhile isNewline ++ t.dropWhile isNewline := List.takeWhile_append_dropWhile.symm
        have hnl : ∀ x ∈ t.takeWhile isNewline, isNewline x = true := by
          clear hl ih hsplit
          induction t with
          | nil => intro x hx; cases hx
          | cons y t ih =>
            intro x hx
            rw [List.takeWhile_cons] at hx
            by_cases hy : isNewline y = true
            · rw [if_pos hy] at hx
              rcases List.mem_cons.1 hx with rfl | hx
              · exact hy
              · exact ih x hx
            · rw [if_neg hy] at hx; cases hx
        cases hr : t.dropWhile isNewline with
        | nil =>
          rw [hr, List.append_nil] at hsplit
          exact .inl ⟨[], .inr ⟨[], c, t, rfl, .nil, hc, hsplit ▸ hnl⟩⟩
        | cons lo r =>
          rw [hr] at hsplit
          have hlo : isNewline lo ≠ true := by
            intro e
            have := List.head_dropWhile_not isNewline (l := t) (by rw [hr]; simp)
            simp only [hr, List.head_cons] at this
            rw [e] at this; cases this
          cases hx : hexDigit c with
          | none => exact .inr ⟨[], [], c :: t, rfl, .nil, ⟨c, _, lo, r, by rw [hsplit.symm], hc, hlo, hnl, .inl hx⟩⟩
          | some x =>
            cases hy : hexDigit lo with
            | none => exact .inr ⟨[], [], c :: t, rfl, .nil, ⟨c, _, lo, r, by rw [hsplit.symm], hc, hlo, hnl, .inr hy⟩⟩
            | some y =>
              have hlt : 16 * x + y < 256 := by
                have := (GdbLog.hexDigit_lt hx); have := (GdbLog.hexDigit_lt hy); omega
              have hb : (BitVec.ofNat 8 (16 * x + y)).toNat = 16 * x + y := by
                rw [BitVec.toNat_ofNat, Nat.mod_eq_of_lt hlt]
              rcases ih r.length (by rw [← hl, hsplit]; simp; omega) r rfl with ⟨bs, h⟩ | ⟨p, bs, bad, h1, h2, h3⟩
              · rcases h with h | ⟨t', z, nl, h1, h2, h3⟩
                · exact .inl ⟨_ :: bs, .inl (by rw [hsplit]; exact .byte hx hy hnl hb h)⟩
                · exact .inl ⟨_ :: bs, .inr ⟨c :: (t.takeWhile isNewline ++ lo :: t'), z, nl, by rw [h1] at hsplit; simp [← hsplit],
                    .byte hx hy hnl hb h2, h3⟩⟩
              · exact .inr ⟨c :: (t.takeWhile isNewline ++ lo :: p), _ :: bs, bad, by rw [h1] at hsplit; simp [← hsplit], .byte hx hy hnl hb h2, h3⟩

/-- The same for hexadecimal text. -/
theorem hex_regs {h : Host} {text : Str} {d1 : D} (hc : RegsWF h.ctx) (hd : readDump hexRead (start h text) = .ok () d1) :
    ∃ df : DumpFile, df.WF ∧ HexUpToLone text (encode df) ∧ d1.host.ctx = loadedRegs df h.ctx := by
  have same : ∀ {T : Str → Str → Prop} {bs : Str}, RelR T False hexRead binaryRead → T text bs →
      ∃ df : DumpFile, df.WF ∧ bs = encode df ∧ d1.host.ctx = loadedRegs df h.ctx := by
    intro T bs hR ht
    have := rel_dump hR hex_consumes binary_consumes (d1 := start h text) (d2 := start h bs) ⟨rfl, rfl, ht⟩
    rw [hd] at this
    cases e2 : readDump binaryRead (start h bs) with
    | ok b d2 =>
      rw [e2] at this
      obtain ⟨df, h1, h2, h3⟩ := dump_regs (d := start h bs) rfl hc e2
      exact ⟨df, h1, h2, by rw [this.2.1, h3]; rfl⟩
    | throw e d => rw [e2] at this; exact this.elim
    | ub r => rw [e2] at this; exact this.elim
  rcases text_splits text with ⟨bs, hu⟩ | ⟨p, bs, bad, rfl, h2, h3⟩
  · have hu' := hu
    rcases hu with ht | ⟨t, c, nl, rfl, h2, h3, h4⟩
    · obtain ⟨df, h1, rfl, h3⟩ := same rel_hex ht
      exact ⟨df, h1, hu', h3⟩
    · obtain ⟨df, h1, rfl, h3⟩ := same (rel_lone h3 h4) (.inl ⟨t, rfl, h2⟩)
      exact ⟨df, h1, hu', h3⟩
  · exfalso
    have h0 := rel_dump (rel_bad (ys := []) h3) hex_consumes binary_consumes
      (d1 := start h (p ++ bad)) (d2 := start h (bs ++ [])) ⟨rfl, rfl, p, bs, rfl, h2, rfl⟩
    rw [hd] at h0
    have hr := dump_rest hd
    cases e2 : readDump binaryRead (start h (bs ++ [])) with
    | ok b d2 =>
      rw [e2] at h0
      obtain ⟨-, -, -, p', x, e, -⟩ := h0
      rw [hr] at e
      obtain ⟨hi, nl, lo, rest, rfl, -⟩ := h3.ex
      have := congrArg List.length e
      simp at this
    | throw e d => rw [e2] at h0; exact h0.elim
    | ub r => rw [e2] at h0; exact h0.elim

end Verif.Dump
