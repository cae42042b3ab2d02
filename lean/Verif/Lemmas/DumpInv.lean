import Verif.Lemmas.DumpHex
/- What a dump that is accepted looks like. -/
namespace Verif.Dump
open Verif MemSim Spec

theorem le32_leVal {bs : Str} (h : bs.length = 4) : le32 (BitVec.ofNat 32 (leVal bs)) = bs := by
  match bs, h with
  | [a, b, c, d], _ =>
    have ha := a.isLt; have hb := b.isLt; have hc := c.isLt; have hd := d.isLt
    have e : leVal [a, b, c, d] = a.toNat + 256 * b.toNat + 65536 * c.toNat + 16777216 * d.toNat := by simp [leVal]; omega
    have hlt : leVal [a, b, c, d] < 2 ^ 32 := by rw [e]; omega
    unfold le32
    congr 1
    · apply BitVec.eq_of_toNat_eq; rw [byteOf_toNat, BitVec.toNat_ofNat, Nat.mod_eq_of_lt hlt, e]; omega
    congr 1
    · apply BitVec.eq_of_toNat_eq; rw [byteOf_toNat, BitVec.toNat_ofNat, Nat.mod_eq_of_lt hlt, e]; omega
    congr 1
    · apply BitVec.eq_of_toNat_eq; rw [byteOf_toNat, BitVec.toNat_ofNat, Nat.mod_eq_of_lt hlt, e]; omega
    congr 1
    · apply BitVec.eq_of_toNat_eq; rw [byteOf_toNat, BitVec.toNat_ofNat, Nat.mod_eq_of_lt hlt, e]; omega

theorem as_words {n : Nat} {bs : Str} (h : bs.length = 4 * n) : ∃ ws : List U32, ws.length = n ∧ ws.flatMap le32 = bs := by
  induction n generalizing bs with
  | zero => exact ⟨[], rfl, by simp at h; simp [h]⟩
  | succ n ih =>
    obtain ⟨ws, h1, h2⟩ := ih (bs := bs.drop 4) (by simp; omega)
    refine ⟨BitVec.ofNat 32 (leVal (bs.take 4)) :: ws, by simp [h1], ?_⟩
    rw [List.flatMap_cons, h2, le32_leVal (by simp; omega), List.take_append_drop]

theorem readInto_inv {n : Nat} {put : Str → D → D} {d d' : D} {bs : Str} (h : readInto binaryRead n put d = .ok bs d') :
    ∃ t, d.rest = bs ++ t ∧ d' = put bs { d with rest := t } := by
  simp only [readInto, binaryRead, Out.ok.injEq] at h
  refine ⟨d.rest.drop n, ?_, ?_⟩
  · rw [← h.1, List.take_append_drop]
  · rw [← h.1, ← h.2]

theorem validate_inv {d d1 : D} (hv : d.v2 = false) (h : validateDumpSignature binaryRead d = .ok () d1) :
    d.rest = [0x63, 0x43, if d1.v2 then 2 else 3, 0] ++ d1.rest := by
  unfold validateDumpSignature readBytes at h
  obtain ⟨bs, d2, h1, h⟩ := bind_inv h
  obtain ⟨t, e1, rfl⟩ := readInto_inv h1
  split at h
  · cases h
  · split at h
    · rename_i hs
      cases h
      simp only [e1, hs, hv, SIGNATURE_BYTE0, SIGNATURE_BYTE1, VERSION_MAJOR, VERSION_MINOR]
      rfl
    · split at h
      · rename_i hs
        cases h
        simp only [e1, hs, SIGNATURE_BYTE0, SIGNATURE_BYTE1]
        rfl
      · cases h

theorem flags_inv {d d1 : D} (h : readFlags binaryRead d = .ok () d1) :
    d.rest = le32 d1.host.ctx.flags ++ d1.rest ∧ d1.v2 = d.v2 := by
  unfold readFlags at h
  obtain ⟨bs, d2, h1, h⟩ := bind_inv h
  obtain ⟨t, e1, rfl⟩ := readInto_inv h1
  split at h
  · cases h
  · rename_i hl
    simp only [ne_eq, Decidable.not_not] at hl
    cases h
    refine ⟨?_, rfl⟩
    simp only [D.setCtx, overlayWord_full hl, le32_leVal hl]
    exact e1

theorem regs_inv {d d1 : D} (h : readIntegerRegisters binaryRead d = .ok () d1) :
    ∃ (vs : List U32) (w : U32), vs.length = (if d.v2 then 17 else 19) ∧ d.rest = vs.flatMap le32 ++ (le32 w ++ d1.rest) ∧ d1.v2 = d.v2 ∧
      d1.host.ctx.flags = d.host.ctx.flags := by
  unfold readIntegerRegisters at h
  have rest : ∀ (n k : Nat) (d2 : D), n = 4 * k → (do
        let bs ← readInto binaryRead n (fun bs d => d.setCtx fun c => { c with r := overlay c.r bs })
        if bs.length ≠ n then M.throw .fileFormat (asc "The dump file was too short to contain the integer registers.")
        else do
          let bs ← readInto binaryRead 4 (fun bs d => d.setCtx fun c => { c with psr := overlayWord c.psr bs })
          if bs.length ≠ 4 then M.throw .fileFormat (asc "The dump file was too short to contain the exception PSR.")
          else pure ()) d2 = .ok () d1 → ∃ (vs : List U32) (w : U32), vs.length = k ∧ d2.rest = vs.flatMap le32 ++ (le32 w ++ d1.rest) ∧ d1.v2 = d2.v2 ∧
      d1.host.ctx.flags = d2.host.ctx.flags := by
    intro n k d2 hk h
    obtain ⟨bs, d3, h1, h⟩ := bind_inv h
    obtain ⟨t, e1, rfl⟩ := readInto_inv h1
    split at h
    · cases h
    · rename_i hl
      simp only [ne_eq, Decidable.not_not] at hl
      obtain ⟨bs', d4, h2, h⟩ := bind_inv h
      obtain ⟨t', e2, rfl⟩ := readInto_inv h2
      split at h
      · cases h
      · rename_i hl'
        simp only [ne_eq, Decidable.not_not] at hl'
        cases h
        obtain ⟨vs, l1, l2⟩ := as_words (hl.trans hk)
        refine ⟨vs, BitVec.ofNat 32 (leVal bs'), l1, ?_, rfl, rfl⟩
        simp only [D.setCtx] at e2
        rw [l2, le32_leVal hl', e1, e2]
        rfl
  simp only [M.bind_apply, M.get_apply] at h
  by_cases hv : d.v2 = true
  · simp only [if_pos hv] at h ⊢
    simp only [M.bind_apply, M.modify_apply] at h
    rw [← M.bind_apply] at h
    have key := rest _ 17 _ (by rfl) h
    exact key
  · simp only [if_neg hv] at h ⊢
    exact rest _ 19 _ rfl h

theorem fpr_inv {d d1 : D} (h : readFloatingPointRegisters binaryRead d = .ok () d1) :
    ∃ vs : List U32, vs.length = (if hasFloat d.host.ctx.flags then 33 else 0) ∧ d.rest = vs.flatMap le32 ++ d1.rest ∧ d1.v2 = d.v2 := by
  unfold readFloatingPointRegisters at h
  simp only [M.bind_apply, M.get_apply] at h
  by_cases hf : d.host.ctx.flags &&& FLAGS_FLOATING_POINT = 0
  · rw [if_pos hf] at h
    cases h
    exact ⟨[], by simp [(hasFloat_iff _).1 hf], rfl, rfl⟩
  · rw [if_neg hf] at h
    have ht : hasFloat d.host.ctx.flags = true := by
      cases hh : hasFloat d.host.ctx.flags with
      | true => rfl
      | false => exact absurd ((hasFloat_iff _).2 hh) hf
    obtain ⟨bs, d3, h1, h⟩ := bind_inv h
    obtain ⟨t, e1, rfl⟩ := readInto_inv h1
    split at h
    · cases h
    · rename_i hl
      simp only [ne_eq, Decidable.not_not] at hl
      cases h
      obtain ⟨vs, l1, l2⟩ := as_words hl
      exact ⟨vs, by simp [ht, l1], by rw [l2, e1]; rfl, rfl⟩

theorem load_inv {n : Nat} {a : U32} {d d1 : D} (h : loadRegionBytes binaryRead n a d = .ok () d1) :
    ∃ bs : Str, bs.length = n ∧ d.rest = bs ++ d1.rest := by
  induction n generalizing a d with
  | zero => cases h; exact ⟨[], rfl, rfl⟩
  | succ n ih =>
    simp only [loadRegionBytes, readBytes] at h
    obtain ⟨bs, d2, h1, h⟩ := bind_inv h
    obtain ⟨t, e1, rfl⟩ := readInto_inv h1
    split at h
    · rename_i b
      obtain ⟨_, d3, h2, h⟩ := bind_inv h
      have hr : d3.rest = t := by
        simp only [onMem, M.zoom_apply] at h2
        split at h2
        · cases h2; rfl
        · cases h2
        · cases h2
      obtain ⟨bs, l1, l2⟩ := ih h
      exact ⟨b :: bs, by simp [l1], by rw [e1, ← hr, l2]; rfl⟩
    · cases h

theorem next_inv {d d1 : D} {b : Bool} (h : readNextMemoryRegion binaryRead d = .ok b d1) :
    if b then d.rest = [] else ∃ r : U32 × List U8, r.2.length < 2 ^ 32 ∧ d.rest = encodeBlock r ++ d1.rest := by
  unfold readNextMemoryRegion readBytes at h
  have h0 := h
  obtain ⟨bs, d2, h1, h⟩ := bind_inv h
  have hb : bs = d.rest.take 8 := by
    simp only [readInto, binaryRead, Out.ok.injEq] at h1; exact h1.1.symm
  obtain ⟨t, e1, rfl⟩ := readInto_inv h1
  split at h
  · cases h
  · split at h
    · rename_i hl
      cases h
      rw [hb, List.length_take] at hl
      exact List.length_eq_zero_iff.1 (by omega)
    · split at h
      · cases h
      · rename_i hl
        simp only [ne_eq, Decidable.not_not] at hl
        obtain ⟨_, d3, h2, h⟩ := bind_inv h
        cases h
        simp only [M.tryCatch_apply] at h2
        split at h2
        · rename_i hc
          cases h2
          unfold createAndLoadMemoryRegion at hc
          obtain ⟨_, d4, h3, hc⟩ := bind_inv hc
          have hr : d4.rest = t := by
            simp only [onMem, M.zoom_apply] at h3
            split at h3
            · cases h3; rfl
            · cases h3
            · cases h3
          obtain ⟨bytes, l1, l2⟩ := load_inv hc
          have hlt := (BitVec.ofNat 32 (leVal (bs.drop 4)) - BitVec.ofNat 32 (leVal (bs.take 4))).isLt
          refine ⟨(BitVec.ofNat 32 (leVal (bs.take 4)), bytes), by simp only; omega, ?_⟩
          have e2 : BitVec.ofNat 32 (leVal (bs.take 4)) + BitVec.ofNat 32 bytes.length = BitVec.ofNat 32 (leVal (bs.drop 4)) := by
            rw [l1, BitVec.ofNat_toNat, BitVec.setWidth_eq]
            apply BitVec.eq_of_toNat_eq
            simp only [BitVec.toNat_add, BitVec.toNat_sub]
            omega
          unfold encodeBlock
          simp only
          rw [e2, le32_leVal (by simp; omega), le32_leVal (by simp; omega), List.take_append_drop, List.append_assoc, ← l2, hr, e1]
        · cases h2
        · cases h2

theorem regions_inv {f : Nat} {d d1 : D} (h : readMemoryRegions binaryRead f d = .ok () d1) :
    ∃ mem : List (U32 × List U8), (∀ r ∈ mem, r.2.length < 2 ^ 32) ∧ d.rest = mem.flatMap encodeBlock := by
  induction f generalizing d with
  | zero => simp [readMemoryRegions] at h
  | succ f ih =>
    simp only [readMemoryRegions] at h
    obtain ⟨b, d2, h1, h⟩ := bind_inv h
    have hn := next_inv h1
    cases b with
    | true => exact ⟨[], by simp, hn⟩
    | false =>
      simp only [Bool.false_eq_true, if_false] at h hn
      obtain ⟨r, hr, e⟩ := hn
      obtain ⟨mem, hm, e2⟩ := ih h
      refine ⟨r :: mem, ?_, by rw [e, e2]; rfl⟩
      intro q hq
      rcases List.mem_cons.1 hq with rfl | hq
      · exact hr
      · exact hm q hq

/-- Accepted input is an encoded dump. -/
theorem dump_inv {d d1 : D} (hv : d.v2 = false) (h : readDump binaryRead d = .ok () d1) :
    ∃ df : DumpFile, df.WF ∧ d.rest = encode df := by
  unfold readDump at h
  obtain ⟨_, a1, h1, h⟩ := bind_inv h
  obtain ⟨_, a2, h2, h⟩ := bind_inv h
  obtain ⟨_, a3, h3, h⟩ := bind_inv h
  obtain ⟨_, a4, h4, h⟩ := bind_inv h
  obtain ⟨x, a5, h5, h⟩ := bind_inv h
  cases h5
  have e1 := validate_inv hv h1
  obtain ⟨e2, v2⟩ := flags_inv h2
  obtain ⟨vs, w, l3, e3, v3, f3⟩ := regs_inv h3
  obtain ⟨fs, l4, e4, v4⟩ := fpr_inv h4
  obtain ⟨mem, hm, e5⟩ := regions_inv h
  refine ⟨⟨a1.v2, a2.host.ctx.flags, vs, w, fs, mem⟩, ⟨?_, ?_, hm⟩, ?_⟩
  · rw [v2] at l3; exact l3
  · rw [f3] at l4; exact l4
  · unfold encode encodeHead
    simp only [List.append_assoc]
    rw [e1, e2, e3, e4, e5]

end Verif.Dump
