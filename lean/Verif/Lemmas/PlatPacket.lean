import Verif.Lemmas.PlatHist
import Verif.Lemmas.DumpInv
/-
Lemmas for malformed register packets and for the target descriptions.
-/
namespace Verif.Platform
open Verif MemSim Spec Dump

theorem overlayWord_bytes {w : U32} {bs : Str} : le32 (overlayWord w bs) = bs.take 4 ++ (le32 w).drop bs.length := by
  unfold overlayWord
  rw [leBytes_le32]
  refine le32_leVal ?_
  simp; omega

theorem overlay_bytes {ws : List U32} {bs : Str} (h : bs.length ≤ 4 * ws.length) :
    (overlay ws bs).flatMap le32 = bs ++ (ws.flatMap le32).drop bs.length := by
  induction ws generalizing bs with
  | nil => cases bs with
    | nil => rfl
    | cons b bs => simp at h
  | cons w ws ih =>
    simp only [overlay, List.flatMap_cons, overlayWord_bytes]
    simp only [List.length_cons] at h
    rw [ih (by simp; omega), List.drop_append, List.length_drop, le32_length]
    by_cases hb : bs.length ≤ 4
    · rw [List.take_of_length_le hb, List.drop_of_length_le hb, show bs.length - 4 = 0 by omega]
      simp
    · rw [List.drop_of_length_le (l := le32 w) (by simp; omega)]
      simp only [List.append_nil, List.nil_append]
      rw [← List.append_assoc, List.take_append_drop]

theorem overlay_length (ws : List U32) (bs : Str) : (overlay ws bs).length = ws.length := by
  induction ws generalizing bs with
  | nil => rfl
  | cons w ws ih => simp [overlay, ih]

/-- A text either starts with the given number of bytes in hexadecimal, or goes wrong before that. -/
theorem pairs_or_bad (n : Nat) (text : Str) :
    (∃ t bs u, text = t ++ u ∧ HexPairs t bs ∧ bs.length = n) ∨
      ∃ t bs u c, text = t ++ u ∧ HexPairs t bs ∧ bs.length < n ∧ BadPair u c := by
  induction n generalizing text with
  | zero => exact .inl ⟨[], [], text, rfl, .nil, rfl⟩
  | succ n ih =>
    have bad : ∀ {u c}, text = u → BadPair u c → ∃ t bs u c, text = t ++ u ∧ HexPairs t bs ∧ bs.length < n + 1 ∧ BadPair u c :=
      fun {u c} e h => ⟨[], [], u, c, e, .nil, by simp, h⟩
    match text with
    | [] => exact .inr (bad rfl (.inl ⟨rfl, rfl⟩))
    | hi :: rest =>
      cases hx : hexDigit hi with
      | none => exact .inr (bad rfl (.inr (.inl ⟨hi, rest, rfl, hx, rfl⟩)))
      | some x =>
        match rest with
        | [] => exact .inr (bad rfl (.inr (.inr (.inl ⟨hi, x, rfl, hx, rfl⟩))))
        | lo :: rest =>
          cases hy : hexDigit lo with
          | none => exact .inr (bad rfl (.inr (.inr (.inr ⟨hi, x, lo, rest, rfl, hx, hy, rfl⟩))))
          | some y =>
            have hlt : ∀ {c z}, hexDigit c = some z → z < 16 := by
              intro c z h
              unfold hexDigit at h
              split at h
              · cases h; omega
              · split at h
                · cases h; omega
                · split at h
                  · cases h; omega
                  · cases h
            have h1 := hlt hx
            have h2 := hlt hy
            have hb : (BitVec.ofNat 8 (16 * x + y)).toNat = 16 * x + y := by
              rw [BitVec.toNat_ofNat]; omega
            rcases ih rest with ⟨t, bs, u, rfl, h, hl⟩ | ⟨t, bs, u, c, rfl, h, hl, hbad⟩
            · exact .inl ⟨hi :: lo :: t, _ :: bs, u, rfl, .cons hx hy hb h, by simp [hl]⟩
            · exact .inr ⟨hi :: lo :: t, _ :: bs, u, c, rfl, .cons hx hy hb h, by simpa using hl, hbad⟩

theorem packetBytes_length (c : Regs) : (packetBytes c).length = 4 * c.r.length + if hasFloat c.flags then 4 * c.fpr.length else 0 := by
  unfold packetBytes
  rw [List.length_append, flatMap_le32_length]
  split
  · rw [flatMap_le32_length]
  · rfl

/-- A packet that goes wrong after the bytes `bs`. -/
theorem copyFrom_bad {p : Plat} {t u bs : Str} {c : Exc} (hb : remaining p.buf = t ++ u) (ht : HexPairs t bs)
    (hl : bs.length < (packetBytes p.ctx).length) (hbad : BadPair u c) :
    ∃ r fpr b, copyContextFromBuffer p = .throw ⟨c, []⟩ { p with ctx := { p.ctx with r := r, fpr := fpr }, buf := b } ∧
      b.data = p.buf.data ∧ r.length = p.ctx.r.length ∧ fpr.length = p.ctx.fpr.length ∧
      (hasFloat p.ctx.flags = false → fpr = p.ctx.fpr) ∧
      packetBytes { p.ctx with r := r, fpr := fpr } = bs ++ (packetBytes p.ctx).drop bs.length := by
  unfold copyContextFromBuffer
  simp only [M.bind_apply, M.get_apply]
  by_cases hs : bs.length < 4 * p.ctx.r.length
  · obtain ⟨b, e, hd⟩ := readBytes_bad storeR_ok (ws := p.ctx.r) ht hs hb hbad (by rw [overlay_nil]; rfl)
    refine ⟨overlay p.ctx.r bs, p.ctx.fpr, b, by rw [e]; rfl, hd, overlay_length _ _, rfl, fun _ => rfl, ?_⟩
    unfold packetBytes
    simp only
    rw [overlay_bytes (by omega), List.drop_append, flatMap_le32_length, show bs.length - 4 * p.ctx.r.length = 0 by omega]
    simp
  · have hf : hasFloat p.ctx.flags = true := by
      by_cases hf : hasFloat p.ctx.flags = true
      · exact hf
      · rw [packetBytes_length, if_neg hf] at hl; omega
    obtain ⟨bs1, bs2, rfl, hl1⟩ : ∃ bs1 bs2, bs = bs1 ++ bs2 ∧ bs1.length = 4 * p.ctx.r.length :=
      ⟨bs.take (4 * p.ctx.r.length), bs.drop (4 * p.ctx.r.length), (List.take_append_drop ..).symm, by simp; omega⟩
    obtain ⟨t1, t2, rfl, h1, h2⟩ := HexPairs.split ht
    rw [List.append_assoc] at hb
    have e1 := readBytes_all storeR_ok (ws := p.ctx.r) h1 hb (by rw [overlay_nil]; rfl)
    rw [hl1] at e1
    rw [e1]
    simp only [hasFPU_eq, hf, if_true]
    rw [packetBytes_length, if_pos hf, List.length_append] at hl
    obtain ⟨b, e, hd⟩ := readBytes_bad storeFPR_ok (ws := p.ctx.fpr) h2
      (p := withBuf (skip t1.length p.buf) (storeR (overlay p.ctx.r bs1) p)) (n := 4 * p.ctx.fpr.length) (by omega)
      (by exact remaining_skip hb) hbad (by rw [overlay_nil]; rfl)
    refine ⟨overlay p.ctx.r bs1, overlay p.ctx.fpr bs2, b, by rw [e]; rfl, hd, overlay_length _ _, overlay_length _ _,
      nofun, ?_⟩
    unfold packetBytes
    simp only [hf, if_true]
    rw [overlay_bytes (by omega), overlay_bytes (by omega), hl1]
    rw [List.drop_of_length_le (l := p.ctx.r.flatMap le32) (by rw [flatMap_le32_length]; omega)]
    rw [List.drop_append, flatMap_le32_length, List.length_append, hl1]
    rw [List.drop_of_length_le (l := p.ctx.r.flatMap le32) (by rw [flatMap_le32_length]; omega)]
    rw [show 4 * p.ctx.r.length + bs2.length - 4 * p.ctx.r.length = bs2.length by omega]
    simp

/-- Words from bytes. -/
theorem words_of_bytes {n : Nat} {bs : Str} (h : bs.length = 4 * n) : ∃ ws : List U32, ws.length = n ∧ ws.flatMap le32 = bs := by
  refine ⟨overlay (List.replicate n 0) bs, by rw [overlay_length]; simp, ?_⟩
  rw [overlay_bytes (by simp; omega), List.drop_of_length_le (by rw [flatMap_le32_length]; simp; omega)]
  simp

/-- Registers from bytes. -/
theorem regs_of_bytes {p : Regs} {bs : Str} (h : bs.length = (packetBytes p).length) :
    ∃ r fpr, r.length = p.r.length ∧ fpr.length = p.fpr.length ∧ packetBytes { p with r := r, fpr := fpr } = bs := by
  rw [packetBytes_length] at h
  by_cases hf : hasFloat p.flags = true
  · rw [if_pos hf] at h
    obtain ⟨r, h1, h2⟩ := words_of_bytes (n := p.r.length) (bs := bs.take (4 * p.r.length)) (by simp; omega)
    obtain ⟨f, h3, h4⟩ := words_of_bytes (n := p.fpr.length) (bs := bs.drop (4 * p.r.length)) (by simp; omega)
    exact ⟨r, f, h1, h3, by simp [packetBytes, hf, h2, h4]⟩
  · rw [if_neg hf] at h
    obtain ⟨r, h1, h2⟩ := words_of_bytes (n := p.r.length) (bs := bs) (by omega)
    exact ⟨r, p.fpr, h1, rfl, by simp [packetBytes, hf, h2]⟩

/-! ### Target descriptions -/

theorem declared_line (l t : Str) : declared (l ++ (0x0A :: t)) = declared l ++ declared t := by
  unfold declared
  rw [List.splitOn_append_cons_self, List.flatMap_append]

/-- Lines of a text, without their line ends. -/
def joinLines (ls : List Str) : Str := ls.flatMap fun l => l ++ [0x0A]

theorem declared_lines (ls : List Str) (h : ∀ l ∈ ls, (0x0A : U8) ∉ l) : declared (joinLines ls) = ls.flatMap declaredInLine := by
  induction ls with
  | nil => decide +kernel
  | cons l ls ih =>
    rw [joinLines, List.flatMap_cons, List.append_assoc, List.singleton_append, declared_line]
    rw [show declared l = declaredInLine l by
      unfold declared; rw [List.splitOn_eq_singleton (h l (by simp))]; simp]
    rw [List.flatMap_cons]
    congr 1
    exact ih fun l hl => h l (by simp [hl])

end Verif.Platform
