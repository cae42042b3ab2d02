import Verif.Lemmas.Text
import Verif.Spec.DumpComplaint
import Verif.Lemmas.DumpInv
import Verif.Lemmas.DumpFile
/- What a dump that is refused looks like, and how it is refused. -/
namespace Verif.Dump
open Verif MemSim Spec

theorem wordOf_zero {t : Str} (h : 4 ≤ t.length) : wordOf t 0 = BitVec.ofNat 32 (leVal (t.take 4)) := by
  match t, h with
  | a :: b :: c :: d :: t, _ => simp [wordOf, numAt, leVal]

theorem wordOf_four {t : Str} (h : 8 ≤ t.length) : wordOf t 4 = BitVec.ofNat 32 (leVal ((t.drop 4).take 4)) := by
  match t, h with
  | a :: b :: c :: d :: e :: f :: g :: i :: t, _ => simp [wordOf, numAt, leVal]

theorem words_head {t : Str} (h : 8 ≤ t.length) : t = le32 (wordOf t 0) ++ le32 (wordOf t 4) ++ t.drop 8 := by
  rw [wordOf_zero (by omega), wordOf_four h, le32_leVal (by simp; omega), le32_leVal (by simp; omega)]
  have : t.drop 8 = (t.drop 4).drop 4 := by rw [List.drop_drop]
  rw [this, List.append_assoc, List.take_append_drop, List.take_append_drop]

theorem read_take (n : Nat) (put : Str → D → D) (d : D) :
    readInto binaryRead n put d = .ok (d.rest.take n) (put (d.rest.take n) { d with rest := d.rest.drop n }) := rfl

theorem flags_short {d : D} (h : d.rest.length < 4) : ∃ d', readFlags binaryRead d =
    .throw ⟨.fileFormat, asc "The dump file was too short to contain the flags."⟩ d' ∧ d'.host.mem = d.host.mem := by
  unfold readFlags
  simp only [M.bind_apply, read_take]
  rw [if_pos (by simp; omega)]
  exact ⟨_, rfl, rfl⟩

theorem regs_short {d : D} {n : Nat} (hn : n = if d.v2 then 4 * 17 else 4 * 19) :
    (d.rest.length < n → ∃ d', readIntegerRegisters binaryRead d =
      .throw ⟨.fileFormat, asc "The dump file was too short to contain the integer registers."⟩ d' ∧ d'.host.mem = d.host.mem) ∧
    (n ≤ d.rest.length → d.rest.length < n + 4 → ∃ d', readIntegerRegisters binaryRead d =
      .throw ⟨.fileFormat, asc "The dump file was too short to contain the exception PSR."⟩ d' ∧ d'.host.mem = d.host.mem) := by
  unfold readIntegerRegisters
  cases hv : d.v2 <;> rw [hv] at hn <;> simp only [Bool.false_eq_true, if_false, if_true] at hn <;> subst hn
  all_goals
    refine ⟨fun h => ?_, fun h h' => ?_⟩
    · simp only [M.bind_apply, M.get_apply, hv, Bool.false_eq_true, if_false, if_true, M.modify_apply, read_take, M.pure_apply]
      rw [if_pos (by simp [D.setCtx]; omega)]
      exact ⟨_, rfl, rfl⟩
    · simp only [M.bind_apply, M.get_apply, hv, Bool.false_eq_true, if_false, if_true, M.modify_apply, read_take, M.pure_apply]
      rw [if_neg (by simp [D.setCtx]; omega)]
      simp only [M.bind_apply, read_take]
      rw [if_pos (by simp [D.setCtx]; omega)]
      exact ⟨_, rfl, rfl⟩

theorem fpr_short {d : D} (hf : hasFloat d.host.ctx.flags = true) (h : d.rest.length < 4 * 33) :
    ∃ d', readFloatingPointRegisters binaryRead d =
      .throw ⟨.fileFormat, asc "The dump file was too short to contain the floating point registers."⟩ d' ∧ d'.host.mem = d.host.mem := by
  unfold readFloatingPointRegisters
  simp only [M.bind_apply, M.get_apply]
  rw [if_neg (fun h0 => by rw [(hasFloat_iff _).1 h0] at hf; cases hf)]
  simp only [M.bind_apply, read_take]
  rw [if_pos (by simp; omega)]
  exact ⟨_, rfl, rfl⟩

theorem sig_right {t : Str} (h2 : ¬ (t.take 4 ≠ [0x63, 0x43, 3, 0] ∧ t.take 4 ≠ [0x63, 0x43, 2, 0])) :
    ∃ v : Bool, t = [0x63, 0x43, if v then 2 else 3, 0] ++ t.drop 4 ∧ registerBytes t = if v then 4 * 17 else 4 * 19 := by
  have hsig : ∃ v : Bool, t.take 4 = [0x63, 0x43, if v then 2 else 3, 0] := by
    by_cases h3 : t.take 4 = [0x63, 0x43, 3, 0]
    · exact ⟨false, h3⟩
    · by_cases h4 : t.take 4 = [0x63, 0x43, 2, 0]
      · exact ⟨true, h4⟩
      · exact absurd ⟨h3, h4⟩ h2
  obtain ⟨v, hsig⟩ := hsig
  refine ⟨v, by rw [← hsig, List.take_append_drop], ?_⟩
  have : t[2]? = some (if v then 2 else 3) := by
    rw [← List.getElem?_take_of_lt (show 2 < 4 by omega), hsig]; rfl
  unfold registerBytes
  rw [this]
  cases v <;> simp

theorem drop_words {t : Str} {k n : Nat} (h : k + 4 * n ≤ t.length) :
    ∃ ws : List U32, ws.length = n ∧ t.drop k = ws.flatMap le32 ++ t.drop (k + 4 * n) := by
  obtain ⟨ws, h1, h2⟩ := as_words (n := n) (bs := (t.drop k).take (4 * n)) (by simp; omega)
  exact ⟨ws, h1, by rw [h2, ← List.drop_drop, List.take_append_drop]⟩

theorem drop_word {t : Str} {k : Nat} (h : k + 4 ≤ t.length) : ∃ w : U32, t.drop k = le32 w ++ t.drop (k + 4) := by
  refine ⟨BitVec.ofNat 32 (leVal ((t.drop k).take 4)), ?_⟩
  rw [le32_leVal (by simp; omega), ← List.drop_drop, List.take_append_drop]

theorem drop_four {t : Str} (h : 8 ≤ t.length) : t.drop 4 = le32 (wordOf t 4) ++ t.drop 8 := by
  rw [wordOf_four (by omega), le32_leVal (by simp; omega)]
  have : t.drop 8 = (t.drop 4).drop 4 := by rw [List.drop_drop]
  rw [this, List.take_append_drop]

/-- The head of a file with nothing wrong before the blocks. -/
theorem head_right {t : Str} (h : headComplaint t = none) :
    ∃ df : DumpFile, df.WF ∧ df.mem = [] ∧ ∃ u, t = encodeHead df ++ u := by
  unfold headComplaint at h
  by_cases h1 : t.length < 4
  · rw [if_pos h1] at h; cases h
  rw [if_neg h1] at h
  by_cases h2 : t.take 4 ≠ [0x63, 0x43, 3, 0] ∧ t.take 4 ≠ [0x63, 0x43, 2, 0]
  · rw [if_pos h2] at h; cases h
  rw [if_neg h2] at h
  obtain ⟨v, hsig, hreg⟩ := sig_right h2
  by_cases h3 : t.length < 8
  · rw [if_pos h3] at h; cases h
  rw [if_neg h3] at h
  by_cases h4 : t.length < 8 + registerBytes t
  · rw [if_pos h4] at h; cases h
  rw [if_neg h4] at h
  by_cases h5 : t.length < 8 + registerBytes t + 4
  · rw [if_pos h5] at h; cases h
  rw [if_neg h5] at h
  by_cases h6 : hasFloat (wordOf t 4) = true ∧ t.length < 8 + registerBytes t + 4 + 4 * 33
  · rw [if_pos h6] at h; cases h
  have hR : registerBytes t = 4 * (if v then 17 else 19) := by rw [hreg]; cases v <;> rfl
  obtain ⟨ws, l1, e1⟩ := drop_words (t := t) (k := 8) (n := if v then 17 else 19) (by omega)
  obtain ⟨w, e2⟩ := drop_word (t := t) (k := 8 + 4 * (if v then 17 else 19)) (by omega)
  obtain ⟨fs, l3, e3⟩ := drop_words (t := t) (k := 8 + 4 * (if v then 17 else 19) + 4) (n := if hasFloat (wordOf t 4) then 33 else 0) (by
    cases hf : hasFloat (wordOf t 4) with
    | false => simp; omega
    | true =>
      rw [hf] at h6
      simp only [true_and, if_true] at h6 ⊢
      omega)
  refine ⟨⟨v, wordOf t 4, ws, w, fs, []⟩, ⟨l1, l3, by simp⟩, rfl,
    t.drop (8 + 4 * (if v then 17 else 19) + 4 + 4 * if hasFloat (wordOf t 4) then 33 else 0), ?_⟩
  unfold encodeHead
  simp only [List.append_assoc]
  rw [← e3, ← e2, ← e1, ← drop_four (by omega)]
  exact hsig

/-- A file with something wrong before the blocks. -/
theorem head_wrong {d : D} {m : Str} (hc : RegsWF d.host.ctx) (hv : d.v2 = false) (h : headComplaint d.rest = some m) :
    ∃ d', readDump binaryRead d = .throw ⟨.fileFormat, m⟩ d' ∧ d'.host.mem = d.host.mem := by
  unfold headComplaint at h
  unfold readDump
  have htl : (d.rest.take 4).length = min 4 d.rest.length := List.length_take
  by_cases h1 : d.rest.length < 4
  · rw [if_pos h1] at h
    simp only [M.bind_apply]
    unfold validateDumpSignature readBytes
    simp only [M.bind_apply, read_take]
    rw [if_pos (by omega)]
    cases h
    exact ⟨_, rfl, rfl⟩
  rw [if_neg h1] at h
  by_cases h2 : d.rest.take 4 ≠ [0x63, 0x43, 3, 0] ∧ d.rest.take 4 ≠ [0x63, 0x43, 2, 0]
  · rw [if_pos h2] at h
    simp only [M.bind_apply]
    unfold validateDumpSignature readBytes
    simp only [M.bind_apply, read_take]
    rw [if_neg (by omega)]
    have e1 : ¬ d.rest.take 4 = [SIGNATURE_BYTE0, SIGNATURE_BYTE1, VERSION_MAJOR, VERSION_MINOR] := h2.1
    have e2 : ¬ d.rest.take 4 = [SIGNATURE_BYTE0, SIGNATURE_BYTE1, 2, 0] := h2.2
    rw [if_neg e1, if_neg e2]
    cases h
    exact ⟨_, rfl, rfl⟩
  rw [if_neg h2] at h
  obtain ⟨v, hsig, hreg⟩ := sig_right h2
  have hval : validateDumpSignature binaryRead d = .ok () { d with rest := d.rest.drop 4, v2 := v } := by
    cases v with
    | false => rw [validate_v3 hsig, ← hv]
    | true => rw [validate_v2 hsig]
  rw [M.bind_ok hval]
  generalize hD : ({ d with rest := d.rest.drop 4, v2 := v } : D) = d1
  have hm1 : d1.host = d.host := by rw [← hD]
  have hv1 : d1.v2 = v := by rw [← hD]
  have hr1 : d1.rest = d.rest.drop 4 := by rw [← hD]
  by_cases h3 : d.rest.length < 8
  · rw [if_pos h3] at h
    cases h
    obtain ⟨d', k1, k2⟩ := flags_short (d := d1) (by rw [hr1]; simp; omega)
    rw [M.bind_throw k1]
    exact ⟨_, rfl, by rw [k2, hm1]⟩
  rw [if_neg h3] at h
  have hw : d1.rest = le32 (wordOf d.rest 4) ++ d.rest.drop 8 := by rw [hr1, drop_four (by omega)]
  rw [M.bind_ok (flags_eq hw)]
  generalize hD2 : D.setCtx _ _ = d2
  have hm2 : d2.host.mem = d.host.mem := by rw [← hD2]; simp only [D.setCtx, hm1]
  have hv2 : d2.v2 = v := by rw [← hD2]; exact hv1
  have hr2 : d2.rest = d.rest.drop 8 := by rw [← hD2]; rfl
  have hf2 : d2.host.ctx.flags = wordOf d.rest 4 := by rw [← hD2]; rfl
  have hc2 : d2.host.ctx.r.length = 19 := by rw [← hD2]; simp only [D.setCtx, hm1]; exact hc.1
  obtain ⟨k1, k2⟩ := regs_short (d := d2) (n := registerBytes d.rest) (by rw [hreg, hv2])
  have hl2 : d2.rest.length = d.rest.length - 8 := by rw [hr2]; simp
  by_cases h4 : d.rest.length < 8 + registerBytes d.rest
  · rw [if_pos h4] at h
    cases h
    obtain ⟨d', k1, k2⟩ := k1 (by omega)
    rw [M.bind_throw k1]
    exact ⟨_, rfl, by rw [k2, hm2]⟩
  rw [if_neg h4] at h
  by_cases h5 : d.rest.length < 8 + registerBytes d.rest + 4
  · rw [if_pos h5] at h
    cases h
    obtain ⟨d', k1, k2⟩ := k2 (by omega) (by omega)
    rw [M.bind_throw k1]
    exact ⟨_, rfl, by rw [k2, hm2]⟩
  rw [if_neg h5] at h
  by_cases h6 : hasFloat (wordOf d.rest 4) = true ∧ d.rest.length < 8 + registerBytes d.rest + 4 + 4 * 33
  · rw [if_pos h6] at h
    cases h
    have hR : registerBytes d.rest = 4 * (if v then 17 else 19) := by rw [hreg]; cases v <;> rfl
    obtain ⟨ws, l1, e1⟩ := drop_words (t := d.rest) (k := 8) (n := if v then 17 else 19) (by omega)
    obtain ⟨w, e2⟩ := drop_word (t := d.rest) (k := 8 + 4 * (if v then 17 else 19)) (by omega)
    rw [M.bind_ok (regs_eq (vs := ws) (w := w) (by rw [l1, hv2]) hc2 (by rw [hr2, e1, e2]))]
    generalize hD3 : D.setCtx _ _ = d3
    obtain ⟨d', k1, k2⟩ := fpr_short (d := d3) (by rw [← hD3]; simp only [D.setCtx, hf2]; exact h6.1)
      (by rw [← hD3]; simp only [D.setCtx]; rw [List.length_drop]; omega)
    rw [M.bind_throw k1]
    refine ⟨_, rfl, ?_⟩
    rw [k2, ← hD3]
    exact hm2
  · rw [if_neg h6] at h; cases h

/-- Where the blocks end. -/
theorem rest_right (t : Str) : ∃ (mem : List (U32 × List U8)) (u : Str), (∀ r ∈ mem, r.2.length < 2 ^ 32) ∧
    t = mem.flatMap encodeBlock ++ u ∧ (u = [] ∨ (restComplaint u).isSome) := by
  induction hn : t.length using Nat.strongRecOn generalizing t with
  | _ n ih =>
    subst hn
    by_cases h0 : t = []
    · exact ⟨[], t, by simp, rfl, .inl h0⟩
    cases hc : restComplaint t with
    | some e => exact ⟨[], t, by simp, rfl, .inr (by rw [hc]; rfl)⟩
    | none =>
      unfold restComplaint at hc
      rw [if_neg h0] at hc
      split at hc
      · cases hc
      split at hc
      · cases hc
      split at hc
      · cases hc
      rename_i _ h8 hl
      generalize ha : wordOf t 0 = a at hl
      generalize he : wordOf t 4 = e at hl
      obtain ⟨mem, u, g1, g2, g3⟩ := ih ((t.drop 8).drop (e - a).toNat).length (by simp; omega) _ rfl
      have hlt := (e - a).isLt
      refine ⟨(a, (t.drop 8).take (e - a).toNat) :: mem, u, ?_, ?_, g3⟩
      · intro r hr
        rcases List.mem_cons.1 hr with rfl | hr
        · simp only [List.length_take, List.length_drop]; omega
        · exact g1 r hr
      · rw [List.flatMap_cons, List.append_assoc, ← g2]
        unfold encodeBlock
        simp only
        have e1 : ((t.drop 8).take (e - a).toNat).length = (e - a).toNat := by rw [List.length_take, List.length_drop]; omega
        have e2 : a + BitVec.ofNat 32 (e - a).toNat = e := by
          rw [BitVec.ofNat_toNat, BitVec.setWidth_eq]
          apply BitVec.eq_of_toNat_eq
          simp only [BitVec.toNat_add, BitVec.toNat_sub]
          omega
        rw [e1, e2, List.append_assoc, List.take_append_drop, ← ha, ← he]
        exact words_head (by omega)

/-- The rest of a file in which the blocks do not end properly. -/
theorem rest_wrong {d : D} {f : Nat} {e : Exn} {old news : List Region} (hsp : Split d.host.mem old news)
    (hheap : PlentyOfMemory d.host.mem) (hfit : Fits (lastPart d.rest))
    (ho : ∀ x, (byteIn (lastPart d.rest) x).isSome → ∀ q ∈ old, ¬ Covers q x 1) (h : restComplaint d.rest = some e) :
    ∃ d', readMemoryRegions binaryRead (f + 1) d = .throw e d' := by
  unfold restComplaint at h
  simp only [readMemoryRegions, M.bind_apply]
  unfold readNextMemoryRegion readBytes
  simp only [M.bind_apply]
  by_cases h0 : d.rest = []
  · rw [if_pos h0] at h; cases h
  rw [if_neg h0] at h
  by_cases h1 : d.rest = le32 0xACCE55ED
  · rw [if_pos h1] at h
    cases h
    rw [read_take, h1]
    simp only [show (le32 0xACCE55ED).take 8 = le32 0xACCE55ED from rfl]
    rw [if_pos ⟨rfl, leVal_le32 _⟩]
    exact ⟨_, rfl⟩
  rw [if_neg h1] at h
  by_cases h2 : d.rest.length < 8
  · rw [if_pos h2] at h
    cases h
    have hpos : 0 < d.rest.length := List.length_pos_iff.2 h0
    rw [readInto_short (by omega)]
    simp only
    rw [if_neg, if_neg (by omega), if_pos (by omega)]
    · exact ⟨_, rfl⟩
    · rintro ⟨g1, g2⟩
      apply h1
      rw [← le32_leVal g1, g2]
      rfl
  rw [if_neg h2] at h
  by_cases hl : d.rest.length < 8 + (wordOf d.rest 4 - wordOf d.rest 0).toNat
  case neg => rw [if_neg hl] at h; cases h
  rw [if_pos hl] at h
  cases h
  have hw := words_head (t := d.rest) (by omega)
  unfold lastPart at hfit ho
  generalize wordOf d.rest 0 = a at *
  generalize wordOf d.rest 4 = b at *
  generalize hbs : d.rest.drop 8 = bs at *
  have hlb : bs.length = d.rest.length - 8 := by rw [← hbs]; simp
  rw [readInto_app (a := le32 a ++ le32 b) (t := bs) hw (by simp)]
  simp only [List.length_append, le32_length]
  rw [if_neg (by simp), if_neg (by simp), if_neg (by simp), (leVal_take _ _).1, (leVal_take _ _).2]
  simp only [M.bind_apply, M.tryCatch_apply, createAndLoadMemoryRegion]
  rw [onMem_ok (d := { d with rest := bs }) (createRegion_ok hheap _ _)]
  simp only
  have hlt : bs.length < (b - a).toNat := by omega
  rw [loadBytes_app (d := D.put { d with rest := bs } _ _) (bs := bs) (t := [])
    (split_create hsp a (b - a)) hfit
    ho (fun x hx => ⟨newRegion a (b - a), by simp, ?_⟩) (by simp [D.put]) (by omega)]
  · have e : (b - a).toNat - bs.length = ((b - a).toNat - bs.length - 1) + 1 := by omega
    rw [e]
    simp only [loadRegionBytes, M.bind_apply, readBytes]
    rw [readInto_short (by simp [D.put]), ← fmt08X_eq]
    exact ⟨_, rfl⟩
  · rw [byteIn_iff] at hx
    refine ⟨hx.1, ?_⟩
    simp only [newRegion]
    have := hx.2
    simp only at this
    omega

end Verif.Dump
