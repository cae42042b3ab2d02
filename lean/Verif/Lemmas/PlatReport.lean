import Verif.Spec.Platform
import Verif.Lemmas.Raw
import Verif.Lemmas.Sat
/-
Lemmas for the fault report: what reading a status register does, how numbers and status bits are printed.
-/
namespace Verif.Platform
open Verif MemSim Spec

theorem asc_ofList (l : List Char) : asc (String.ofList l) = l.map (fun c => BitVec.ofNat 8 c.toNat) := by
  simp [asc]

theorem asc_append (a b : String) : asc (a ++ b) = asc a ++ asc b := by simp [asc]

/-- Reading 32 bits when nothing is being watched changes nothing. -/
theorem read32_still {s : Sim} (hs : Sound s) (hu : Unwatched s) (a : U32) :
    (∃ v, IMemory.read .w32 a s = .ok v s) ∨ IMemory.read .w32 a s = .throw ⟨.busError, []⟩ s := by
  rw [read_eq]
  by_cases hm : Mapped s a Width.w32.bytes
  · obtain ⟨i, r, off, ht⟩ := target_of_mapped hs hm
    have hi := ht.info hs
    have hw := hu.1 r (List.mem_of_getElem? hi.get)
    have hsc : scanAt r off Width.w32.bytes READING = (0, false) := by simp [scanAt, hw, scanWatch]
    have hh := hu.2
    left
    refine ⟨BitVec.ofNat 32 (leVal ((r.data.drop off).take 4)), ?_⟩
    rw [readN_eq hs ht, hsc]
    have : ¬ s.hits ≥ 2 ^ 31 := by omega
    simp [counted, Width.bytes, Width.bits, this]
  · right; rw [readN_unmapped hm]

/-- In states with this memory, the code prints `t` and does nothing else (but set the exception code). -/
def Prints (s : Sim) (m : M Plat Unit) (t : Str) : Prop :=
  ∀ p : Plat, p.mem = s → ∃ c, m p = .ok () { p with console := p.console ++ t, code := c }

theorem Prints.seq {s : Sim} {m : M Plat Unit} {f : Unit → M Plat Unit} {t u : Str} (h : Prints s m t) (h' : Prints s (f ()) u) :
    Prints s (m >>= f) (t ++ u) := by
  intro p hp
  obtain ⟨c, e⟩ := h p hp
  obtain ⟨c', e'⟩ := h' { p with console := p.console ++ t, code := c } hp
  exact ⟨c', by rw [M.bind_ok e, e']; simp⟩

theorem Prints.nil (s : Sim) : Prints s (pure ()) [] := by
  intro p _; exact ⟨p.code, by simp⟩

theorem Prints.say (s : Sim) (t : Str) : Prints s (say t) t := by
  intro p _; exact ⟨p.code, by simp [Platform.say]⟩

theorem Prints.ite {s : Sim} {c : Prop} [Decidable c] {m m' : M Plat Unit} {t t' : Str} (h : c → Prints s m t) (h' : ¬ c → Prints s m' t') :
    Prints s (if c then m else m') (if c then t else t') := by
  by_cases hc : c
  · simp only [if_pos hc]; exact h hc
  · simp only [if_neg hc]; exact h' hc

theorem Prints.tryRead {s : Sim} (hs : Sound s) (hu : Unwatched s) {a : U32} {f : Option U32 → M Plat Unit} {t : Str}
    (h : Prints s (f (wordIn s a)) t) : Prints s (tryRead a >>= f) t := by
  intro p hp
  have key : ∃ c, Platform.tryRead a p = .ok (wordIn s a) { p with code := c } := by
    unfold Platform.tryRead tryMem wordIn
    subst hp
    rcases read32_still hs hu a with ⟨v, e⟩ | e
    · exact ⟨none, by simp only [e]⟩
    · exact ⟨some .busError, by simp only [e]⟩
  obtain ⟨c, e⟩ := key
  obtain ⟨c', e'⟩ := h { p with code := c } hp
  exact ⟨c', by rw [M.bind_ok e, e']⟩

theorem hexDigitLower_eq {n : Nat} (h : n < 16) : hexDigitLower n = lowerDigit n := by
  have : ∀ n : Fin 16, hexDigitLower n = lowerDigit n := by decide +kernel
  exact this ⟨n, h⟩

theorem hex2_eq (b : U8) : hex2 b = [hexDigitLower (b.toNat / 16), hexDigitLower (b.toNat % 16)] := by
  have := b.isLt
  rw [hexDigitLower_eq (by omega), hexDigitLower_eq (by omega)]; rfl

theorem hexValue_eq (v : U32) : hexValue v = shownHex v := by
  have hv := v.isLt
  have hz : ∀ i, byteOf v i = 0 ↔ v.toNat / 256 ^ i % 256 = 0 := by
    intro i
    constructor
    · intro h; rw [← byteOf_toNat, h]; rfl
    · intro h; apply BitVec.eq_of_toNat_eq; rw [byteOf_toNat, h]; rfl
  have hd : ∀ i, [hexDigitLower (v.toNat / 2 ^ (8 * i) % 256 / 16), hexDigitLower (v.toNat / 2 ^ (8 * i) % 16)] = hex2 (byteOf v i) := by
    intro i
    rw [hex2_eq, byteOf_toNat, Nat.pow_mul, show (2 : Nat) ^ 8 = 256 from rfl]
    have : v.toNat / 256 ^ i % 256 % 16 = v.toNat / 256 ^ i % 16 := by omega
    rw [this]
  unfold hexValue shownHex
  simp only [hd]
  by_cases h3 : byteOf v 3 = 0
  · by_cases h2 : byteOf v 2 = 0
    · by_cases h1 : byteOf v 1 = 0
      · have e3 := (hz 3).1 h3; have e2 := (hz 2).1 h2; have e1 := (hz 1).1 h1
        rw [if_pos (by omega)]
        by_cases h0 : byteOf v 0 = 0
        · simp only [h3, h2, h1, h0, List.dropWhile, decide_true, List.range_succ, List.range_zero, List.nil_append, List.reverse_singleton, List.flatMap_cons, List.flatMap_nil]
          decide +kernel
        · simp only [List.dropWhile, h3, h2, h1, decide_true, decide_eq_false h0]; simp [hexOf, List.range_succ]
      · have e3 := (hz 3).1 h3; have e2 := (hz 2).1 h2; have e1 := mt (hz 1).2 h1
        rw [if_neg (by omega), if_pos (by omega)]
        simp only [List.dropWhile, h3, h2, decide_true, decide_eq_false h1]; simp [hexOf, List.range_succ]
    · have e3 := (hz 3).1 h3; have e2 := mt (hz 2).2 h2
      rw [if_neg (by omega), if_neg (by omega), if_pos (by omega)]
      simp only [List.dropWhile, h3, decide_true, decide_eq_false h2]; simp [hexOf, List.range_succ]
  · have e3 := mt (hz 3).2 h3
    rw [if_neg (by omega), if_neg (by omega), if_neg (by omega)]
    simp only [List.dropWhile, decide_eq_false h3]; simp [hexOf, List.range_succ]

theorem bit_iff (v : U32) (i : Nat) (hi : i < 32) : v &&& BitVec.twoPow 32 i ≠ 0 ↔ v.getLsbD i = true := by
  rw [BitVec.and_twoPow]
  have : BitVec.twoPow 32 i ≠ 0#32 := by
    intro h
    have := congrArg (·.getLsbD i) h
    simp [hi] at this
  by_cases hb : v.getLsbD i = true <;> simp [hb, this]

/-- A status field. -/
theorem field_eq (v m : U32) (sh k : Nat) (hm : m.toNat = 2 ^ k - 1) (hk : k ≤ 32) :
    (v >>> sh) &&& m = (v.extractLsb' sh k).setWidth 32 := by
  apply BitVec.eq_of_toNat_eq
  simp only [BitVec.toNat_and, BitVec.toNat_ushiftRight, hm, Nat.and_two_pow_sub_one_eq_mod, BitVec.toNat_setWidth, BitVec.extractLsb'_toNat]
  rw [Nat.mod_eq_of_lt (a := _ % 2 ^ k)]
  exact Nat.lt_of_lt_of_le (Nat.mod_lt _ (Nat.two_pow_pos _)) (Nat.pow_le_pow_right (by omega) hk)

theorem field_bit (v : U32) (sh k i : Nat) (hi : i < k) (hk : k ≤ 32) : ((v.extractLsb' sh k).setWidth 32).getLsbD i = v.getLsbD (sh + i) := by
  simp [BitVec.getLsbD_setWidth, hi]
  omega

theorem Prints.sayIf (s : Sim) (v : U32) {bit : U32} (reg : U32) (i j : Nat) (hb : bit = BitVec.twoPow 32 i) (hi : i < 32)
    (hv : v.getLsbD i = reg.getLsbD j) (t : Str) : Prints s (sayIf v bit t) (if reg.getLsbD j then t else []) := by
  unfold Platform.sayIf
  rw [hb]
  have e := bit_iff v i hi
  rw [hv] at e
  by_cases h : reg.getLsbD j = true
  · rw [if_pos (e.2 h), if_pos h]; exact .say s t
  · rw [if_neg (fun hh => h (e.1 hh)), if_neg h]; exact .nil s

theorem Prints.sayAddress {s : Sim} (hs : Sound s) (hu : Unwatched s) (k : FaultKind) (cfsr v a : U32) (ha : k.address = some a)
    (hv : v.getLsbD 7 = cfsr.getLsbD (k.shift + 7)) : Prints s (sayAddress v a) (addressLine (wordIn s) k cfsr) := by
  unfold Platform.sayAddress addressLine
  rw [ha]
  have e := bit_iff v 7 (by omega)
  rw [hv, show BitVec.twoPow 32 7 = (1 <<< 7 : U32) by decide] at e
  simp only
  by_cases h : cfsr.getLsbD (k.shift + 7) = true
  · rw [if_pos (e.2 h), if_pos h]
    refine .tryRead hs hu ?_
    cases wordIn s a with
    | none => exact .nil s
    | some x => exact Prints.seq (.say s _) (hexValue_eq x ▸ .say s _)
  · rw [if_neg (fun hh => h (e.1 hh)), if_neg h]; exact .nil s

theorem Prints.congr {s : Sim} {m : M Plat Unit} {t u : Str} (h : Prints s m t) (e : t = u) : Prints s m u := e ▸ h

theorem status_bit (k : FaultKind) (hk : k.width ≤ 32) (cfsr : U32) {i : Nat} (hi : i < k.width) :
    (k.status cfsr).getLsbD i = cfsr.getLsbD (k.shift + i) := field_bit _ _ _ _ hi hk

theorem prints_mem {s : Sim} (hs : Sound s) (hu : Unwatched s) : Prints s displayMemFault (faultSection (wordIn s) memManage) := by
  unfold displayMemFault faultSection
  refine .tryRead hs hu ?_
  rw [show CFSR = 0xE000ED28 from rfl]
  cases wordIn s 0xE000ED28 with
  | none => exact .nil s
  | some cfsr =>
    have hf : cfsr &&& 0xFF = memManage.status cfsr := by
      have := field_eq cfsr 0xFF 0 8 (by decide) (by omega)
      rw [show cfsr >>> 0 = cfsr by simp] at this
      exact this
    simp only [hf]
    have hb : ∀ i < 8, (memManage.status cfsr).getLsbD i = cfsr.getLsbD (memManage.shift + i) :=
      fun i hi => status_bit memManage (by decide) cfsr hi
    refine .ite (fun _ => .nil s) fun _ => ?_
    refine .seq ((Prints.say s _).congr (by decide +kernel)) (.seq (.say s _) (.seq (hexValue_eq _ ▸ .say s _)
      (.seq (.sayAddress hs hu memManage cfsr _ _ rfl (hb 7 (by omega))) ?_)))
    unfold bitLines
    simp only [memManage, List.flatMap_cons, List.flatMap_nil]
    refine .seq (.sayIf s _ _ 5 _ (by decide) (by omega) (hb 5 (by omega)) _) ?_
    refine .seq (.sayIf s _ _ 4 _ (by decide) (by omega) (hb 4 (by omega)) _) ?_
    refine .seq (.sayIf s _ _ 3 _ (by decide) (by omega) (hb 3 (by omega)) _) ?_
    refine .seq (.sayIf s _ _ 1 _ (by decide) (by omega) (hb 1 (by omega)) _) ?_
    rw [List.append_nil]
    exact .sayIf s _ _ 0 _ (by decide) (by omega) (hb 0 (by omega)) _

theorem prints_bus {s : Sim} (hs : Sound s) (hu : Unwatched s) : Prints s displayBusFault (faultSection (wordIn s) busFault) := by
  unfold displayBusFault faultSection
  refine .tryRead hs hu ?_
  rw [show CFSR = 0xE000ED28 from rfl]
  cases wordIn s 0xE000ED28 with
  | none => exact .nil s
  | some cfsr =>
    have hf : (cfsr >>> 8) &&& 0xFF = busFault.status cfsr := field_eq cfsr 0xFF 8 8 (by decide) (by omega)
    simp only [hf]
    have hb : ∀ i < 8, (busFault.status cfsr).getLsbD i = cfsr.getLsbD (busFault.shift + i) :=
      fun i hi => status_bit busFault (by decide) cfsr hi
    refine .ite (fun _ => .nil s) fun _ => ?_
    refine .seq ((Prints.say s _).congr (by decide +kernel)) (.seq (.say s _) (.seq (hexValue_eq _ ▸ .say s _)
      (.seq (.sayAddress hs hu busFault cfsr _ _ rfl (hb 7 (by omega))) ?_)))
    unfold bitLines
    simp only [busFault, List.flatMap_cons, List.flatMap_nil]
    refine .seq (.sayIf s _ _ 5 _ (by decide) (by omega) (hb 5 (by omega)) _) ?_
    refine .seq (.sayIf s _ _ 4 _ (by decide) (by omega) (hb 4 (by omega)) _) ?_
    refine .seq (.sayIf s _ _ 3 _ (by decide) (by omega) (hb 3 (by omega)) _) ?_
    refine .seq (.sayIf s _ _ 2 _ (by decide) (by omega) (hb 2 (by omega)) _) ?_
    refine .seq (.sayIf s _ _ 1 _ (by decide) (by omega) (hb 1 (by omega)) _) ?_
    rw [List.append_nil]
    exact .sayIf s _ _ 0 _ (by decide) (by omega) (hb 0 (by omega)) _

theorem prints_usage {s : Sim} (hs : Sound s) (hu : Unwatched s) : Prints s displayUsageFault (faultSection (wordIn s) usageFault) := by
  unfold displayUsageFault faultSection
  refine .tryRead hs hu ?_
  rw [show CFSR = 0xE000ED28 from rfl]
  cases wordIn s 0xE000ED28 with
  | none => exact .nil s
  | some cfsr =>
    have hf : (cfsr >>> 16) &&& 0xFFFF = usageFault.status cfsr := field_eq cfsr 0xFFFF 16 16 (by decide) (by omega)
    simp only [hf]
    have hb : ∀ i < 16, (usageFault.status cfsr).getLsbD i = cfsr.getLsbD (usageFault.shift + i) :=
      fun i hi => status_bit usageFault (by decide) cfsr hi
    refine .ite (fun _ => .nil s) fun _ => ?_
    refine .seq ((Prints.say s _).congr (by decide +kernel)) (.seq (.say s _) (.seq (hexValue_eq _ ▸ .say s _) ?_))
    unfold bitLines addressLine
    simp only [usageFault, List.flatMap_cons, List.flatMap_nil, List.nil_append]
    refine .seq (.sayIf s _ _ 9 _ (by decide) (by omega) (hb 9 (by omega)) _) ?_
    refine .seq (.sayIf s _ _ 8 _ (by decide) (by omega) (hb 8 (by omega)) _) ?_
    refine .seq (.sayIf s _ _ 3 _ (by decide) (by omega) (hb 3 (by omega)) _) ?_
    refine .seq (.sayIf s _ _ 2 _ (by decide) (by omega) (hb 2 (by omega)) _) ?_
    refine .seq (.sayIf s _ _ 1 _ (by decide) (by omega) (hb 1 (by omega)) _) ?_
    rw [List.append_nil]
    exact .sayIf s _ _ 0 _ (by decide) (by omega) (hb 0 (by omega)) _

theorem prints_hard {s : Sim} (hs : Sound s) (hu : Unwatched s) : Prints s displayHardFault (hardFaultSection (wordIn s)) := by
  unfold displayHardFault hardFaultSection
  refine .seq (.say s _) (.tryRead hs hu ?_)
  rw [show HFSR = 0xE000ED2C from rfl]
  cases wordIn s 0xE000ED2C with
  | none => exact .nil s
  | some v =>
    simp only
    refine .seq (.say s _) (.seq (hexValue_eq _ ▸ .say s _) ?_)
    unfold bitLines
    simp only [List.flatMap_cons, List.flatMap_nil, List.append_nil, List.append_assoc]
    refine .seq (.sayIf s _ _ 31 _ (by decide) (by omega) (by simp) _) ?_
    refine .seq (.sayIf s _ _ 1 _ (by decide) (by omega) (by simp) _) ?_
    have e := bit_iff v 30 (by omega)
    rw [show BitVec.twoPow 32 30 = (1 <<< 30 : U32) by decide] at e
    by_cases h : v.getLsbD 30 = true
    · rw [if_pos (e.2 h), if_pos h]
      exact .seq (.say s _) (.seq (prints_mem hs hu) (.seq (prints_bus hs hu) (prints_usage hs hu)))
    · rw [if_neg (fun hh => h (e.1 hh)), if_neg h]; exact .nil s

theorem low_byte (v : U32) : (v &&& 0xFF).toNat = v.toNat % 256 := by
  simp only [BitVec.toNat_and]
  exact Nat.and_two_pow_sub_one_eq_mod v.toNat 8

theorem displayFaultCause_eq {p : Plat} (hs : Sound p.mem) (hu : Unwatched p.mem) :
    ∃ c, displayFaultCause p = .ok () { p with console := p.console ++ faultReport (wordIn p.mem) (p.ctx.psr.toNat % 256), code := c } := by
  have hn := low_byte p.ctx.psr
  have hcmp : ∀ k : Nat, k < 2 ^ 32 → (p.ctx.psr &&& 0xFF = BitVec.ofNat 32 k ↔ p.ctx.psr.toNat % 256 = k) := by
    intro k hk
    rw [← hn, ← BitVec.toNat_inj, BitVec.toNat_ofNat, Nat.mod_eq_of_lt hk]
  have h3 : p.ctx.psr &&& 0xFF = (3 : U32) ↔ _ := hcmp 3 (by decide)
  have h4 : p.ctx.psr &&& 0xFF = (4 : U32) ↔ _ := hcmp 4 (by decide)
  have h5 : p.ctx.psr &&& 0xFF = (5 : U32) ↔ _ := hcmp 5 (by decide)
  have h6 : p.ctx.psr &&& 0xFF = (6 : U32) ↔ _ := hcmp 6 (by decide)
  have key : ∀ n : U32, n = p.ctx.psr &&& 0xFF → Prints p.mem (if n = 3 then do displayHardFault; say (asc "\n")
      else if n = 4 then do displayMemFault; say (asc "\n")
      else if n = 5 then do displayBusFault; say (asc "\n")
      else if n = 6 then do displayUsageFault; say (asc "\n")
      else pure ()) (faultReport (wordIn p.mem) (p.ctx.psr.toNat % 256)) := by
    intro n hn
    rw [← hn] at h3 h4 h5 h6
    by_cases c3 : p.ctx.psr.toNat % 256 = 3
    · rw [if_pos (h3.2 c3), c3]; exact .seq (prints_hard hs hu) (.say _ _)
    · rw [if_neg (mt h3.1 c3)]
      by_cases c4 : p.ctx.psr.toNat % 256 = 4
      · rw [if_pos (h4.2 c4), c4]; exact .seq (prints_mem hs hu) (.say _ _)
      · rw [if_neg (mt h4.1 c4)]
        by_cases c5 : p.ctx.psr.toNat % 256 = 5
        · rw [if_pos (h5.2 c5), c5]; exact .seq (prints_bus hs hu) (.say _ _)
        · rw [if_neg (mt h5.1 c5)]
          by_cases c6 : p.ctx.psr.toNat % 256 = 6
          · rw [if_pos (h6.2 c6), c6]; exact .seq (prints_usage hs hu) (.say _ _)
          · rw [if_neg (mt h6.1 c6)]
            have : faultReport (wordIn p.mem) (p.ctx.psr.toNat % 256) = [] := by
              unfold faultReport
              split <;> first | contradiction | rfl
            rw [this]; exact .nil _
  obtain ⟨c, e⟩ := key (p.ctx.psr &&& 0xFF) rfl p rfl
  exact ⟨c, e⟩

end Verif.Platform
