import Verif.Lemmas.Text
import Verif.Lemmas.DumpHex
import Verif.Lemmas.DumpComplaint
import Verif.Spec.Diagnosis
/- Hexadecimal text with a pair of characters that is not a byte: how the outcome differs from that of the bytes before it. -/
namespace Verif.Dump
open Verif MemSim Spec

/-- Text of the bytes `t2`, followed by `bad`. -/
def ThenBad (bad t1 t2 : Str) : Prop := ∃ p, t1 = p ++ bad ∧ HexText p t2

theorem hexRead_short {n : Nat} {t bad bs : Str} (h : HexText t bs) (hb : BadPair bad) (hn : bs.length < n) :
    ∃ t', hexRead n (t ++ bad) = .bad bs t' := by
  induction n generalizing t bs with
  | zero => omega
  | succ n ih =>
    cases bs with
    | nil =>
      obtain ⟨hi, nl, lo, rest, rfl, h1, h2, h3, h4⟩ := hb.ex
      have e1 : nextChar (t ++ hi :: (nl ++ lo :: rest)) = some (hi, nl ++ lo :: rest) := by
        rw [hex_nil h, nextChar_char h1]
      have e2 : nextChar (nl ++ lo :: rest) = some (lo, rest) := by
        rw [nextChar_skip h3, nextChar_char h2]
      simp only [hexRead, e1, e2]
      rw [← nibble_digit, ← nibble_digit] at h4
      cases hx : nibbleDigitToVal hi with
      | none => exact ⟨_, rfl⟩
      | some x =>
        cases hy : nibbleDigitToVal lo with
        | none => exact ⟨_, rfl⟩
        | some y => rw [hx, hy] at h4; simp at h4
    | cons b bs =>
      obtain ⟨hi, lo, t1, t2, x, y, h1, h2, h3, h4, h5, h6⟩ := hex_cons (tail := bad) h
      obtain ⟨t', e⟩ := ih h6 (by simp at hn; omega)
      simp only [hexRead, h1, h2, h3, h4, e, h5]
      exact ⟨_, rfl⟩

/-- What is said about a file that ends too early, outside of the contents of a block. -/
def shortages : List Exn :=
  [⟨.fileFormat, asc "The dump file was too short to contain the 4-byte signature."⟩,
   ⟨.fileFormat, asc "The dump file was too short to contain the flags."⟩,
   ⟨.fileFormat, asc "The dump file was too short to contain the integer registers."⟩,
   ⟨.fileFormat, asc "The dump file was too short to contain the exception PSR."⟩,
   ⟨.fileFormat, asc "The dump file was too short to contain the floating point registers."⟩,
   ⟨.stackOverflow, asc "The dump file ended with an indication that CrashCatcher detected a stack overflow."⟩,
   ⟨.fileFormat, asc "The dump file contained a truncated memory region header."⟩]

/-- What is said if something that is not a byte follows instead. -/
def spoil (e : Exn) : Exn := if e ∈ shortages then ⟨.fileFormat, []⟩ else e

theorem spoil_other {e : Exn} (h : e ∉ shortages) : spoil e = e := if_neg h
theorem spoil_short {e : Exn} (h : e ∈ shortages) : spoil e = ⟨.fileFormat, []⟩ := if_pos h

theorem other_code {c : Exc} {m : Str} (h1 : c ≠ .fileFormat) (h2 : c ≠ .stackOverflow) : (⟨c, m⟩ : Exn) ∉ shortages := by
  intro h
  unfold shortages at h
  simp only [List.mem_cons, Exn.mk.injEq, List.not_mem_nil, or_false] at h
  rcases h with h | h | h | h | h | h | h <;> first | exact h1 h.1 | exact h2 h.1

theorem other_start {c : Exc} {m : Str} (h : m.take 15 ≠ (asc "The dump file was").take 15 ∧ m.take 15 ≠ (asc "The dump file ended").take 15 ∧
    m.take 15 ≠ (asc "The dump file contained").take 15) : (⟨c, m⟩ : Exn) ∉ shortages := by
  intro hm
  unfold shortages at hm
  simp only [List.mem_cons, Exn.mk.injEq, List.not_mem_nil, or_false] at hm
  rcases hm with hm | hm | hm | hm | hm | hm | hm <;> rw [hm.2] at h
  · exact h.1 (by decide +kernel)
  · exact h.1 (by decide +kernel)
  · exact h.1 (by decide +kernel)
  · exact h.1 (by decide +kernel)
  · exact h.1 (by decide +kernel)
  · exact h.2.1 (by decide +kernel)
  · exact h.2.2 (by decide +kernel)

theorem region_other {c : Exc} {lo hi : U32} : (⟨c, regionComplaint lo hi⟩ : Exn) ∉ shortages := by
  apply other_start
  unfold regionComplaint
  simp only [List.append_assoc]
  rw [List.take_append_of_le_length (by decide +kernel)]
  decide +kernel

theorem empty_other {c : Exc} : (⟨c, []⟩ : Exn) ∉ shortages := other_start (by decide +kernel)

/-- The outcomes agree, except where the second is one of `P` or of a file that ends too early. -/
def Sp (bad : Str) (P : α → Prop) : Out D α → Out D α → Prop
  | .ok a d1, .ok b d2 => a = b ∧ ¬ P a ∧ RelD (ThenBad bad) d1 d2
  | .throw e _, .throw e' _ => e = spoil e'
  | .throw e _, .ok a _ => P a ∧ e = ⟨.fileFormat, []⟩
  | .ub r, .ub r' => r = r'
  | _, _ => False

variable {bad : Str}

theorem Sp.bind {m1 m2 : M D α} {f1 f2 : α → M D β} {d1 d2 : D} {P : α → Prop} {Q : β → Prop} (h : Sp bad P (m1 d1) (m2 d2))
    (hf : ∀ a d1' d2', m1 d1 = .ok a d1' → m2 d2 = .ok a d2' → RelD (ThenBad bad) d1' d2' → ¬ P a → Sp bad Q (f1 a d1') (f2 a d2'))
    (hp : ∀ a d1' d2', P a → Sp bad Q (.throw ⟨.fileFormat, []⟩ d1') (f2 a d2')) :
    Sp bad Q ((m1 >>= f1) d1) ((m2 >>= f2) d2) := by
  simp only [M.bind_apply]
  cases e1 : m1 d1 with
  | ok a d1' =>
    cases e2 : m2 d2 with
    | ok b d2' =>
      rw [e1, e2] at h
      obtain ⟨rfl, hn, h⟩ := h
      exact hf a d1' d2' e1 e2 h hn
    | throw e d => rw [e1, e2] at h; exact h.elim
    | ub r => rw [e1, e2] at h; exact h.elim
  | throw e d1' =>
    cases e2 : m2 d2 with
    | ok b d2' =>
      rw [e1, e2] at h
      obtain ⟨hb, rfl⟩ := h
      exact hp b d1' d2' hb
    | throw e' d => rw [e1, e2] at h; exact h
    | ub r => rw [e1, e2] at h; exact h.elim
  | ub r =>
    cases e2 : m2 d2 with
    | ok b d2' => rw [e1, e2] at h; exact h.elim
    | throw e' d => rw [e1, e2] at h; exact h.elim
    | ub r => rw [e1, e2] at h; exact h

/-- A stage that does not end normally at the end of the file. -/
theorem Sp.then {m1 m2 : M D α} {f1 f2 : α → M D β} {d1 d2 : D} {Q : β → Prop} (h : Sp bad (fun _ => False) (m1 d1) (m2 d2))
    (hf : ∀ a d1' d2', RelD (ThenBad bad) d1' d2' → Sp bad Q (f1 a d1') (f2 a d2')) :
    Sp bad Q ((m1 >>= f1) d1) ((m2 >>= f2) d2) :=
  h.bind (fun a d1' d2' _ _ h _ => hf a d1' d2' h) (fun _ _ _ h => h.elim)

theorem Sp.onMem {m : M Sim α} {d1 d2 : D} (h : RelD (ThenBad bad) d1 d2) :
    Sp bad (fun _ => False) (match onMem m d1 with | .throw e d => .throw (spoil e) d | o => o) (onMem m d2) := by
  simp only [Dump.onMem, M.zoom_apply, h.1]
  cases m d2.host.mem with
  | ok a s => exact ⟨rfl, id, rfl, h.2.1, h.2.2⟩
  | throw e s => exact rfl
  | ub r => rfl

/-- A read of bytes that are all there, or are not. -/
theorem sp_read (hb : BadPair bad) {n : Nat} {put : Str → D → D}
    (hp : ∀ bs d1 d2, RelD (ThenBad bad) d1 d2 → RelD (ThenBad bad) (put bs d1) (put bs d2)) {d1 d2 : D} (h : RelD (ThenBad bad) d1 d2) :
    (∃ bs d1' d2', readInto hexRead n put d1 = .ok bs d1' ∧ readInto binaryRead n put d2 = .ok bs d2' ∧ bs.length = n ∧
      RelD (ThenBad bad) d1' d2') ∨
    (∃ d1' d2', readInto hexRead n put d1 = .throw ⟨.fileFormat, []⟩ d1' ∧ readInto binaryRead n put d2 = .ok d2.rest d2' ∧
      d2.rest.length < n) := by
  obtain ⟨h1, h2, p, h3, h4⟩ := h
  unfold Dump.readInto
  by_cases hn : n ≤ d2.rest.length
  · obtain ⟨t', e, ht⟩ := hexRead_app (tail := bad) h4 hn
    rw [h3, e]
    exact .inl ⟨_, _, _, rfl, rfl, by simp; omega, hp _ _ _ ⟨h1, h2, t', rfl, ht⟩⟩
  · obtain ⟨t', e⟩ := hexRead_short (bad := bad) h4 hb (n := n) (by omega)
    rw [h3, e]
    refine .inr ⟨_, put d2.rest { d2 with rest := d2.rest.drop n }, rfl, ?_, by omega⟩
    simp only [binaryRead]
    rw [List.take_of_length_le (by omega)]

/-- A read of which a shortage is reported. -/
theorem sp_field (hb : BadPair bad) {n : Nat} {put : Str → D → D} {m : Str}
    (hp : ∀ bs d1 d2, RelD (ThenBad bad) d1 d2 → RelD (ThenBad bad) (put bs d1) (put bs d2)) {d1 d2 : D} (h : RelD (ThenBad bad) d1 d2)
    (hm : ⟨.fileFormat, m⟩ ∈ shortages) {f1 f2 : Str → M D Unit} {P : Unit → Prop}
    (hf : ∀ bs d1' d2', bs.length = n → RelD (ThenBad bad) d1' d2' → Sp bad P (f1 bs d1') (f2 bs d2')) :
    Sp bad P ((do let bs ← readInto hexRead n put
                  if bs.length ≠ n then M.throw .fileFormat m else f1 bs) d1)
      ((do let bs ← readInto binaryRead n put
           if bs.length ≠ n then M.throw .fileFormat m else f2 bs) d2) := by
  simp only [M.bind_apply]
  rcases sp_read hb hp h with ⟨bs, d1', d2', e1, e2, hl, hr⟩ | ⟨d1', d2', e1, e2, hl⟩
  · rw [e1, e2]
    simp only
    rw [if_neg (by omega), if_neg (by omega)]
    exact hf bs d1' d2' hl hr
  · rw [e1, e2]
    simp only
    rw [if_pos (by omega)]
    exact (spoil_short hm).symm

theorem sp_load (hb : BadPair bad) {n : Nat} {a : U32} {d1 d2 : D} (h : RelD (ThenBad bad) d1 d2) :
    (∃ d1' d2', loadRegionBytes hexRead n a d1 = .ok () d1' ∧ loadRegionBytes binaryRead n a d2 = .ok () d2' ∧
      RelD (ThenBad bad) d1' d2') ∨
    (∃ e d1' d2', loadRegionBytes hexRead n a d1 = .throw e d1' ∧ loadRegionBytes binaryRead n a d2 = .throw e d2') ∨
    ∃ r, loadRegionBytes hexRead n a d1 = .ub r ∧ loadRegionBytes binaryRead n a d2 = .ub r := by
  induction n generalizing a d1 d2 with
  | zero => exact .inl ⟨d1, d2, rfl, rfl, h⟩
  | succ n ih =>
    simp only [loadRegionBytes, M.bind_apply, readBytes]
    rcases sp_read hb (n := 1) (put := fun _ d => d) (fun _ _ _ h => h) h with ⟨bs, d1', d2', e1, e2, hl, hr⟩ | ⟨d1', d2', e1, e2, hl⟩
    · rw [e1, e2]
      obtain ⟨b, rfl⟩ := List.length_eq_one_iff.1 hl
      simp only [M.bind_apply, onMem, M.zoom_apply, hr.1]
      cases IMemory.write .w8 a b d2'.host.mem with
      | ok u s => exact ih ⟨rfl, hr.2.1, hr.2.2⟩
      | throw e s => exact .inr (.inl ⟨_, _, _, rfl, rfl⟩)
      | ub r => exact .inr (.inr ⟨_, rfl, rfl⟩)
    · rw [e1, e2, List.length_eq_zero_iff.1 (show d2.rest.length = 0 by omega)]
      exact .inr (.inl ⟨_, _, _, rfl, rfl⟩)

theorem sp_next (hb : BadPair bad) {d1 d2 : D} (h : RelD (ThenBad bad) d1 d2) :
    Sp bad (· = true) (readNextMemoryRegion hexRead d1) (readNextMemoryRegion binaryRead d2) := by
  unfold readNextMemoryRegion readBytes
  simp only [M.bind_apply]
  rcases sp_read hb (n := 8) (put := fun _ d => d) (fun _ _ _ h => h) h with ⟨bs, d1', d2', e1, e2, hl, hr⟩ | ⟨d1', d2', e1, e2, hl⟩
  · rw [e1, e2]
    simp only
    rw [if_neg (by omega), if_neg (by omega), if_neg (by omega)]
    simp only [if_neg (show ¬ (bs.length = 4 ∧ BitVec.ofNat 32 (leVal bs) = STACK_SENTINEL) by omega),
      if_neg (show ¬ bs.length = 0 by omega), if_neg (show ¬ bs.length ≠ 8 by omega)]
    simp only [M.bind_apply, M.tryCatch_apply, createAndLoadMemoryRegion, onMem, M.zoom_apply, hr.1, fmt08X_eq]
    cases createRegion (BitVec.ofNat 32 (leVal (bs.take 4)))
        (BitVec.ofNat 32 (leVal (bs.drop 4)) - BitVec.ofNat 32 (leVal (bs.take 4))) d2'.host.mem with
    | ub r => exact rfl
    | throw e s => exact (spoil_other region_other).symm
    | ok u s =>
      simp only
      rcases sp_load hb (n := (BitVec.ofNat 32 (leVal (bs.drop 4)) - BitVec.ofNat 32 (leVal (bs.take 4)) : U32).toNat)
        (a := BitVec.ofNat 32 (leVal (bs.take 4)))
        (d1 := { d1' with host := { d2'.host with mem := s } }) (d2 := { d2' with host := { d2'.host with mem := s } })
        ⟨rfl, hr.2.1, hr.2.2⟩ with ⟨d3, d4, k1, k2, k3⟩ | ⟨e, d3, d4, k1, k2⟩ | ⟨r, k1, k2⟩
      · rw [k1, k2]
        exact ⟨rfl, by simp, k3⟩
      · rw [k1, k2]
        exact (spoil_other region_other).symm
      · rw [k1, k2]
        exact rfl
  · rw [e1, e2]
    simp only
    split
    · exact (spoil_short (by simp [shortages])).symm
    · split
      · exact ⟨rfl, rfl⟩
      · rw [if_pos (by omega)]
        exact (spoil_short (by simp [shortages])).symm

theorem sp_regions (hb : BadPair bad) {f1 f2 : Nat} {d1 d2 : D} (h : RelD (ThenBad bad) d1 d2)
    (l1 : d1.rest.length < f1) (l2 : d2.rest.length < f2) :
    Sp bad (fun _ => True) (readMemoryRegions hexRead f1 d1) (readMemoryRegions binaryRead f2 d2) := by
  induction f1 generalizing f2 d1 d2 with
  | zero => omega
  | succ f1 ih =>
    cases f2 with
    | zero => omega
    | succ f2 =>
      simp only [readMemoryRegions]
      refine Sp.bind (sp_next hb h) ?_ ?_
      · intro b d1' d2' e1 e2 h hn
        cases b with
        | true => exact absurd rfl hn
        | false =>
          have := next_decr hex_consumes e1
          have := next_decr binary_consumes e2
          exact ih h (by omega) (by omega)
      · rintro b d1' d2' rfl
        exact ⟨trivial, rfl⟩

theorem sp_dump (hb : BadPair bad) {d1 d2 : D} (h : RelD (ThenBad bad) d1 d2) :
    Sp bad (fun _ => True) (readDump hexRead d1) (readDump binaryRead d2) := by
  unfold readDump
  have hput : ∀ (f : Str → Regs → Regs) bs (d1 d2 : D), RelD (ThenBad bad) d1 d2 →
      RelD (ThenBad bad) (d1.setCtx (f bs)) (d2.setCtx (f bs)) :=
    fun f bs d1 d2 h => h.setCtx
  have hok : ∀ d1 d2, RelD (ThenBad bad) d1 d2 → Sp bad (fun _ => False) ((pure () : M D Unit) d1) ((pure () : M D Unit) d2) :=
    fun d1 d2 h => ⟨rfl, id, h⟩
  refine Sp.then (m1 := validateDumpSignature hexRead) (m2 := validateDumpSignature binaryRead) ?_ ?_
  · refine sp_field hb (fun _ _ _ h => h) h (by simp [shortages]) ?_
    intro bs d1 d2 _ h
    split
    · exact hok _ _ h
    · split
      · exact ⟨rfl, id, h.1, rfl, h.2.2⟩
      · exact (spoil_other (other_start (by decide +kernel))).symm
  intro _ d1 d2 h
  refine Sp.then (m1 := readFlags hexRead) (m2 := readFlags binaryRead) ?_ ?_
  · refine sp_field hb (hput _) h (by simp [shortages]) ?_
    intro bs d1 d2 _ h
    exact hok _ _ h
  intro _ d1 d2 h
  refine Sp.then (m1 := readIntegerRegisters hexRead) (m2 := readIntegerRegisters binaryRead) ?_ ?_
  · unfold readIntegerRegisters
    have rest : ∀ (n : Nat) (d1 d2 : D), RelD (ThenBad bad) d1 d2 → Sp bad (fun _ => False) ((do
        let bs ← readInto hexRead n (fun bs d => d.setCtx fun c => { c with r := overlay c.r bs })
        if bs.length ≠ n then M.throw .fileFormat (asc "The dump file was too short to contain the integer registers.")
        else do
          let bs ← readInto hexRead 4 (fun bs d => d.setCtx fun c => { c with psr := overlayWord c.psr bs })
          if bs.length ≠ 4 then M.throw .fileFormat (asc "The dump file was too short to contain the exception PSR.")
          else pure ()) d1) ((do
        let bs ← readInto binaryRead n (fun bs d => d.setCtx fun c => { c with r := overlay c.r bs })
        if bs.length ≠ n then M.throw .fileFormat (asc "The dump file was too short to contain the integer registers.")
        else do
          let bs ← readInto binaryRead 4 (fun bs d => d.setCtx fun c => { c with psr := overlayWord c.psr bs })
          if bs.length ≠ 4 then M.throw .fileFormat (asc "The dump file was too short to contain the exception PSR.")
          else pure ()) d2) := by
      intro n d1 d2 h
      refine sp_field hb (hput fun bs c => { c with r := overlay c.r bs }) h (by simp [shortages]) ?_
      intro bs d1 d2 _ h
      refine sp_field hb (hput fun bs c => { c with psr := overlayWord c.psr bs }) h (by simp [shortages]) ?_
      intro bs d1 d2 _ h
      exact hok _ _ h
    simp only [M.bind_apply, M.get_apply, h.2.1]
    by_cases hv : d2.v2 = true
    · simp only [if_pos hv]
      exact rest _ _ _ h.setCtx
    · simp only [if_neg hv]
      exact rest _ _ _ h
  intro _ d1 d2 h
  refine Sp.then (m1 := readFloatingPointRegisters hexRead) (m2 := readFloatingPointRegisters binaryRead) ?_ ?_
  · unfold readFloatingPointRegisters
    simp only [M.bind_apply, M.get_apply, h.1]
    split
    · exact hok _ _ h
    · refine sp_field hb (hput fun bs c => { c with fpr := overlay c.fpr bs }) h (by simp [shortages]) ?_
      intro bs d1 d2 _ h
      exact hok _ _ h
  intro _ d1 d2 h
  exact sp_regions hb h (Nat.lt_succ_self _) (Nat.lt_succ_self _)

/-! ### What is said -/

theorem head_spoiled {bytes : Str} {m : Str} (h : headComplaint bytes = some m) :
    spoil ⟨.fileFormat, m⟩ = ⟨.fileFormat, if WrongSignature bytes then m else []⟩ := by
  unfold headComplaint at h
  by_cases h1 : bytes.length < 4
  · rw [if_pos h1] at h
    cases h
    rw [if_neg (fun h : WrongSignature bytes => by have := h.1; omega)]
    exact spoil_short (by simp [shortages])
  rw [if_neg h1] at h
  by_cases h2 : bytes.take 4 ≠ [0x63, 0x43, 3, 0] ∧ bytes.take 4 ≠ [0x63, 0x43, 2, 0]
  · rw [if_pos h2] at h
    cases h
    rw [if_pos (show WrongSignature bytes from ⟨by omega, h2⟩)]
    exact spoil_other (other_start (by decide +kernel))
  rw [if_neg h2] at h
  rw [if_neg (fun h : WrongSignature bytes => h2 h.2)]
  split at h
  · cases h; exact spoil_short (by simp [shortages])
  split at h
  · cases h; exact spoil_short (by simp [shortages])
  split at h
  · cases h; exact spoil_short (by simp [shortages])
  split at h
  · cases h; exact spoil_short (by simp [shortages])
  · cases h

theorem rest_spoiled {u : Str} {e : Exn} (h : restComplaint u = some e) : spoil e = spoiledComplaint u := by
  unfold restComplaint at h
  unfold spoiledComplaint
  by_cases h0 : u = []
  · rw [if_pos h0] at h; cases h
  rw [if_neg h0] at h
  by_cases h1 : u = le32 0xACCE55ED
  · rw [if_pos h1] at h
    cases h
    rw [if_pos (by rw [h1]; decide)]
    exact spoil_short (by simp [shortages])
  rw [if_neg h1] at h
  by_cases h2 : u.length < 8
  · rw [if_pos h2] at h
    cases h
    rw [if_pos h2]
    exact spoil_short (by simp [shortages])
  rw [if_neg h2] at h
  rw [if_neg h2]
  split at h
  · cases h
    exact spoil_other region_other
  · cases h

/-- Every text is that of some bytes, up to a lone character, or has a pair of characters that is not a byte. -/
theorem every_text (n : Nat) : ∀ t : Str, t.length ≤ n → (∃ bytes, HexUpToLone t bytes) ∨ ∃ bytes, Spoiled t bytes := by
  induction n with
  | zero =>
    intro t h
    rw [List.length_eq_zero_iff.1 (Nat.le_zero.1 h)]
    exact .inl ⟨[], .inl .nil⟩
  | succ n ih =>
    intro t h
    cases t with
    | nil => exact .inl ⟨[], .inl .nil⟩
    | cons c t =>
      simp only [List.length_cons] at h
      by_cases hc : isNewline c = true
      · rcases ih t (by omega) with ⟨bytes, h1 | ⟨p, x, nl, rfl, h1, h2, h3⟩⟩ | ⟨bytes, p, hi, nl, lo, rest, rfl, h1, h2⟩
        · exact .inl ⟨bytes, .inl (.newline hc h1)⟩
        · exact .inl ⟨bytes, .inr ⟨c :: p, x, nl, rfl, .newline hc h1, h2, h3⟩⟩
        · exact .inr ⟨bytes, c :: p, hi, nl, lo, rest, rfl, .newline hc h1, h2⟩
      · have hsplit : (∀ x ∈ t, isNewline x = true) ∨ ∃ nl lo rest, t = nl ++ lo :: rest ∧ (∀ x ∈ nl, isNewline x = true) ∧
            isNewline lo ≠ true := by
          clear h
          induction t with
          | nil => exact .inl (by simp)
          | cons y t ih =>
            by_cases hy : isNewline y = true
            · rcases ih with h | ⟨nl, lo, rest, rfl, h1, h2⟩
              · exact .inl (by simpa [hy] using h)
              · exact .inr ⟨y :: nl, lo, rest, rfl, by simpa [hy] using h1, h2⟩
            · exact .inr ⟨[], y, t, rfl, by simp, hy⟩
        rcases hsplit with h1 | ⟨nl, lo, rest, rfl, h1, h2⟩
        · exact .inl ⟨[], .inr ⟨[], c, t, rfl, .nil, hc, h1⟩⟩
        · cases hx : hexDigit c with
          | none => exact .inr ⟨[], [], c, nl, lo, rest, rfl, .nil, hc, h2, h1, .inl hx⟩
          | some x =>
            cases hy : hexDigit lo with
            | none => exact .inr ⟨[], [], c, nl, lo, rest, rfl, .nil, hc, h2, h1, .inr hy⟩
            | some y =>
              have hv : (BitVec.ofNat 8 (16 * x + y)).toNat = 16 * x + y := by
                have := digit_lt _ _ hx
                have := digit_lt _ _ hy
                rw [BitVec.toNat_ofNat]
                omega
              simp only [List.length_append, List.length_cons] at h
              rcases ih rest (by omega) with ⟨bytes, k1 | ⟨p, z, nl', rfl, k1, k2, k3⟩⟩ | ⟨bytes, p, hi, nl', lo', rest', rfl, k1, k2⟩
              · exact .inl ⟨_, .inl (.byte hx hy h1 hv k1)⟩
              · exact .inl ⟨_, .inr ⟨c :: (nl ++ lo :: p), z, nl', by simp, .byte hx hy h1 hv k1, k2, k3⟩⟩
              · exact .inr ⟨_, c :: (nl ++ lo :: p), hi, nl', lo', rest', by simp, .byte hx hy h1 hv k1, k2⟩

theorem not_both {t b b' : Str} (h : HexUpToLone t b) : ¬ Spoiled t b' := by
  rintro ⟨p, hi, nl, lo, rest, rfl, h1, h2, h3, h4, h5⟩
  obtain ⟨t', e⟩ := hexRead_short (n := b.length + b'.length + 1) (bad := hi :: (nl ++ lo :: rest)) h1 ⟨hi, nl, lo, rest, rfl, h2, h3, h4, h5⟩
    (by omega)
  rcases h with h | ⟨q, c, nl', e', k1, k2, k3⟩
  · rw [hexRead_end h (by omega)] at e; cases e
  · rw [e', hexRead_lone k1 k2 k3 (by omega)] at e; cases e

theorem hex_length {t bs : Str} (h : HexText t bs) : 2 * bs.length ≤ t.length := by
  induction h with
  | nil => simp
  | newline _ _ ih => simp; omega
  | byte _ _ _ _ _ ih => simp; omega

end Verif.Dump
