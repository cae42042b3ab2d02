import Verif.Lemmas.DumpSafe
import Verif.Spec.LineEnds
/- Comparing the parser on two inputs. -/
namespace Verif.Dump
open Verif MemSim Spec

/-- Two states that differ in the unread part only; these are related by `T`. -/
def RelD (T : Str → Str → Prop) (d1 d2 : D) : Prop := d1.host = d2.host ∧ d1.v2 = d2.v2 ∧ T d1.rest d2.rest

/-- Two outcomes that agree; if `B`, the first may be a format error instead. -/
def RelO (T : Str → Str → Prop) (B : Prop) : Out D α → Out D α → Prop
  | .ok a d1, .ok b d2 => a = b ∧ RelD T d1 d2
  | .throw e d1, .throw e' d2 => (e = e' ∧ d1.host = d2.host) ∨ (B ∧ e.code = .fileFormat)
  | .throw e _, _ => B ∧ e.code = .fileFormat
  | .ub r, .ub r' => r = r'
  | _, _ => False

/-- Two readers that return the same bytes on related inputs or stop both at a bad character; if `B`, the first may report a format
error instead. -/
def RelR (T : Str → Str → Prop) (B : Prop) (rd1 rd2 : Reader) : Prop :=
  ∀ n t1 t2, 0 < n → T t1 t2 → (∃ bs t1' t2', rd1 n t1 = .got bs t1' ∧ rd2 n t2 = .got bs t2' ∧ T t1' t2') ∨
    (B ∧ ∃ bs t', rd1 n t1 = .bad bs t') ∨ (∃ bs t1' t2', rd1 n t1 = .bad bs t1' ∧ rd2 n t2 = .bad bs t2' ∧ T t1' t2')

variable {T : Str → Str → Prop} {B : Prop} {rd1 rd2 : Reader}

theorem RelO.bind {m1 m2 : M D α} {f1 f2 : α → M D β} {d1 d2 : D} (h : RelO T B (m1 d1) (m2 d2))
    (hf : ∀ a d1' d2', m1 d1 = .ok a d1' → m2 d2 = .ok a d2' → RelD T d1' d2' → RelO T B (f1 a d1') (f2 a d2')) :
    RelO T B ((m1 >>= f1) d1) ((m2 >>= f2) d2) := by
  simp only [M.bind_apply]
  cases e1 : m1 d1 with
  | ok a d1' =>
    cases e2 : m2 d2 with
    | ok b d2' =>
      rw [e1, e2] at h
      obtain ⟨rfl, h⟩ := h
      exact hf a d1' d2' e1 e2 h
    | throw e d => rw [e1, e2] at h; exact h.elim
    | ub r => rw [e1, e2] at h; exact h.elim
  | throw e d1' =>
    cases e2 : m2 d2 with
    | ok b d2' =>
      rw [e1, e2] at h
      simp only
      have : ∀ o : Out D β, RelO T B (.throw e d1') o := by
        intro o; cases o with
        | ok => exact h
        | throw => exact .inr h
        | ub => exact h
      exact this _
    | throw e' d => rw [e1, e2] at h; exact h
    | ub r => rw [e1, e2] at h; exact h
  | ub r =>
    cases e2 : m2 d2 with
    | ok b d2' => rw [e1, e2] at h; exact h.elim
    | throw e' d => rw [e1, e2] at h; exact h.elim
    | ub r => rw [e1, e2] at h; exact h

theorem RelO.readInto (hR : RelR T B rd1 rd2) {n : Nat} (hn : 0 < n) {put : Str → D → D}
    (hp : ∀ bs d1 d2, RelD T d1 d2 → RelD T (put bs d1) (put bs d2)) {d1 d2 : D} (h : RelD T d1 d2) :
    RelO T B (readInto rd1 n put d1) (readInto rd2 n put d2) := by
  unfold Dump.readInto
  rcases hR n _ _ hn h.2.2 with ⟨bs, t1, t2, e1, e2, ht⟩ | ⟨hb, bs, t', e1⟩ | ⟨bs, t1, t2, e1, e2, ht⟩
  · rw [e1, e2]
    exact ⟨rfl, hp _ _ _ ⟨h.1, h.2.1, ht⟩⟩
  · rw [e1]
    cases e2 : rd2 n d2.rest with
    | got => exact ⟨hb, rfl⟩
    | bad => exact .inr ⟨hb, rfl⟩
  · rw [e1, e2]
    exact .inl ⟨rfl, (hp bs { d1 with rest := t1 } { d2 with rest := t2 } ⟨h.1, h.2.1, ht⟩).1⟩

theorem RelO.onMem {m : M Sim α} {d1 d2 : D} (h : RelD T d1 d2) : RelO T B (onMem m d1) (onMem m d2) := by
  simp only [Dump.onMem, M.zoom_apply, h.1]
  cases m d2.host.mem with
  | ok a s => exact ⟨rfl, rfl, h.2.1, h.2.2⟩
  | throw e s => exact .inl ⟨rfl, rfl⟩
  | ub r => rfl

theorem RelO.throw {c : Exc} {msg : Str} {d1 d2 : D} (h : RelD T d1 d2) :
    RelO T B ((M.throw c msg : M D α) d1) ((M.throw c msg : M D α) d2) := .inl ⟨rfl, h.1⟩

theorem RelD.setCtx {f : Regs → Regs} {d1 d2 : D} (h : RelD T d1 d2) : RelD T (d1.setCtx f) (d2.setCtx f) :=
  ⟨by simp [D.setCtx, h.1], h.2.1, h.2.2⟩

theorem RelO.catch {b1 b2 : M D α} {hd : Exn → M D α} {d1 d2 : D} (h : RelO T B (b1 d1) (b2 d2))
    (hh : ∀ e d1 d2, d1.host = d2.host → RelO T B (hd e d1) (hd e d2))
    (hc : ∀ e d, e.code = .fileFormat → ∃ m d', hd e d = .throw ⟨.fileFormat, m⟩ d') :
    RelO T B (M.tryCatch b1 hd d1) (M.tryCatch b2 hd d2) := by
  simp only [M.tryCatch_apply]
  cases e1 : b1 d1 with
  | ok a d1' =>
    cases e2 : b2 d2 with
    | ok b d2' => rw [e1, e2] at h; exact h
    | throw e d => rw [e1, e2] at h; exact h.elim
    | ub r => rw [e1, e2] at h; exact h.elim
  | throw e d1' =>
    have esc : B ∧ e.code = .fileFormat → ∀ o, RelO T B (hd e d1') o := by
      rintro ⟨hb, he⟩ o
      obtain ⟨m, d', hx⟩ := hc e d1' he
      rw [hx]
      cases o with
      | ok => exact ⟨hb, rfl⟩
      | throw => exact .inr ⟨hb, rfl⟩
      | ub => exact ⟨hb, rfl⟩
    cases e2 : b2 d2 with
    | ok b d2' => rw [e1, e2] at h; exact esc h _
    | throw e' d =>
      rw [e1, e2] at h
      rcases h with ⟨rfl, h⟩ | h
      · exact hh _ _ _ h
      · exact esc h _
    | ub r => rw [e1, e2] at h; exact esc h _
  | ub r =>
    cases e2 : b2 d2 with
    | ok b d2' => rw [e1, e2] at h; exact h.elim
    | throw e' d => rw [e1, e2] at h; exact h.elim
    | ub r => rw [e1, e2] at h; exact h

theorem rel_load (hR : RelR T B rd1 rd2) {n : Nat} {a : U32} {d1 d2 : D} (h : RelD T d1 d2) :
    RelO T B (loadRegionBytes rd1 n a d1) (loadRegionBytes rd2 n a d2) := by
  induction n generalizing a d1 d2 with
  | zero => exact ⟨rfl, h⟩
  | succ n ih =>
    simp only [loadRegionBytes]
    refine RelO.bind (RelO.readInto hR (by omega) (fun _ _ _ h => h) h) ?_
    intro bs d1 d2 _ _ h
    split
    · refine RelO.bind (RelO.onMem h) ?_
      intro _ d1 d2 _ _ h
      exact ih h
    · exact RelO.throw h

theorem rel_next (hR : RelR T B rd1 rd2) {d1 d2 : D} (h : RelD T d1 d2) :
    RelO T B (readNextMemoryRegion rd1 d1) (readNextMemoryRegion rd2 d2) := by
  unfold readNextMemoryRegion
  refine RelO.bind (RelO.readInto hR (by omega) (fun _ _ _ h => h) h) ?_
  intro bs d1 d2 _ _ h
  split
  · exact RelO.throw h
  · split
    · exact ⟨rfl, h⟩
    · split
      · exact RelO.throw h
      · refine RelO.bind (RelO.catch ?_ ?_ ?_) ?_
        · unfold createAndLoadMemoryRegion
          refine RelO.bind (RelO.onMem h) ?_
          intro _ d1 d2 _ _ h
          exact rel_load hR h
        · intro e d1 d2 h
          exact .inl ⟨rfl, h⟩
        · intro e d he
          exact ⟨_, d, by rw [M.throw_apply, he]⟩
        · intro _ d1 d2 _ _ h
          exact ⟨rfl, h⟩

/-- After normal return, some of the file is consumed. -/
theorem load_decr {rd : Reader} (hrd : Consumes rd) {n : Nat} {a : U32} {d d' : D} (h : loadRegionBytes rd n a d = .ok () d') :
    d'.rest.length ≤ d.rest.length := by
  induction n generalizing a d with
  | zero => simp [loadRegionBytes] at h; rw [h]; exact Nat.le_refl _
  | succ n ih =>
    simp only [loadRegionBytes, M.bind_apply, readBytes, readInto] at h
    cases hr : rd 1 d.rest with
    | bad bs t => rw [hr] at h; simp at h
    | got bs t =>
      rw [hr] at h
      have hc := (hrd.got _ _ _ _ hr).1
      simp only at h
      split at h
      · simp only [M.bind_apply, onMem, M.zoom_apply] at h
        rename_i _ b
        cases hw : IMemory.write .w8 a b d.host.mem with
        | ok x s =>
          rw [hw] at h
          have := ih h
          simp only at this
          omega
        | throw e s => rw [hw] at h; simp at h
        | ub r => rw [hw] at h; simp at h
      · simp at h

theorem next_decr {rd : Reader} (hrd : Consumes rd) {d d' : D} (h : readNextMemoryRegion rd d = .ok false d') :
    d'.rest.length < d.rest.length := by
  unfold readNextMemoryRegion readBytes at h
  simp only [M.bind_apply, readInto] at h
  cases hr : rd 8 d.rest with
  | bad bs t => rw [hr] at h; simp at h
  | got bs t =>
    rw [hr] at h
    have hc := (hrd.got _ _ _ _ hr).1
    simp only at h
    split at h
    · simp at h
    · split at h
      · simp at h
      · split at h
        · simp at h
        · rename_i hlen
          simp only [ne_eq, Decidable.not_not] at hlen
          simp only [M.bind_apply, M.tryCatch_apply, createAndLoadMemoryRegion] at h
          cases hm : onMem (createRegion (BitVec.ofNat 32 (leVal (bs.take 4)))
              (BitVec.ofNat 32 (leVal (bs.drop 4)) - BitVec.ofNat 32 (leVal (bs.take 4)))) { d with rest := t } with
          | throw e s => rw [hm] at h; simp at h
          | ub r => rw [hm] at h; simp at h
          | ok x d1 =>
            have hr1 : d1.rest = t := by
              simp only [onMem, M.zoom_apply] at hm
              split at hm
              · cases hm; rfl
              · cases hm
              · cases hm
            rw [hm] at h
            simp only at h
            split at h
            · rename_i hl
              simp only [M.pure_apply, Out.ok.injEq, true_and] at h
              subst h
              split at hl
              · cases hl
                rename_i hl
                have := load_decr hrd hl
                rw [hr1] at this
                omega
              · cases hl
              · cases hl
            · cases h
            · cases h

theorem rel_regions (hR : RelR T B rd1 rd2) (h1 : Consumes rd1) (h2 : Consumes rd2) {f1 f2 : Nat} {d1 d2 : D} (h : RelD T d1 d2)
    (l1 : d1.rest.length < f1) (l2 : d2.rest.length < f2) :
    RelO T B (readMemoryRegions rd1 f1 d1) (readMemoryRegions rd2 f2 d2) := by
  induction f1 generalizing f2 d1 d2 with
  | zero => omega
  | succ f1 ih =>
    cases f2 with
    | zero => omega
    | succ f2 =>
      simp only [readMemoryRegions]
      refine RelO.bind (rel_next hR h) ?_
      intro b d1' d2' e1 e2 h
      cases b with
      | true => exact ⟨rfl, h⟩
      | false =>
        have := next_decr h1 e1
        have := next_decr h2 e2
        exact ih h (by omega) (by omega)

theorem rel_dump (hR : RelR T B rd1 rd2) (h1 : Consumes rd1) (h2 : Consumes rd2) {d1 d2 : D} (h : RelD T d1 d2) :
    RelO T B (readDump rd1 d1) (readDump rd2 d2) := by
  unfold readDump
  have hput : ∀ (f : Str → Regs → Regs) bs (d1 d2 : D), RelD T d1 d2 → RelD T (d1.setCtx (f bs)) (d2.setCtx (f bs)) :=
    fun f bs d1 d2 h => h.setCtx
  refine RelO.bind (?_ : RelO T B (validateDumpSignature rd1 d1) (validateDumpSignature rd2 d2)) ?_
  · unfold validateDumpSignature
    refine RelO.bind (RelO.readInto hR (by omega) (fun _ _ _ h => h) h) ?_
    intro bs d1 d2 _ _ h
    split
    · exact RelO.throw h
    · split
      · exact ⟨rfl, h⟩
      · split
        · exact ⟨rfl, h.1, rfl, h.2.2⟩
        · exact RelO.throw h
  intro _ d1 d2 _ _ h
  refine RelO.bind (?_ : RelO T B (readFlags rd1 d1) (readFlags rd2 d2)) ?_
  · unfold readFlags
    refine RelO.bind (RelO.readInto hR (by omega) (hput _) h) ?_
    intro bs d1 d2 _ _ h
    split
    · exact RelO.throw h
    · exact ⟨rfl, h⟩
  intro _ d1 d2 _ _ h
  refine RelO.bind (?_ : RelO T B (readIntegerRegisters rd1 d1) (readIntegerRegisters rd2 d2)) ?_
  · unfold readIntegerRegisters
    have rest : ∀ (n : Nat) (d1 d2 : D), 0 < n → RelD T d1 d2 → RelO T B ((do
        let bs ← readInto rd1 n (fun bs d => d.setCtx fun c => { c with r := overlay c.r bs })
        if bs.length ≠ n then M.throw .fileFormat (asc "The dump file was too short to contain the integer registers.")
        else do
          let bs ← readInto rd1 4 (fun bs d => d.setCtx fun c => { c with psr := overlayWord c.psr bs })
          if bs.length ≠ 4 then M.throw .fileFormat (asc "The dump file was too short to contain the exception PSR.")
          else pure ()) d1) ((do
        let bs ← readInto rd2 n (fun bs d => d.setCtx fun c => { c with r := overlay c.r bs })
        if bs.length ≠ n then M.throw .fileFormat (asc "The dump file was too short to contain the integer registers.")
        else do
          let bs ← readInto rd2 4 (fun bs d => d.setCtx fun c => { c with psr := overlayWord c.psr bs })
          if bs.length ≠ 4 then M.throw .fileFormat (asc "The dump file was too short to contain the exception PSR.")
          else pure ()) d2) := by
      intro n d1 d2 hn h
      refine RelO.bind (RelO.readInto hR hn (hput fun bs c => { c with r := overlay c.r bs }) h) ?_
      intro bs d1 d2 _ _ h
      split
      · exact RelO.throw h
      · refine RelO.bind (RelO.readInto hR (by omega) (hput fun bs c => { c with psr := overlayWord c.psr bs }) h) ?_
        intro bs d1 d2 _ _ h
        split
        · exact RelO.throw h
        · exact ⟨rfl, h⟩
    simp only [M.bind_apply, M.get_apply, h.2.1]
    by_cases hv : d2.v2 = true
    · simp only [if_pos hv]
      exact rest _ _ _ (by simp) h.setCtx
    · simp only [if_neg hv]
      exact rest _ _ _ (by simp) h
  intro _ d1 d2 _ _ h
  refine RelO.bind (?_ : RelO T B (readFloatingPointRegisters rd1 d1) (readFloatingPointRegisters rd2 d2)) ?_
  · unfold readFloatingPointRegisters
    simp only [M.bind_apply, M.get_apply, h.1]
    split
    · exact ⟨rfl, h⟩
    · refine RelO.bind (RelO.readInto hR (by omega) (hput fun bs c => { c with fpr := overlay c.fpr bs }) h) ?_
      intro bs d1 d2 _ _ h
      split
      · exact RelO.throw h
      · exact ⟨rfl, h⟩
  intro _ d1 d2 _ _ h
  exact rel_regions hR h1 h2 h (Nat.lt_succ_self _) (Nat.lt_succ_self _)

/-! ### Hexadecimal text -/

theorem nibble_digit : ∀ c : U8, (nibbleDigitToVal c).map BitVec.toNat = hexDigit c := by decide +kernel

theorem newline_iff (c : U8) : isNewline c = true ↔ (c = 0x0D ∨ c = 0x0A) := by simp [isNewline]

theorem nextChar_skip {nl : Str} {t : Str} (h : ∀ c ∈ nl, isNewline c = true) : nextChar (nl ++ t) = nextChar t := by
  induction nl with
  | nil => rfl
  | cons c nl ih =>
    simp only [List.cons_append, nextChar]
    rw [if_pos ((newline_iff c).1 (h c (by simp)))]
    exact ih fun c hc => h c (by simp [hc])

theorem nextChar_char {c : U8} {t : Str} (h : isNewline c ≠ true) : nextChar (c :: t) = some (c, t) := by
  simp only [nextChar]
  rw [if_neg (fun hc => h ((newline_iff c).2 hc))]

theorem digit_not_newline : ∀ c : U8, (hexDigit c).isSome → isNewline c ≠ true := by decide +kernel

theorem nibble_of_digit {c : U8} {x : Nat} (h : hexDigit c = some x) : ∃ v, nibbleDigitToVal c = some v ∧ v.toNat = x := by
  rw [← nibble_digit] at h
  cases hv : nibbleDigitToVal c with
  | none => rw [hv] at h; cases h
  | some v => rw [hv] at h; exact ⟨v, rfl, by simpa using h⟩

theorem digit_lt : ∀ c : U8, ∀ x, hexDigit c = some x → x < 16 := by
  have : ∀ c : U8, (hexDigit c).all (· < 16) = true := by decide +kernel
  intro c x h
  have := this c
  rw [h] at this
  simpa using this

theorem join_nibbles {h l : U8} (hh : h.toNat < 16) (hl : l.toNat < 16) : ((h <<< 4) ||| l).toNat = 16 * h.toNat + l.toNat := by
  have e1 : (h <<< 4).toNat = h.toNat <<< 4 := by
    simp only [BitVec.toNat_shiftLeft]
    rw [Nat.mod_eq_of_lt]
    rw [Nat.shiftLeft_eq]; omega
  rw [BitVec.toNat_or, e1, ← Nat.shiftLeft_add_eq_or_of_lt (i := 4) hl, Nat.shiftLeft_eq]
  omega

theorem hex_nil {t tail : Str} (h : HexText t []) : nextChar (t ++ tail) = nextChar tail := by
  generalize hb : ([] : Str) = bs at h
  induction h with
  | nil => rfl
  | newline hc _ ih =>
    simp only [List.cons_append, nextChar]
    rw [if_pos ((newline_iff _).1 hc)]
    exact ih hb
  | byte => cases hb

theorem hex_cons {t tail bs : Str} {b : U8} (h : HexText t (b :: bs)) : ∃ hi lo t1 t2 x y,
    nextChar (t ++ tail) = some (hi, t1) ∧ nextChar t1 = some (lo, t2 ++ tail) ∧ nibbleDigitToVal hi = some x ∧
    nibbleDigitToVal lo = some y ∧ ((x <<< 4) ||| y) = b ∧ HexText t2 bs := by
  generalize hb : b :: bs = bs' at h
  induction h with
  | nil => cases hb
  | newline hc _ ih =>
    obtain ⟨hi, lo, t1, t2, x, y, h1, h2⟩ := ih hb
    refine ⟨hi, lo, t1, t2, x, y, ?_, h2⟩
    simp only [List.cons_append, nextChar]
    rw [if_pos ((newline_iff _).1 hc)]
    exact h1
  | byte hx hy hn hv ht ih =>
    rename_i hi lo x y nl t bs' b'
    cases hb
    obtain ⟨vx, e1, e2⟩ := nibble_of_digit hx
    obtain ⟨vy, e3, e4⟩ := nibble_of_digit hy
    refine ⟨hi, lo, (nl ++ lo :: t) ++ tail, t, vx, vy, ?_, ?_, e1, e3, ?_, ht⟩
    · rw [List.cons_append]
      exact nextChar_char (digit_not_newline hi (by rw [hx]; rfl))
    · rw [List.append_assoc, List.cons_append, nextChar_skip hn]
      exact nextChar_char (digit_not_newline lo (by rw [hy]; rfl))
    · apply BitVec.eq_of_toNat_eq
      have := digit_lt _ _ hx
      have := digit_lt _ _ hy
      rw [join_nibbles (by omega) (by omega), hv, e2, e4]

/-- Reading bytes that are there. -/
theorem hexRead_app {n : Nat} {t tail bs : Str} (h : HexText t bs) (hn : n ≤ bs.length) :
    ∃ t', hexRead n (t ++ tail) = .got (bs.take n) (t' ++ tail) ∧ HexText t' (bs.drop n) := by
  induction n generalizing t bs with
  | zero => exact ⟨t, by simp [hexRead], by simpa using h⟩
  | succ n ih =>
    cases bs with
    | nil => simp at hn
    | cons b bs =>
      obtain ⟨hi, lo, t1, t2, x, y, h1, h2, h3, h4, h5, h6⟩ := hex_cons (tail := tail) h
      obtain ⟨t', e, ht⟩ := ih h6 (by simp at hn; omega)
      refine ⟨t', ?_, by simpa using ht⟩
      simp only [hexRead, h1, h2, h3, h4, e, h5, List.take_succ_cons]

/-- Reading beyond the bytes that are there. -/
theorem hexRead_end {n : Nat} {t bs : Str} (h : HexText t bs) (hn : bs.length < n) : hexRead n t = .got bs [] := by
  induction n generalizing t bs with
  | zero => omega
  | succ n ih =>
    cases bs with
    | nil =>
      have := hex_nil (tail := []) h
      rw [List.append_nil] at this
      simp only [hexRead, this, nextChar]
    | cons b bs =>
      obtain ⟨hi, lo, t1, t2, x, y, h1, h2, h3, h4, h5, h6⟩ := hex_cons (tail := []) h
      rw [List.append_nil] at h1 h2
      have e := ih h6 (by simp at hn; omega)
      simp only [hexRead, h1, h2, h3, h4, e, h5]

theorem rel_hex : RelR HexText False hexRead binaryRead := by
  intro n t1 t2 _ h
  left
  by_cases hn : n ≤ t2.length
  · obtain ⟨t', e, ht⟩ := hexRead_app (tail := []) h hn
    rw [List.append_nil, List.append_nil] at e
    exact ⟨_, _, _, e, rfl, ht⟩
  · refine ⟨t2, [], [], hexRead_end h (by omega), ?_, .nil⟩
    simp only [binaryRead]
    rw [List.take_of_length_le (by omega), List.drop_of_length_le (by omega)]

theorem nextChar_filter (t : Str) :
    (nextChar t).map (fun x => (x.1, x.2.filter (fun c => !isNewline c))) =
      match t.filter (fun c => !isNewline c) with | [] => none | c :: u => some (c, u) := by
  induction t with
  | nil => rfl
  | cons c t ih =>
    by_cases h : isNewline c = true
    · have := nextChar_skip (nl := [c]) (t := t) (by simpa using h)
      rw [List.singleton_append] at this
      rw [this, ih, List.filter_cons_of_neg (by simp [h])]
    · rw [nextChar_char h, List.filter_cons_of_pos (by simpa using h)]
      rfl

theorem nextChar_same {t1 t2 : Str} (h : SameText t1 t2) :
    (nextChar t1 = none ∧ nextChar t2 = none) ∨ ∃ c u1 u2, nextChar t1 = some (c, u1) ∧ nextChar t2 = some (c, u2) ∧ SameText u1 u2 := by
  have e1 := nextChar_filter t1
  have e2 := nextChar_filter t2
  unfold SameText at h
  rw [h, ← e2] at e1
  cases h1 : nextChar t1 with
  | none =>
    cases h2 : nextChar t2 with
    | none => exact .inl ⟨rfl, rfl⟩
    | some y => rw [h1, h2] at e1; cases e1
  | some x =>
    cases h2 : nextChar t2 with
    | none => rw [h1, h2] at e1; cases e1
    | some y =>
      rw [h1, h2] at e1
      simp only [Option.map_some, Option.some.injEq, Prod.mk.injEq] at e1
      obtain ⟨a, x⟩ := x
      obtain ⟨b, y⟩ := y
      obtain ⟨rfl, e⟩ := e1
      exact .inr ⟨_, _, _, rfl, rfl, e⟩

/-- Reading hexadecimal text does not depend on the line ends, whatever the text. -/
theorem rel_same : RelR SameText False hexRead hexRead := by
  intro n t1 t2 hn h
  clear hn
  have key : (∃ bs t1' t2', hexRead n t1 = .got bs t1' ∧ hexRead n t2 = .got bs t2' ∧ SameText t1' t2') ∨
      (∃ bs t1' t2', hexRead n t1 = .bad bs t1' ∧ hexRead n t2 = .bad bs t2' ∧ SameText t1' t2') := by
    induction n generalizing t1 t2 with
    | zero => exact .inl ⟨_, _, _, rfl, rfl, h⟩
    | succ n ih =>
      rcases nextChar_same h with ⟨h1, h2⟩ | ⟨c, u1, u2, h1, h2, hu⟩
      · exact .inl ⟨[], [], [], by simp only [hexRead, h1], by simp only [hexRead, h2], rfl⟩
      · rcases nextChar_same hu with ⟨h3, h4⟩ | ⟨d, v1, v2, h3, h4, hv⟩
        · exact .inl ⟨[], [], [], by simp only [hexRead, h1, h3], by simp only [hexRead, h2, h4], rfl⟩
        · cases hx : nibbleDigitToVal c with
          | none => exact .inr ⟨[], v1, v2, by simp only [hexRead, h1, h3, hx], by simp only [hexRead, h2, h4, hx], hv⟩
          | some x =>
            cases hy : nibbleDigitToVal d with
            | none => exact .inr ⟨[], v1, v2, by simp only [hexRead, h1, h3, hx, hy], by simp only [hexRead, h2, h4, hx, hy], hv⟩
            | some y =>
              rcases ih v1 v2 hv with ⟨bs, w1, w2, e1, e2, hw⟩ | ⟨bs, w1, w2, e1, e2, hw⟩
              · exact .inl ⟨_, _, _, by simp only [hexRead, h1, h3, hx, hy, e1]; rfl, by simp only [hexRead, h2, h4, hx, hy, e2], hw⟩
              · exact .inr ⟨_, _, _, by simp only [hexRead, h1, h3, hx, hy, e1]; rfl, by simp only [hexRead, h2, h4, hx, hy, e2], hw⟩
  rcases key with h | h
  · exact .inl h
  · exact .inr (.inr h)

/-- Reading beyond the bytes that are there when one more character follows. -/
theorem hexRead_lone {n : Nat} {t bs nl : Str} {c : U8} (h : HexText t bs) (hc : isNewline c ≠ true)
    (hnl : ∀ c ∈ nl, isNewline c = true) (hn : bs.length < n) : hexRead n (t ++ c :: nl) = .got bs [] := by
  induction n generalizing t bs with
  | zero => omega
  | succ n ih =>
    cases bs with
    | nil =>
      have e2 : nextChar nl = none := by
        have := nextChar_skip (t := []) hnl
        rwa [List.append_nil] at this
      simp only [hexRead, hex_nil h, nextChar_char hc, e2]
    | cons b bs =>
      obtain ⟨hi, lo, t1, t2, x, y, h1, h2, h3, h4, h5, h6⟩ := hex_cons (tail := c :: nl) h
      have e := ih h6 (by simp at hn; omega)
      simp only [hexRead, h1, h2, h3, h4, e, h5]

/-- Text of some bytes followed by one more character and line ends, or nothing at all. -/
def BeforeLone (tail : Str) (t1 t2 : Str) : Prop := (∃ p, t1 = p ++ tail ∧ HexText p t2) ∨ (t1 = [] ∧ t2 = [])

theorem rel_lone {c : U8} {nl : Str} (hc : isNewline c ≠ true) (hnl : ∀ c ∈ nl, isNewline c = true) :
    RelR (BeforeLone (c :: nl)) False hexRead binaryRead := by
  rintro n t1 t2 hpos (⟨p, rfl, h⟩ | ⟨rfl, rfl⟩)
  · left
    by_cases hn : n ≤ t2.length
    · obtain ⟨t', e, ht⟩ := hexRead_app (tail := c :: nl) h hn
      exact ⟨_, _, _, e, rfl, .inl ⟨t', rfl, ht⟩⟩
    · refine ⟨t2, [], [], hexRead_lone h hc hnl (by omega), ?_, .inr ⟨rfl, rfl⟩⟩
      simp only [binaryRead]
      rw [List.take_of_length_le (by omega), List.drop_of_length_le (by omega)]
  · left
    refine ⟨[], [], [], hexRead_end .nil hpos, ?_, .inr ⟨rfl, rfl⟩⟩
    simp [binaryRead]

/-- Text that starts with a pair of characters at least one of which is no digit. -/
structure BadPair (t : Str) : Prop where
  ex : ∃ hi nl lo rest, t = hi :: (nl ++ lo :: rest) ∧ isNewline hi ≠ true ∧ isNewline lo ≠ true ∧
    (∀ c ∈ nl, isNewline c = true) ∧ (hexDigit hi = none ∨ hexDigit lo = none)

theorem hexRead_bad {n : Nat} {t bad bs : Str} (h : HexText t bs) (hb : BadPair bad) (hn : bs.length < n) :
    ∃ x t', hexRead n (t ++ bad) = .bad x t' := by
  induction n generalizing t bs with
  | zero => omega
  | succ n ih =>
    cases bs with
    | nil =>
      obtain ⟨hi, nl, lo, rest, rfl, h1, h2, h3, h4⟩ := hb.ex
      have e1 : nextChar (t ++ hi :: (nl ++ lo :: rest)) = some (hi, nl ++ lo :: rest) := by
        rw [hex_nil h, nextChar_char h1]
      have e2 : nextChar (nl ++ lo :: rest) = some (lo, rest) := by
        rw [nextChar_skip h3, nextChar_char h2]
      simp only [hexRead, e1, e2]
      rw [← nibble_digit, ← nibble_digit] at h4
      cases hx : nibbleDigitToVal hi with
      | none => exact ⟨_, _, rfl⟩
      | some x =>
        cases hy : nibbleDigitToVal lo with
        | none => exact ⟨_, _, rfl⟩
        | some y => rw [hx, hy] at h4; simp at h4
    | cons b bs =>
      obtain ⟨hi, lo, t1, t2, x, y, h1, h2, h3, h4, h5, h6⟩ := hex_cons (tail := bad) h
      obtain ⟨x', t', e⟩ := ih h6 (by simp at hn; omega)
      simp only [hexRead, h1, h2, h3, h4, e]
      exact ⟨_, _, rfl⟩

/-- Text with a bad pair after the text of some bytes, against these bytes followed by `ys`. -/
def BeforeBad (bad ys : Str) (t1 t2 : Str) : Prop := ∃ p bs, t1 = p ++ bad ∧ HexText p bs ∧ t2 = bs ++ ys

theorem rel_bad {bad ys : Str} (hb : BadPair bad) : RelR (BeforeBad bad ys) True hexRead binaryRead := by
  rintro n t1 t2 _ ⟨p, bs, rfl, h, rfl⟩
  by_cases hn : n ≤ bs.length
  · left
    obtain ⟨t', e, ht⟩ := hexRead_app (tail := bad) h hn
    refine ⟨bs.take n, _, bs.drop n ++ ys, e, ?_, t', _, rfl, ht, rfl⟩
    simp only [binaryRead]
    rw [List.take_append_of_le_length hn, List.drop_append_of_le_length hn]
  · exact .inr (.inl ⟨trivial, hexRead_bad h hb (by omega)⟩)

theorem hexRead_nothing {n : Nat} {t t' : Str} (hn : 0 < n) (h : hexRead n t = .got [] t') : t' = [] := by
  cases n with
  | zero => omega
  | succ n =>
    simp only [hexRead] at h
    split at h
    · cases h; rfl
    · split at h
      · cases h; rfl
      · split at h
        · split at h <;> cases h
        · cases h

theorem next_true {d d' : D} (h : readNextMemoryRegion hexRead d = .ok true d') : d'.rest = [] := by
  unfold readNextMemoryRegion readBytes at h
  simp only [M.bind_apply, readInto] at h
  cases hx : hexRead 8 d.rest with
  | bad x t => rw [hx] at h; cases h
  | got x t =>
    rw [hx] at h
    simp only at h
    split at h
    · cases h
    · split at h
      · rename_i hl
        cases h
        rw [List.length_eq_zero_iff.1 hl] at hx
        exact hexRead_nothing (by omega) hx
      · split at h
        · cases h
        · simp only [M.bind_apply, M.pure_apply] at h
          split at h
          · cases h
          · cases h
          · cases h

theorem regions_rest {f : Nat} {d d' : D} (h : readMemoryRegions hexRead f d = .ok () d') : d'.rest = [] := by
  induction f generalizing d with
  | zero => simp [readMemoryRegions] at h
  | succ f ih =>
    simp only [readMemoryRegions, M.bind_apply] at h
    cases e1 : readNextMemoryRegion hexRead d with
    | throw e s => rw [e1] at h; cases h
    | ub r => rw [e1] at h; cases h
    | ok b d1 =>
      rw [e1] at h
      cases b with
      | false =>
        simp only [Bool.false_eq_true, if_false] at h
        exact ih h
      | true =>
        simp only [if_true, M.pure_apply] at h
        cases h
        exact next_true e1

theorem bind_inv {m : M σ α} {f : α → M σ β} {s s' : σ} {b : β} (h : (m >>= f) s = .ok b s') :
    ∃ a s1, m s = .ok a s1 ∧ f a s1 = .ok b s' := by
  rw [M.bind_apply] at h
  cases e : m s with
  | ok a s1 => rw [e] at h; exact ⟨a, s1, rfl, h⟩
  | throw e s1 => rw [e] at h; cases h
  | ub r => rw [e] at h; cases h

/-- After normal return the whole text is consumed. -/
theorem dump_rest {d d' : D} (h : readDump hexRead d = .ok () d') : d'.rest = [] := by
  unfold readDump at h
  obtain ⟨-, d1, -, h⟩ := bind_inv h
  obtain ⟨-, d2, -, h⟩ := bind_inv h
  obtain ⟨-, d3, -, h⟩ := bind_inv h
  obtain ⟨-, d4, -, h⟩ := bind_inv h
  obtain ⟨x, d5, e, h⟩ := bind_inv h
  exact regions_rest h

end Verif.Dump
