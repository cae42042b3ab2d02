import Verif.Model.GdbLog
import Verif.Spec.GdbLog
/- Parsing one line of a GDB log. -/
namespace Verif.GdbLog
open Verif MemSim Spec Libc

theorem isspace_eq : isspace = isSpace := rfl

theorem isHexDigit_eq (c : U8) : isHexDigit c = (hexDigit c).isSome := by
  unfold isHexDigit hexDigit
  by_cases h1 : 48 ≤ c.toNat ∧ c.toNat ≤ 57
  · simp [h1]
  · by_cases h2 : 65 ≤ c.toNat ∧ c.toNat ≤ 70
    · rw [if_neg h1, if_pos h2]; simp; omega
    · by_cases h3 : 97 ≤ c.toNat ∧ c.toNat ≤ 102
      · rw [if_neg h1, if_neg h2, if_pos h3]; simp; omega
      · rw [if_neg h1, if_neg h2, if_neg h3]; simp; omega

theorem digitVal_hex {c : U8} (h : (hexDigit c).isSome) : digitVal c = hexDigit c := by
  unfold hexDigit at h ⊢
  unfold digitVal
  by_cases h1 : 48 ≤ c.toNat ∧ c.toNat ≤ 57
  · rw [if_pos h1, if_pos h1]
  · by_cases h2 : 65 ≤ c.toNat ∧ c.toNat ≤ 70
    · rw [if_neg h1, if_neg h1, if_pos h2, if_pos (by omega)]; congr 1; omega
    · by_cases h3 : 97 ≤ c.toNat ∧ c.toNat ≤ 102
      · rw [if_neg h1, if_neg h1, if_neg h2, if_pos h3, if_neg (by omega), if_pos (by omega)]; congr 1; omega
      · rw [if_neg h1, if_neg h2, if_neg h3] at h; cases h

theorem hexDigit_lt {c : U8} {d : Nat} (h : hexDigit c = some d) : d < 16 := by
  unfold hexDigit at h
  repeat' split at h
  all_goals first | cases h; omega | cases h

theorem isDigit_hex (c : U8) : isDigit 16 c = (hexDigit c).isSome := by
  cases h : hexDigit c with
  | some d =>
    rw [isDigit, digitVal_hex (by rw [h]; rfl), h]
    simp [hexDigit_lt h]
  | none =>
    unfold isDigit digitVal
    unfold hexDigit at h
    by_cases h1 : 48 ≤ c.toNat ∧ c.toNat ≤ 57
    · rw [if_pos h1] at h; cases h
    · by_cases h2 : 65 ≤ c.toNat ∧ c.toNat ≤ 70
      · rw [if_neg h1, if_pos h2] at h; cases h
      · by_cases h3 : 97 ≤ c.toNat ∧ c.toNat ≤ 102
        · rw [if_neg h1, if_neg h2, if_pos h3] at h; cases h
        · rw [if_neg h1]
          by_cases h4 : 65 ≤ c.toNat ∧ c.toNat ≤ 90
          · rw [if_pos h4]; simp; omega
          · rw [if_neg h4]
            by_cases h5 : 97 ≤ c.toNat ∧ c.toNat ≤ 122
            · rw [if_pos h5]; simp; omega
            · rw [if_neg h5]; rfl

theorem digitsVal_hex {ds : Str} (h : AllHex ds) : digitsVal 16 ds = hexNat ds := by
  suffices ∀ n : Nat, ds.foldl (fun n c => n * 16 + (digitVal c).getD 0) n = ds.foldl (fun n c => 16 * n + (hexDigit c).getD 0) n from this 0
  intro n
  induction ds generalizing n with
  | nil => rfl
  | cons c ds ih =>
    simp only [List.foldl_cons]
    rw [digitVal_hex (h c (by simp)), Nat.mul_comm]
    exact ih (fun c hc => h c (by simp [hc])) _

theorem takeWhile_stop {p : U8 → Bool} {a b : Str} (ha : ∀ c ∈ a, p c = true) (hb : ∀ c t, b = c :: t → p c = false) :
    (a ++ b).takeWhile p = a ∧ (a ++ b).dropWhile p = b := by
  induction a with
  | nil =>
    cases b with
    | nil => simp
    | cons c t => simp [List.takeWhile_cons, List.dropWhile_cons, hb c t rfl]
  | cons c a ih =>
    have := ih (fun d hd => ha d (by simp [hd]))
    simp [List.takeWhile_cons, List.dropWhile_cons, ha c (by simp), this]

theorem numEnds_digit {t : Str} (h : NumEnds t) : ∀ c t', t = c :: t' → isDigit 16 c = false := by
  intro c t' e
  rw [isDigit_hex, h c t' e]; rfl

theorem hexNum_cons {n : Str} {v : U32} (h : HexNum n v) : ∃ d ds, n = 0x30 :: 0x78 :: d :: ds ∧ AllHex (d :: ds) ∧ hexNat (d :: ds) = v.toNat := by
  obtain ⟨ds, rfl, h1, h2, h3⟩ := h
  cases ds with
  | nil => exact absurd rfl h1
  | cons d ds => exact ⟨d, ds, rfl, h2, h3⟩

theorem strtoul_hex {w n rest : Str} {v : U32} (hw : AllSpace w) (hn : HexNum n v) (hr : NumEnds rest) :
    strtoul (w ++ (n ++ rest)) = (v.toNat, rest) := by
  obtain ⟨d, ds, rfl, h1, h2⟩ := hexNum_cons hn
  have e1 := (takeWhile_stop (p := isspace) (a := w) (b := 0x30 :: 0x78 :: d :: ds ++ rest) hw
    (by intro c t e; cases e; decide)).2
  have hd : isDigit 16 d = true := by rw [isDigit_hex]; exact h1 d (by simp)
  have e3 := takeWhile_stop (p := isDigit 16) (a := d :: ds) (b := rest)
    (fun c hc => by rw [isDigit_hex]; exact h1 c hc) (numEnds_digit hr)
  have e4 : ∀ t, takeSign (0x30 :: t) = (false, 0x30 :: t) := fun t => rfl
  have e5 : takeBase (0x30 :: 0x78 :: d :: (ds ++ rest)) = (16, d :: (ds ++ rest)) := by
    exact if_pos ⟨rfl, .inl rfl, hd⟩
  unfold strtoul
  simp only [List.cons_append] at e1 e3 ⊢
  simp only [e1, e4, e5, e3.1, e3.2]
  rw [if_neg (by simp), digitsVal_hex h1, h2, if_neg (by have := v.isLt; omega)]
  simp

theorem strtoul32_hex {w n rest : Str} {v : U32} (hw : AllSpace w) (hn : HexNum n v) (hr : NumEnds rest) :
    strtoul32 (w ++ (n ++ rest)) = v := by
  unfold strtoul32
  rw [strtoul_hex hw hn hr]
  simp

/-! ### Gaps -/

theorem skipSymbol_balanced {s : Str} (h : Balanced s) (t : Str) (l : Int) (hl : 0 < l) :
    skipSymbolLoop (s ++ t) l = skipSymbolLoop t l := by
  induction h generalizing t l with
  | nil => rfl
  | char h1 h2 _ ih =>
    simp only [List.cons_append, skipSymbolLoop]
    rw [if_neg h1, if_neg h2, if_neg (by omega)]
    exact ih t l hl
  | @nest s u _ _ ih1 ih2 =>
    simp only [List.cons_append, skipSymbolLoop, if_true, List.append_assoc]
    rw [ih1 _ _ (by omega)]
    simp only [skipSymbolLoop]
    rw [if_neg (by decide), if_pos trivial, show l + 1 - 1 = l by omega]
    exact ih2 t l hl

theorem skipSymbol_plain {e : Str} (he : NoSpace e) (hb : ∀ c ∈ e, c ≠ 0x3C ∧ c ≠ 0x3E) (t : Str) :
    skipSymbolLoop (e ++ t) 0 = skipSymbolLoop t 0 := by
  induction e with
  | nil => rfl
  | cons c e ih =>
    have h := hb c (by simp)
    simp only [List.cons_append, skipSymbolLoop]
    have hs : isspace c = false := he c (by simp)
    rw [if_neg h.1, if_neg h.2, if_neg (by simp [hs])]
    exact ih (fun d hd => he d (by simp [hd])) (fun d hd => hb d (by simp [hd]))

theorem dropSpaces {w t : Str} (hw : AllSpace w) (ht : ∀ c t', t = c :: t' → isSpace c = false) : skipWhitespace (w ++ t) = t :=
  (takeWhile_stop (p := isspace) hw ht).2

theorem skip_gap {g t : Str} (hg : Gap g) (ht : ∀ c t', t = c :: t' → isSpace c = false ∧ c ≠ 0x3C) :
    skipWhitespaceAndSymbol (g ++ t) = t := by
  unfold skipWhitespaceAndSymbol
  have ht1 : ∀ c t', t = c :: t' → isSpace c = false := fun c t' e => (ht c t' e).1
  have h0 : skipWhitespace t = t := by
    have := dropSpaces (w := []) (t := t) (by intro c hc; cases hc) ht1
    exact this
  cases hg with
  | space h =>
    rw [dropSpaces h ht1]
    have : skipSymbol t = t := by
      unfold skipSymbol
      rw [if_pos]
      cases t with
      | nil => simp
      | cons c t' => simpa using (ht c t' rfl).2
    rw [this, h0]
  | @symbol a s e c b ha hs he hb hc hsp =>
    rw [List.append_assoc, dropSpaces ha (by intro c t' e; cases e; decide)]
    unfold skipSymbol
    rw [if_neg (by simp)]
    simp only [List.cons_append, List.append_assoc, skipSymbolLoop, if_true]
    rw [skipSymbol_balanced hs _ _ (by decide)]
    simp only [skipSymbolLoop]
    rw [if_neg (by decide), if_pos trivial, show (0 : Int) + 1 - 1 = 0 by decide, skipSymbol_plain he hb]
    have hc1 : c ≠ 0x3C := by rintro rfl; revert hc; decide
    have hc2 : c ≠ 0x3E := by rintro rfl; revert hc; decide
    simp only [skipSymbolLoop]
    rw [if_neg hc1, if_neg hc2, if_pos ⟨hc, trivial⟩]
    exact dropSpaces (w := c :: b) (t := t) (by intro d hd; rcases List.mem_cons.1 hd with rfl | hd; exact hc; exact hsp d hd) ht1

/-! ### Memory lines -/

theorem hexNum_start {n t : Str} {v : U32} (h : HexNum n v) : ∀ c t', n ++ t = c :: t' → isSpace c = false ∧ c ≠ 0x3C := by
  obtain ⟨d, ds, rfl, -, -⟩ := hexNum_cons h
  intro c t' e
  cases e
  decide

theorem more_iff {vs : List U32} {t : Str} : areMoreValues vs t = true ↔ t ≠ [] ∧ vs.length < 4 := decide_eq_true_iff

theorem next_apply {vs : List U32} (h : vs.length < 4) (t : Str) (o : Obj) :
    parseNextValue vs t o = .ok (vs ++ [strtoul32 (skipWhitespaceAndSymbol t)], (strtoul (skipWhitespaceAndSymbol t)).2) o := by
  unfold parseNextValue parseValue
  rw [if_pos (show vs.length < VALUES_SIZE from h)]; rfl

theorem parseValues_succ {vs : List U32} {t : Str} (h1 : t ≠ []) (h : vs.length < 4) (f : Nat) (o : Obj) :
    parseValues (f + 1) vs t o =
      parseValues f (vs ++ [strtoul32 (skipWhitespaceAndSymbol t)]) (strtoul (skipWhitespaceAndSymbol t)).2 o := by
  rw [parseValues, if_pos (more_iff.2 ⟨h1, h⟩)]
  exact M.bind_ok (next_apply h t o)

theorem parseValues_stop {vs : List U32} {t : Str} (h : ¬ (t ≠ [] ∧ vs.length < 4)) (f : Nat) (o : Obj) :
    parseValues (f + 1) vs t o = .ok vs o := by
  rw [parseValues, if_neg (by rw [more_iff]; exact h)]; rfl

theorem parseValues_values {t rest : Str} {vs : List U32} (h : Values t vs rest) (vs0 : List U32) (hl : vs0.length + vs.length ≤ 4)
    (fuel : Nat) (o : Obj) : parseValues (vs.length + fuel) vs0 t o = parseValues fuel (vs0 ++ vs) rest o := by
  induction h generalizing vs0 with
  | nil => simp
  | @cons g n t rest v vs hg hn he _ ih =>
    simp only [List.length_cons] at hl ⊢
    have hne : g ++ n ++ t ≠ [] := by
      obtain ⟨d, ds, rfl, -, -⟩ := hexNum_cons hn
      simp
    have hk : skipWhitespaceAndSymbol (g ++ n ++ t) = n ++ t := by
      rw [List.append_assoc]; exact skip_gap hg (hexNum_start hn)
    have h1 := strtoul_hex (w := []) (by intro c hc; cases hc) hn he
    have h2 := strtoul32_hex (w := []) (by intro c hc; cases hc) hn he
    simp only [List.nil_append] at h1 h2
    rw [show vs.length + 1 + fuel = (vs.length + fuel) + 1 by omega, parseValues_succ hne (by omega), hk, h1, h2,
      ih (vs0 ++ [v]) (by simp; omega)]
    simp

theorem values_ne_nil {t rest : Str} {vs : List U32} (h : Values t vs rest) (hv : 1 ≤ vs.length) : t ≠ [] := by
  cases h with
  | nil => simp at hv
  | cons hg hn he h =>
    obtain ⟨d, ds, rfl, -, -⟩ := hexNum_cons hn
    simp

theorem values_suffix {t rest : Str} {vs : List U32} (h : Values t vs rest) : ∃ p, t = p ++ rest := by
  induction h with
  | nil => exact ⟨[], rfl⟩
  | @cons g n t rest v vs _ _ _ _ ih =>
    obtain ⟨p, rfl⟩ := ih
    exact ⟨g ++ n ++ p, by simp⟩

/-- If nothing follows the last value, the text ends with a digit. -/
theorem values_last {t : Str} {vs : List U32} (h : Values t vs []) (hv : 1 ≤ vs.length) : ∃ c, t.getLast? = some c ∧ isSpace c = false := by
  generalize hr : ([] : Str) = rest at h
  induction h with
  | nil => simp at hv
  | @cons g n t rest v vs hg hn he ht ih =>
    subst hr
    by_cases h0 : 1 ≤ vs.length
    · obtain ⟨c, h1, h2⟩ := ih h0 rfl
      refine ⟨c, ?_, h2⟩
      rw [List.getLast?_append, h1]; rfl
    · have : vs = [] := by cases vs <;> simp_all
      subst this
      cases ht
      obtain ⟨d, ds, rfl, h1, -⟩ := hexNum_cons hn
      refine ⟨(d :: ds).getLast (by simp), ?_, ?_⟩
      · rw [List.append_nil, show g ++ 0x30 :: 0x78 :: d :: ds = (g ++ [0x30, 0x78]) ++ (d :: ds) by simp, List.getLast?_append,
          List.getLast?_eq_some_getLast (l := d :: ds) (by simp)]
        rfl
      · have := h1 _ (List.getLast_mem (l := d :: ds) (by simp))
        generalize (d :: ds).getLast _ = c at this
        unfold hexDigit at this
        unfold isSpace
        repeat' split at this
        all_goals first | cases this; done | skip
        all_goals
          rw [decide_eq_false_iff_not]
          rintro (rfl | h)
          · revert this; simp_all
          · omega

theorem isMemoryLine_of {head body : Str} {c : U8} {a : U32} (hh : HexNum head a) (hl : head.length = 10) (hbody : body ≠ []) :
    isMemoryLine (head ++ c :: body) = true := by
  obtain ⟨ds, rfl, -, hx, -⟩ := hh
  have hds : ds.length = 8 := by simp [asc] at hl; omega
  match ds, hds with
  | [d0, d1, d2, d3, d4, d5, d6, d7], _ =>
    unfold isMemoryLine
    have := List.length_pos_iff.2 hbody
    have hx' : ∀ c ∈ [d0, d1, d2, d3, d4, d5, d6, d7], isHexDigit c = true := fun c hc => by rw [isHexDigit_eq]; exact hx c hc
    simp only [List.mem_cons, List.not_mem_nil, or_false, forall_eq_or_imp, forall_eq] at hx'
    obtain ⟨y0, y1, y2, y3, y4, y5, y6, y7⟩ := hx'
    simp only [decide_eq_true_eq]
    constructor
    · simp [asc]; omega
    · show is8DigitHexValue (0x30 :: 0x78 :: d0 :: d1 :: d2 :: d3 :: d4 :: d5 :: d6 :: d7 :: c :: body) = true
      simp [is8DigitHexValue, y0, y1, y2, y3, y4, y5, y6, y7]

theorem parse_memory {line : Str} {a : U32} {vs : List U32} (h : ShowsMemory line a vs) (o : Obj) :
    parseLine line o = .ok (.memory a (if vs.length < 4 ∧ line.getLast?.any isSpace then vs ++ [0] else vs)) o := by
  obtain ⟨head, c, body, rest, rfl, hh, hl, hc, hv, h1, h4, hr⟩ := h
  have hbody := values_ne_nil hv h1
  have hm : isMemoryLine (head ++ c :: body) = true := isMemoryLine_of hh hl hbody
  have ha : strtoul32 (head ++ c :: body) = a :=
    strtoul32_hex (w := []) (by intro c hc; cases hc) hh (by intro d t e; cases e; exact hc)
  unfold parseLine
  rw [if_pos hm]
  unfold parseMemoryLine
  simp only [ha]
  rw [if_neg (by simp [hl]; omega)]
  have hd : (head ++ c :: body).drop 11 = body := by
    rw [List.drop_append, hl, List.drop_of_length_le (by omega)]; rfl
  rw [hd, M.bind_apply]
  have hp : ∀ f, parseValues (vs.length + f) [] body o = parseValues f vs rest o := fun f => by
    rw [parseValues_values hv [] (by simpa using h4)]; simp
  have hlast : rest ≠ [] → (head ++ c :: body).getLast? = rest.getLast? := by
    intro hne
    obtain ⟨p, rfl⟩ := values_suffix hv
    rw [show head ++ c :: (p ++ rest) = (head ++ c :: p) ++ rest by simp, List.getLast?_append]
    cases e : rest.getLast? with
    | none => rw [List.getLast?_eq_none_iff] at e; exact absurd e hne
    | some x => rfl
  have hfin : parseValues (VALUES_SIZE + 1) [] body o =
      .ok (if vs.length < 4 ∧ (head ++ c :: body).getLast?.any isSpace then vs ++ [0] else vs) o := by
    rw [show VALUES_SIZE + 1 = vs.length + (5 - vs.length) by simp [VALUES_SIZE]; omega, hp]
    by_cases h5 : vs.length = 4
    · rw [if_neg (by omega), h5]
      exact parseValues_stop (by omega) _ _
    · have hsp : AllSpace rest := hr.resolve_left h5
      obtain ⟨f, hf⟩ : ∃ f, 5 - vs.length = f + 2 := ⟨3 - vs.length, by omega⟩
      rw [hf]
      by_cases hre : rest = []
      · subst hre
        obtain ⟨x, hx1, hx2⟩ := values_last hv h1
        rw [parseValues_stop (by simp), if_neg]
        rintro ⟨-, h⟩
        rw [show head ++ c :: body = (head ++ [c]) ++ body by simp, List.getLast?_append, hx1] at h
        simp [hx2] at h
      · have hk : skipWhitespaceAndSymbol rest = [] := by
          have := skip_gap (g := rest) (t := []) (.space hsp) (by intro c t e; cases e)
          simpa using this
        have hs0 : strtoul [] = (0, []) := by decide
        have hs1 : strtoul32 [] = 0 := by decide
        rw [parseValues_succ hre (by omega), hk, hs0, hs1, parseValues_stop (by simp), hlast hre]
        have hany : rest.getLast?.any isSpace = true := by
          cases e : rest.getLast? with
          | none => rw [List.getLast?_eq_none_iff] at e; exact absurd e hre
          | some x => exact hsp x (List.mem_of_getLast? e)
        rw [if_pos ⟨by omega, hany⟩]
  rw [hfin]
  rfl

/-! ### Register lines -/

/-- Where a register is in the context. -/
def offsetOf : Reg → Nat
  | .core i => offsetR i
  | .float i => offsetFPR i

def allRegs : List Reg := (List.finRange 19).map .core ++ (List.finRange 33).map .float

theorem registers_eq : registers = allRegs.map fun r => (r.field, offsetOf r) := by decide +kernel

theorem field_len (r : Reg) : r.field.length = 15 := by
  have : ∀ r ∈ allRegs, r.field.length = 15 := by decide +kernel
  refine this r ?_
  unfold allRegs
  cases r with
  | core i => exact List.mem_append_left _ (List.mem_map_of_mem (List.mem_finRange i))
  | float i => exact List.mem_append_right _ (List.mem_map_of_mem (List.mem_finRange i))

theorem mem_allRegs (r : Reg) : r ∈ allRegs := by
  unfold allRegs
  cases r with
  | core i => exact List.mem_append_left _ (List.mem_map_of_mem (List.mem_finRange i))
  | float i => exact List.mem_append_right _ (List.mem_map_of_mem (List.mem_finRange i))

theorem field_facts : ∀ r ∈ allRegs, (registers.find? fun e => decide (e.1.take 15 = r.field)).map (·.2) = some (offsetOf r) ∧
    r.field.head? ≠ some 0x30 ∧ isFloatingPointRegister (offsetOf r) = r.isFloat := by decide +kernel

theorem field_take {r : Reg} {t : Str} : (r.field ++ t).take 15 = r.field := by
  rw [List.take_append_of_le_length (by rw [field_len]; omega), List.take_of_length_le (by rw [field_len]; omega)]

theorem isRegister_field (r : Reg) (t : Str) : isRegisterLine (r.field ++ t) = some (offsetOf r) := by
  unfold isRegisterLine strncmpEq
  simp only [field_take]
  exact (field_facts r (mem_allRegs r)).1

theorem notMemory_field (r : Reg) (t : Str) : isMemoryLine (r.field ++ t) = false := by
  have h := (field_facts r (mem_allRegs r)).2.1
  have hl := field_len r
  unfold isMemoryLine
  match hf : r.field, hl with
  | c0 :: c1 :: d0 :: d1 :: d2 :: d3 :: d4 :: d5 :: d6 :: d7 :: e, _ =>
    rw [hf] at h
    simp only [List.head?_cons, ne_eq, Option.some.injEq] at h
    rw [decide_eq_false_iff_not]
    rintro ⟨-, h'⟩
    simp only [List.cons_append, is8DigitHexValue, decide_eq_true_eq] at h'
    exact h h'.1

theorem parse_field (r : Reg) (t : Str) (o : Obj) :
    parseLine (r.field ++ t) o = .ok (.register (offsetOf r) (if r.isFloat then parseFloatRegister t else strtoul32 t)) o := by
  unfold parseLine
  rw [notMemory_field, isRegister_field]
  simp only [Bool.false_eq_true, if_false, parseRegisterLine]
  have hd : (r.field ++ t).drop 15 = t := by
    rw [List.drop_append, field_len, List.drop_of_length_le (by rw [field_len]; omega)]; rfl
  rw [if_neg (by simp [field_len]), (field_facts r (mem_allRegs r)).2.2, hd]
  cases r.isFloat <;> rfl

theorem parse_register {line : Str} {r : Reg} {v : U32} (h : ShowsRegister line r v) (o : Obj) :
    parseLine line o = .ok (.register (offsetOf r) v) o := by
  unfold ShowsRegister at h
  by_cases hf : r.isFloat = true
  · rw [if_pos hf] at h
    obtain ⟨f, w, n, rest, rfl, h1, h2, h3, h4, h5⟩ := h
    simp only [List.append_assoc]
    rw [parse_field, if_pos hf]
    have e1 : findWhitespace (f ++ (w ++ (asc "(raw " ++ (n ++ rest)))) = w ++ (asc "(raw " ++ (n ++ rest)) := by
      refine (takeWhile_stop (p := fun c => !isspace c) (a := f) ?_ ?_).2
      · intro c hc
        have : isspace c = false := h1 c hc
        simp [this]
      · intro c t e
        cases w with
        | nil => exact absurd rfl h3
        | cons x w =>
          have hx : isspace x = true := h2 x (by simp)
          cases e
          simp [hx]
    have e2 : skipWhitespace (w ++ (asc "(raw " ++ (n ++ rest))) = asc "(raw " ++ (n ++ rest) :=
      dropSpaces h2 (by intro c t e; cases e; decide)
    have e3 : strncmpEq (asc "(raw " ++ (n ++ rest)) (asc "(raw ") 5 = true := by
      unfold strncmpEq
      rw [List.take_append_of_le_length (by decide)]
      decide
    have e4 : (asc "(raw " ++ (n ++ rest)).drop 5 = n ++ rest := rfl
    unfold parseFloatRegister
    simp only [e1, e2, e3, e4]
    have e5 := strtoul32_hex (w := []) (by intro c hc; cases hc) h4 h5
    simp only [List.nil_append] at e5
    simp [e5]
  · rw [if_neg hf] at h
    obtain ⟨w, n, rest, rfl, h1, h2, h3⟩ := h
    simp only [List.append_assoc]
    rw [parse_field, if_neg hf, strtoul32_hex h1 h2 h3]

/-! ### Other lines -/

theorem likeMemory_iff {line : Str} : isMemoryLine line = true ↔ LikeMemory line := by
  unfold isMemoryLine LikeMemory
  simp only [decide_eq_true_eq]
  refine and_congr_right fun hl => ?_
  match line, hl with
  | c0 :: c1 :: d0 :: d1 :: d2 :: d3 :: d4 :: d5 :: d6 :: d7 :: e0 :: e1 :: e, _ =>
    have : asc "0x" = [0x30, 0x78] := by decide
    simp [is8DigitHexValue, AllHex, isHexDigit_eq, this, and_assoc]

theorem likeRegister_iff {line : Str} : (isRegisterLine line).isSome ↔ LikeRegister line := by
  constructor
  · intro h
    unfold isRegisterLine at h
    rw [Option.isSome_map, List.find?_isSome] at h
    obtain ⟨e, he, h⟩ := h
    rw [registers_eq] at he
    obtain ⟨r, -, rfl⟩ := List.mem_map.1 he
    refine ⟨r, ?_⟩
    simp only [strncmpEq, decide_eq_true_eq] at h
    rw [List.take_of_length_le (by rw [field_len]; omega)] at h
    rw [h]
    exact List.take_prefix 15 line
  · rintro ⟨r, t, rfl⟩
    rw [isRegister_field]; rfl

theorem parse_other {line : Str} (h1 : ¬ LikeMemory line) (h2 : ¬ LikeRegister line) (o : Obj) : parseLine line o = .ok .other o := by
  unfold parseLine
  rw [if_neg (by rw [likeMemory_iff]; exact h1)]
  rw [← likeRegister_iff] at h2
  cases e : isRegisterLine line with
  | none => rfl
  | some x => rw [e] at h2; exact absurd rfl h2

/-! ### All lines -/

/-- What parsing can give. -/
def Valid : Results → Prop
  | .other => True
  | .memory _ vs => 1 ≤ vs.length ∧ vs.length ≤ 4
  | .register off _ => ∃ r : Reg, off = offsetOf r

theorem parseValues_pure (fuel : Nat) (vs : List U32) (t : Str) (hf : 4 < vs.length + fuel) (hv : vs.length ≤ 4) :
    ∃ ws, (∀ o, parseValues fuel vs t o = .ok ws o) ∧ vs.length ≤ ws.length ∧ ws.length ≤ 4 ∧
      (t ≠ [] → vs.length < 4 → vs.length < ws.length) := by
  induction fuel generalizing vs t with
  | zero => omega
  | succ fuel ih =>
    by_cases hm : t ≠ [] ∧ vs.length < 4
    · obtain ⟨ws, h1, h2, h3, -⟩ := ih (vs ++ [strtoul32 (skipWhitespaceAndSymbol t)]) (strtoul (skipWhitespaceAndSymbol t)).2
        (by simp; omega) (by simp; omega)
      simp only [List.length_append, List.length_singleton] at h2
      exact ⟨ws, fun o => by rw [parseValues_succ hm.1 hm.2]; exact h1 o, by omega, h3, fun _ _ => by omega⟩
    · exact ⟨vs, fun o => parseValues_stop hm _ _, by omega, hv, fun h1 h2 => absurd ⟨h1, h2⟩ hm⟩

theorem parse_pure (line : Str) : ∃ r, Valid r ∧ ∀ o, parseLine line o = .ok r o := by
  unfold parseLine
  by_cases hm : isMemoryLine line = true
  · have hl : 11 < line.length := (likeMemory_iff.1 hm).1
    obtain ⟨ws, h1, h2, h3, h4⟩ := parseValues_pure (VALUES_SIZE + 1) [] (line.drop 11) (by simp [VALUES_SIZE]) (by simp)
    refine ⟨.memory (strtoul32 line) ws, ⟨?_, h3⟩, fun o => ?_⟩
    · have := h4 (by intro h; rw [List.drop_eq_nil_iff] at h; omega) (by simp)
      simp at this; omega
    · rw [if_pos hm]
      unfold parseMemoryLine
      rw [if_neg (by omega)]
      exact M.bind_ok (h1 o)
  · simp only [if_neg hm]
    cases e : isRegisterLine line with
    | none => exact ⟨.other, trivial, fun o => rfl⟩
    | some off =>
      have h : LikeRegister line := likeRegister_iff.1 (by rw [e]; rfl)
      obtain ⟨r, t, rfl⟩ := h
      rw [isRegister_field] at e
      cases e
      refine ⟨.register (offsetOf r) (if r.isFloat then parseFloatRegister t else strtoul32 t), ⟨r, rfl⟩, fun o => ?_⟩
      have h := parse_field r t o
      unfold parseLine at h
      rw [notMemory_field, isRegister_field] at h
      exact h

end Verif.GdbLog
