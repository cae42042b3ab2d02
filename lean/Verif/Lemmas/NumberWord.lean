import Verif.Lemmas.Number
/- `strtoul` on any word. -/
namespace Verif.Libc
open Verif Spec GdbLog

theorem isspace_blank {c : U8} : isspace c = true ↔ Blank c := by
  unfold isspace Blank
  revert c
  decide +kernel

theorem isDigit_iff {base : Nat} (hb : base ≤ 16) {c : U8} : isDigit base c = true ↔ ∃ d, hexDigit c = some d ∧ d < base := by
  constructor
  · intro h
    unfold isDigit at h
    have key : ∀ c : U8, (∃ d, digitVal c = some d ∧ d < 16) → hexDigit c = digitVal c := by
      intro c
      rintro ⟨d, h1, h2⟩
      have : ∀ c : U8, ((digitVal c).any (· < 16)) = true → hexDigit c = digitVal c := by decide +kernel
      exact this c (by rw [h1]; simpa using h2)
    cases e : digitVal c with
    | none => rw [e] at h; cases h
    | some d =>
      rw [e] at h
      have hd : d < base := by simpa using h
      exact ⟨d, by rw [key c ⟨d, e, by omega⟩, e], hd⟩
  · rintro ⟨d, h1, h2⟩
    simp [isDigit, digitVal_of h1, h2]

theorem mem_takeWhile {p : U8 → Bool} {l : Str} {c : U8} (h : c ∈ l.takeWhile p) : p c = true := by
  induction l with
  | nil => cases h
  | cons x l ih =>
    cases hx : p x with
    | false => rw [List.takeWhile_cons_of_neg (by simp [hx])] at h; cases h
    | true =>
      rw [List.takeWhile_cons_of_pos hx] at h
      rcases List.mem_cons.1 h with rfl | h
      · exact hx
      · exact ih h

theorem digitsOf_append {base : Nat} {ds : Str} {c : U8} (h : DigitsOf base ds) (hb : base ≤ 16) (hc : isDigit base c = true) :
    DigitsOf base (ds ++ [c]) := by
  refine ⟨by simp, fun x hx => ?_⟩
  rcases List.mem_append.1 hx with hx | hx
  · exact h.2 x hx
  · rw [List.mem_singleton.1 hx]; exact (isDigit_iff hb).1 hc

theorem numeral_head {t : Str} {n : Nat} (h : Numeral t n) : ∃ c u, t = c :: u ∧ 48 ≤ c.toNat := by
  cases h with
  | decimal h h0 =>
    cases t with
    | nil => exact absurd rfl h.1
    | cons c t =>
      obtain ⟨d, hd, -⟩ := h.2 c (by simp)
      exact ⟨c, t, rfl, digit_range hd⟩
  | octal h => exact ⟨_, _, rfl, by decide⟩
  | hex hx h => exact ⟨_, _, rfl, by decide⟩

/-- Where a number begins, white space and the sign have been skipped. -/
theorem skip {sp sg u : Str} {c : U8} {minus : Bool} (hsp : ∀ c ∈ sp, Blank c) (hc : 48 ≤ c.toNat)
    (hs : if minus then sg = [0x2D] else sg = [] ∨ sg = [0x2B]) :
    takeSign ((sp ++ (sg ++ c :: u)).dropWhile isspace) = (minus, c :: u) := by
  have e : ∀ v : Str, (sp ++ v).dropWhile isspace = v.dropWhile isspace := by
    intro v
    rw [List.dropWhile_append_of_pos]
    intro a ha
    exact isspace_blank.2 (hsp a ha)
  rw [e]
  cases minus with
  | true =>
    simp only [if_true] at hs
    subst hs
    rfl
  | false =>
    simp only [Bool.false_eq_true, if_false] at hs
    rcases hs with rfl | rfl
    · exact noPrefix hc
    · rfl

/-- The digits of the longest number. -/
theorem base_digits {num rest : Str} {n : Nat} (h : Numeral num n) (hmax : ∀ r k, r ≠ [] → r <+: rest → ¬ Numeral (num ++ r) k) :
    ∃ base ds, takeBase (num ++ rest) = (base, ds ++ rest) ∧ (ds ++ rest).takeWhile (isDigit base) = ds ∧
      (ds ++ rest).dropWhile (isDigit base) = rest ∧ ds ≠ [] ∧ digitsVal base ds = n := by
  have stop : ∀ base ds, base ≤ 16 → DigitsOf base ds → (∀ c, isDigit base c = true → ∃ k, Numeral (num ++ [c]) k) →
      (ds ++ rest).takeWhile (isDigit base) = ds ∧ (ds ++ rest).dropWhile (isDigit base) = rest := by
    intro base ds _ hds hnext
    refine takeWhile_stop (isDigit_of hds) ?_
    intro c t e
    cases hx : isDigit base c with
    | false => simp
    | true =>
      obtain ⟨k, hk⟩ := hnext c hx
      exact absurd hk (hmax [c] k (by simp) ⟨t, by simp [e]⟩)
  cases h with
  | decimal h h0 =>
    obtain ⟨s1, s2⟩ := stop 10 num (by omega) h (fun c hc => ⟨_, .decimal (digitsOf_append h (by omega) hc) (by
      cases num with
      | nil => exact absurd rfl h.1
      | cons x u => simpa using h0)⟩)
    refine ⟨10, num, ?_, s1, s2, h.1, digitsVal_of h.2⟩
    cases num with
    | nil => exact absurd rfl h.1
    | cons c u =>
      have hc : c ≠ 0x30 := fun e => h0 (by simp [e])
      show takeBase (c :: (u ++ rest)) = (10, c :: (u ++ rest))
      rcases (u ++ rest) with _ | ⟨x, _ | ⟨y, v⟩⟩
      · exact if_neg hc
      · exact if_neg hc
      · unfold takeBase
        simp only
        rw [if_neg (fun e => hc e.1), if_neg hc]
  | octal h =>
    rename_i ds
    obtain ⟨s1, s2⟩ := stop 8 (0x30 :: ds) (by omega) h (fun c hc => ⟨_, .octal (ds := ds ++ [c]) (digitsOf_append h (by omega) hc)⟩)
    refine ⟨8, 0x30 :: ds, ?_, s1, s2, by simp, digitsVal_of (base := 8) h.2⟩
    show takeBase (0x30 :: (ds ++ rest)) = (8, 0x30 :: (ds ++ rest))
    generalize e : ds ++ rest = v
    rcases v with _ | ⟨x, _ | ⟨y, v⟩⟩
    · rfl
    · rfl
    · unfold takeBase
      simp only
      rw [if_neg, if_pos trivial]
      rintro ⟨-, hx, hy⟩
      cases ds with
      | nil =>
        have e' : rest = x :: y :: v := e
        exact hmax [x, y] _ (by simp) ⟨v, by simp [e']⟩
          (.hex (x := x) (ds := [y]) hx ⟨by simp, fun c hc => by rw [List.mem_singleton.1 hc]; exact (isDigit_iff (by omega)).1 hy⟩)
      | cons z ds =>
        obtain ⟨rfl, -⟩ : z = x ∧ _ := by simpa using e
        obtain ⟨d, hd, hlt⟩ := h.2 z (by simp)
        rcases hx with rfl | rfl <;> revert hd <;> decide +revert
  | hex hx h =>
    rename_i x ds
    obtain ⟨s1, s2⟩ := stop 16 ds (by omega) h (fun c hc => ⟨_, .hex (x := x) (ds := ds ++ [c]) hx (digitsOf_append h (by omega) hc)⟩)
    refine ⟨16, ds, ?_, s1, s2, h.1, digitsVal_of h.2⟩
    cases ds with
    | nil => exact absurd rfl h.1
    | cons d ds =>
      exact if_pos ⟨rfl, hx, isDigit_of h d (by simp)⟩

theorem strtoul_begins {t rest : Str} {minus : Bool} {n : Nat} (h : Begins t minus n rest) :
    strtoul t = (if 2 ^ 64 ≤ n then 2 ^ 64 - 1 else if minus then (2 ^ 64 - n) % 2 ^ 64 else n, rest) := by
  obtain ⟨sp, sg, num, rfl, hsp, hn, hsg, hmax⟩ := h.parts
  obtain ⟨c, u, rfl, hc⟩ := numeral_head hn
  obtain ⟨base, ds, h1, h2, h3, h4, h5⟩ := base_digits hn hmax
  unfold strtoul
  have hs := skip (u := u ++ rest) hsp hc hsg
  have h1' : takeBase (c :: (u ++ rest)) = (base, ds ++ rest) := h1
  simp only [List.cons_append, hs, h1', h2, h3]
  rw [if_neg h4, h5]

/-- A word with digits where `strtoul` looks for them begins with a number. -/
theorem begins_of_digits {sp sg t2 t3 : Str} {minus : Bool} {base : Nat} (hsp : ∀ c ∈ sp, Blank c)
    (hs : if minus then sg = [0x2D] else sg = [] ∨ sg = [0x2B]) (hb : takeBase t2 = (base, t3)) (hd : t3.takeWhile (isDigit base) ≠ []) :
    ∃ num rest n, sp ++ (sg ++ t2) = sp ++ (sg ++ (num ++ rest)) ∧ Numeral num n := by
  have split : t3 = t3.takeWhile (isDigit base) ++ t3.dropWhile (isDigit base) := List.takeWhile_append_dropWhile.symm
  have digits : base ≤ 16 → DigitsOf base (t3.takeWhile (isDigit base)) := by
    intro hle
    refine ⟨hd, fun c hc => ?_⟩
    exact (isDigit_iff hle).1 (mem_takeWhile hc)
  have cases3 : (base = 16 ∧ ∃ x, (x = 0x78 ∨ x = 0x58) ∧ t2 = 0x30 :: x :: t3) ∨ (base = 8 ∧ t2 = t3 ∧ t3.head? = some 0x30) ∨
      (base = 10 ∧ t2 = t3 ∧ t3.head? ≠ some 0x30) := by
    rcases t2 with _ | ⟨c, _ | ⟨x, _ | ⟨d, t⟩⟩⟩
    · cases hb; simp
    · change (if c = 0x30 then (8, [c]) else (10, [c])) = _ at hb
      by_cases hc : c = 0x30
      · rw [if_pos hc] at hb; cases hb; simp [hc]
      · rw [if_neg hc] at hb; cases hb; simpa using hc
    · change (if c = 0x30 then (8, [c, x]) else (10, [c, x])) = _ at hb
      by_cases hc : c = 0x30
      · rw [if_pos hc] at hb; cases hb; simp [hc]
      · rw [if_neg hc] at hb; cases hb; simpa using hc
    · unfold takeBase at hb
      simp only at hb
      by_cases hx : c = 0x30 ∧ (x = 0x78 ∨ x = 0x58) ∧ isDigit 16 d = true
      · rw [if_pos hx] at hb; cases hb; exact .inl ⟨rfl, x, hx.2.1, by rw [hx.1]⟩
      · rw [if_neg hx] at hb
        by_cases hc : c = 0x30
        · rw [if_pos hc] at hb; cases hb; simp [hc]
        · rw [if_neg hc] at hb; cases hb; simpa using hc
  rcases cases3 with ⟨rfl, x, hx, e⟩ | ⟨rfl, e, h0⟩ | ⟨rfl, e, h0⟩
  · refine ⟨0x30 :: x :: t3.takeWhile (isDigit 16), t3.dropWhile (isDigit 16), _, ?_, .hex hx (digits (by omega))⟩
    rw [e]
    conv => lhs; rw [split]
    simp
  · cases t3 with
    | nil => cases h0
    | cons c t =>
      obtain rfl : c = 0x30 := by simpa using h0
      have e8 : (0x30 :: t).takeWhile (isDigit 8) = 0x30 :: t.takeWhile (isDigit 8) := List.takeWhile_cons_of_pos (by decide)
      have hd8 := digits (by omega)
      rw [e8] at hd8
      refine ⟨0x30 :: t.takeWhile (isDigit 8), t.dropWhile (isDigit 8), _, ?_, .octal hd8⟩
      rw [e]
      simp
  · refine ⟨t3.takeWhile (isDigit 10), t3.dropWhile (isDigit 10), _, ?_, .decimal (digits (by omega)) ?_⟩
    · rw [e]
      conv => lhs; rw [split]
    · cases t3 with
      | nil => exact absurd rfl hd
      | cons c t =>
        have : isDigit 10 c = true := by
          cases hx : isDigit 10 c with
          | true => rfl
          | false => exact absurd (by rw [List.takeWhile_cons_of_neg (by simp [hx])]) hd
        rw [List.takeWhile_cons_of_pos this]
        simpa using h0

/-- If a number follows, there is a longest one. -/
theorem longest {num rest : Str} {n : Nat} (h : Numeral num n) :
    ∃ num' rest' n', num ++ rest = num' ++ rest' ∧ Numeral num' n' ∧ ∀ r k, r ≠ [] → r <+: rest' → ¬ Numeral (num' ++ r) k := by
  generalize hl : rest.length = l
  induction l using Nat.strongRecOn generalizing num rest n with
  | _ l ih =>
    by_cases hx : ∃ r k, r ≠ [] ∧ r <+: rest ∧ Numeral (num ++ r) k
    · obtain ⟨r, k, h1, ⟨r', rfl⟩, h3⟩ := hx
      have hpos : 0 < r.length := List.length_pos_iff.2 h1
      simp only [List.length_append] at hl
      obtain ⟨a, b, c, e, h4, h5⟩ := ih r'.length (by omega) (num := num ++ r) h3 rfl
      exact ⟨a, b, c, by rw [← e]; simp, h4, h5⟩
    · exact ⟨num, rest, n, rfl, h, fun r k h1 h2 h3 => hx ⟨r, k, h1, h2, h3⟩⟩

theorem begins_of {sp sg num rest : Str} {minus : Bool} {n : Nat} (hsp : ∀ c ∈ sp, Blank c)
    (hs : if minus then sg = [0x2D] else sg = [] ∨ sg = [0x2B]) (hn : Numeral num n) :
    ∃ k r, Begins (sp ++ (sg ++ (num ++ rest))) minus k r := by
  obtain ⟨num', rest', n', e, h1, h2⟩ := longest (rest := rest) hn
  exact ⟨n', rest', ⟨sp, sg, num', by rw [e], hsp, h1, hs, h2⟩⟩

/-- A word that begins with no number. -/
theorem no_digits {t : Str} (h : ∀ m n rest, ¬ Begins t m n rest) {neg : Bool} {t2 t3 : Str} {base : Nat}
    (h1 : takeSign (t.dropWhile isspace) = (neg, t2)) (h2 : takeBase t2 = (base, t3)) : t3.takeWhile (isDigit base) = [] := by
  apply Classical.byContradiction
  intro hd
  have hsp : ∀ c ∈ t.takeWhile isspace, Blank c := fun c hc => isspace_blank.1 (mem_takeWhile hc)
  have e : t = t.takeWhile isspace ++ t.dropWhile isspace := List.takeWhile_append_dropWhile.symm
  have hsg : ∃ sg, t.dropWhile isspace = sg ++ t2 ∧ (if neg then sg = [0x2D] else sg = [] ∨ sg = [0x2B]) := by
    generalize t.dropWhile isspace = v at h1
    cases v with
    | nil => cases h1; exact ⟨[], rfl, .inl rfl⟩
    | cons c u =>
      change (if c = 0x2D then (true, u) else if c = 0x2B then (false, u) else (false, c :: u)) = _ at h1
      by_cases c1 : c = 0x2D
      · rw [if_pos c1] at h1; cases h1; exact ⟨[c], rfl, by simp [c1]⟩
      · rw [if_neg c1] at h1
        by_cases c2 : c = 0x2B
        · rw [if_pos c2] at h1; cases h1; exact ⟨[c], rfl, by simp [c2]⟩
        · rw [if_neg c2] at h1; cases h1; exact ⟨[], rfl, .inl rfl⟩
  obtain ⟨sg, e2, hs⟩ := hsg
  obtain ⟨num, rest, n, e3, hn⟩ := begins_of_digits hsp hs h2 hd
  obtain ⟨k, r, hb⟩ := begins_of (rest := rest) hsp hs hn
  refine h neg k r ?_
  rw [← e3, ← e2, ← e] at hb
  exact hb

theorem strtoul_nothing {t : Str} (h : ∀ m n rest, ¬ Begins t m n rest) : strtoul t = (0, t) := by
  unfold strtoul
  generalize h1 : takeSign (t.dropWhile isspace) = x
  obtain ⟨neg, t2⟩ := x
  generalize h2 : takeBase t2 = y
  obtain ⟨base, t3⟩ := y
  simp only [h2]
  exact if_pos (no_digits h h1 h2)

theorem strtoul32_means {t : Str} {v : U32} (h : Means t v) : strtoul32 t = v := by
  unfold strtoul32
  cases h with
  | plus h hn => rw [strtoul_begins h, if_neg (by omega)]; rfl
  | minus h hn =>
    rw [strtoul_begins h, if_neg (by omega)]
    simp only [if_true]
    apply BitVec.eq_of_toNat_eq
    simp only [BitVec.toNat_ofNat, BitVec.toNat_neg]
    omega
  | large h hn => rw [strtoul_begins h, if_pos hn]; show BitVec.ofNat 32 (2 ^ 64 - 1) = 0xFFFFFFFF; decide
  | nothing h => rw [strtoul_nothing h]; rfl

theorem means_exists (t : Str) : ∃ v, Means t v := by
  by_cases h : ∃ m n rest, Begins t m n rest
  · obtain ⟨m, n, rest, h⟩ := h
    by_cases hn : n < 2 ^ 64
    · cases m with
      | true => exact ⟨_, .minus h hn⟩
      | false => exact ⟨_, .plus h hn⟩
    · exact ⟨_, .large h (by omega)⟩
  · exact ⟨_, .nothing fun m n rest hb => h ⟨m, n, rest, hb⟩⟩

end Verif.Libc
