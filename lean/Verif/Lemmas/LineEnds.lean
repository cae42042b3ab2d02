import Verif.Lemmas.AnyLog
import Verif.Spec.LineEnds
/- Lines that end in a carriage return and a line feed, against the same lines that end in a line feed. -/
namespace Verif.GdbLog
open Verif MemSim Spec Libc

/-- The same text, or text that ends a line in two ways; the line feed may come later. -/
inductive CR : Str → Str → Prop
  | same (t : Str) : CR t t
  | nl (x : Str) {r : Str} (hr : r = [0x0D, 0x0A] ∨ r = [0x0D]) : CR (x ++ [0x0A]) (x ++ r)

theorem CR.dropWhile {p : U8 → Bool} (hp : p 0x0A = p 0x0D) {t t' : Str} (h : CR t t') : CR (t.dropWhile p) (t'.dropWhile p) := by
  cases h with
  | same => exact .same _
  | @nl x r hr =>
    induction x with
    | nil =>
      by_cases h : p 0x0A = true
      · have h' := hp.symm.trans h
        rcases hr with rfl | rfl
        · simp only [List.nil_append, List.dropWhile_cons, h, h', List.dropWhile_nil]
          exact .same _
        · simp only [List.nil_append, List.dropWhile_cons, h, h', List.dropWhile_nil]
          exact .same _
      · have h' : ¬ p 0x0D = true := by rw [← hp]; exact h
        rcases hr with rfl | rfl
        · simp only [List.nil_append, List.dropWhile_cons, h, h']
          exact .nl [] (.inl rfl)
        · simp only [List.nil_append, List.dropWhile_cons, h, h']
          exact .nl [] (.inr rfl)
    | cons c x ih =>
      by_cases h : p c = true
      · simp only [List.cons_append, List.dropWhile_cons, h]
        exact ih
      · simp only [List.cons_append, List.dropWhile_cons, h]
        exact .nl (c :: x) hr

theorem CR.takeWhile {p : U8 → Bool} (h1 : p 0x0A = false) (h2 : p 0x0D = false) {t t' : Str} (h : CR t t') :
    t.takeWhile p = t'.takeWhile p := by
  cases h with
  | same => rfl
  | @nl x r hr =>
    induction x with
    | nil =>
      rcases hr with rfl | rfl
      · simp only [List.nil_append, List.takeWhile_cons, h1, h2]; rfl
      · simp only [List.nil_append, List.takeWhile_cons, h1, h2]; rfl
    | cons c x ih =>
      simp only [List.cons_append, List.takeWhile_cons]
      rw [ih]

theorem CR.takeSign {t t' : Str} (h : CR t t') : (takeSign t).1 = (Libc.takeSign t').1 ∧ CR (Libc.takeSign t).2 (Libc.takeSign t').2 := by
  cases h with
  | same => exact ⟨rfl, .same _⟩
  | @nl x r hr =>
    cases x with
    | nil => rcases hr with rfl | rfl <;> exact ⟨rfl, .nl [] (by simp)⟩
    | cons c x =>
      simp only [List.cons_append, Libc.takeSign]
      split
      · exact ⟨rfl, .nl x hr⟩
      · split
        · exact ⟨rfl, .nl x hr⟩
        · exact ⟨rfl, .nl (c :: x) hr⟩

theorem CR.takeBase {t t' : Str} (h : CR t t') : (takeBase t).1 = (Libc.takeBase t').1 ∧ CR (Libc.takeBase t).2 (Libc.takeBase t').2 := by
  cases h with
  | same => exact ⟨rfl, .same _⟩
  | @nl x r hr =>
    match x with
    | [] => rcases hr with rfl | rfl <;> exact ⟨rfl, .nl [] (by simp)⟩
    | [a] =>
      rcases hr with rfl | rfl
      · simp only [List.cons_append, List.nil_append, Libc.takeBase]
        rw [if_neg (c := a = 0x30 ∧ _) (by rintro ⟨-, h, -⟩; revert h; decide)]
        split
        · exact ⟨rfl, .nl [a] (by simp)⟩
        · exact ⟨rfl, .nl [a] (by simp)⟩
      · simp only [List.cons_append, List.nil_append, Libc.takeBase]
        split
        · exact ⟨rfl, .nl [a] (by simp)⟩
        · exact ⟨rfl, .nl [a] (by simp)⟩
    | [a, b] =>
      obtain ⟨r', rfl⟩ : ∃ r', r = 0x0D :: r' := by
        rcases hr with rfl | rfl
        · exact ⟨_, rfl⟩
        · exact ⟨_, rfl⟩
      simp only [List.cons_append, List.nil_append, Libc.takeBase]
      rw [if_neg (c := a = 0x30 ∧ (b = 0x78 ∨ b = 0x58) ∧ isDigit 16 0x0A = true) (by rintro ⟨-, -, h⟩; revert h; decide),
        if_neg (c := a = 0x30 ∧ (b = 0x78 ∨ b = 0x58) ∧ isDigit 16 0x0D = true) (by rintro ⟨-, -, h⟩; revert h; decide)]
      split
      · exact ⟨rfl, .nl [a, b] hr⟩
      · exact ⟨rfl, .nl [a, b] hr⟩
    | a :: b :: d :: x =>
      simp only [List.cons_append, Libc.takeBase]
      split
      · exact ⟨rfl, .nl (d :: x) hr⟩
      · split
        · exact ⟨rfl, .nl (a :: b :: d :: x) hr⟩
        · exact ⟨rfl, .nl (a :: b :: d :: x) hr⟩

theorem digit_nl (b : Nat) : isDigit b 0x0A = false ∧ isDigit b 0x0D = false := ⟨rfl, rfl⟩

theorem CR.strtoul {t t' : Str} (h : CR t t') : (strtoul t).1 = (Libc.strtoul t').1 ∧ CR (Libc.strtoul t).2 (Libc.strtoul t').2 := by
  have h1 : CR (t.dropWhile isspace) (t'.dropWhile isspace) := h.dropWhile (by decide)
  have h2 := h1.takeSign
  have h3 := h2.2.takeBase
  have h4 : ∀ b, _ := fun b => h3.2.takeWhile (digit_nl b).1 (digit_nl b).2
  have h5 : ∀ b, CR _ _ := fun b => h3.2.dropWhile (p := isDigit b) ((digit_nl b).1.trans (digit_nl b).2.symm)
  unfold Libc.strtoul
  simp only
  rw [← h2.1, ← h3.1, ← h4]
  split
  · exact ⟨rfl, h⟩
  · exact ⟨rfl, h5 _⟩

theorem CR.strtoul32 {t t' : Str} (h : CR t t') : strtoul32 t = Libc.strtoul32 t' := by
  unfold Libc.strtoul32
  rw [h.strtoul.1]

theorem CR.head {t t' : Str} (h : CR t t') {c : U8} (h1 : c ≠ 0x0A) (h2 : c ≠ 0x0D) : t.head? = some c ↔ t'.head? = some c := by
  cases h with
  | same => rfl
  | @nl x r hr =>
    cases x with
    | nil =>
      rcases hr with rfl | rfl
      · simp only [List.nil_append, List.head?_cons, Option.some.injEq]
        exact ⟨fun h => (h1 h.symm).elim, fun h => (h2 h.symm).elim⟩
      · simp only [List.nil_append, List.head?_cons, Option.some.injEq]
        exact ⟨fun h => (h1 h.symm).elim, fun h => (h2 h.symm).elim⟩
    | cons => rfl

theorem CR.skipSymbolLoop {t t' : Str} (h : CR t t') (l : Int) : CR (skipSymbolLoop t l) (GdbLog.skipSymbolLoop t' l) := by
  cases h with
  | same => exact .same _
  | @nl x r hr =>
    induction x generalizing l with
    | nil =>
      by_cases h : l = 0
      · subst h
        rcases hr with rfl | rfl
        · exact .nl [] (by simp)
        · exact .nl [] (by simp)
      · have e1 : GdbLog.skipSymbolLoop ([] ++ [0x0A]) l = [] := by simp [GdbLog.skipSymbolLoop, h]
        have e2 : GdbLog.skipSymbolLoop ([] ++ r) l = [] := by rcases hr with rfl | rfl <;> simp [GdbLog.skipSymbolLoop, h]
        rw [e1, e2]
        exact .same _
    | cons c x ih =>
      simp only [List.cons_append, GdbLog.skipSymbolLoop]
      split
      · exact ih _
      · split
        · exact ih _
        · split
          · exact .nl (c :: x) hr
          · exact ih _

theorem CR.skip {t t' : Str} (h : CR t t') : CR (skipWhitespaceAndSymbol t) (skipWhitespaceAndSymbol t') := by
  have h1 : CR (skipWhitespace t) (skipWhitespace t') := h.dropWhile (by decide)
  have h2 : CR (skipSymbol (skipWhitespace t)) (skipSymbol (skipWhitespace t')) := by
    unfold skipSymbol
    have := h1.head (c := 0x3C) (by decide) (by decide)
    by_cases hx : (skipWhitespace t).head? = some 0x3C
    · rw [if_neg (by simp [hx]), if_neg (by simp [this.1 hx])]
      exact h1.skipSymbolLoop 0
    · rw [if_pos (by simpa using hx), if_pos (by simpa using fun h' => hx (this.2 h'))]
      exact h1
  exact h2.dropWhile (by decide)

theorem CR.nil_iff {t t' : Str} (h : CR t t') : t = [] ↔ t' = [] := by
  cases h with
  | same => rfl
  | @nl x r hr => rcases hr with rfl | rfl <;> simp

theorem CR.parseValues {fuel : Nat} {vs : List U32} {t t' : Str} (h : CR t t') : parseValues fuel vs t = GdbLog.parseValues fuel vs t' := by
  induction fuel generalizing vs t t' with
  | zero => rfl
  | succ fuel ih =>
    unfold GdbLog.parseValues
    have e : areMoreValues vs t = areMoreValues vs t' := by
      unfold areMoreValues
      simp only [ne_eq, h.nil_iff]
    rw [e]
    split
    · unfold parseNextValue parseValue
      split
      · rw [h.skip.strtoul32]
        funext o
        exact congrFun (ih h.skip.strtoul.2) o
      · rfl
    · rfl

theorem CR.parseFloat {t t' : Str} (h : CR t t') : parseFloatRegister t = parseFloatRegister t' := by
  have h1 : CR (findWhitespace t) (findWhitespace t') := h.dropWhile (by decide)
  have h2 : CR (skipWhitespace (findWhitespace t)) (skipWhitespace (findWhitespace t')) := h1.dropWhile (by decide)
  unfold parseFloatRegister
  generalize skipWhitespace (findWhitespace t) = u, skipWhitespace (findWhitespace t') = u' at h2
  clear h h1
  simp only
  cases h2 with
  | same => rfl
  | @nl x r hr =>
    by_cases hl : 5 ≤ x.length
    · have e1 : strncmpEq (x ++ [0x0A]) (asc "(raw ") 5 = strncmpEq (x ++ r) (asc "(raw ") 5 := by
        unfold strncmpEq
        rw [List.take_append_of_le_length hl, List.take_append_of_le_length hl]
      rw [e1, List.drop_append_of_le_length hl, List.drop_append_of_le_length hl, (CR.nl (x.drop 5) hr).strtoul32]
    · have no : ∀ r : Str, strncmpEq (x ++ r) (asc "(raw ") 5 = true → (r.head? = some 0x0A ∨ r.head? = some 0x0D) → False := by
        intro r h hr
        unfold strncmpEq at h
        have h := of_decide_eq_true h
        have hm : ∀ c, r.head? = some c → c ∈ (x ++ r).take 5 := by
          intro c hc
          cases r with
          | nil => cases hc
          | cons d r =>
            cases hc
            rw [List.take_append, List.mem_append]
            right
            rw [show 5 - x.length = (4 - x.length) + 1 by omega, List.take_succ_cons]
            exact List.mem_cons_self
        rcases hr with hr | hr
        · have := hm _ hr; rw [h] at this; revert this; decide
        · have := hm _ hr; rw [h] at this; revert this; decide
      rw [if_pos (fun h => no [0x0A] h (.inl rfl)), if_pos (fun h => no _ h (by rcases hr with rfl | rfl <;> exact .inr rfl))]

theorem registers_clean : ∀ e ∈ registers, e.1.length = 15 ∧ 0x0A ∉ e.1 ∧ 0x0D ∉ e.1 := by decide +kernel

/-- The name of a register and a line end do not overlap. -/
theorem name_len {e : Str × Nat} (he : e ∈ registers) {x r : Str} (h : strncmpEq e.1 (x ++ r) 15 = true)
    (hr : r.head? = some 0x0A ∨ r.head? = some 0x0D) : 15 ≤ x.length := by
  obtain ⟨h1, h2, h3⟩ := registers_clean e he
  unfold strncmpEq at h
  have h := of_decide_eq_true h
  rw [List.take_of_length_le (by omega)] at h
  refine Nat.le_of_not_lt fun hl => ?_
  have hm : ∀ c, r.head? = some c → c ∈ e.1 := by
    intro c hc
    cases r with
    | nil => cases hc
    | cons d r =>
      cases hc
      rw [h, List.take_append, List.mem_append]
      right
      rw [show 15 - x.length = (14 - x.length) + 1 by omega, List.take_succ_cons]
      exact List.mem_cons_self
  rcases hr with hr | hr
  · exact h2 (hm _ hr)
  · exact h3 (hm _ hr)

theorem register_nl (x : Str) {r : Str} (hr : r = [0x0D, 0x0A] ∨ r = [0x0D]) : isRegisterLine (x ++ [0x0A]) = isRegisterLine (x ++ r) := by
  unfold isRegisterLine
  congr 1
  have key : ∀ l : List (Str × Nat), (∀ e ∈ l, e ∈ registers) → (∀ e ∈ registers, strncmpEq e.1 (x ++ [0x0A]) 15 = strncmpEq e.1 (x ++ r) 15) →
      l.find? (fun e => strncmpEq e.1 (x ++ [0x0A]) 15) = l.find? (fun e => strncmpEq e.1 (x ++ r) 15) := by
    intro l hl hs
    induction l with
    | nil => rfl
    | cons e l ih =>
      rw [List.find?_cons, List.find?_cons, hs e (hl _ List.mem_cons_self), ih fun e he => hl e (List.mem_cons_of_mem _ he)]
  refine key registers (fun _ h => h) fun e he => ?_
  by_cases hl : 15 ≤ x.length
  · unfold strncmpEq
    rw [List.take_append_of_le_length hl, List.take_append_of_le_length hl]
  · rw [Bool.eq_iff_iff]
    exact ⟨fun h => (hl (name_len he h (.inl rfl))).elim, fun h => (hl (name_len he h (by rcases hr with rfl | rfl <;> exact .inr rfl))).elim⟩

theorem memory_nl {x r : Str} (hr : r = [0x0D, 0x0A] ∨ r = [0x0D]) (hb : ¬ BareAddress (x ++ [0x0A])) :
    isMemoryLine (x ++ [0x0A]) = isMemoryLine (x ++ r) := by
  have hrl : 1 ≤ r.length ∧ r.length ≤ 2 := by rcases hr with rfl | rfl <;> decide
  have key : ∀ {r : Str}, 10 ≤ x.length → (LikeMemory (x ++ r) ↔ 11 < x.length + r.length ∧ x.take 2 = asc "0x" ∧ AllHex ((x.drop 2).take 8)) := by
    intro r hl
    unfold LikeMemory
    rw [List.length_append, List.take_append_of_le_length (by omega), List.drop_append_of_le_length (by omega),
      List.take_append_of_le_length (by rw [List.length_drop]; omega)]
  rw [Bool.eq_iff_iff, likeMemory_iff, likeMemory_iff]
  constructor
  · intro h
    have hl : 10 ≤ x.length := by have := h.1; simp at this; omega
    rw [key hl] at h ⊢
    exact ⟨by have := h.1; simp at this ⊢; omega, h.2⟩
  · intro h
    have hl : 10 ≤ x.length := by have := h.1; simp at this; omega
    rw [key hl] at h ⊢
    refine ⟨?_, h.2⟩
    by_cases hx : x.length = 10
    · refine (hb ⟨x.drop 2, by rw [List.length_drop]; omega, ?_, ?_⟩).elim
      · have := h.2.2
        rwa [List.take_of_length_le (by rw [List.length_drop]; omega)] at this
      · rw [← h.2.1, List.take_append_drop]
    · simp; omega

theorem parseLine_nl {x r : Str} (hr : r = [0x0D, 0x0A] ∨ r = [0x0D]) (hb : ¬ BareAddress (x ++ [0x0A])) :
    parseLine (x ++ [0x0A]) = parseLine (x ++ r) := by
  have hrl : 1 ≤ r.length ∧ r.length ≤ 2 := by rcases hr with rfl | rfl <;> decide
  unfold parseLine
  rw [← memory_nl hr hb, ← register_nl x hr]
  split
  · rename_i h
    have hl : 11 ≤ x.length := by have := (likeMemory_iff.1 h).1; simp at this; omega
    unfold parseMemoryLine
    simp only
    rw [if_neg (by simp; omega), if_neg (by simp; omega), List.drop_append_of_le_length hl, List.drop_append_of_le_length hl,
      (CR.nl (x.drop 11) hr).parseValues, (CR.nl x hr).strtoul32]
  · cases h : isRegisterLine (x ++ [0x0A]) with
    | none => rfl
    | some off =>
      have hl : 15 ≤ x.length := by
        unfold isRegisterLine at h
        obtain ⟨e, he, -⟩ := Option.map_eq_some_iff.1 h
        have hs := List.find?_some he
        exact name_len (r := [0x0A]) (List.mem_of_find?_eq_some he) hs (.inl rfl)
      simp only
      unfold parseRegisterLine
      have l1 : ¬ (x ++ [(0x0A : U8)]).length < 15 := by simp; omega
      have l2 : ¬ (x ++ r).length < 15 := by simp; omega
      rw [if_neg l1, if_neg l2,
        List.drop_append_of_le_length hl, List.drop_append_of_le_length hl, (CR.nl (x.drop 15) hr).parseFloat, (CR.nl (x.drop 15) hr).strtoul32]

theorem crlf_append (s t : Str) : crlf (s ++ t) = crlf s ++ crlf t := by
  unfold crlf
  rw [List.flatMap_append]

theorem crlf_plain {s : Str} (h : ∀ c ∈ s, c ≠ 0x0A) : crlf s = s := by
  induction s with
  | nil => rfl
  | cons c s ih =>
    unfold crlf at ih ⊢
    rw [List.flatMap_cons, if_neg (h c List.mem_cons_self), ih fun c hc => h c (List.mem_cons_of_mem _ hc)]
    rfl

/-- A line is text, with a line feed behind it or not. -/
theorem line_cases {p rest : Str} (h : FirstLine p rest) :
    (∃ x, p = x ++ [0x0A] ∧ crlf p = x ++ [0x0D, 0x0A] ∧ ∀ c ∈ x, c ≠ 0x0A) ∨ ((rest = [] ∨ p.length = 1023) ∧ crlf p = p) := by
  obtain ⟨h0, -, h1, h2⟩ := h
  obtain ⟨x, c, rfl⟩ : ∃ x c, p = x ++ [c] := ⟨p.dropLast, p.getLast h0, (List.dropLast_concat_getLast h0).symm⟩
  rw [List.dropLast_concat] at h1
  by_cases hc : c = 0x0A
  · subst hc
    refine .inl ⟨x, rfl, ?_, h1⟩
    rw [crlf_append, crlf_plain h1]
    rfl
  · right
    refine ⟨?_, crlf_plain ?_⟩
    · rcases h2 with h2 | h2 | h2
      · rw [List.getLast?_concat] at h2
        exact (hc (Option.some.inj h2)).elim
      · exact .inr h2
      · exact .inl h2
    · intro d hd
      rcases List.mem_append.1 hd with hd | hd
      · exact h1 d hd
      · rw [List.mem_singleton.1 hd]; exact hc

/-- What becomes of a line: a line feed that does not fit the buffer any more is a line of its own. -/
def crlfLines (p : Str) : List Str := if (crlf p).length ≤ 1023 then [crlf p] else [p.dropLast ++ [0x0D], [0x0A]]

theorem lines_crlf {text : Str} {ps : List Str} (h : Lines text ps) : Lines (crlf text) (ps.flatMap crlfLines) := by
  induction h with
  | nil => exact .nil
  | @cons p rest ps h ht ih =>
    rw [crlf_append, List.flatMap_cons]
    have hlen := h.2.1
    unfold crlfLines
    rcases line_cases h with ⟨x, rfl, e, hx⟩ | ⟨hr, e⟩
    · have hno : ∀ c ∈ x ++ [(0x0D : U8)], c ≠ 0x0A := by
        intro c hc
        rcases List.mem_append.1 hc with hc | hc
        · exact hx c hc
        · rw [List.mem_singleton.1 hc]; decide
      by_cases hl : (crlf (x ++ [0x0A])).length ≤ 1023
      · rw [if_pos hl, List.singleton_append]
        refine .cons ?_ ih
        rw [e] at hl ⊢
        refine ⟨by simp, hl, ?_, .inl (by simp)⟩
        rwa [show x ++ [(0x0D : U8), 0x0A] = (x ++ [0x0D]) ++ [0x0A] by simp, List.dropLast_concat]
      · rw [if_neg hl, e, List.dropLast_concat, show x ++ [(0x0D : U8), 0x0A] ++ crlf rest = (x ++ [0x0D]) ++ ([0x0A] ++ crlf rest) by simp]
        rw [e] at hl
        simp only [List.length_append, List.length_cons, List.length_nil] at hl hlen
        refine .cons ⟨by simp, by simp; omega, fun c hc => ?_, .inr (.inl (by simp; omega))⟩ (.cons ⟨by simp, by decide, by simp, .inl rfl⟩ ih)
        exact hno c (List.dropLast_subset _ hc)
    · rw [e, if_pos hlen, List.singleton_append]
      refine .cons ⟨h.1, hlen, h.2.2.1, ?_⟩ ih
      rcases hr with rfl | hr
      · exact .inr (.inr rfl)
      · exact .inr (.inl hr)

/-- A NUL hides the line end. -/
theorem resultOf_nl {x r : Str} (hr : r = [0x0D, 0x0A] ∨ r = [0x0D]) (hb : ¬ BareAddress (x ++ [0x0A])) :
    resultOf (upToNul (x ++ r)) = resultOf (upToNul (x ++ [0x0A])) := by
  by_cases hz : ∀ c ∈ x, c ≠ 0
  · have e : ∀ r : Str, (∀ c ∈ r, c ≠ 0) → upToNul (x ++ r) = x ++ r := by
      intro r hr
      unfold upToNul
      rw [List.takeWhile_append_of_pos (by simpa using hz)]
      have := List.takeWhile_append_of_pos (p := fun c : U8 => decide (c ≠ 0)) (l₁ := r) (l₂ := []) (by simpa using hr)
      rw [List.append_nil, List.takeWhile_nil, List.append_nil] at this
      rw [this]
    rw [e r (by rcases hr with rfl | rfl <;> decide), e _ (by decide)]
    refine resultOf_eq fun o => ?_
    rw [← parseLine_nl hr hb, resultOf_spec]
  · have e : ∀ r s : Str, upToNul (x ++ r) = upToNul (x ++ s) := by
      intro r s
      clear hb
      induction x with
      | nil => exact (hz (by simp)).elim
      | cons c x ih =>
        unfold upToNul at ih ⊢
        simp only [List.cons_append, List.takeWhile_cons]
        by_cases hc : c = 0
        · simp [hc]
        · rw [ih fun h => hz (by
            intro d hd
            rcases List.mem_cons.1 hd with rfl | hd
            · exact hc
            · exact h d hd)]
    rw [e _ [0x0A]]

/-- The lines that matter. -/
noncomputable def tellingR (rs : List Results) : List Results := rs.filter fun r => r ≠ .other

theorem telling_crlf {text : Str} {ps : List Str} (h : Lines text ps) (hb : ∀ p ∈ ps, ¬ BareAddress p) :
    tellingR (results (crlf text)) = tellingR (results text) := by
  unfold results tellingR
  rw [chunks_lines h, chunks_lines (lines_crlf h)]
  induction h with
  | nil => rfl
  | @cons p rest ps h ht ih =>
    rw [List.flatMap_cons, List.map_append, List.filter_append, ih fun q hq => hb q (List.mem_cons_of_mem _ hq), List.map_cons,
      ← List.singleton_append, List.filter_append]
    congr 1
    unfold crlfLines
    have hbp := hb p List.mem_cons_self
    rcases line_cases h with ⟨x, rfl, e, hx⟩ | ⟨hr, e⟩
    · split
      · rw [e, List.map_singleton, cstr_eq, cstr_eq, resultOf_nl (.inl rfl) hbp]
      · have e0 : resultOf (upToNul [0x0A]) = .other := resultOf_eq fun o => rfl
        rw [List.dropLast_concat, List.map_cons, List.map_singleton, cstr_eq, cstr_eq, cstr_eq, e0, resultOf_nl (.inr rfl) hbp,
          ← List.singleton_append, List.filter_append]
        simp
    · rw [e, if_pos h.2.1, List.map_singleton]

theorem runAll_telling {handler : Results → M Obj Unit} (hh : handler .other = pure ()) (rs : List Results) :
    runAll handler rs = runAll handler (tellingR rs) := by
  induction rs with
  | nil => rfl
  | cons r rs ih =>
    unfold tellingR at ih ⊢
    by_cases h : r = .other
    · subst h
      rw [List.filter_cons_of_neg (by simp), ← ih]
      funext o
      rw [runAll, hh]
      rfl
    · rw [List.filter_cons_of_pos (by simpa using h), runAll, runAll, ih]

theorem both_telling (rs : List Results) (b : Bool) : both rs b = both (tellingR rs) b := by
  have e : ∀ {handler : Results → M Obj Unit}, handler .other = pure () → pass handler rs = pass handler (tellingR rs) := by
    intro handler hh
    unfold pass
    rw [runAll_telling hh]
  unfold both
  rw [e rfl, e rfl]

theorem telling_map (ms : List Meaning) : tellingR (ms.map resIs) = (telling ms).map resIs := by
  unfold tellingR telling
  rw [List.filter_map]
  congr 1
  refine List.filter_congr fun m _ => ?_
  cases m <;> simp [resIs]

end Verif.GdbLog
