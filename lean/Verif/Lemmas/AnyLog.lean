import Verif.Spec.AnyLog
import Verif.Lemmas.LogRegisters
/-
Lemmas about files of any kind that are read as logs.
-/
namespace Verif.GdbLog
open Verif MemSim Spec Libc

/-! ### Lines -/

theorem fgets_first {p rest : Str} {n : Nat} (h0 : p ≠ []) (hn : p.length ≤ n) (h1 : ∀ c ∈ p.dropLast, c ≠ 0x0A)
    (h2 : p.getLast? = some 0x0A ∨ p.length = n ∨ rest = []) : fgets n (p ++ rest) = some (p, rest) := by
  induction p generalizing n with
  | nil => exact absurd rfl h0
  | cons c p ih =>
    cases n with
    | zero => simp at hn
    | succ n =>
      simp only [List.cons_append, fgets]
      cases p with
      | nil =>
        by_cases hc : c = 0x0A
        · rw [if_pos hc]; rfl
        · rw [if_neg hc]
          rcases h2 with h2 | h2 | h2
          · simp at h2; exact absurd h2 hc
          · simp at h2; subst h2; simp [fgets]
          · subst h2; cases n <;> rfl
      | cons d p =>
        rw [if_neg (h1 c (by simp)), ih (by simp) (by simpa using hn) (fun x hx => h1 x (by simp [hx])) ?_]
        rcases h2 with h2 | h2 | h2
        · exact .inl (by simpa using h2)
        · exact .inr (.inl (by simpa using h2))
        · exact .inr (.inr h2)

theorem chunks_lines {text : Str} {ps : List Str} (h : Lines text ps) : chunks text = ps := by
  induction h with
  | nil => rfl
  | @cons p rest ps h ht ih =>
    obtain ⟨h0, h1, h2, h3⟩ := h
    rw [chunks_cons (fgets_first (n := LINE_SIZE - 1) h0 h1 h2 h3), ih]

theorem fgets_firstLine {n : Nat} {t b r : Str} (h : fgets (n + 1) t = some (b, r)) :
    b ≠ [] ∧ b.length ≤ n + 1 ∧ (∀ c ∈ b.dropLast, c ≠ 0x0A) ∧ (b.getLast? = some 0x0A ∨ b.length = n + 1 ∨ r = []) := by
  induction n generalizing t b r with
  | zero =>
    cases t with
    | nil => cases h
    | cons c t =>
      simp only [fgets] at h
      split at h
      · next hc => cases h; exact ⟨by simp, by simp, by simp, .inl (by simp [hc])⟩
      · cases h; exact ⟨by simp, by simp, by simp, .inr (.inl rfl)⟩
  | succ n ih =>
    cases t with
    | nil => cases h
    | cons c t =>
      rw [fgets] at h
      by_cases hc : c = 0x0A
      · rw [if_pos hc] at h; cases h; exact ⟨by simp, by simp, by simp, .inl (by simp [hc])⟩
      · rw [if_neg hc] at h
        cases hf : fgets (n + 1) t with
        | none => rw [hf] at h; cases h; exact ⟨by simp, by simp, by simp, .inr (.inr rfl)⟩
        | some x =>
          obtain ⟨l, r'⟩ := x
          rw [hf] at h
          cases h
          obtain ⟨k0, k1, k2, k3⟩ := ih hf
          obtain ⟨d, l', rfl⟩ : ∃ d l', l = d :: l' := by cases l with | nil => exact absurd rfl k0 | cons d l => exact ⟨d, l, rfl⟩
          refine ⟨by simp, by simpa using k1, ?_, ?_⟩
          · intro x hx
            rw [List.dropLast_cons_cons] at hx
            rcases List.mem_cons.1 hx with rfl | hx
            · exact hc
            · exact k2 x hx
          · rcases k3 with k3 | k3 | k3
            · exact .inl (by simpa using k3)
            · exact .inr (.inl (by simpa using k3))
            · exact .inr (.inr k3)

theorem lines_exist (text : Str) : ∃ ps, Lines text ps := by
  generalize hn : text.length = n
  induction n using Nat.strongRecOn generalizing text with
  | ind n ih =>
    subst hn
    cases hf : fgets 1023 text with
    | none => rw [fgets_none (n := 1022) hf]; exact ⟨[], .nil⟩
    | some x =>
      obtain ⟨b, r⟩ := x
      obtain ⟨ps, hp⟩ := ih _ (fgets_pos (n := 1022) hf) r rfl
      rw [fgets_some hf]
      exact ⟨b :: ps, .cons (fgets_firstLine (n := 1022) hf) hp⟩

theorem cstr_eq (p : Str) : cstr p = upToNul p := rfl

/-! ### Memory lines -/

theorem openBrackets_cons (c : U8) (t : Str) :
    openBrackets (c :: t) = openBrackets t + (if c = 0x3C then 1 else if c = 0x3E then -1 else 0) := by
  unfold openBrackets
  simp only [List.count_cons, beq_iff_eq]
  by_cases h1 : c = 0x3C
  · rw [if_pos h1, if_neg (fun h2 : c = 0x3E => by rw [h1] at h2; revert h2; decide), if_pos h1]; omega
  · by_cases h2 : c = 0x3E
    · rw [if_neg h1, if_pos h2, if_neg h1, if_pos h2]; omega
    · rw [if_neg h1, if_neg h2, if_neg h1, if_neg h2]; omega

/-- The symbol as the loop sees it from `l` open brackets on. -/
theorem symbolLoop {s rest : Str} {l : Int} (h1 : ∀ p c q, s = p ++ c :: q → isSpace c = true → l + openBrackets p ≠ 0)
    (h2 : rest = [] ∨ (rest.head?.any isSpace = true ∧ l + openBrackets s = 0)) : skipSymbolLoop (s ++ rest) l = rest := by
  induction s generalizing l with
  | nil =>
    rcases h2 with rfl | ⟨h2, h3⟩
    · rfl
    · cases rest with
      | nil => cases h2
      | cons c rest =>
        have hc : isspace c = true := by
          have : isSpace c = true := by simpa using h2
          exact this
        have hl : l = 0 := by simpa [openBrackets] using h3
        simp only [List.nil_append, skipSymbolLoop]
        rw [if_neg (by rintro rfl; revert hc; decide), if_neg (by rintro rfl; revert hc; decide), if_pos ⟨hc, hl⟩]
  | cons c s ih =>
    have hb := openBrackets_cons c
    have next : ∀ l', l' = l + (if c = 0x3C then 1 else if c = 0x3E then -1 else 0) → skipSymbolLoop (s ++ rest) l' = rest := by
      intro l' e
      refine ih ?_ ?_
      · intro p d q es hd
        have := h1 (c :: p) d q (by rw [es]; rfl) hd
        rw [hb] at this
        omega
      · rcases h2 with h2 | ⟨h2, h3⟩
        · exact .inl h2
        · exact .inr ⟨h2, by rw [hb] at h3; omega⟩
    simp only [List.cons_append, skipSymbolLoop]
    by_cases c1 : c = 0x3C
    · rw [if_pos c1]; exact next _ (by rw [if_pos c1])
    · rw [if_neg c1]
      by_cases c2 : c = 0x3E
      · rw [if_pos c2]; exact next _ (by rw [if_neg c1, if_pos c2]; rfl)
      · rw [if_neg c2, if_neg]
        · exact next _ (by rw [if_neg c1, if_neg c2]; omega)
        · rintro ⟨hs, hl⟩
          exact h1 [] c s rfl hs (by simpa [openBrackets] using hl)

theorem symbolLoop_exists (t : Str) (l : Int) : ∃ s rest, t = s ++ rest ∧
    (∀ p c q, s = p ++ c :: q → isSpace c = true → l + openBrackets p ≠ 0) ∧
    (rest = [] ∨ (rest.head?.any isSpace = true ∧ l + openBrackets s = 0)) := by
  induction t generalizing l with
  | nil => exact ⟨[], [], rfl, (by intro p c q e; cases p <;> cases e), .inl rfl⟩
  | cons c t ih =>
    by_cases hs : isSpace c = true ∧ l = 0
    · exact ⟨[], c :: t, rfl, (by intro p c q e; cases p <;> cases e), .inr ⟨by simpa using hs.1, by simpa [openBrackets] using hs.2⟩⟩
    · obtain ⟨s, rest, e, k1, k2⟩ := ih (l + (if c = 0x3C then 1 else if c = 0x3E then -1 else 0))
      refine ⟨c :: s, rest, by rw [e]; rfl, ?_, ?_⟩
      · intro p d q es hd
        cases p with
        | nil =>
          cases es
          intro hl
          exact hs ⟨hd, by simpa [openBrackets] using hl⟩
        | cons x p =>
          cases es
          have := k1 p d q rfl hd
          rw [openBrackets_cons]
          omega
      · rcases k2 with k2 | ⟨k2, k3⟩
        · exact .inl k2
        · exact .inr ⟨k2, by rw [openBrackets_cons]; omega⟩

theorem skips {t u : Str} (h : Skips t u) : skipWhitespaceAndSymbol t = u := by
  unfold skipWhitespaceAndSymbol
  cases h with
  | @space w u hw hu =>
    have ht : ∀ c t', u = c :: t' → isSpace c = false := by rintro c t' rfl; exact (hu c rfl).1
    rw [dropSpaces hw ht]
    have : skipSymbol u = u := by
      unfold skipSymbol
      rw [if_pos]
      intro e
      exact (hu _ e).2 rfl
    rw [this]
    exact dropSpaces (w := []) (by intro c hc; cases hc) ht
  | @symbol w s x u hw hs hx hu =>
    obtain ⟨h1, h2, h3⟩ := hs
    obtain ⟨s', rfl⟩ : ∃ s', s = 0x3C :: s' := by
      cases s with
      | nil => cases h1
      | cons c s' => cases h1; exact ⟨s', rfl⟩
    rw [dropSpaces hw (by intro c t' e; cases e; decide)]
    unfold skipSymbol
    rw [if_neg (by simp), symbolLoop (l := 0) (by simpa using h2) (by simpa using h3)]
    exact dropSpaces hx (by rintro c t' rfl; exact hu c rfl)

theorem takeSpace (t : Str) : ∃ w u, t = w ++ u ∧ AllSpace w ∧ ∀ c ∈ u.head?, isSpace c = false := by
  refine ⟨t.takeWhile isspace, t.dropWhile isspace, List.takeWhile_append_dropWhile.symm, ?_, ?_⟩
  · intro c hc
    exact List.all_eq_true.1 (List.all_takeWhile (p := isspace) (l := t)) c hc
  · intro c hc
    have := List.head?_dropWhile_not isspace t
    cases hd : List.dropWhile isspace t with
    | nil => rw [hd] at hc; cases hc
    | cons x u =>
      rw [hd] at hc this
      cases hc
      show isspace c = false
      simpa using this

theorem skips_exists (t : Str) : ∃ u, Skips t u := by
  obtain ⟨w, v, rfl, hw, hv⟩ := takeSpace t
  by_cases hc : v.head? = some 0x3C
  · obtain ⟨s, rest, rfl, k1, k2⟩ := symbolLoop_exists v 0
    obtain ⟨x, u, rfl, hx, hu⟩ := takeSpace rest
    refine ⟨u, .symbol hw ⟨?_, by simpa using k1, by simpa using k2⟩ hx hu⟩
    cases s with
    | nil =>
      exfalso
      rcases k2 with k2 | ⟨k2, -⟩
      · rw [k2] at hc; cases hc
      · rw [List.nil_append] at hc
        rw [hc] at k2
        revert k2; decide
    | cons c s => exact hc
  · refine ⟨v, .space hw ?_⟩
    intro c hm
    refine ⟨hv c hm, ?_⟩
    rintro rfl
    exact hc hm

theorem counts {t rest : Str} {v : U32} (h : Counts t v rest) : strtoul32 t = v ∧ (strtoul t).2 = rest := by
  obtain ⟨h1, h2⟩ := h
  refine ⟨strtoul32_means h1, ?_⟩
  rcases h2 with ⟨m, n, hb⟩ | ⟨hb, rfl⟩
  · rw [strtoul_begins hb]
  · rw [strtoul_nothing hb]

theorem counts_exists (t : Str) : ∃ v rest, Counts t v rest := by
  obtain ⟨v, hv⟩ := means_exists t
  by_cases h : ∃ m n rest, Begins t m n rest
  · obtain ⟨m, n, rest, hb⟩ := h
    exact ⟨v, rest, hv, .inl ⟨m, n, hb⟩⟩
  · exact ⟨v, t, hv, .inr ⟨fun m n r hb => h ⟨m, n, r, hb⟩, rfl⟩⟩

theorem takes {k : Nat} {t : Str} {vs : List U32} (h : Takes k t vs) (vs0 : List U32) (hk : vs0.length + k = 4) (fuel : Nat) (hf : k < fuel)
    (o : Obj) : parseValues fuel vs0 t o = .ok (vs0 ++ vs) o := by
  obtain ⟨fuel, rfl⟩ : ∃ f, fuel = f + 1 := ⟨fuel - 1, by omega⟩
  induction h generalizing vs0 fuel with
  | enough => rw [parseValues_stop (by omega), List.append_nil]
  | ended => rw [parseValues_stop (by simp), List.append_nil]
  | @value k t u rest v vs h hs hv ht ih =>
    rw [parseValues_succ h (by omega), skips hs, (counts hv).1, (counts hv).2]
    obtain ⟨fuel, rfl⟩ : ∃ f, fuel = f + 1 := ⟨fuel - 1, by omega⟩
    rw [ih (vs0 ++ [v]) (by simp; omega) fuel (by omega)]
    simp

theorem takes_exists (k : Nat) (t : Str) : ∃ vs, Takes k t vs := by
  induction k generalizing t with
  | zero => exact ⟨[], .enough⟩
  | succ k ih =>
    by_cases h : t = []
    · subst h; exact ⟨[], .ended⟩
    · obtain ⟨u, hu⟩ := skips_exists t
      obtain ⟨v, rest, hv⟩ := counts_exists u
      obtain ⟨vs, hs⟩ := ih rest
      exact ⟨v :: vs, .value h hu hv hs⟩

/-! ### All lines -/

/-- What a meaning is to the program. -/
def resIs : Meaning → Results
  | .memory a vs => .memory a vs
  | .register r v => .register (offsetOf r) v
  | .other => .other

theorem resIs_inj {m m' : Meaning} (h : resIs m = resIs m') : m = m' := by
  cases m <;> cases m' <;> simp only [resIs, Results.memory.injEq, Results.register.injEq, reduceCtorEq] at h
  · rw [h.1, h.2]
  · rw [offsetOf_inj h.1, h.2]
  · rfl

theorem taken_result {line : Str} {m : Meaning} (h : TakenFor line m) : resultOf line = resIs m := by
  cases h with
  | memory h ha hv =>
    refine resultOf_eq fun o => ?_
    unfold parseLine
    rw [if_pos (likeMemory_iff.2 h)]
    unfold parseMemoryLine
    have hl := h.1
    rw [if_neg (by omega), M.bind_ok (takes hv [] rfl (VALUES_SIZE + 1) (by decide) o), strtoul32_means ha]
    rfl
  | register h => exact gives_result h
  | other h hr => exact resultOf_eq (parse_other h hr)

theorem taken_exists (line : Str) : ∃ m, TakenFor line m := by
  by_cases h : LikeMemory line
  · obtain ⟨a, ha⟩ := means_exists line
    obtain ⟨vs, hv⟩ := takes_exists 4 (line.drop 11)
    exact ⟨_, .memory h ha hv⟩
  · by_cases hr : LikeRegister line
    · obtain ⟨r, hr⟩ := hr
      obtain ⟨v, hv⟩ := gives_exists hr
      exact ⟨_, .register hv⟩
    · exact ⟨_, .other h hr⟩

theorem results_taken {text : Str} {ms : List Meaning} (h : LogTakenFor text ms) : results text = ms.map resIs := by
  obtain ⟨ps, hp, hm⟩ := h
  unfold results
  rw [chunks_lines hp]
  clear hp
  induction hm with
  | nil => rfl
  | cons h _ ih => rw [List.map_cons, List.map_cons, ih, cstr_eq, taken_result h]

theorem log_exists (text : Str) : ∃ ms, LogTakenFor text ms := by
  obtain ⟨ps, hp⟩ := lines_exist text
  suffices ∃ ms, List.Forall₂ (fun p m => TakenFor (upToNul p) m) ps ms from by
    obtain ⟨ms, hm⟩ := this
    exact ⟨ms, ps, hp, hm⟩
  clear hp
  induction ps with
  | nil => exact ⟨[], .nil⟩
  | cons p ps ih =>
    obtain ⟨ms, hm⟩ := ih
    obtain ⟨m, h⟩ := taken_exists (upToNul p)
    exact ⟨m :: ms, .cons h hm⟩

theorem memOf_taken (ms : List Meaning) : memOf (ms.map resIs) = memoryIn ms := by
  unfold memOf memoryIn
  rw [List.filterMap_map]
  congr 1
  funext m
  cases m <;> rfl

theorem memoryIn_taken {text : Str} {ms : List Meaning} (h : LogTakenFor text ms) : memOf (results text) = memoryIn ms := by
  rw [results_taken h, memOf_taken]

theorem memoryIn_ne {text : Str} {ms : List Meaning} (h : LogTakenFor text ms) : ∀ m ∈ memoryIn ms, m.2 ≠ [] := by
  intro m hm e
  rw [← memoryIn_taken h] at hm
  unfold memOf at hm
  obtain ⟨x, hx, e'⟩ := List.mem_filterMap.1 hm
  have hv := results_valid x hx
  cases x with
  | memory a vs => cases e'; simp only [Valid] at hv; rw [show vs = [] from e] at hv; simp at hv
  | register off v => cases e'
  | other => cases e'

theorem get_taken {ms : List Meaning} {c : Regs} (h : RegsWF c) (r : Reg) :
    r.get ((ms.map resIs).foldl ctxOf c) = (registerIn ms r).or (r.get c) := by
  induction ms generalizing c with
  | nil => rfl
  | cons m ms ih =>
    simp only [List.map_cons, List.foldl_cons]
    cases m with
    | memory a vs => exact ih h
    | other => exact ih h
    | register q v =>
      rw [show resIs (.register q v) = .register (offsetOf q) v from rfl, ctxOf_register, ih (setReg_wf h), get_setReg h]
      unfold registerIn
      by_cases hq : q = r
      · simp only [List.filterMap_cons, if_pos hq, List.getLast?_cons]
        cases (List.filterMap _ ms).getLast? <;> rfl
      · simp only [List.filterMap_cons, if_neg hq]

theorem flags_taken (ms : List Meaning) (c : Regs) :
    ((ms.map resIs).foldl ctxOf c).flags = if floatIn ms = true then c.flags ||| 1 else c.flags := by
  induction ms generalizing c with
  | nil => rfl
  | cons m ms ih =>
    simp only [List.map_cons, List.foldl_cons]
    rw [ih]
    cases m with
    | memory a vs => rfl
    | other => rfl
    | register q v =>
      rw [show resIs (.register q v) = .register (offsetOf q) v from rfl, ctxOf_register]
      have e : floatIn (.register q v :: ms) = (q.isFloat || floatIn ms) := rfl
      rw [e]
      cases q with
      | core i => rfl
      | float i =>
        by_cases hi : i.val < 32
        · have hf : Reg.isFloat (.float i) = true := by simpa [Reg.isFloat] using hi
          rw [hf, Bool.true_or, if_pos rfl]
          simp only [setReg, if_pos hi]
          split
          · rw [BitVec.or_assoc, BitVec.or_self]
          · rfl
        · have hf : Reg.isFloat (.float i) = false := by simpa [Reg.isFloat] using hi
          rw [hf, Bool.false_or]
          simp only [setReg, if_neg hi]

end Verif.GdbLog
