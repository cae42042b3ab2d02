import Verif.Lemmas.Long
/-
The numbers in a well-formed log have at most 32 bits.
-/
namespace Verif.GdbLog
open Verif MemSim Spec Libc

theorem hex_fits {w n rest : Str} {v : U32} (hw : AllSpace w) (hn : HexNum n v) (hr : NumEnds rest) : NumFits (w ++ (n ++ rest)) := by
  intro m k r hb
  have e1 := strtoul_begins hb
  rw [strtoul_hex hw hn hr] at e1
  have hm : m = false := by
    obtain ⟨d, ds, rfl, -, -⟩ := hexNum_cons hn
    have s1 := skip (sp := w) (sg := []) (c := 0x30) (u := 0x78 :: d :: ds ++ rest) (minus := false)
      (fun c hc => isspace_blank.1 (hw c hc)) (by decide) (.inl rfl)
    obtain ⟨sp, sg, num, e, hsp, hnum, hsg, -⟩ := hb.parts
    obtain ⟨c, u, rfl, hc⟩ := numeral_head hnum
    have s2 := skip (u := u ++ r) hsp hc hsg
    rw [← List.cons_append, ← e] at s2
    simp only [List.nil_append, List.cons_append] at s1 s2
    rw [s1] at s2
    exact (Prod.mk.inj s2).1.symm
  subst hm
  have e2 := (Prod.mk.inj e1).1
  have hv := v.isLt
  by_cases hk : 2 ^ 64 ≤ k
  · rw [if_pos hk] at e2; omega
  · rw [if_neg hk] at e2
    simp only [Bool.false_eq_true, if_false] at e2
    omega

theorem nil_fits : NumFits [] := by
  intro m n r hb
  obtain ⟨sp, sg, num, e, -, hn, -, -⟩ := hb.parts
  obtain ⟨c, u, rfl, -⟩ := numeral_head hn
  have := congrArg List.length e
  simp at this

theorem skips_of {t u : Str} (h : skipWhitespaceAndSymbol t = u) : Skips t u := by
  obtain ⟨u', hu⟩ := skips_exists t
  rw [← h, skips hu]
  exact hu

theorem counts_of {t : Str} : Counts t (strtoul32 t) (strtoul t).2 := by
  obtain ⟨v, rest, h⟩ := counts_exists t
  rw [(counts h).1, (counts h).2]
  exact h

theorem values_fit {t rest : Str} {vs : List U32} (h : Values t vs rest) {k : Nat} (hk : AllFit k rest) : AllFit (vs.length + k) t := by
  induction h with
  | nil => simpa using hk
  | @cons g n t rest v vs hg hn he _ ih =>
    have hs : skipWhitespaceAndSymbol (g ++ n ++ t) = n ++ t := by
      rw [List.append_assoc]; exact skip_gap hg (hexNum_start hn)
    have hne : g ++ n ++ t ≠ [] := by
      obtain ⟨d, ds, rfl, -, -⟩ := hexNum_cons hn
      simp
    have hf := hex_fits (w := []) (by intro c hc; cases hc) hn he
    have h1 := strtoul_hex (w := []) (by intro c hc; cases hc) hn he
    simp only [List.nil_append] at hf h1
    have hc := counts_of (t := n ++ t)
    rw [h1] at hc
    rw [List.length_cons, show vs.length + 1 + k = vs.length + k + 1 by omega]
    exact .value hne (skips_of hs) hf hc (ih hk)

theorem spaces_fit {t : Str} (h : AllSpace t) (k : Nat) : AllFit k t := by
  cases k with
  | zero => exact .enough
  | succ k =>
    by_cases ht : t = []
    · subst ht; exact .ended
    · have hs : skipWhitespaceAndSymbol t = [] := by
        have := skip_gap (g := t) (t := []) (.space h) (by intro c t e; cases e)
        simpa using this
      have hc := counts_of (t := [])
      rw [show strtoul [] = (0, []) by decide] at hc
      exact .value ht (skips_of hs) nil_fits hc .ended

theorem says_fits {line : Str} {m : Meaning} (h : Says line m) : LineFits line := by
  cases m with
  | memory a vs =>
    obtain ⟨head, c, body, rest, rfl, hh, hl, hc, hv, h1, h4, hr⟩ := h
    refine .memory (likeMemory_iff.1 (isMemoryLine_of hh hl (values_ne_nil hv h1))) ?_ ?_
    · exact hex_fits (w := []) (by intro c hc; cases hc) hh (by intro d t e; cases e; exact hc)
    · have hd : (head ++ c :: body).drop 11 = body := by
        rw [List.drop_append, hl, List.drop_of_length_le (by omega)]; rfl
      rw [hd]
      have hk : AllFit (4 - vs.length) rest := by
        rcases hr with hr | hr
        · rw [hr]; exact .enough
        · exact spaces_fit hr _
      have := values_fit hv hk
      rwa [show vs.length + (4 - vs.length) = 4 by omega] at this
  | register r v =>
    have h : ShowsRegister line r v := h
    unfold ShowsRegister at h
    by_cases hf : r.isFloat = true
    · rw [if_pos hf] at h
      obtain ⟨f, w, n, rest, rfl, h1, h2, h3, h4, h5⟩ := h
      refine .raw (t := n ++ rest) hf ⟨f, w, by simp, h1, h2, fun e => absurd e h3, ?_⟩ ?_
      · intro c hc
        cases hc
        decide
      · exact hex_fits (w := []) (by intro c hc; cases hc) h4 h5
    · rw [if_neg hf] at h
      obtain ⟨w, n, rest, rfl, h1, h2, h3⟩ := h
      exact .core (r := r) (t := w ++ (n ++ rest)) (by simpa using hf) (by simp) (hex_fits h1 h2 h3)
  | other => exact .other h.1 h.2

/-- The lines of a well-formed log. -/
theorem lines_log {ls : List LogLine} (h : LogOK ls) : Lines (logText ls) (ls.map LogLine.text) := by
  induction h with
  | nil => exact .nil
  | @last l h hs =>
    obtain ⟨h1, h2, h3⟩ := h
    have := Lines.cons (p := l.text) (rest := []) (ps := []) ⟨h1, h3, fun c hc => (h2 c (List.dropLast_subset _ hc)).1, .inr (.inr rfl)⟩ .nil
    simpa [logText] using this
  | @cons l ls h hs ht ih =>
    obtain ⟨u, e, h2, h3⟩ := h
    have := Lines.cons (p := l.text) (rest := logText ls) (ps := ls.map LogLine.text)
      ⟨by rw [e]; simp, h3, fun c hc => (h2 c (by rw [e] at hc; simpa using hc)).1, .inl (by rw [e]; simp)⟩ ih
    simpa [logText] using this

theorem says_log {ls : List LogLine} (h : LogOK ls) {l : LogLine} (hl : l ∈ ls) : (∀ c ∈ l.text, c ≠ 0) ∧ Says l.text l.says := by
  induction h with
  | nil => cases hl
  | @last l' h hs =>
    rw [List.mem_singleton] at hl
    subst hl
    exact ⟨fun c hc => (h.2.1 c hc).2, hs⟩
  | @cons l' ls h hs ht ih =>
    rcases List.mem_cons.1 hl with rfl | hl
    · exact ⟨isLine_nonul h, hs⟩
    · exact ih hl

/-- A well-formed log. -/
theorem log_fits {ls : List LogLine} (h : LogOK ls) : LogFits (logText ls) := by
  refine ⟨ls.map LogLine.text, lines_log h, ?_⟩
  intro p hp
  obtain ⟨l, hl, rfl⟩ := List.mem_map.1 hp
  have key := says_log h hl
  have e : upToNul l.text = l.text := cstr_line key.1
  rw [e]
  exact says_fits key.2

end Verif.GdbLog

/-! ### 64 bits: the rest of the model -/

namespace Verif.GdbLog
open Verif MemSim Libc

theorem parseValuesW_64 (fuel : Nat) (vs : List U32) (t : Str) : parseValuesW 64 fuel vs t = parseValues fuel vs t := by
  induction fuel generalizing vs t with
  | zero => rfl
  | succ f ih =>
    unfold parseValuesW parseValues
    have : ∀ x : List U32 × Str, (match x with | (vs, t) => parseValuesW 64 f vs t) = (match x with | (vs, t) => parseValues f vs t) :=
      fun x => ih x.1 x.2
    simp only [this]
    rfl

theorem parseLineW_64 (t : Str) : parseLineW 64 t = parseLine t := by
  unfold parseLineW parseLine parseMemoryLineW parseMemoryLine
  simp only [parseValuesW_64]
  rfl

theorem parseLoopW_64 (hd : Results → M Obj Unit) (fuel : Nat) (t : Str) : parseLoopW 64 hd fuel t = parseLoop hd fuel t := by
  induction fuel generalizing t with
  | zero => rfl
  | succ f ih =>
    unfold parseLoopW parseLoop
    simp only [ih, parseLineW_64]
    rfl

theorem parseW_64 (name : Str) : parseW 64 name = parse name := by
  unfold parseW parse parseLinesW parseLines
  simp only [parseLoopW_64]
  rfl

end Verif.GdbLog

namespace Verif.CommandLine
open Verif MemSim Spec Libc

theorem parseLoopW_64 (pass : Pass) (fuel : Nat) (n : Int) (args : List Str) : parseLoopW 64 pass fuel n args = parseLoop pass fuel n args := by
  induction fuel generalizing n args with
  | zero => rfl
  | succ f ih =>
    unfold parseLoopW parseLoop
    simp only [ih]
    rfl

theorem initW_64 (n : Int) (args : List Str) : initW 64 n args = init n args := by
  have h1 : ∀ pass, parseArgumentsW 64 n args pass = parseArguments n args pass := fun pass => parseLoopW_64 _ _ _ _
  have h2 : loadDumpFileW 64 = loadDumpFile := by
    unfold loadDumpFileW loadDumpFile
    simp only [GdbLog.parseW_64]
    rfl
  unfold initW init initBodyW initBody
  simp only [h1, h2]

/-- Options at the front of complete options are among these. -/
theorem words_fit {args : List Str} {os : List Opt} (h : Spelled args os) (ho : ∀ o ∈ os, OptFits o) : WordsFit args := by
  intro pre rest os' e hs
  induction h generalizing pre os' with
  | nil =>
    cases (List.append_eq_nil_iff.1 e.symm).1
    cases hs
    intro o h; cases h
  | @cons w o ws os hn h ih =>
    cases hs with
    | nil => intro o h; cases h
    | @cons w' o' ws' os' hn' h' =>
      rw [List.cons_append, List.append_assoc] at e
      injection e with e1 e2
      subst e1
      have hk := spells_unique hn hn'
      obtain ⟨k1, k2⟩ := List.append_inj e2 (by rw [params_length, params_length, hk])
      cases opt_eq hk k1
      intro x hx
      rcases List.mem_cons.1 hx with rfl | hx
      · exact ho _ List.mem_cons_self
      · exact ih (fun o h => ho o (List.mem_cons_of_mem _ h)) _ _ k2 h' x hx

end Verif.CommandLine
