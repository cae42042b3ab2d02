import Verif.Spec.LogRegisters
import Verif.Lemmas.NumberWord
import Verif.Lemmas.GdbSafe
/-
Lemmas about lines that begin with the name of a register.
-/
namespace Verif.GdbLog
open Verif MemSim Spec Libc

theorem afterWord {t : Str} {r : Reg} {rest : Str} (h : AfterWord (r.field ++ t) r rest) : skipWhitespace (findWhitespace t) = rest := by
  obtain ⟨f, w, e, h1, h2, h3, h4⟩ := h
  simp only [List.append_assoc] at e
  have e := List.append_cancel_left e
  rw [e]
  have e1 : findWhitespace (f ++ (w ++ rest)) = w ++ rest := by
    refine (takeWhile_stop (p := fun c => !isspace c) (a := f) ?_ ?_).2
    · intro c hc
      have : isspace c = false := h1 c hc
      simp [this]
    · intro c t e
      cases w with
      | nil => rw [h3 rfl] at e; cases e
      | cons x w =>
        have hx : isspace x = true := h2 x (by simp)
        cases e
        simp [hx]
  rw [e1]
  refine dropSpaces h2 ?_
  rintro c t' rfl
  exact h4 c rfl

theorem afterWord_exists (r : Reg) (t : Str) : AfterWord (r.field ++ t) r (skipWhitespace (findWhitespace t)) := by
  refine ⟨t.takeWhile (fun c => !isspace c), (findWhitespace t).takeWhile isspace, ?_, ?_, ?_, ?_, ?_⟩
  · unfold skipWhitespace
    rw [List.append_assoc, List.takeWhile_append_dropWhile]
    unfold findWhitespace
    rw [List.append_assoc, List.takeWhile_append_dropWhile]
  · intro c hc
    have := List.all_eq_true.1 (List.all_takeWhile (p := fun c => !isspace c) (l := t)) c hc
    show isspace c = false
    simpa using this
  · intro c hc
    exact List.all_eq_true.1 (List.all_takeWhile (p := isspace) (l := findWhitespace t)) c hc
  · intro e
    cases hf : findWhitespace t with
    | nil => rfl
    | cons c u =>
      rw [hf] at e
      exfalso
      have hc : isspace c = true := by
        have := List.head?_dropWhile_not (fun c => !isspace c) t
        unfold findWhitespace at hf
        rw [hf] at this
        simpa using this
      rw [List.takeWhile_cons, if_pos hc] at e
      cases e
  · intro c hc
    have := List.head?_dropWhile_not isspace (findWhitespace t)
    unfold skipWhitespace at hc
    cases hd : List.dropWhile isspace (findWhitespace t) with
    | nil => rw [hd] at hc; cases hc
    | cons x u =>
      rw [hd] at hc this
      cases hc
      show isspace c = false
      simpa using this

theorem strncmp_prefix {t : Str} : strncmpEq t (asc "(raw ") 5 = true ↔ asc "(raw " <+: t := by
  unfold strncmpEq
  have : (asc "(raw ").take 5 = asc "(raw " := by decide
  rw [this, decide_eq_true_eq, List.prefix_iff_eq_take]
  exact eq_comm

theorem gives_result {line : Str} {r : Reg} {v : U32} (h : Gives line r v) : resultOf line = .register (offsetOf r) v := by
  cases h with
  | core hr hv =>
    rw [resultOf_eq (parse_field r _), hr, ← strtoul32_means hv]
    rfl
  | @raw _ _ t _ hr hw hv =>
    have hw' := hw
    obtain ⟨f, w, e, -⟩ := hw'
    obtain ⟨u, rfl⟩ : r.field <+: line := ⟨f ++ w ++ (asc "(raw " ++ t), by rw [e]; simp⟩
    rw [resultOf_eq (parse_field r _), if_pos hr]
    unfold parseFloatRegister
    simp only [afterWord hw]
    rw [if_neg (by rw [strncmp_prefix]; simp), ← strtoul32_means hv]
    rfl
  | @noRaw _ _ rest hr hw hn =>
    have hw' := hw
    obtain ⟨f, w, e, -⟩ := hw'
    obtain ⟨u, rfl⟩ : r.field <+: line := ⟨f ++ w ++ rest, by rw [e]; simp⟩
    rw [resultOf_eq (parse_field r _), if_pos hr]
    unfold parseFloatRegister
    simp only [afterWord hw]
    rw [if_pos (by rw [strncmp_prefix]; exact hn)]

theorem gives_exists {line : Str} {r : Reg} (h : r.field <+: line) : ∃ v, Gives line r v := by
  obtain ⟨t, rfl⟩ := h
  by_cases hr : r.isFloat = true
  · have hw := afterWord_exists r t
    by_cases hp : asc "(raw " <+: skipWhitespace (findWhitespace t)
    · obtain ⟨n, e⟩ := hp
      rw [← e] at hw
      obtain ⟨v, hv⟩ := means_exists n
      exact ⟨v, .raw hr hw hv⟩
    · exact ⟨_, .noRaw hr hw hp⟩
  · obtain ⟨v, hv⟩ := means_exists t
    exact ⟨v, .core (by simpa using hr) hv⟩

theorem gives_field {line : Str} {r : Reg} {v : U32} (h : Gives line r v) : r.field <+: line := by
  cases h with
  | core hr hv => exact List.prefix_append _ _
  | raw hr hw hv => obtain ⟨f, w, rfl, -⟩ := hw; rw [List.append_assoc, List.append_assoc]; exact List.prefix_append _ _
  | noRaw hr hw hn => obtain ⟨f, w, rfl, -⟩ := hw; rw [List.append_assoc, List.append_assoc]; exact List.prefix_append _ _

theorem get_last {ts : List Str} {c : Regs} (h : RegsWF c) {r : Reg} {t : Str} {v : U32} (hl : lastFor ts r = some t)
    (hv : Gives t r v) : r.get ((ts.map resultOf).foldl ctxOf c) = some v := by
  induction ts generalizing c with
  | nil => cases hl
  | cons x ts ih =>
    simp only [List.map_cons, List.foldl_cons]
    have hw := ctxOf_wf (resultOf_valid x) h
    cases hr : lastFor ts r with
    | some y =>
      refine ih hw ?_
      rw [hr, ← hl]
      unfold lastFor at hl hr ⊢
      rw [List.filter_cons]
      split
      · rw [List.getLast?_cons, hr]; rfl
      · rw [hr]
    | none =>
      have hn : ∀ y ∈ ts, ¬ r.field <+: y := by
        intro y hy hp
        unfold lastFor at hr
        rw [List.getLast?_eq_none_iff, List.filter_eq_nil_iff] at hr
        exact hr y hy (List.isPrefixOf_iff_prefix.2 hp)
      have hx : x = t := by
        unfold lastFor at hl hr
        rw [List.getLast?_eq_none_iff] at hr
        rw [List.filter_cons, hr] at hl
        split at hl
        · cases hl; rfl
        · cases hl
      subst hx
      rw [get_any hw hn, gives_result hv, ctxOf_register, get_setReg h, if_pos rfl]

end Verif.GdbLog
