import Verif.Spec.Number
import Verif.Lemmas.GdbLine
import Verif.Lemmas.CmdTop
/- `strtoul` on numbers. -/
namespace Verif.Libc
open Verif Spec GdbLog

theorem digitVal_of {c : U8} {d : Nat} (h : hexDigit c = some d) : digitVal c = some d := by
  rw [digitVal_hex (by rw [h]; rfl), h]

theorem isDigit_of {base : Nat} {ds : Str} (h : DigitsOf base ds) : ∀ c ∈ ds, isDigit base c = true := by
  intro c hc
  obtain ⟨d, h1, h2⟩ := h.2 c hc
  simp [isDigit, digitVal_of h1, h2]

theorem digitsVal_of {base b' : Nat} {ds : Str} (h : ∀ c ∈ ds, ∃ d, hexDigit c = some d ∧ d < b') : digitsVal base ds = digitsNat base ds := by
  have : ∀ n, ds.foldl (fun n c => n * base + (digitVal c).getD 0) n = ds.foldl (fun n c => base * n + (hexDigit c).getD 0) n := by
    induction ds with
    | nil => intro n; rfl
    | cons c ds ih =>
      intro n
      simp only [List.foldl_cons]
      obtain ⟨d, h1, -⟩ := h c (by simp)
      rw [digitVal_of h1, h1, Nat.mul_comm]
      exact ih (fun c hc => h c (by simp [hc])) _
  exact this 0

theorem digit_range {c : U8} {d : Nat} (h : hexDigit c = some d) : 48 ≤ c.toNat := by
  unfold hexDigit at h
  repeat' split at h
  all_goals first | omega | cases h

theorem whole {base : Nat} {ds : Str} (h : DigitsOf base ds) : ds.takeWhile (isDigit base) = ds ∧ ds.dropWhile (isDigit base) = [] := by
  have := takeWhile_stop (p := isDigit base) (a := ds) (b := []) (isDigit_of h) (by intro c t e; cases e)
  simpa using this

/-- The beginning of a number is neither white space nor a sign. -/
theorem noPrefix {c : U8} {t : Str} (h : 48 ≤ c.toNat) : takeSign ((c :: t).dropWhile isspace) = (false, c :: t) := by
  have h1 : isspace c = false := by
    unfold isspace
    simp only [decide_eq_false_iff_not, not_or, not_and]
    constructor
    · intro e; rw [e] at h; exact absurd h (by decide)
    · intro _; omega
  rw [List.dropWhile_cons_of_neg (by simp [h1])]
  show (if c = 0x2D then _ else if c = 0x2B then _ else _) = _
  rw [if_neg (by intro e; rw [e] at h; exact absurd h (by decide)), if_neg (by intro e; rw [e] at h; exact absurd h (by decide))]

theorem strtoul_parts {t ds : Str} {base : Nat} (h1 : takeSign (t.dropWhile isspace) = (false, t)) (h2 : takeBase t = (base, ds))
    (h3 : DigitsOf base ds) : strtoul t = (if 2 ^ 64 ≤ digitsNat base ds then 2 ^ 64 - 1 else digitsNat base ds, []) := by
  unfold strtoul
  simp only [h1, h2, (whole h3).1, (whole h3).2]
  rw [if_neg h3.1, digitsVal_of h3.2]
  simp

theorem strtoul_numeral {t : Str} {n : Nat} (h : Numeral t n) : strtoul t = (if 2 ^ 64 ≤ n then 2 ^ 64 - 1 else n, []) := by
  cases h with
  | decimal h h0 =>
    cases t with
    | nil => exact absurd rfl h.1
    | cons c t =>
      obtain ⟨d, hd, -⟩ := h.2 c (by simp)
      have hc : c ≠ 0x30 := fun e => h0 (by simp [e])
      refine strtoul_parts (noPrefix (digit_range hd)) ?_ h
      rcases t with _ | ⟨x, _ | ⟨y, t⟩⟩
      · exact if_neg hc
      · exact if_neg hc
      · unfold takeBase
        simp only
        rw [if_neg (fun e => hc e.1), if_neg hc]
  | octal h =>
    rename_i ds
    have e : digitsNat 8 ds = digitsNat 8 (0x30 :: ds) := rfl
    rw [e]
    refine strtoul_parts (noPrefix (by decide)) ?_ h
    rcases ds with _ | ⟨x, _ | ⟨y, t⟩⟩
    · rfl
    · rfl
    · unfold takeBase
      simp only
      rw [if_neg, if_pos trivial]
      rintro ⟨-, hx, -⟩
      obtain ⟨d, hd, hlt⟩ := h.2 x (by simp)
      rcases hx with rfl | rfl <;> revert hd <;> decide +revert
  | hex hx h =>
    rename_i x ds
    have h1 := noPrefix (c := 0x30) (t := x :: ds) (by decide)
    cases ds with
    | nil => exact absurd rfl h.1
    | cons d ds =>
      exact strtoul_parts h1 (if_pos ⟨rfl, hx, isDigit_of h d (by simp)⟩) h

theorem strtoul32_numeral {t : Str} {n : Nat} (h : Numeral t n) (hn : n < 2 ^ 64) : strtoul32 t = BitVec.ofNat 32 n := by
  unfold strtoul32
  rw [strtoul_numeral h, if_neg (by omega)]

theorem strtoul32_same {t t' : Str} (h : SameNumber t t') : strtoul32 t = strtoul32 t' := by
  rcases h with rfl | ⟨n, h1, h2⟩
  · rfl
  · unfold strtoul32
    rw [strtoul_numeral h1, strtoul_numeral h2]

end Verif.Libc

namespace Verif.CommandLine
open Verif Spec Libc

theorem same_lasts {os os' : List Opt} (h : List.Forall₂ SameOpt os os') :
    (os.filterMap fun o => match o with | .elf f => some f | _ => none) = (os'.filterMap fun o => match o with | .elf f => some f | _ => none) ∧
    (os.filterMap fun o => match o with | .dump f => some f | _ => none) = (os'.filterMap fun o => match o with | .dump f => some f | _ => none) ∧
    ((os.filterMap fun o => match o with | .bin f b => some (f, b) | _ => none).map fun x => (x.1, strtoul32 x.2)) =
      ((os'.filterMap fun o => match o with | .bin f b => some (f, b) | _ => none).map fun x => (x.1, strtoul32 x.2)) ∧
    aliases os = aliases os' := by
  induction h with
  | nil => exact ⟨rfl, rfl, rfl, rfl⟩
  | cons h _ ih =>
    obtain ⟨h1, h2, h3, h4⟩ := ih
    unfold aliases at h4 ⊢
    cases h with
    | elf f => simp [h1, h2, h3, h4]
    | dump f => simp [h1, h2, h3, h4]
    | bin f hb => simp [h1, h2, h3, h4, strtoul32_same hb]
    | «alias» hb hs hr => simp [h1, h2, h3, h4, strtoul32_same hb, strtoul32_same hs, strtoul32_same hr]

end Verif.CommandLine
