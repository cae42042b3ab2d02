import Verif.Spec.LogRegisters
/-
How any file is taken for a log, well-formed or not. Nothing here mentions the parser.
-/
namespace Verif.Spec
open Verif

/-! ### Lines -/

/-- `p` is the first line of `p ++ rest`: it ends with a newline, at the end of the file or, if it is longer than that, after 1023
characters. -/
def FirstLine (p rest : Str) : Prop :=
  p ≠ [] ∧ p.length ≤ 1023 ∧ (∀ c ∈ p.dropLast, c ≠ 0x0A) ∧ (p.getLast? = some 0x0A ∨ p.length = 1023 ∨ rest = [])

/-- Text cut into lines. -/
inductive Lines : Str → List Str → Prop
  | nil : Lines [] []
  | cons {p rest : Str} {ps : List Str} (h : FirstLine p rest) (ht : Lines rest ps) : Lines (p ++ rest) (p :: ps)

/-- The text before the first NUL. -/
def upToNul (p : Str) : Str := p.takeWhile (· ≠ 0)

/-! ### Memory lines -/

/-- How many of the `<` have no `>` yet. -/
def openBrackets (t : Str) : Int := t.count 0x3C - t.count 0x3E

/-- `s` is the symbol with which `s ++ rest` begins: text from a `<` on, up to the first white space outside of angle brackets. -/
def FirstSymbol (s rest : Str) : Prop :=
  s.head? = some 0x3C ∧ (∀ p c q, s = p ++ c :: q → isSpace c = true → openBrackets p ≠ 0) ∧
    (rest = [] ∨ (rest.head?.any isSpace = true ∧ openBrackets s = 0))

/-- `u` is what comes in `t` after white space and possibly a symbol and more white space. -/
inductive Skips : Str → Str → Prop
  | space {w u : Str} (hw : AllSpace w) (hu : ∀ c ∈ u.head?, isSpace c = false ∧ c ≠ 0x3C) : Skips (w ++ u) u
  | symbol {w s x u : Str} (hw : AllSpace w) (hs : FirstSymbol s (x ++ u)) (hx : AllSpace x) (hu : ∀ c ∈ u.head?, isSpace c = false) :
      Skips (w ++ (s ++ (x ++ u))) u

/-- The number at the beginning of `t`, and what follows it. Where there is no number it is 0, and everything follows. -/
def Counts (t : Str) (v : U32) (rest : Str) : Prop :=
  Means t v ∧ ((∃ m n, Begins t m n rest) ∨ ((∀ m n r, ¬ Begins t m n r) ∧ rest = t))

/-- Values are taken from the text until there are `k` of them or it ends. -/
inductive Takes : Nat → Str → List U32 → Prop
  | enough {t : Str} : Takes 0 t []
  | ended {k : Nat} : Takes k [] []
  | value {k : Nat} {t u rest : Str} {v : U32} {vs : List U32} (h : t ≠ []) (hs : Skips t u) (hv : Counts u v rest) (ht : Takes k rest vs) :
      Takes (k + 1) t (v :: vs)

/-! ### Logs -/

/-- What any line is taken for. -/
inductive TakenFor (line : Str) : Meaning → Prop
  | memory {a : U32} {vs : List U32} (h : LikeMemory line) (ha : Means line a) (hv : Takes 4 (line.drop 11) vs) : TakenFor line (.memory a vs)
  | register {r : Reg} {v : U32} (h : Gives line r v) : TakenFor line (.register r v)
  | other (h : ¬ LikeMemory line) (hr : ¬ LikeRegister line) : TakenFor line .other

/-- What the lines of any file are taken for. -/
def LogTakenFor (text : Str) (ms : List Meaning) : Prop := ∃ ps, Lines text ps ∧ List.Forall₂ (fun p m => TakenFor (upToNul p) m) ps ms

/-- The memory in it, line by line. -/
def memoryIn (ms : List Meaning) : List (U32 × List U32) := ms.filterMap fun m => match m with | .memory a vs => some (a, vs) | _ => none

/-- The value that it has for a register, the last one if there are several. -/
def registerIn (ms : List Meaning) (r : Reg) : Option U32 :=
  (ms.filterMap fun m => match m with | .register q v => if q = r then some v else none | _ => none).getLast?

/-- Is one of s0 to s31 in it? -/
def floatIn (ms : List Meaning) : Bool := ms.any fun m => match m with | .register r _ => r.isFloat | _ => false

/-- The registers after loading it: what is not in it is 0, and 0xBAADBAAD for MSP and PSP. -/
def regsIn (ms : List Meaning) : Regs :=
  { flags := if floatIn ms then 1 else 0,
    r := List.ofFn fun i : Fin 19 => (registerIn ms (.core i)).getD (if i = 17 ∨ i = 18 then 0xBAADBAAD else 0),
    psr := 0,
    fpr := List.ofFn fun i : Fin 33 => (registerIn ms (.float i)).getD 0 }

end Verif.Spec
