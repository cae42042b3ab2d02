import Verif.Spec.GdbLog
import Verif.Spec.Number
/-
What any line that begins with the name of a register says, well-formed or not. Nothing here mentions the parser.
-/
namespace Verif.Spec
open Verif

/-- The line cut into the name of the register, the next word, white space, and the rest. -/
def AfterWord (line : Str) (r : Reg) (rest : Str) : Prop :=
  ∃ f w, line = r.field ++ f ++ w ++ rest ∧ NoSpace f ∧ AllSpace w ∧ (w = [] → rest = []) ∧ ∀ c ∈ rest.head?, isSpace c = false

/-- The value that a line gives the register with whose name it begins. For s0 to s31 it is the number behind `(raw ` where this
follows the next word, and all ones if it does not; for the others it is the number that follows the name. -/
inductive Gives : Str → Reg → U32 → Prop
  | core {r : Reg} {t : Str} {v : U32} (hr : r.isFloat = false) (hv : Means t v) : Gives (r.field ++ t) r v
  | raw {line : Str} {r : Reg} {t : Str} {v : U32} (hr : r.isFloat = true) (hw : AfterWord line r (asc "(raw " ++ t)) (hv : Means t v) :
      Gives line r v
  | noRaw {line : Str} {r : Reg} {rest : Str} (hr : r.isFloat = true) (hw : AfterWord line r rest) (hn : ¬ asc "(raw " <+: rest) :
      Gives line r 0xFFFFFFFF

/-- The last line that begins with the name of the register. -/
def lastFor (ts : List Str) (r : Reg) : Option Str := (ts.filter fun t => r.field.isPrefixOf t).getLast?

end Verif.Spec
