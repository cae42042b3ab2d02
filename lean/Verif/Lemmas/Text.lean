import Verif.Model.Host
import Verif.Model.Elf
import Verif.Spec.Text
/- The numbers in messages. -/
namespace Verif
open Verif Spec MemSim

theorem digitUpper_eq {d : Nat} (h : d < 16) : hexDigitUpper d = digitUpper d := by
  have : ∀ d : Fin 16, hexDigitUpper d.1 = digitUpper d.1 := by decide +kernel
  exact this ⟨d, h⟩

theorem fmt08X_eq : fmt08X = eightDigits := by
  funext x
  simp only [fmt08X, eightDigits, hexFixed, List.nil_append, List.cons_append, List.map_cons, List.map_nil, Nat.div_div_eq_div_mul,
    digitUpper_eq (Nat.mod_lt _ (by decide : (16 : Nat) > 0)), Nat.reduceMul, Nat.reducePow, Nat.div_one]

theorem fmtD_eq : Elf.fmtD = signedDecimal := rfl

end Verif
