import Verif.Model.Base
/- Little-endian helper lemmas. -/
namespace Verif

@[simp] theorem leBytes_length : ∀ n v, (leBytes n v).length = n
  | 0, _ => rfl
  | n + 1, v => by simp [leBytes, leBytes_length n]

theorem leVal_lt : ∀ bs : List U8, leVal bs < 256 ^ bs.length
  | [] => by simp [leVal]
  | b :: bs => by
    have := leVal_lt bs
    have hb := b.isLt
    simp only [leVal, List.length_cons, Nat.pow_succ]
    omega

theorem leVal_leBytes : ∀ n v, leVal (leBytes n v) = v % 256 ^ n
  | 0, v => by simp [leVal, leBytes, Nat.mod_one]
  | n + 1, v => by
    simp only [leBytes, leVal, leVal_leBytes n, BitVec.toNat_ofNat]
    rw [Nat.pow_succ (n := 256), Nat.mul_comm (256 ^ n) 256, Nat.mod_mul]

theorem leBytes_leVal : ∀ bs : List U8, leBytes bs.length (leVal bs) = bs
  | [] => rfl
  | b :: bs => by
    have hb := b.isLt
    simp only [List.length_cons, leBytes, leVal]
    have h1 : (b.toNat + 256 * leVal bs) / 256 = leVal bs := by omega
    rw [h1, leBytes_leVal bs]
    congr 1
    apply BitVec.eq_of_toNat_eq
    simp only [BitVec.toNat_ofNat]
    omega

theorem leBytes_getElem? : ∀ n v i, i < n → (leBytes n v)[i]? = some (BitVec.ofNat 8 (v / 256 ^ i))
  | 0, _, i, h => by omega
  | n + 1, v, 0, _ => by simp [leBytes]
  | n + 1, v, i + 1, h => by
    simp only [leBytes, List.getElem?_cons_succ]
    rw [leBytes_getElem? n _ i (by omega), Nat.div_div_eq_div_mul, Nat.pow_succ, Nat.mul_comm]

theorem leVal_div (bs : List U8) (i : Nat) : (h : i < bs.length) → leVal bs / 256 ^ i % 256 = bs[i].toNat := by
  induction bs generalizing i with
  | nil => intro h; simp at h
  | cons b bs ih =>
    intro h
    have hb := b.isLt
    cases i with
    | zero => simp [leVal]; omega
    | succ i =>
      simp only [leVal, List.getElem_cons_succ]
      have e : (b.toNat + 256 * leVal bs) / 256 = leVal bs := by omega
      rw [← ih i (by simpa using h), Nat.pow_succ, Nat.mul_comm (256 ^ i) 256, ← Nat.div_div_eq_div_mul, e]

end Verif
