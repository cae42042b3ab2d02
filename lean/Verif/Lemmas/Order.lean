import Verif.Model.Order
import Verif.Spec.Order
import Verif.Lemmas.MemSim
namespace Verif.Order
open Verif MemSim Spec

/-- The value with its bytes the other way round. -/
def swap {w : Width} (v : BitVec w.bits) : BitVec w.bits := BitVec.ofNat w.bits (leVal (leBytes w.bytes v.toNat).reverse)

theorem swap_reversed {w : Width} (v : BitVec w.bits) : Reversed v (swap v) := by
  intro i hi
  have h := byteOf_leVal (w := w) (bs := (leBytes w.bytes v.toNat).reverse) (by simp) hi
  have h2 := leBytes_byteOf v (i := w.bytes - 1 - i) (by omega)
  rw [List.getElem?_reverse (by simpa using hi), leBytes_length, h2] at h
  exact (Option.some.inj h).symm

theorem reversed_unique {w : Width} {v a b : BitVec w.bits} (ha : Reversed v a) (hb : Reversed v b) : a = b :=
  eq_of_bytes fun i hi => (ha i hi).trans (hb i hi).symm

theorem reversed_symm {w : Width} {v a : BitVec w.bits} (h : Reversed v a) : Reversed a v := by
  intro i hi
  rw [h (w.bytes - 1 - i) (by omega), show w.bytes - 1 - (w.bytes - 1 - i) = i by omega]

theorem read_readN (w : Width) (a : U32) : IMemory.read w a = (do return BitVec.ofNat w.bits (← readN w.bytes a)) := by cases w <;> rfl
theorem write_writeN (w : Width) (a : U32) (v : BitVec w.bits) : IMemory.write w a v = writeN w.bytes a v.toNat := by cases w <;> rfl

theorem hostRead_length {p : Nat × Nat} {n : Nat} {s s' : Sim} {bs : List U8} (h : hostRead p n s = .ok bs s') : bs.length = n := by
  unfold hostRead at h
  rw [M.bind_apply] at h
  split at h
  · split at h
    · cases h; simp; omega
    · cases h
  · cases h
  · cases h

/-- Reading on a host of the other byte order gives the value reversed. -/
theorem read_big (w : Width) (a : U32) (s : Sim) : ReversedEnd (IMemory.read w a s) (IMemory.readO true w a s) := by
  rw [read_readN]
  unfold IMemory.readO readN MemSim.readO
  simp only [M.bind_apply]
  cases getDataPointer a w.bytes READING true s with
  | throw e t => exact ⟨rfl, rfl⟩
  | ub r => rfl
  | ok p t =>
    simp only
    cases hb : hostRead p w.bytes t with
    | throw e t => exact ⟨rfl, rfl⟩
    | ub r => rfl
    | ok bs u =>
      have hl := hostRead_length hb
      refine ⟨?_, rfl⟩
      intro i hi
      show byteOf (BitVec.ofNat w.bits (leVal bs.reverse)) i = byteOf (BitVec.ofNat w.bits (leVal bs)) _
      have h1 := byteOf_leVal (w := w) (bs := bs.reverse) (by simpa using hl) hi
      have h2 := byteOf_leVal (w := w) (bs := bs) hl (i := w.bytes - 1 - i) (by omega)
      rw [List.getElem?_reverse (by omega), hl, h2] at h1
      exact (Option.some.inj h1).symm

theorem bytesOn_big {w : Width} {v v' : BitVec w.bits} (h : Reversed v v') : bytesOn true w.bytes v.toNat = leBytes w.bytes v'.toNat := by
  unfold bytesOn
  simp only [if_true]
  apply List.ext_getElem?
  intro i
  by_cases hi : i < w.bytes
  · rw [List.getElem?_reverse (by simpa using hi), leBytes_length, leBytes_byteOf v (by omega), leBytes_byteOf v' hi, h i hi]
  · rw [List.getElem?_eq_none (by simp; omega), List.getElem?_eq_none (by simp; omega)]

/-- Writing stores the bytes of the reversed value. -/
theorem write_big {w : Width} {a : U32} {v v' : BitVec w.bits} (h : Reversed v v') : IMemory.writeO true w a v = IMemory.write w a v' := by
  rw [write_writeN]
  unfold IMemory.writeO MemSim.writeO writeN
  rw [bytesOn_big h]

theorem read_little (w : Width) (a : U32) : IMemory.readO false w a = IMemory.read w a := by rw [read_readN]; rfl
theorem write_little (w : Width) (a : U32) (v : BitVec w.bits) : IMemory.writeO false w a v = IMemory.write w a v := by rw [write_writeN]; rfl

open Elf

theorem bindOk {σ α β : Type} {m : M σ α} {f : α → M σ β} {s t : σ} {b : β} (h : (m >>= f) s = .ok b t) : ∃ x u, m s = .ok x u ∧ f x u = .ok b t := by
  rw [M.bind_apply] at h
  cases e : m s with
  | ok x u => rw [e] at h; exact ⟨x, u, rfl, h⟩
  | throw e' u => rw [e] at h; cases h
  | ub r => rw [e] at h; cases h

theorem field_ok {p : List U8} {off n x : Nat} {s t : Sim} (h : field p off n s = .ok x t) :
    off + n ≤ p.length ∧ x = leVal ((p.drop off).take n) ∧ t = s := by
  unfold field at h
  split at h
  · cases h; exact ⟨by assumption, rfl, rfl⟩
  · cases h

theorem fieldO_eq {p : List U8} {off n : Nat} (b : Bool) (h : off + n ≤ p.length) : fieldO b p off n = pure (valueOn b ((p.drop off).take n)) := if_pos h

theorem value_one (b : Bool) {bs : List U8} (h : bs.length ≤ 1) : valueOn b bs = leVal bs := by
  cases b
  · rfl
  · match bs, h with
    | [], _ => rfl
    | [x], _ => rfl

/-- What the check looks at before it comes to numbers of more than one byte. -/
theorem accepted {hdr : List U8} {s t : Sim} (h0 : validateElfHeaderContents hdr s = .ok () t) :
    bytesOf hdr 4 s = .ok [0x7F, 0x45, 0x4C, 0x46] s ∧ 4 + 1 ≤ hdr.length ∧ leVal ((hdr.drop 4).take 1) = 1 ∧
    5 + 1 ≤ hdr.length ∧ leVal ((hdr.drop 5).take 1) = 1 ∧ 16 + 2 ≤ hdr.length ∧ leVal ((hdr.drop 16).take 2) = 2 := by
  unfold validateElfHeaderContents at h0
  obtain ⟨magic, s1, e1, h1⟩ := bindOk h0
  clear h0
  have hs1 : s1 = s := by
    unfold bytesOf at e1
    split at e1
    · cases e1; rfl
    · cases e1
  subst hs1
  split at h1
  · cases h1
  rename_i hm
  obtain ⟨cls, s2, e2, h2⟩ := bindOk h1
  clear h1
  obtain ⟨l2, rfl, rfl⟩ := field_ok e2
  split at h2
  · cases h2
  rename_i hc
  obtain ⟨data, s3, e3, h3⟩ := bindOk h2
  clear h2
  obtain ⟨l3, rfl, rfl⟩ := field_ok e3
  split at h3
  · cases h3
  rename_i hd
  obtain ⟨type, s4, e4, h4⟩ := bindOk h3
  clear h3
  obtain ⟨l4, rfl, rfl⟩ := field_ok e4
  split at h4
  · cases h4
  rename_i ht
  rw [Decidable.not_not] at hm hc hd ht
  rw [hm] at e1
  exact ⟨e1, l2, hc, l3, hd, l4, ht⟩

theorem two_reversed {bs : List U8} (hl : bs.length = 2) (h : leVal bs = 2) : leVal bs.reverse ≠ 2 := by
  match bs, hl with
  | [a, b], _ =>
    simp only [leVal, List.reverse_cons, List.reverse_nil, List.nil_append, List.cons_append] at h ⊢
    have := a.isLt
    omega

/-- Every header that is accepted elsewhere is refused on a host with the most significant byte first. -/
theorem elf_big {hdr : List U8} {s t : Sim} (h : validateElfHeaderContents hdr s = .ok () t) :
    validateElfHeaderO true hdr s = .throw ⟨.elfFormat, asc "ELF header doesn't contain executable flag."⟩ s := by
  obtain ⟨e1, l2, hc, l3, hd, l4, ht⟩ := accepted h
  unfold validateElfHeaderO
  rw [M.bind_apply, e1]
  simp only
  rw [if_neg (by simp), fieldO_eq _ l2, M.bind_apply]
  simp only [M.pure_apply]
  rw [if_neg (by rw [value_one _ (by simp; omega)]; simpa using hc), fieldO_eq _ l3, M.bind_apply]
  simp only [M.pure_apply]
  rw [if_neg (by rw [value_one _ (by simp; omega)]; simpa using hd), fieldO_eq _ l4, M.bind_apply]
  simp only [M.pure_apply]
  rw [if_pos (show valueOn true _ ≠ 2 from two_reversed (by simp; omega) ht)]
  rfl

theorem elf_little (hdr : List U8) : validateElfHeaderO false hdr = validateElfHeaderContents hdr := rfl

theorem bytes_value (big : Bool) {bs : List U8} (h : bs.length = 4) : bytesOn big 4 (valueOn big bs) = bs := by
  cases big
  · show leBytes 4 (leVal bs) = bs
    rw [← h, leBytes_leVal]
  · show (leBytes 4 (leVal bs.reverse)).reverse = bs
    have := leBytes_leVal bs.reverse
    rw [List.length_reverse, h] at this
    rw [this, List.reverse_reverse]

theorem load_order (big : Bool) (src : List U8) (n : Nat) (a : U32) : loadWordsO big src n a = loadWords src n a := by
  fun_induction loadWordsO big src n a with
  | case1 b0 b1 b2 b3 rest n a h ih => rw [bytes_value big rfl, loadWords, if_pos h, ih]
  | case2 b0 b1 b2 b3 rest n a h => rw [loadWords, if_neg h]
  | case3 src n a h1 h => rw [loadWords.eq_def]; split
                          · exact (h1 _ _ _ _ _ rfl).elim
                          · rw [if_pos h]
  | case4 src n a h1 h => rw [loadWords.eq_def]; split
                          · exact (h1 _ _ _ _ _ rfl).elim
                          · rw [if_neg h]

end Verif.Order
