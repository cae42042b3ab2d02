import Verif.Lemmas.Load
/- `MemorySim_CreateRegionsFromFlashImage` on an empty simulator. -/
namespace Verif.MemSim
open Verif Spec

/-- The read-only region made from an image. -/
def flashRegion (img : List U8) (n : U32) : Region :=
  { baseAddress := 0, size := n, data := img.take n.toNat, isReadOnly := true,
    readCounts := some (List.replicate (n.toNat / 2) 0) }

theorem splice_all {d b : List U8} (h : b.length = d.length) : splice d 0 b = b := by
  simp [splice, h]

theorem bump_bump (s : Sim) (k k' : Nat) (l l' : Int) : bumpHeap (bumpHeap s k l) k' l' = bumpHeap s (k + k') (l + l') := by
  simp [bumpHeap, Nat.add_assoc, Int.add_assoc]

theorem flash_empty {s : Sim} (he : s.regions = []) {img : List U8} {n : U32} (h4 : 4 ≤ n.toNat) (hl : n.toNat ≤ img.length) :
    (∃ k l, createRegionsFromFlashImage img n s = .throw ⟨.outOfMemory, []⟩ { bumpHeap s k l with regions := [] }) ∨
    createRegionsFromFlashImage img n s = .ok () { bumpHeap s 5 5 with
      regions := [flashRegion img n,
        newRegion (BitVec.ofNat 32 (leVal (img.take 4)) &&& RAM_ADDRESS_MASK)
          (BitVec.ofNat 32 (leVal (img.take 4)) - (BitVec.ofNat 32 (leVal (img.take 4)) &&& RAM_ADDRESS_MASK))] } := by
  unfold createRegionsFromFlashImage
  rw [if_neg (by omega), M.bind_apply]
  rcases createRegion_cases FLASH_BASE_ADDRESS n s with ⟨k, h⟩ | h
  · left
    refine ⟨k, 0, ?_⟩
    rw [h]
    simp [bumpHeap, he]
  simp only [h]
  rw [he]
  have hso : Sound { bumpHeap s 2 2 with regions := [] ++ [newRegion FLASH_BASE_ADDRESS n] } := by
    intro q hq
    simp at hq
    subst hq
    exact plainOK_new _ _
  have hR : Range { bumpHeap s 2 2 with regions := [] ++ [newRegion FLASH_BASE_ADDRESS n] } 0 n.toNat 0
      (newRegion FLASH_BASE_ADDRESS n) 0 := by
    refine ⟨rfl, by simp [newRegion], ?_⟩
    intro j m hm hj
    have hn := n.isLt
    have e : (0 + BitVec.ofNat 32 j : U32).toNat = j := by simp; omega
    refine ⟨0, newRegion FLASH_BASE_ADDRESS n, ⟨rfl, ?_, by simp⟩, ?_⟩
    · unfold Covers
      rw [e]
      simp [newRegion, FLASH_BASE_ADDRESS]; omega
    · simp only [newRegion, Bool.false_eq_true, if_false, true_and, e, FLASH_BASE_ADDRESS]
      simp
  have hld := loadWords_range (src := img) hso hR hl
  rw [M.bind_apply]
  simp only [loadFromFlashImage]
  rw [show (FLASH_BASE_ADDRESS : U32) = 0 from rfl] at *
  simp only [hld]
  have hsp : splice (newRegion 0 n).data 0 (img.take n.toNat) = img.take n.toNat := splice_all (by simp [newRegion]; omega)
  rw [hsp]
  simp only [List.nil_append, List.set_cons_zero]
  have hs2 : Sound { bumpHeap s 2 2 with regions := [{ newRegion 0 n with data := img.take n.toNat }] } := by
    intro q hq
    simp at hq
    subst hq
    exact plainOK_data (plainOK_new 0 n) (by simp [newRegion]; omega)
  have ht : Target { bumpHeap s 2 2 with regions := [{ newRegion 0 n with data := img.take n.toNat }] } 0 1 0
      { newRegion 0 n with data := img.take n.toNat } 0 :=
    ⟨0, _, ⟨rfl, by simp [Covers, newRegion]; omega, by simp⟩, by simp [newRegion]⟩
  rw [M.tryCatch_apply, M.bind_apply, makeReadOnly_eq hs2 ht]
  cases hfl : (bumpHeap s 2 2).heap.fails (bumpHeap s 2 2).heap.next
  · simp only [Bool.false_eq_true, if_false, List.set_cons_zero]
    rw [if_neg (by omega)]
    generalize hb : (BitVec.ofNat 32 (leVal (img.take 4)) &&& RAM_ADDRESS_MASK) = b
    generalize hm : (BitVec.ofNat 32 (leVal (img.take 4)) - b) = m
    have e3 : ({ bumpHeap { bumpHeap s 2 2 with regions := [{ newRegion 0 n with data := img.take n.toNat }] } 1 1 with
        regions := [{ newRegion 0 n with
          data := img.take n.toNat, isReadOnly := true,
          readCounts := some (List.replicate (({ newRegion 0 n with data := img.take n.toNat } : Region).size.toNat / 2) 0) }] } : Sim)
          = { bumpHeap s 3 3 with regions := [flashRegion img n] } := by
      simp [bumpHeap, flashRegion, newRegion, Int.add_assoc]
    simp only at e3 ⊢
    rw [e3]
    rcases createRegion_cases b m { bumpHeap s 3 3 with regions := [flashRegion img n] } with ⟨k, h⟩ | h
    · left
      refine ⟨3 + k, 3 - (flashRegion img n).blocks, ?_⟩
      rw [h]
      simp [freeLastRegion, bumpHeap]
      omega
    · right
      rw [h]
      simp [bumpHeap, Int.add_assoc]
  · left
    refine ⟨3, 2 - ({ newRegion 0 n with data := img.take n.toNat, isReadOnly := true } : Region).blocks, ?_⟩
    simp [freeLastRegion, bumpHeap]
    omega

end Verif.MemSim

namespace Verif.MemSim
open Verif Spec

theorem and_mask (x : U32) : (x &&& RAM_ADDRESS_MASK).toNat = x.toNat / 0x10000000 * 0x10000000 := by
  have h : x &&& RAM_ADDRESS_MASK = (x >>> 28) <<< 28 := by
    apply BitVec.eq_of_getLsbD_eq
    intro i hi
    simp only [BitVec.getLsbD_and, BitVec.getLsbD_shiftLeft, BitVec.getLsbD_ushiftRight]
    have hm : RAM_ADDRESS_MASK.getLsbD i = decide (28 ≤ i) := by
      have : ∀ i < 32, RAM_ADDRESS_MASK.getLsbD i = decide (28 ≤ i) := by decide
      exact this i hi
    rw [hm]
    by_cases h28 : 28 ≤ i
    · simp [h28, hi, show ¬ i < 28 by omega, show 28 + (i - 28) = i by omega]
    · simp [h28, show i < 28 by omega]
  rw [h]
  have := x.isLt
  simp [BitVec.toNat_shiftLeft, BitVec.toNat_ushiftRight, Nat.shiftRight_eq_div_pow, Nat.shiftLeft_eq]
  omega

theorem loadN_no_ub {s : Sim} (hs : Sound s) {a : U32} {bs : List U8} (hn : bs.length ≠ 2) :
    (∃ s', loadN a bs s = .ok () s' ∧ Sound s') ∨ ∃ e s', loadN a bs s = .throw e s' := by
  have hf := loadN_fine (g := false) ⟨hs, by simp⟩ (a := a) hn
  by_cases hm : Mapped s a bs.length
  · obtain ⟨i, r, off, ht⟩ := target_of_mapped hs hm
    have e := loadN_eq hs hn ht
    rw [e] at hf
    exact .inl ⟨_, e, hf.sound⟩
  · right
    simp only [loadN, M.bind_apply, gdp_unmapped hm]
    exact ⟨_, _, rfl⟩

theorem loadBytes_no_overflow {n : Nat} {a : U32} {src : List U8} {s : Sim} (hs : Sound s) (hl : n ≤ src.length) {u : UB} :
    loadBytes n a src s ≠ .ub u := by
  induction n generalizing a src s with
  | zero => cases src <;> simp [loadBytes]
  | succ n ih =>
    cases src with
    | nil => simp at hl
    | cons b src =>
      simp only [loadBytes, M.bind_apply]
      rcases loadN_no_ub hs (a := a) (bs := [b]) (by simp) with ⟨s', h, hs'⟩ | ⟨e, s', h⟩ <;> rw [h]
      · exact ih hs' (by simpa using hl)
      · simp

theorem loadWords_no_overflow {src : List U8} {n : Nat} {a : U32} {s : Sim} (hs : Sound s) (hl : n ≤ src.length) {u : UB} :
    loadWords src n a s ≠ .ub u := by
  fun_induction loadWords src n a generalizing s with
  | case1 b0 b1 b2 b3 rest n a h ih =>
    simp only [M.bind_apply]
    rcases loadN_no_ub hs (a := a) (bs := [b0, b1, b2, b3]) (by simp) with ⟨s', h, hs'⟩ | ⟨e, s', h⟩ <;> rw [h]
    · exact ih hs' (by simp at hl; omega)
    · simp
  | case2 => exact loadBytes_no_overflow hs hl
  | case3 src n a hno h =>
    exfalso
    match src, hno, hl with
    | [], _, hl => simp at hl; omega
    | [_], _, hl => simp at hl; omega
    | [_, _], _, hl => simp at hl; omega
    | [_, _, _], _, hl => simp at hl; omega
    | b0 :: b1 :: b2 :: b3 :: rest, hno, _ => exact hno b0 b1 b2 b3 rest rfl
  | case4 => exact loadBytes_no_overflow hs hl

theorem createRegion_no_ub (b n : U32) (s : Sim) (u : UB) : createRegion b n s ≠ .ub u := by
  rcases createRegion_cases b n s with ⟨k, h⟩ | h <;> rw [h] <;> simp

theorem makeReadOnly_no_ub {s : Sim} (hs : Sound s) (b : U32) (u : UB) : makeRegionReadOnly b s ≠ .ub u := by
  by_cases hm : Mapped s b 1
  · obtain ⟨i, r, off, ht⟩ := target_of_mapped hs hm
    rw [makeReadOnly_eq hs ht]
    split <;> simp
  · rw [makeReadOnly_unmapped hm]; simp

theorem freeLastRegion_no_ub (s : Sim) : ∃ s', freeLastRegion s = .ok () s' := by
  unfold freeLastRegion; split <;> exact ⟨_, rfl⟩

theorem flash_no_overflow {s : Sim} (hs : Sound s) {img : List U8} {n : U32} (hl : n.toNat ≤ img.length) {u : UB} :
    createRegionsFromFlashImage img n s ≠ .ub u := by
  unfold createRegionsFromFlashImage
  split
  · simp
  · rename_i h4
    have hf := createRegion_fine (g := false) ⟨hs, by simp⟩ (b := FLASH_BASE_ADDRESS) (n := n)
    rw [M.bind_apply]
    cases h1 : createRegion FLASH_BASE_ADDRESS n s with
    | ub u => exact absurd h1 (createRegion_no_ub _ _ _ _)
    | throw e s1 => simp
    | ok v s1 =>
      rw [h1] at hf
      have hf2 := loadWords_fine (a := FLASH_BASE_ADDRESS) hf hl
      simp only [M.bind_apply, loadFromFlashImage]
      cases h2 : loadWords img n.toNat FLASH_BASE_ADDRESS s1 with
      | ub u => exact absurd h2 (loadWords_no_overflow hf.sound hl)
      | throw e s2 => simp
      | ok v s2 =>
        rw [h2] at hf2
        simp only [M.tryCatch_apply, M.bind_apply]
        cases h3 : makeRegionReadOnly FLASH_BASE_ADDRESS s2 with
        | ub u => exact absurd h3 (makeReadOnly_no_ub hf2.sound _ _)
        | throw e s3 =>
          obtain ⟨s4, e4⟩ := freeLastRegion_no_ub s3
          simp [e4]
        | ok v s3 =>
          simp only
          rw [if_neg (by omega)]
          cases h4 : createRegion (BitVec.ofNat 32 (leVal (img.take 4)) &&& RAM_ADDRESS_MASK)
            (BitVec.ofNat 32 (leVal (img.take 4)) - (BitVec.ofNat 32 (leVal (img.take 4)) &&& RAM_ADDRESS_MASK)) s3 with
          | ub u => exact absurd h4 (createRegion_no_ub _ _ _ _)
          | throw e s3 =>
            obtain ⟨s4, e4⟩ := freeLastRegion_no_ub s3
            simp [e4]
          | ok v s4 => simp

theorem gdp_nocheck_no_overflow {s : Sim} (hs : Sound s) (a : U32) (n : Nat) (t : U32) {u : UB} :
    getDataPointer a n t false s ≠ .ub u := by
  by_cases hm : Mapped s a n
  · obtain ⟨i, r, off, ht⟩ := target_of_mapped hs hm
    rw [gdp_nocheck hs ht]
    split <;> simp
  · rw [gdp_unmapped hm]; simp

theorem setWatchpoint_no_ub {s : Sim} (hs : Sound s) {a n t : U32} {u : UB} : setWatchpoint a n t s ≠ .ub u := by
  by_cases hm : Mapped s a n.toNat
  · obtain ⟨i, r, off, ht⟩ := target_of_mapped hs hm
    rcases setWatchpoint_cases hs (t := t) ht with ⟨-, h⟩ | ⟨-, -, -, h⟩ | ⟨-, ws, al, k, l, h, -⟩ <;> rw [h] <;> simp
  · rw [setWatchpoint_unmapped hm]; simp

theorem clearWatchpoint_no_ub {s : Sim} (hs : Sound s) {a n t : U32} {u : UB} : clearWatchpoint a n t s ≠ .ub u := by
  by_cases hm : Mapped s a n.toNat
  · obtain ⟨i, r, off, ht⟩ := target_of_mapped hs hm
    rcases clearWatchpoint_cases hs (t := t) ht with ⟨-, h⟩ | ⟨-, ws, h, -⟩ <;> rw [h] <;> simp
  · rw [clearWatchpoint_unmapped hm]; simp

end Verif.MemSim
