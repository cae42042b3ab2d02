import Verif.Lemmas.DumpFile
import Verif.Lemmas.Flash
import Verif.Lemmas.Sat
import Verif.Lemmas.Effects
import Verif.Model.Elf
import Verif.Spec.Elf
/- The ELF loader. -/
namespace Verif.Elf
open Verif MemSim Spec

theorem numAt_drop {b : Str} {k off n : Nat} : numAt (b.drop k) off n = numAt b (k + off) n := by
  induction n generalizing off with
  | zero => rfl
  | succ n ih => simp only [numAt, ih, List.getD_eq_getElem?_getD, List.getElem?_drop, Nat.add_assoc]

theorem leVal_numAt {p : Str} {off n : Nat} (h : off + n ≤ p.length) : leVal ((p.drop off).take n) = numAt p off n := by
  induction n generalizing off with
  | zero => simp [leVal, numAt]
  | succ n ih =>
    have : (p.drop off).take (n + 1) = p[off] :: (p.drop (off + 1)).take n := by
      rw [List.drop_eq_getElem_cons (by omega)]; rfl
    rw [this]
    simp only [leVal, numAt]
    rw [ih (by omega), List.getD_eq_getElem?_getD, List.getElem?_eq_getElem (by omega)]
    rfl

theorem numAt_lt (b : Str) (off n : Nat) : numAt b off n < 256 ^ n := by
  induction n generalizing off with
  | zero => simp [numAt]
  | succ n ih =>
    have := ih (off := off + 1)
    have h := (b.getD off 0).isLt
    simp only [numAt, Nat.pow_succ]
    omega

theorem numAt_lt4 (b : Str) (off : Nat) : numAt b off 4 < 2 ^ 32 := by simpa using numAt_lt b off 4

theorem field_eq {p : Str} {off n : Nat} {s : Sim} (h : off + n ≤ p.length) : field p off n s = .ok (numAt p off n) s := by
  rw [field, if_pos h, leVal_numAt h]; rfl

theorem field_at {b : Str} {k off n : Nat} {s : Sim} (h : k + off + n ≤ b.length) :
    field (b.drop k) off n s = .ok (numAt b (k + off) n) s := by
  rw [field_eq (by rw [List.length_drop]; omega), numAt_drop]

theorem fetch_in {b : Str} {offset size : U32} {s : Sim} (h : offset.toNat + size.toNat ≤ b.length) :
    fetchSizedByteArray b b.length offset size s = .ok (b.drop offset.toNat) s := by
  rw [fetchSizedByteArray, if_neg]
  · rfl
  · rw [BitVec.toNat_add]
    have := Nat.mod_le (offset.toNat + size.toNat) (2 ^ 32)
    omega

theorem fetch_out {b : Str} {offset size : U32} {s : Sim} (h : b.length < offset.toNat + size.toNat)
    (hb : offset.toNat + size.toNat < 2 ^ 32) :
    fetchSizedByteArray b b.length offset size s = .throw ⟨.elfFormat, []⟩ s := by
  rw [fetchSizedByteArray, if_pos]
  · rfl
  · rw [BitVec.toNat_add, Nat.mod_eq_of_lt hb]; omega

theorem fetch_reject {b : Str} {offset size : U32} {s : Sim} (h : b.length < offset.toNat + size.toNat)
    (hb : ¬ (offset.toNat ≤ b.length ∧ 2 ^ 32 ≤ offset.toNat + size.toNat ∧ offset.toNat + size.toNat ≤ 2 ^ 32 + b.length)) :
    fetchSizedByteArray b b.length offset size s = .throw ⟨.elfFormat, []⟩ s := by
  rw [fetchSizedByteArray, if_pos]
  · rfl
  · rw [BitVec.toNat_add]; omega

theorem validate_eq {b : Str} (hl : 52 ≤ b.length) (s : Sim) : validateElfHeaderContents b s =
    match headerComplaint b with
    | some m => .throw ⟨.elfFormat, m⟩ s
    | none => .ok () s := by
  have h1 : bytesOf b 4 s = .ok (b.take 4) s := by rw [bytesOf, if_pos (by omega)]; rfl
  unfold validateElfHeaderContents headerComplaint phoff phnum phentsize
  rw [if_neg (by omega)]
  simp only [M.bind_apply, h1]
  by_cases c1 : b.take 4 ≠ [0x7F, 0x45, 0x4C, 0x46]
  · have c1' : b.take 4 ≠ [0x7F] ++ asc "ELF" := c1
    rw [if_pos c1']; simp only [if_pos c1]; rfl
  have c1' : ¬ b.take 4 ≠ [0x7F] ++ asc "ELF" := c1
  rw [if_neg c1']; simp only [if_neg c1, M.bind_apply, field_eq (p := b) (off := 4) (n := 1) (s := s) (by omega)]
  by_cases c2 : numAt b 4 1 ≠ 1
  · simp only [if_pos c2]; rfl
  simp only [if_neg c2, M.bind_apply, field_eq (p := b) (off := 5) (n := 1) (s := s) (by omega)]
  by_cases c3 : numAt b 5 1 ≠ 1
  · simp only [if_pos c3]; rfl
  simp only [if_neg c3, M.bind_apply, field_eq (p := b) (off := 16) (n := 2) (s := s) (by omega)]
  by_cases c4 : numAt b 16 2 ≠ 2
  · simp only [if_pos c4]; rfl
  simp only [if_neg c4, M.bind_apply, field_eq (p := b) (off := 28) (n := 4) (s := s) (by omega)]
  by_cases c5 : numAt b 28 4 = 0
  · simp only [if_pos c5]; rfl
  simp only [if_neg c5, M.bind_apply, field_eq (p := b) (off := 44) (n := 2) (s := s) (by omega)]
  by_cases c6 : numAt b 44 2 = 0
  · simp only [if_pos c6]; rfl
  simp only [if_neg c6, M.bind_apply, field_eq (p := b) (off := 42) (n := 2) (s := s) (by omega)]
  by_cases c7 : numAt b 42 2 < 32
  · simp only [if_pos c7]; rfl
  · simp only [if_neg c7]; rfl

/-- The end of `ElfLoad_FromMemory`. -/
def finish (count : U32) : M Sim Unit :=
  if count = 0 then
    M.throw .elfFormat
      (asc "ELF contained no entries which were loadable and had a valid non-zero filesz <= to memsz.")
  else pure ()

theorem fromMemory_eq (b : Str) (s : Sim) : fromMemory b b.length s =
    match headerComplaint b with
    | some m => .throw ⟨.elfFormat, m⟩ s
    | none => (loadEntries b b.length (phentsize b) (phnum b) 0 (BitVec.ofNat 32 (phoff b)) 0 >>= finish) s := by
  unfold fromMemory initLoadObject
  rw [M.bind_apply, M.tryCatch_apply]
  by_cases hl : b.length < 52
  · rw [fetch_out (by simpa using hl) (by simp)]
    have : headerComplaint b = some (asc "ELF was too short to contain valid header.") := if_pos hl
    rw [this]; rfl
  · rw [fetch_in (by simpa using hl)]
    have e0 : b.drop (0 : U32).toNat = b := rfl
    simp only [e0]
    rw [M.bind_apply, validate_eq (by omega)]
    cases headerComplaint b with
    | some m => rfl
    | none =>
      simp only
      rw [M.bind_apply]
      unfold loadFlashLoadableEntries
      simp only [M.bind_apply, field_eq (p := b) (off := 28) (n := 4) (s := s) (by omega),
        field_eq (p := b) (off := 42) (n := 2) (s := s) (by omega), field_eq (p := b) (off := 44) (n := 2) (s := s) (by omega)]
      rfl

theorem isLoadable_eq {b : Str} {k : Nat} {s : Sim} (h : k + 32 ≤ b.length) :
    isFlashLoadableEntry (b.drop k) s = .ok (progHeaderAt b k).loadable s := by
  unfold isFlashLoadableEntry
  have f0 := field_at (b := b) (k := k) (off := 0) (n := 4) (s := s) (by omega)
  have f1 := field_at (b := b) (k := k) (off := 16) (n := 4) (s := s) (by omega)
  have f2 := field_at (b := b) (k := k) (off := 20) (n := 4) (s := s) (by omega)
  simp only [M.bind_apply, f0, Nat.add_zero]
  by_cases c1 : numAt b k 4 = 1
  · simp only [if_pos c1, M.bind_apply, f1]
    by_cases c2 : numAt b (k + 16) 4 ≠ 0
    · simp only [if_pos c2, M.bind_apply, f2, f1]
      simp [ProgHeader.loadable, progHeaderAt, c1]
      intro _; omega
    · simp only [if_neg c2]
      simp only [ne_eq, Decidable.not_not] at c2
      simp [ProgHeader.loadable, progHeaderAt, c2]
  · simp only [if_neg c1]
    simp [ProgHeader.loadable, progHeaderAt, c1]

/-- What loading one segment does to memory. -/
def loadSegment (a n : U32) (data : List U8) : M Sim Unit := do
  createRegion a n
  loadFromFlashImage a data n
  makeRegionReadOnly a

/-- The complaint about a segment that lies outside the file. -/
def segmentComplaint (offset filesz : U32) : Str :=
  asc "ELF failed to load entry from file at offsets " ++ fmtD offset ++ asc " to " ++ fmtD (offset + filesz - 1) ++ asc "."

theorem toNat_num (b : Str) (off : Nat) : (BitVec.ofNat 32 (numAt b off 4)).toNat = numAt b off 4 := by
  rw [BitVec.toNat_ofNat, Nat.mod_eq_of_lt (numAt_lt4 b off)]

theorem entry_skip {b : Str} {k : Nat} {c : U32} {s : Sim} (h : k + 32 ≤ b.length) (hl : (progHeaderAt b k).loadable = false) :
    loadIfFlashLoadableEntry b b.length (b.drop k) c s = .ok c s := by
  unfold loadIfFlashLoadableEntry
  rw [M.bind_apply, isLoadable_eq h, hl]
  rfl

theorem entry_load {b : Str} {k : Nat} {c : U32} {s : Sim} (h : k + 32 ≤ b.length) (hl : (progHeaderAt b k).loadable = true) :
    loadIfFlashLoadableEntry b b.length (b.drop k) c s =
      match fetchSizedByteArray b b.length (BitVec.ofNat 32 (progHeaderAt b k).offset) (BitVec.ofNat 32 (progHeaderAt b k).filesz) s with
      | .ok data _ => (do
          loadSegment (BitVec.ofNat 32 (progHeaderAt b k).paddr) (BitVec.ofNat 32 (progHeaderAt b k).filesz) data
          pure (c + 1)) s
      | .throw e _ => .throw ⟨e.code, segmentComplaint (BitVec.ofNat 32 (progHeaderAt b k).offset) (BitVec.ofNat 32 (progHeaderAt b k).filesz)⟩ s
      | .ub r => .ub r := by
  unfold loadIfFlashLoadableEntry
  rw [M.bind_apply, isLoadable_eq h, hl]
  simp only [if_true]
  simp only [M.bind_apply, M.tryCatch_apply,
    field_at (b := b) (k := k) (off := 4) (n := 4) (s := s) (by omega),
    field_at (b := b) (k := k) (off := 16) (n := 4) (s := s) (by omega)]
  have hf : ∀ x y, fetchSizedByteArray b b.length x y s = .ok (b.drop x.toNat) s ∨
      fetchSizedByteArray b b.length x y s = .throw ⟨.elfFormat, []⟩ s := by
    intro x y
    unfold fetchSizedByteArray
    split
    · exact .inr rfl
    · exact .inl rfl
  have e4 : numAt b (k + 4) 4 = (progHeaderAt b k).offset := rfl
  have e16 : numAt b (k + 16) 4 = (progHeaderAt b k).filesz := rfl
  have e12 : numAt b (k + 12) 4 = (progHeaderAt b k).paddr := rfl
  rw [e4, e16]
  rcases hf (BitVec.ofNat 32 (progHeaderAt b k).offset) (BitVec.ofNat 32 (progHeaderAt b k).filesz) with h' | h' <;> rw [h']
  · simp only [M.bind_apply, field_at (b := b) (k := k) (off := 12) (n := 4) (s := s) (by omega), loadSegment, e12]
    cases createRegion (BitVec.ofNat 32 (progHeaderAt b k).paddr) (BitVec.ofNat 32 (progHeaderAt b k).filesz) s with
    | throw e s1 => rfl
    | ub r => rfl
    | ok u s1 =>
      simp only
      cases loadFromFlashImage (BitVec.ofNat 32 (progHeaderAt b k).paddr) (b.drop (BitVec.ofNat 32 (progHeaderAt b k).offset).toNat)
        (BitVec.ofNat 32 (progHeaderAt b k).filesz) s1 with
      | throw e s2 => rfl
      | ub r => rfl
      | ok u s2 => rfl
  · rfl

theorem loadEntries_any {b : Str} {ent n i : Nat} {off c : U32} {s : Sim} :
    loadEntries b b.length ent (n + 1) i off c s =
      if off.toNat + 32 ≤ b.length ∨ off.toNat ≤ b.length ∧ b.length < off.toNat + 32 ∧ 2 ^ 32 ≤ off.toNat + 32 then
        (loadIfFlashLoadableEntry b b.length (b.drop off.toNat) c >>= fun c =>
          loadEntries b b.length ent n (i + 1) (off + BitVec.ofNat 32 ent) c) s
      else .throw ⟨.elfFormat, asc "ELF page header entry " ++ fmtU i ++ asc " is at an invalid file offset of " ++
        fmtU off.toNat ++ asc "."⟩ s := by
  rw [loadEntries, M.bind_apply, M.tryCatch_apply]
  have hlt := off.isLt
  by_cases h : off.toNat + 32 ≤ b.length ∨ off.toNat ≤ b.length ∧ b.length < off.toNat + 32 ∧ 2 ^ 32 ≤ off.toNat + 32
  · rw [if_pos h]
    have : fetchSizedByteArray b b.length off 32 s = .ok (b.drop off.toNat) s := by
      rw [fetchSizedByteArray, if_neg]
      · rfl
      · rw [BitVec.toNat_add, show (32 : U32).toNat = 32 from rfl]
        rcases h with h | h <;> omega
    rw [this]
  · rw [if_neg h]
    have : fetchSizedByteArray b b.length off 32 s = .throw ⟨.elfFormat, []⟩ s := by
      rw [fetchSizedByteArray, if_pos]
      · rfl
      · rw [BitVec.toNat_add, show (32 : U32).toNat = 32 from rfl]
        omega
    rw [this]
    rfl

theorem loadEntries_succ {b : Str} {ent n i : Nat} {off c : U32} {s : Sim}
    (hb : ¬ (off.toNat ≤ b.length ∧ b.length < off.toNat + 32 ∧ 2 ^ 32 ≤ off.toNat + 32)) :
    loadEntries b b.length ent (n + 1) i off c s =
      if off.toNat + 32 ≤ b.length then
        (loadIfFlashLoadableEntry b b.length (b.drop off.toNat) c >>= fun c =>
          loadEntries b b.length ent n (i + 1) (off + BitVec.ofNat 32 ent) c) s
      else .throw ⟨.elfFormat, asc "ELF page header entry " ++ fmtU i ++ asc " is at an invalid file offset of " ++
        fmtU off.toNat ++ asc "."⟩ s := by
  rw [loadEntries_any]
  simp only [hb, or_false]

theorem field_any (b : Str) (k off n : Nat) (s : Sim) :
    field (b.drop k) off n s = .ok (numAt b (k + off) n) s ∨ field (b.drop k) off n s = .ub .outOfBounds := by
  by_cases h : off + n ≤ (b.drop k).length
  · rw [field_eq h, numAt_drop]; exact .inl rfl
  · rw [field, if_neg h]; exact .inr rfl

theorem isLoadable_any (b : Str) (k : Nat) (s : Sim) :
    isFlashLoadableEntry (b.drop k) s = .ok (progHeaderAt b k).loadable s ∨ isFlashLoadableEntry (b.drop k) s = .ub .outOfBounds := by
  unfold isFlashLoadableEntry
  rcases field_any b k 0 4 s with f0 | f0
  · simp only [M.bind_apply, f0, Nat.add_zero]
    by_cases c1 : numAt b k 4 = 1
    · simp only [if_pos c1, M.bind_apply]
      rcases field_any b k 16 4 s with f1 | f1
      · simp only [f1]
        by_cases c2 : numAt b (k + 16) 4 ≠ 0
        · simp only [if_pos c2, M.bind_apply]
          rcases field_any b k 20 4 s with f2 | f2
          · simp only [f2, f1]
            left
            simp [ProgHeader.loadable, progHeaderAt, c1]
            intro _; omega
          · simp [f2]
        · simp only [if_neg c2]
          simp only [ne_eq, Decidable.not_not] at c2
          simp [ProgHeader.loadable, progHeaderAt, c2]
      · simp [f1]
    · simp only [if_neg c1]
      simp [ProgHeader.loadable, progHeaderAt, c1]
  · simp [M.bind_apply, f0]

/-- An entry that may reach beyond the end of the file. -/
theorem entry_any (b : Str) (k : Nat) (c : U32) (s : Sim) :
    loadIfFlashLoadableEntry b b.length (b.drop k) c s = .ub .outOfBounds ∨
    (progHeaderAt b k).loadable = false ∧ loadIfFlashLoadableEntry b b.length (b.drop k) c s = .ok c s ∨
    (progHeaderAt b k).loadable = true ∧ loadIfFlashLoadableEntry b b.length (b.drop k) c s =
      match fetchSizedByteArray b b.length (BitVec.ofNat 32 (progHeaderAt b k).offset) (BitVec.ofNat 32 (progHeaderAt b k).filesz) s with
      | .ok data _ => (do
          loadSegment (BitVec.ofNat 32 (progHeaderAt b k).paddr) (BitVec.ofNat 32 (progHeaderAt b k).filesz) data
          pure (c + 1)) s
      | .throw e _ => .throw ⟨e.code, segmentComplaint (BitVec.ofNat 32 (progHeaderAt b k).offset) (BitVec.ofNat 32 (progHeaderAt b k).filesz)⟩ s
      | .ub r => .ub r := by
  unfold loadIfFlashLoadableEntry
  rcases isLoadable_any b k s with h | h
  · cases hl : (progHeaderAt b k).loadable with
    | false => right; left; exact ⟨rfl, by rw [M.bind_apply, h, hl]; rfl⟩
    | true =>
      rw [M.bind_apply, h, hl]
      simp only [if_true, M.bind_apply]
      rcases field_any b k 4 4 s with f1 | f1
      · rcases field_any b k 16 4 s with f2 | f2
        · simp only [f1, f2, M.bind_apply, M.tryCatch_apply]
          have hf : ∀ x y, fetchSizedByteArray b b.length x y s = .ok (b.drop x.toNat) s ∨
              fetchSizedByteArray b b.length x y s = .throw ⟨.elfFormat, []⟩ s := by
            intro x y
            unfold fetchSizedByteArray
            split
            · exact .inr rfl
            · exact .inl rfl
          have e4 : numAt b (k + 4) 4 = (progHeaderAt b k).offset := rfl
          have e16 : numAt b (k + 16) 4 = (progHeaderAt b k).filesz := rfl
          have e12 : numAt b (k + 12) 4 = (progHeaderAt b k).paddr := rfl
          rw [e4, e16]
          rcases hf (BitVec.ofNat 32 (progHeaderAt b k).offset) (BitVec.ofNat 32 (progHeaderAt b k).filesz) with h' | h' <;> rw [h']
          · rcases field_any b k 12 4 s with f3 | f3
            · right; right
              refine ⟨trivial, ?_⟩
              simp only [M.bind_apply, f3, loadSegment, e12]
              cases createRegion (BitVec.ofNat 32 (progHeaderAt b k).paddr) (BitVec.ofNat 32 (progHeaderAt b k).filesz) s with
              | throw e s1 => rfl
              | ub r => rfl
              | ok u s1 =>
                simp only
                cases loadFromFlashImage (BitVec.ofNat 32 (progHeaderAt b k).paddr) (b.drop (BitVec.ofNat 32 (progHeaderAt b k).offset).toNat)
                  (BitVec.ofNat 32 (progHeaderAt b k).filesz) s1 with
                | throw e s2 => rfl
                | ub r => rfl
                | ok u s2 => rfl
            · left; simp [f3]
          · right; right; exact ⟨trivial, rfl⟩
        · left; simp [f1, f2]
      · left; simp [f1]
  · left; rw [M.bind_apply, h]

end Verif.Elf
