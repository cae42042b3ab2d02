import Verif.Lemmas.CmdElf
/- ELF files that were cut short. -/
namespace Verif.Elf
open Verif MemSim Spec

theorem loadBytes_long {n : Nat} {a : U32} {src : List U8} {s s' : Sim} (h : loadBytes n a src s = .ok () s') : n ≤ src.length := by
  induction n generalizing a src s with
  | zero => exact Nat.zero_le _
  | succ n ih =>
    cases src with
    | nil => cases h
    | cons b src =>
      rw [loadBytes, M.bind_apply] at h
      cases e : loadN a [b] s with
      | ok u s1 => rw [e] at h; exact Nat.succ_le_succ (ih h)
      | throw x s1 => rw [e] at h; cases h
      | ub r => rw [e] at h; cases h

/-- Loading succeeds only if the buffer has all the bytes. -/
theorem loadWords_long {src : List U8} {n : Nat} {a : U32} {s s' : Sim} (h : loadWords src n a s = .ok () s') : n ≤ src.length := by
  fun_induction loadWords src n a generalizing s with
  | case1 b0 b1 b2 b3 rest n a hn ih =>
    rw [M.bind_apply] at h
    cases e : loadN a [b0, b1, b2, b3] s with
    | ok u s1 => rw [e] at h; have := ih h; simp only [List.length_cons]; omega
    | throw x s1 => rw [e] at h; cases h
    | ub r => rw [e] at h; cases h
  | case2 => exact loadBytes_long h
  | case3 => cases h
  | case4 => exact loadBytes_long h

theorem loadSegment_long {a n : U32} {data : List U8} {s s' : Sim} (h : loadSegment a n data s = .ok () s') : n.toNat ≤ data.length := by
  unfold loadSegment at h
  rw [M.bind_apply] at h
  cases e : createRegion a n s with
  | throw x s1 => rw [e] at h; cases h
  | ub r => rw [e] at h; cases h
  | ok u s1 =>
    rw [e] at h
    simp only [M.bind_apply] at h
    cases e2 : loadFromFlashImage a data n s1 with
    | throw x s1 => rw [e2] at h; cases h
    | ub r => rw [e2] at h; cases h
    | ok u s2 => exact loadWords_long e2

theorem entries_inside {b : Str} {n i : Nat} {c c' : U32} {s s' : Sim}
    (hb : ∀ j, i ≤ j → j < i + n → entryWraps b j = false)
    (h : loadEntries b b.length (phentsize b) n i (BitVec.ofNat 32 (entryAt b i)) c s = .ok c' s') :
    (∀ j < n, entryAt b (i + j) + 32 ≤ b.length) ∧
    ∀ h ∈ headersFrom b i n, h.loadable = true → h.offset + h.filesz ≤ b.length := by
  induction n generalizing i c s with
  | zero => exact ⟨by omega, by simp [headersFrom]⟩
  | succ n ih =>
    have hb' : ∀ j, i + 1 ≤ j → j < i + 1 + n → entryWraps b j = false := fun j h1 h2 => hb j (by omega) (by omega)
    rw [loadEntries_succ (noWrap (hb i (by omega) (by omega))), offset_toNat] at h
    by_cases h0 : entryAt b i + 32 ≤ b.length
    · rw [if_pos h0, offset_add] at h
      have htab : (∀ j < n, entryAt b (i + 1 + j) + 32 ≤ b.length) →
          ∀ j < n + 1, entryAt b (i + j) + 32 ≤ b.length := by
        intro ht j hj
        rcases j with _ | j
        · exact h0
        · have := ht j (by omega)
          rw [show i + (j + 1) = i + 1 + j by omega]; exact this
      rw [headersFrom_succ]
      by_cases hl : (progHeaderAt b (entryAt b i)).loadable = true
      · have hlt := progHeader_lt b (entryAt b i)
        have he := entry_load (c := c) (s := s) h0 hl
        unfold fetchSizedByteArray at he
        by_cases hfi : (BitVec.ofNat 32 (progHeaderAt b (entryAt b i)).offset).toNat > b.length ∨
            (BitVec.ofNat 32 (progHeaderAt b (entryAt b i)).offset +
              BitVec.ofNat 32 (progHeaderAt b (entryAt b i)).filesz).toNat > b.length
        · rw [if_pos hfi] at he
          simp only [M.throw_apply] at he
          rw [M.bind_throw he] at h
          cases h
        · rw [if_neg hfi] at he
          simp only [M.pure_apply] at he
          rw [M.bind_apply, he, M.bind_apply] at h
          cases e : loadSegment (BitVec.ofNat 32 (progHeaderAt b (entryAt b i)).paddr)
              (BitVec.ofNat 32 (progHeaderAt b (entryAt b i)).filesz)
              (b.drop (BitVec.ofNat 32 (progHeaderAt b (entryAt b i)).offset).toNat) s with
          | throw x s1 => rw [e] at h; cases h
          | ub r => rw [e] at h; cases h
          | ok u s1 =>
            rw [e] at h
            simp only [M.pure_apply] at h
            obtain ⟨h1, h2⟩ := ih hb' h
            refine ⟨htab h1, ?_⟩
            intro g hg hgl
            rcases List.mem_cons.1 hg with rfl | hg
            · have := loadSegment_long e
              rw [ofNat_toNat hlt.2.1, ofNat_toNat hlt.1, List.length_drop] at this
              have h3 : (progHeaderAt b (entryAt b i)).offset ≤ b.length := by
                rw [not_or, ofNat_toNat hlt.1] at hfi
                omega
              omega
            · exact h2 g hg hgl
      · have hl' : (progHeaderAt b (entryAt b i)).loadable = false := by simpa using hl
        rw [M.bind_apply, entry_skip h0 hl'] at h
        obtain ⟨h1, h2⟩ := ih hb' h
        refine ⟨htab h1, ?_⟩
        intro g hg hgl
        rcases List.mem_cons.1 hg with rfl | hg
        · rw [hl'] at hgl; cases hgl
        · exact h2 g hg hgl
    · rw [if_neg h0] at h
      cases h

/-- The loop in two parts. -/
theorem loadEntries_append (b : Str) (n m i : Nat) (c : U32) (s : Sim) :
    loadEntries b b.length (phentsize b) (n + m) i (BitVec.ofNat 32 (entryAt b i)) c s =
      (loadEntries b b.length (phentsize b) n i (BitVec.ofNat 32 (entryAt b i)) c >>= fun c' =>
        loadEntries b b.length (phentsize b) m (i + n) (BitVec.ofNat 32 (entryAt b (i + n))) c') s := by
  induction n generalizing i c s with
  | zero => simp [loadEntries]
  | succ n ih =>
    rw [show n + 1 + m = (n + m) + 1 by omega, loadEntries, loadEntries]
    simp only [M.bind_apply, offset_add]
    cases M.tryCatch (fetchSizedByteArray b b.length (BitVec.ofNat 32 (entryAt b i)) 32)
      (fun e => M.throw e.code (asc "ELF page header entry " ++ fmtU i ++ asc " is at an invalid file offset of " ++
        fmtU (BitVec.ofNat 32 (entryAt b i)).toNat ++ asc ".")) s with
    | throw x s1 => rfl
    | ub r => rfl
    | ok ph s1 =>
      simp only
      cases loadIfFlashLoadableEntry b b.length ph c s1 with
      | throw x s2 => rfl
      | ub r => rfl
      | ok c' s2 =>
        simp only
        rw [ih, M.bind_apply, show i + 1 + n = i + (n + 1) by omega]

end Verif.Elf
