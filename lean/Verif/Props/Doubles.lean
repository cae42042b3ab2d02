import Verif.Spec.Doubles
/-
C96, C97: the hooks by which tests make allocations and file operations fail.
-/
namespace Verif.Props
open Verif Spec Doubles

/-! ### C96 -/

theorem alloc_unhooked {s : Malloc} (h : s.hooked = false) : alloc s = .ok (s.real s.passed) { s with passed := s.passed + 1 } := by
  simp [alloc, h, libcAlloc]

theorem alloc_hooked {s : Malloc} (h : s.hooked = true) :
    alloc s = if s.toFail = 1#32 then .ok false { s with toFail := 0 }
      else .ok (s.real s.passed) { s with passed := s.passed + 1, toFail := if s.toFail = 0#32 then 0 else s.toFail - 1 } := by
  by_cases h0 : s.toFail = 0#32
  · simp [alloc, h, mockAlloc, shouldThisAllocationBeFailed, h0, libcAlloc]
  · by_cases h1 : s.toFail = 1#32
    · simp [alloc, h, mockAlloc, shouldThisAllocationBeFailed, h1]
    · have : ¬ s.toFail - 1#32 = 0#32 := by
        intro hz
        apply h1
        have := congrArg BitVec.toNat hz
        have h0' : s.toFail.toNat ≠ 0 := fun hh => h0 (BitVec.eq_of_toNat_eq hh)
        apply BitVec.eq_of_toNat_eq
        simp [BitVec.toNat_sub] at this ⊢
        have := s.toFail.isLt
        omega
      simp [alloc, h, mockAlloc, shouldThisAllocationBeFailed, h0, h1, this, libcAlloc]

theorem calls_append {ι σ : Type} {run : ι → M σ Unit} {s t : σ} {os ps : List ι} (h : Calls run s (os ++ ps) t) :
    ∃ m, Calls run s os m ∧ Calls run m ps t := by
  induction os generalizing s with
  | nil => exact ⟨s, .nil s, h⟩
  | cons o os ih =>
    cases h with
    | cons h t' => obtain ⟨m, h1, h2⟩ := ih t'; exact ⟨m, .cons h h1, h2⟩

theorem calls_one {ι σ : Type} {run : ι → M σ Unit} {s t : σ} {o : ι} (h : Calls run s [o] t) : run o s = .ok () t := by
  cases h with
  | cons h t' => cases t'; exact h

theorem alloc_run (s : Malloc) : ∃ b t, alloc s = .ok b t ∧ MOp.run .alloc s = .ok () t := by
  by_cases h : s.hooked = true
  · rw [MOp.run, M.bind_apply, alloc_hooked h]
    split <;> exact ⟨_, _, rfl, rfl⟩
  · rw [MOp.run, M.bind_apply, alloc_unhooked (by simpa using h)]
    exact ⟨_, _, rfl, rfl⟩

/-- While no hook function is called in between, the count runs down to the allocation to fail. -/
theorem pending {s t : Malloc} {os : List MOp} (h : Calls MOp.run s os t) (ho : ∀ o ∈ os, o = .alloc) (hh : s.hooked = true) :
    t.hooked = true ∧ t.toFail.toNat = s.toFail.toNat - os.length := by
  induction h with
  | nil s => simp [hh]
  | @cons s s1 s2 o os h t ih =>
    cases ho o List.mem_cons_self
    have ih := fun hh => ih (fun o h => ho o (List.mem_cons_of_mem _ h)) hh
    obtain ⟨b, t1, h1, h2⟩ := alloc_run s
    rw [h2] at h
    cases h
    rw [alloc_hooked hh] at h1
    by_cases hz : s.toFail = 1#32
    · rw [if_pos hz] at h1
      cases h1
      obtain ⟨a, c⟩ := ih hh
      exact ⟨a, by rw [c, hz]; simp⟩
    · rw [if_neg hz] at h1
      cases h1
      obtain ⟨a, c⟩ := ih hh
      have hne : s.toFail.toNat ≠ 1 := fun he => hz (BitVec.eq_of_toNat_eq he)
      have hsub : (if s.toFail = 0#32 then 0 else s.toFail - 1 : U32).toNat = s.toFail.toNat - 1 := by
        by_cases h0 : s.toFail = 0#32
        · rw [if_pos h0, h0]; rfl
        · have h0' : s.toFail.toNat ≠ 0 := fun hh => h0 (BitVec.eq_of_toNat_eq hh)
          rw [if_neg h0]
          have := s.toFail.isLt
          rw [BitVec.toNat_sub]
          simp
          omega
      exact ⟨a, by rw [c, hsub, List.length_cons]; omega⟩

/-- C96. After `MallocFailureInject_FailAllocation(n)` exactly the `n`-th allocation fails: the `k`-th one is refused if `k = n`,
and is otherwise made by the C library, whatever was done with the hooks before. -/
theorem C96_nth_allocation_fails {s t : Malloc} {pre os : List MOp} {n : U32}
    (h : Calls MOp.run s (pre ++ .fail n :: os) t) (ho : ∀ o ∈ os, o = .alloc) :
    (os.length + 1 = n.toNat → ∃ t', alloc t = .ok false t' ∧ t'.passed = t.passed) ∧
    (os.length + 1 ≠ n.toNat → ∃ t', alloc t = .ok (t.real t.passed) t' ∧ t'.passed = t.passed + 1) := by
  obtain ⟨m, -, h2⟩ := calls_append h
  cases h2 with
  | cons h3 h4 =>
    cases h3
    obtain ⟨a, c⟩ := pending h4 ho rfl
    simp only at c
    rw [alloc_hooked a]
    constructor
    · intro hn
      rw [if_pos (BitVec.eq_of_toNat_eq (by rw [c]; simp; omega))]
      exact ⟨_, rfl, rfl⟩
    · intro hn
      rw [if_neg ?_]
      · exact ⟨_, rfl, rfl⟩
      · intro he
        have := congrArg BitVec.toNat he
        rw [c] at this
        simp at this
        omega

/-- C96. After `MallocFailureInject_Restore`, and before the first use of the hooks, no allocation is refused. -/
theorem C96_restored {s t : Malloc} {pre os : List MOp} (h : Calls MOp.run s (pre ++ .restore :: os) t) (ho : ∀ o ∈ os, o = .alloc) :
    ∃ t', alloc t = .ok (t.real t.passed) t' ∧ t'.passed = t.passed + 1 := by
  obtain ⟨m, -, h2⟩ := calls_append h
  cases h2 with
  | cons h3 h4 =>
    cases h3
    have key : ∀ {a b : Malloc} {os : List MOp}, Calls MOp.run a os b → (∀ o ∈ os, o = .alloc) → a.hooked = false → b.hooked = false := by
      intro a b os h
      induction h with
      | nil s => intro _ h; exact h
      | @cons s s1 s2 o os h t ih =>
        intro ho hh
        cases ho o List.mem_cons_self
        refine ih (fun o h => ho o (List.mem_cons_of_mem _ h)) ?_
        rw [MOp.run, M.bind_apply, alloc_unhooked hh] at h
        cases h; exact hh
    have := key h4 ho rfl
    exact ⟨_, alloc_unhooked this, rfl⟩

/-- The second allocation is to fail, though the third was to fail before; the C library has no memory for its second block. -/
def mallocDemo : Malloc := { real := fun n => n != 1 }
example : ∃ t, Calls MOp.run mallocDemo ([.fail 3, .alloc] ++ .fail 2 :: [.alloc]) t ∧ [MOp.alloc].length + 1 = (2 : U32).toNat :=
  ⟨_, .cons rfl (.cons rfl (.cons rfl (.cons rfl (.nil _)))), rfl⟩
example : ∃ t, Calls MOp.run mallocDemo ([.fail 3, .alloc] ++ .restore :: [.alloc]) t := ⟨_, .cons rfl (.cons rfl (.cons rfl (.cons rfl (.nil _))))⟩

/-! ### C97 -/

/-- What one call changes. -/
theorem fstep {o : FOp} {s t : Files} (h : o.run s = .ok () t) :
    (o.setsSeek = false → o ≠ .seek →
      t.seekHooked = s.seekHooked ∧ t.seekReturn = s.seekReturn ∧ t.seekCallsToPass = s.seekCallsToPass) ∧
    (o.setsRead = false → o ≠ .read →
      t.readHooked = s.readHooked ∧ t.readReturn = s.readReturn ∧ t.readToFail = s.readToFail) ∧
    (o.setsGets = false → o.isGets = false → t.getsHooked = s.getsHooked ∧ t.lines = s.lines ∧ t.curr = s.curr) ∧
    (o.setsOther = false → t.fopen = s.fopen ∧ t.closeIgnored = s.closeIgnored ∧ t.ftell = s.ftell ∧ t.fwrite = s.fwrite) := by
  cases o with
  | «open» =>
    cases e : s.fopen <;> simp [FOp.run, callFopen, e] at h <;> (subst h; simp [e])
  | tell => cases e : s.ftell <;> simp [FOp.run, callFtell, e] at h <;> (subst h; simp [e])
  | write => cases e : s.fwrite <;> simp [FOp.run, callFwrite, e] at h <;> (subst h; simp [e])
  | close => simp [FOp.run, callFclose] at h; subst h; simp
  | seek =>
    simp only [FOp.run, callFseek, M.bind_apply] at h
    split at h
    · rename_i h1
      split at h1
      · cases h1; cases h; simp
      · split at h1 <;> (cases h1; cases h; simp)
    · cases h
    · cases h
  | read =>
    simp only [FOp.run, callFread, M.bind_apply] at h
    split at h
    · rename_i h1
      split at h1
      · cases h1; cases h; simp
      · split at h1
        · split at h1 <;> (cases h1; cases h; simp)
        · cases h1; cases h; simp
    · cases h
    · cases h
  | gets room size =>
    simp only [FOp.run, callFgets, M.bind_apply] at h
    split at h
    · rename_i h1
      split at h1
      · cases h1; cases h; simp
      · split at h1
        · cases h1; cases h; simp [FOp.isGets]
        · split at h1 <;> (cases h1; try cases h; simp [FOp.isGets])
    · cases h
    · cases h
  | _ => cases h; simp [FOp.setsSeek, FOp.setsRead, FOp.setsGets, FOp.setsOther]

theorem seek_hooked {s : Files} (h : s.seekHooked = true) :
    callFseek s = if s.seekCallsToPass > 0 then .ok .libc { s with seekCallsToPass := s.seekCallsToPass - 1 }
      else .ok (.mock s.seekReturn) s := by
  simp [callFseek, h]

theorem seeks {s t : Files} {os : List FOp} (h : Calls FOp.run s os t) (ho : ∀ o ∈ os, o.setsSeek = false) (hh : s.seekHooked = true) :
    t.seekHooked = true ∧ t.seekReturn = s.seekReturn ∧
      (t.seekCallsToPass > 0 ↔ s.seekCallsToPass - os.count .seek > 0) ∧ 
      (s.seekCallsToPass - os.count .seek > 0 → t.seekCallsToPass = s.seekCallsToPass - os.count .seek) := by
  induction h with
  | nil s => simp [hh]
  | @cons s s1 s2 o os h t ih =>
    have ho' := fun o h => ho o (List.mem_cons_of_mem _ h)
    by_cases hs : o = .seek
    · subst hs
      rw [List.count_cons_self]
      rw [FOp.run, M.bind_apply, seek_hooked hh] at h
      by_cases hp : s.seekCallsToPass > 0
      · rw [if_pos hp] at h
        cases h
        obtain ⟨a, b, c, d⟩ := ih ho' hh
        simp only at c d
        refine ⟨a, b, ?_, ?_⟩ <;> omega
      · rw [if_neg hp] at h
        cases h
        obtain ⟨a, b, c, d⟩ := ih ho' hh
        refine ⟨a, b, ?_, ?_⟩ <;> omega
    · obtain ⟨h1, h2, h3⟩ := (fstep h).1 (ho o List.mem_cons_self) hs
      obtain ⟨a, b, c, d⟩ := ih ho' (h1.trans hh)
      rw [h2] at b
      rw [h3] at c d
      rw [List.count_cons_of_ne hs]
      exact ⟨a, b, c, d⟩

/-- C97. After `fseekSetReturn(r)` and `fseekSetCallsBeforeFailure(n)`, the first `n` calls of `fseek` are made by the C library and
all later ones return `r`, whatever else is called. -/
theorem C97_seek {s t : Files} {pre os : List FOp} {r n : Int}
    (h : Calls FOp.run s (pre ++ .seekReturns r :: .seekPasses n :: os) t) (ho : ∀ o ∈ os, o.setsSeek = false) :
    ∃ t', callFseek t = .ok (if os.count .seek < n then .libc else .mock r) t' := by
  obtain ⟨m, -, h2⟩ := calls_append h
  cases h2 with
  | cons h3 h4 =>
    cases h3
    cases h4 with
    | cons h5 h6 =>
      cases h5
      obtain ⟨a, b, c, -⟩ := seeks h6 ho rfl
      simp only at b c
      rw [seek_hooked a]
      by_cases hp : t.seekCallsToPass > 0
      · rw [if_pos hp, if_pos (by omega)]; exact ⟨_, rfl⟩
      · rw [if_neg hp, if_neg (by omega), b]; exact ⟨_, rfl⟩

theorem reads_off {s t : Files} {os : List FOp} (h : Calls FOp.run s os t) (ho : ∀ o ∈ os, o.setsRead = false) (hh : s.readHooked = false) :
    t.readHooked = false := by
  induction h with
  | nil s => exact hh
  | @cons s s1 s2 o os h t ih =>
    refine ih (fun o h => ho o (List.mem_cons_of_mem _ h)) ?_
    by_cases hs : o = .read
    · subst hs
      simp [FOp.run, callFread, hh] at h
      subst h; exact hh
    · exact ((fstep h).2.1 (ho o List.mem_cons_self) hs).1.trans hh

theorem read_hooked {s : Files} (h : s.readHooked = true) :
    callFread s = if s.readToFail > 0 then
        if s.readToFail = 1 then .ok (.mock s.readReturn) { s with readHooked := false, readToFail := 0 }
        else .ok .libc { s with readToFail := s.readToFail - 1 }
      else .ok (.mock s.readReturn) s := by
  have : (s.readToFail - 1 = 0) = (s.readToFail = 1) := by apply propext; omega
  simp only [callFread, h, this]
  rfl

theorem reads {s t : Files} {os : List FOp} (h : Calls FOp.run s os t) (ho : ∀ o ∈ os, o.setsRead = false) (hh : s.readHooked = true) :
    (0 < s.readToFail → s.readToFail ≤ os.count .read → t.readHooked = false) ∧
    (s.readToFail ≤ 0 → t.readHooked = true ∧ t.readReturn = s.readReturn ∧ t.readToFail ≤ 0) ∧
    (s.readToFail > os.count .read → t.readHooked = true ∧ t.readReturn = s.readReturn ∧ t.readToFail = s.readToFail - os.count .read) := by
  induction h with
  | nil s => refine ⟨?_, ?_, ?_⟩ <;> simp [hh] <;> omega
  | @cons s s1 s2 o os h t ih =>
    have ho' := fun o h => ho o (List.mem_cons_of_mem _ h)
    by_cases hs : o = .read
    · subst hs
      rw [List.count_cons_self]
      rw [FOp.run, M.bind_apply, read_hooked hh] at h
      by_cases hp : s.readToFail > 0
      · rw [if_pos hp] at h
        by_cases h1 : s.readToFail = 1
        · rw [if_pos h1] at h
          cases h
          have := reads_off t ho' rfl
          exact ⟨fun _ _ => this, by omega, by omega⟩
        · rw [if_neg h1] at h
          cases h
          obtain ⟨a, b, c⟩ := ih ho' hh
          simp only at a b c
          refine ⟨fun _ _ => a (by omega) (by omega), by omega, fun _ => ?_⟩
          obtain ⟨c1, c2, c3⟩ := c (by omega)
          exact ⟨c1, c2, by omega⟩
      · rw [if_neg hp] at h
        cases h
        obtain ⟨a, b, c⟩ := ih ho' hh
        exact ⟨by omega, b, by omega⟩
    · obtain ⟨h1, h2, h3⟩ := (fstep h).2.1 (ho o List.mem_cons_self) hs
      obtain ⟨a, b, c⟩ := ih ho' (h1.trans hh)
      rw [h3] at a b c
      rw [h2] at b c
      rw [List.count_cons_of_ne hs]
      exact ⟨a, b, c⟩

/-- C97. After `freadFail(r)` and `freadToFail(n)`, with `n` at least 1, exactly the `n`-th call of `fread` returns `r`; all others,
before and after it, are made by the C library. -/
theorem C97_nth_read {s t : Files} {pre os : List FOp} {r : Nat} {n : Int} (hn : 1 ≤ n)
    (h : Calls FOp.run s (pre ++ .readFails r :: .readToFail n :: os) t) (ho : ∀ o ∈ os, o.setsRead = false) :
    ∃ t', callFread t = .ok (if os.count .read + 1 = n then .mock r else .libc) t' := by
  obtain ⟨m, -, h2⟩ := calls_append h
  cases h2 with
  | cons h3 h4 =>
    cases h3
    cases h4 with
    | cons h5 h6 =>
      cases h5
      obtain ⟨a, -, c⟩ := reads h6 ho rfl
      simp only at a c
      by_cases hp : n > os.count .read
      · obtain ⟨c1, c2, c3⟩ := c hp
        rw [read_hooked c1, if_pos (by omega)]
        by_cases h1 : t.readToFail = 1
        · rw [if_pos h1, if_pos (by omega), c2]; exact ⟨_, rfl⟩
        · rw [if_neg h1, if_neg (by omega)]; exact ⟨_, rfl⟩
      · have := a (by omega) (by omega)
        rw [if_neg (by omega)]
        exact ⟨t, by simp [callFread, this]⟩

/-- C97. After `freadFail(r)` alone every call of `fread` returns `r`. -/
theorem C97_every_read {s t : Files} {pre os : List FOp} {r : Nat}
    (h : Calls FOp.run s (pre ++ .readFails r :: os) t) (ho : ∀ o ∈ os, o.setsRead = false) : callFread t = .ok (.mock r) t := by
  obtain ⟨m, -, h2⟩ := calls_append h
  cases h2 with
  | cons h3 h4 =>
    cases h3
    obtain ⟨-, b, -⟩ := reads h4 ho rfl
    obtain ⟨b1, b2, b3⟩ := b (by simp)
    rw [read_hooked b1, if_neg (by omega), b2]

/-- The number of calls of `fgets`. -/
def getsIn (os : List FOp) : Nat := os.countP FOp.isGets

theorem gets_step {s t : Files} {room : Nat} {size : Int} (hh : s.getsHooked = true) (hc : s.curr ≤ s.lines.length)
    (h : FOp.run (.gets room size) s = .ok () t) :
    t.getsHooked = true ∧ t.lines = s.lines ∧ t.curr = if s.curr = s.lines.length then 0 else s.curr + 1 := by
  simp only [FOp.run, callFgets, M.bind_apply, hh, Bool.not_true] at h
  rw [if_neg (by simp)] at h
  cases e : s.lines[s.curr]? with
  | none =>
    rw [e] at h
    cases h
    have := List.getElem?_eq_none_iff.1 e
    rw [if_pos (by omega)]
    exact ⟨rfl, rfl, rfl⟩
  | some l =>
    rw [e] at h
    have := (List.getElem?_eq_some_iff.1 e).1
    rw [if_neg (by omega)]
    simp only at h
    split at h
    · rename_i h1
      split at h1 <;> cases h1
      cases h
      exact ⟨rfl, rfl, rfl⟩
    · cases h
    · cases h

theorem gets_at {s t : Files} {os : List FOp} (h : Calls FOp.run s os t) (ho : ∀ o ∈ os, o.setsGets = false) (hh : s.getsHooked = true)
    (hc : s.curr ≤ s.lines.length) :
    t.getsHooked = true ∧ t.lines = s.lines ∧ t.curr = (s.curr + getsIn os) % (s.lines.length + 1) := by
  induction h with
  | nil s => exact ⟨hh, rfl, by rw [getsIn, List.countP_nil, Nat.add_zero, Nat.mod_eq_of_lt (by omega)]⟩
  | @cons s s1 s2 o os h t ih =>
    have ho' := fun o h => ho o (List.mem_cons_of_mem _ h)
    by_cases hs : o.isGets = true
    · have hg : getsIn (o :: os) = getsIn os + 1 := by simp [getsIn, hs]
      cases o with
      | gets room size =>
        obtain ⟨a, b, c⟩ := gets_step hh hc h
        obtain ⟨a', b', c'⟩ := ih ho' a (by rw [b, c]; split <;> omega)
        refine ⟨a', b'.trans b, ?_⟩
        rw [c', b, c, hg]
        by_cases he : s.curr = s.lines.length
        · rw [if_pos he, he]
          have : s.lines.length + (getsIn os + 1) = 0 + getsIn os + (s.lines.length + 1) := by omega
          rw [this, Nat.add_mod_right]
        · rw [if_neg he]; congr 1; omega
      | _ => cases hs
    · have hs : o.isGets = false := by simpa using hs
      have hg : getsIn (o :: os) = getsIn os := by simp [getsIn, hs]
      obtain ⟨h1, h2, h3⟩ := (fstep h).2.2.1 (ho o List.mem_cons_self) hs
      obtain ⟨a, b, c⟩ := ih ho' (h1.trans hh) (by rw [h2, h3]; exact hc)
      rw [h2] at b
      rw [h2, h3] at c
      exact ⟨a, b, by rw [c, hg]⟩

theorem copied_spec {line : Str} {size : Nat} (hs : 0 < size) (hn : (0 : U8) ∉ line) :
    (copied line size).length = size ∧ cString (copied line size) = line.take (size - 1) := by
  constructor
  · simp [copied]; omega
  · unfold cString copied
    have key : ∀ (a : Str) (k : Nat), (0 : U8) ∉ a → (a ++ List.replicate k 0).takeWhile (· ≠ 0#8) = a := by
      intro a k ha
      rw [List.takeWhile_append_of_pos (fun x hx => by simpa using fun h : x = 0 => ha (h ▸ hx))]
      cases k <;> simp [List.replicate_succ]
    rw [List.take_append, List.append_assoc, List.take_replicate]
    have : ∀ k : Nat, List.replicate k (0 : U8) ++ [0] = List.replicate (k + 1) 0 := by
      intro k; rw [List.replicate_succ']
    rw [this, key _ _ (fun h => hn (List.mem_of_mem_take (List.mem_of_mem_take h))), List.take_take]
    congr 1; omega

/-- C97. After `fgetsSetData(lines)`, the calls of `fgets` deliver the lines in order, then NULL once, then the lines again, and so
on for ever. Each time exactly `size` bytes are stored: the line, cut to `size - 1` characters, as a C string. -/
theorem C97_lines {s t : Files} {pre os : List FOp} {ls : List Str} {room : Nat} {size : Int}
    (h : Calls FOp.run s (pre ++ .linesAre ls :: os) t) (ho : ∀ o ∈ os, o.setsGets = false)
    (hs : 0 < size) (hr : size ≤ room) (hl : ∀ l ∈ ls, (0 : U8) ∉ l) :
    ∃ o t', callFgets room size t = .ok (.mock o) t' ∧
      match ls[os.countP FOp.isGets % (ls.length + 1)]? with
      | some l => ∃ b, o = some b ∧ (b.length : Int) = size ∧ cString b = l.take (size - 1).toNat
      | none => o = none := by
  obtain ⟨m, -, h2⟩ := calls_append h
  cases h2 with
  | cons h3 h4 =>
    cases h3
    obtain ⟨a, b, c⟩ := gets_at h4 ho rfl (Nat.zero_le _)
    simp only [Nat.zero_add, getsIn] at b c
    simp only [callFgets, a, Bool.not_true, b, c]
    rw [if_neg (by simp)]
    cases e : ls[os.countP FOp.isGets % (ls.length + 1)]? with
    | none => exact ⟨none, _, rfl, rfl⟩
    | some l =>
      simp only
      rw [if_pos ⟨hs, hr⟩]
      obtain ⟨k1, k2⟩ := copied_spec (line := l) (size := size.toNat) (by omega) (hl l (List.mem_of_getElem? e))
      refine ⟨_, _, rfl, _, rfl, by rw [k1]; omega, ?_⟩
      rw [k2]; congr 1; omega

theorem others_kept {s t : Files} {os : List FOp} (h : Calls FOp.run s os t) (ho : ∀ o ∈ os, o.setsOther = false) :
    t.fopen = s.fopen ∧ t.closeIgnored = s.closeIgnored ∧ t.ftell = s.ftell ∧ t.fwrite = s.fwrite := by
  induction h with
  | nil s => exact ⟨rfl, rfl, rfl, rfl⟩
  | cons h _ ih =>
    obtain ⟨a, b, c, d⟩ := (fstep h).2.2.2 (ho _ List.mem_cons_self)
    obtain ⟨a', b', c', d'⟩ := ih fun o h => ho o (List.mem_cons_of_mem _ h)
    exact ⟨a'.trans a, b'.trans b, c'.trans c, d'.trans d⟩

/-- C97. `fopen`, `fclose`, `ftell` and `fwrite` return what they were told to, until told otherwise. -/
theorem C97_fixed {s t : Files} {pre os : List FOp} {o : FOp} (h : Calls FOp.run s (pre ++ o :: os) t)
    (ho : ∀ o ∈ os, o.setsOther = false) :
    (∀ r, o = .openReturns r → callFopen t = .ok (.mock r) t) ∧ (o = .openRestore → callFopen t = .ok .libc t) ∧
    (o = .closeIgnore → callFclose t = .ok (.mock 0) t) ∧ (o = .closeRestore → callFclose t = .ok .libc t) ∧
    (∀ r, o = .tellFails r → callFtell t = .ok (.mock r) t) ∧ (o = .tellRestore → callFtell t = .ok .libc t) ∧
    (∀ r, o = .writeFails r → callFwrite t = .ok (.mock r) t) ∧ (o = .writeRestore → callFwrite t = .ok .libc t) := by
  obtain ⟨m, -, h2⟩ := calls_append h
  cases h2 with
  | cons h3 h4 =>
    obtain ⟨a, b, c, d⟩ := others_kept h4 ho
    refine ⟨?_, ?_, ?_, ?_, ?_, ?_, ?_, ?_⟩
    · rintro r rfl; cases h3; simp [callFopen, a]
    · rintro rfl; cases h3; simp [callFopen, a]
    · rintro rfl; cases h3; simp [callFclose, b]
    · rintro rfl; cases h3; simp [callFclose, b]
    · rintro r rfl; cases h3; simp [callFtell, c]
    · rintro rfl; cases h3; simp [callFtell, c]
    · rintro r rfl; cases h3; simp [callFwrite, d]
    · rintro rfl; cases h3; simp [callFwrite, d]

/-- C97. After its restoring call, `fseek`, `fread` or `fgets` is the C library's again. -/
theorem C97_restored {s t : Files} {pre os : List FOp} {o : FOp} (h : Calls FOp.run s (pre ++ o :: os) t) :
    (o = .seekRestore → (∀ o ∈ os, o.setsSeek = false) → callFseek t = .ok .libc t) ∧
    (o = .readRestore → (∀ o ∈ os, o.setsRead = false) → callFread t = .ok .libc t) ∧
    (o = .getsRestore → (∀ o ∈ os, o.setsGets = false) → ∀ room size, callFgets room size t = .ok .libc t) := by
  obtain ⟨m, -, h2⟩ := calls_append h
  cases h2 with
  | cons h3 h4 =>
    refine ⟨?_, ?_, ?_⟩
    · rintro rfl ho
      cases h3
      have key : ∀ {a b : Files} {os : List FOp}, Calls FOp.run a os b → (∀ o ∈ os, o.setsSeek = false) → a.seekHooked = false →
          b.seekHooked = false := by
        intro a b os h
        induction h with
        | nil s => intro _ h; exact h
        | @cons s s1 s2 o os h t ih =>
          intro ho hh
          refine ih (fun o h => ho o (List.mem_cons_of_mem _ h)) ?_
          by_cases hs : o = .seek
          · subst hs; simp [FOp.run, callFseek, hh] at h; subst h; exact hh
          · exact ((fstep h).1 (ho o List.mem_cons_self) hs).1.trans hh
      simp [callFseek, key h4 ho rfl]
    · rintro rfl ho
      cases h3
      simp [callFread, reads_off h4 ho rfl]
    · rintro rfl ho room size
      cases h3
      have key : ∀ {a b : Files} {os : List FOp}, Calls FOp.run a os b → (∀ o ∈ os, o.setsGets = false) → a.getsHooked = false →
          b.getsHooked = false := by
        intro a b os h
        induction h with
        | nil s => intro _ h; exact h
        | @cons s s1 s2 o os h t ih =>
          intro ho hh
          refine ih (fun o h => ho o (List.mem_cons_of_mem _ h)) ?_
          by_cases hs : o.isGets = true
          · cases o with
            | gets room size => simp [FOp.run, callFgets, hh] at h; subst h; exact hh
            | _ => cases hs
          · exact ((fstep h).2.2.1 (ho o List.mem_cons_self) (by simpa using hs)).1.trans hh
      simp [callFgets, key h4 ho rfl]

/-- The count of `fseekSetCallsBeforeFailure` outlives `fseekRestore`: a test that does not set it again still has calls to pass
over. -/
theorem C97_seek_count_outlives_restore_witness :
    ∃ t, Calls FOp.run {} [.seekReturns (-1), .seekPasses 2, .seek, .seekRestore, .seekReturns (-1)] t ∧
      ∃ t', callFseek t = .ok .libc t' :=
  ⟨_, .cons rfl (.cons rfl (.cons rfl (.cons rfl (.cons rfl (.nil _))))), _, rfl⟩

example : ∃ t, Calls FOp.run {} ([.seekPasses 7] ++ .seekReturns (-1) :: .seekPasses 2 :: [.seek, .read, .seek]) t ∧
    ∃ t', callFseek t = .ok (.mock (-1)) t' :=
  ⟨_, .cons rfl (.cons rfl (.cons rfl (.cons rfl (.cons rfl (.cons rfl (.nil _)))))), _, rfl⟩
example : ∃ t, Calls FOp.run {} ([.openReturns none] ++ .readFails 0 :: .readToFail 2 :: [.read, .seek]) t ∧
    ∃ t', callFread t = .ok (.mock 0) t' :=
  ⟨_, .cons rfl (.cons rfl (.cons rfl (.cons rfl (.cons rfl (.nil _))))), _, rfl⟩
example : ∃ t, Calls FOp.run {} ([] ++ .linesAre [[0x41, 0x42, 0x43], [0x44]] :: [.gets 4 3, .gets 8 8, .gets 8 8]) t ∧
    ∃ t', callFgets 4 3 t = .ok (.mock (some [0x41, 0x42, 0])) t' :=
  ⟨_, .cons rfl (.cons rfl (.cons rfl (.cons rfl (.nil _)))), _, rfl⟩
example : ∃ t, Calls FOp.run {} ([.read] ++ .tellFails (-1) :: [.tell, .close]) t := ⟨_, .cons rfl (.cons rfl (.cons rfl (.cons rfl (.nil _))))⟩

end Verif.Props
