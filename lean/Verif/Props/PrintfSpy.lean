import Verif.Spec.PrintfSpy
import Verif.Props.Doubles
/-
C98: what the tests see of the texts printed by the code they test.
-/
namespace Verif.Props
open Verif Spec Doubles

/-- The buffers on the heap are those that can be freed. -/
structure SpyOk (s : Spy) : Prop where
  live : s.live = (s.out.countP Option.isSome + s.err.countP Option.isSome : Nat)
  outs : s.out.length = 4
  errs : s.err.length = 4
  index : s.index < 4

theorem countP_set_some {l : List (Option Str)} {i : Nat} {t : Str} (hi : i < l.length) :
    (l.set i (some t)).countP Option.isSome = l.countP Option.isSome + if l[i]? = some none then 1 else 0 := by
  rw [List.countP_set hi, List.getElem?_eq_getElem hi]
  cases e : l[i] with
  | none => simp
  | some v =>
    have : 0 < l.countP Option.isSome := List.countP_pos_iff.2 ⟨l[i], List.getElem_mem hi, by rw [e]; rfl⟩
    simp
    omega

theorem spyOk_step {o : SpyOp} {s t : Spy} (hs : SpyOk s) (h : o.run s = .ok () t) : SpyOk t := by
  cases o with
  | hook n =>
    cases h
    refine ⟨?_, rfl, rfl, Nat.zero_lt_succ _⟩
    simp [freeBuffer, allocateAndInitBuffers, hs.live]
  | unhook =>
    cases h
    refine ⟨?_, rfl, rfl, Nat.zero_lt_succ _⟩
    simp [freeBuffer, hs.live]
  | print to text =>
    simp only [SpyOp.run, M.bind_apply, hookPrint] at h
    by_cases hh : s.hooked = true
    · rw [if_pos hh] at h
      cases to with
      | out =>
        cases h
        refine ⟨?_, by simp [store, hs.outs], hs.errs, Nat.mod_lt _ (by omega)⟩
        simp only [store]
        rw [countP_set_some (by rw [hs.outs]; exact hs.index), hs.live]
        split <;> omega
      | err =>
        cases h
        refine ⟨?_, hs.outs, by simp [store, hs.errs], Nat.mod_lt _ (by omega)⟩
        simp only [store]
        rw [countP_set_some (by rw [hs.errs]; exact hs.index), hs.live]
        split <;> omega
      | other => cases h
    · rw [if_neg hh] at h; cases h; exact hs

theorem spyOk_calls {os : List SpyOp} {s t : Spy} (hs : SpyOk s) (h : Calls SpyOp.run s os t) : SpyOk t := by
  induction h with
  | nil => exact hs
  | cons h _ ih => exact ih (spyOk_step hs h)

theorem spyOk_start : SpyOk {} := ⟨rfl, rfl, rfl, by decide⟩

theorem slot_snoc (to : Stream) (ps : List (Stream × Str)) (p : Stream × Str) (i : Nat) :
    slot to (ps ++ [p]) i = if p.1 = to ∧ ps.length % 4 = i then some p.2 else slot to ps i := by
  unfold slot
  rw [List.zipIdx_append, List.filter_append]
  by_cases h : p.1 = to ∧ ps.length % 4 = i
  · simp [h]
  · rw [if_neg h]
    simp [h]

/-- The state after hooking in with buffers of `B` characters and then printing `ps`. -/
structure SpyAt (B : Nat) (ps : List (Stream × Str)) (s : Spy) : Prop where
  hooked : s.hooked = true
  size : s.size = B + 1
  calls : s.calls = ps.length
  index : s.index = ps.length % 4
  out : ∀ i, i < 4 → s.out[i]? = some ((slot .out ps i).map (List.take B))
  err : ∀ i, i < 4 → s.err[i]? = some ((slot .err ps i).map (List.take B))

theorem spyAt_hook {B : Nat} {s t : Spy} (h : SpyOp.run (.hook B) s = .ok () t) : SpyAt B [] t := by
  cases h
  refine ⟨rfl, rfl, rfl, rfl, ?_, ?_⟩ <;>
    (intro i hi; match i, hi with
      | 0, _ => rfl
      | 1, _ => rfl
      | 2, _ => rfl
      | 3, _ => rfl)

theorem spyAt_print {B : Nat} {ps : List (Stream × Str)} {p : Stream × Str} {s t : Spy} (hk : SpyOk s) (hs : SpyAt B ps s)
    (h : SpyOp.run (.print p.1 p.2) s = .ok () t) : SpyAt B (ps ++ [p]) t := by
  simp only [SpyOp.run, M.bind_apply, hookPrint, hs.hooked, if_true] at h
  obtain ⟨to, text⟩ := p
  have hi : (ps.length % 4 + 1) % 2 ^ 64 % 4 = (ps.length + 1) % 4 := by omega
  cases to with
  | out =>
    cases h
    refine ⟨hs.hooked, hs.size, ?_, ?_, ?_, ?_⟩
    · simp [hs.calls]
    · simp [nextIndex, hs.index, hi]
    · intro i h4
      rw [slot_snoc]
      simp only [store, hs.index, hs.size, Nat.add_sub_cancel, true_and]
      rw [List.getElem?_set]
      by_cases e : ps.length % 4 = i
      · rw [if_pos e, if_pos (by rw [e, hk.outs]; exact h4), if_pos e]; rfl
      · rw [if_neg e, if_neg e]; exact hs.out i h4
    · intro i h4
      rw [slot_snoc]
      simp only [reduceCtorEq, false_and, if_false]
      exact hs.err i h4
  | err =>
    cases h
    refine ⟨hs.hooked, hs.size, ?_, ?_, ?_, ?_⟩
    · simp [hs.calls]
    · simp [nextIndex, hs.index, hi]
    · intro i h4
      rw [slot_snoc]
      simp only [reduceCtorEq, false_and, if_false]
      exact hs.out i h4
    · intro i h4
      rw [slot_snoc]
      simp only [store, hs.index, hs.size, Nat.add_sub_cancel, true_and]
      rw [List.getElem?_set]
      by_cases e : ps.length % 4 = i
      · rw [if_pos e, if_pos (by rw [e, hk.errs]; exact h4), if_pos e]; rfl
      · rw [if_neg e, if_neg e]; exact hs.err i h4
  | other => cases h

theorem spyAt_prints {B : Nat} {ps qs : List (Stream × Str)} {s t : Spy} (hk : SpyOk s) (hs : SpyAt B ps s)
    (h : Calls SpyOp.run s (prints qs) t) : SpyAt B (ps ++ qs) t := by
  induction qs generalizing ps s with
  | nil => cases h; simpa using hs
  | cons q qs ih =>
    cases h with
    | cons h t' =>
      have := ih (spyOk_step hk h) (spyAt_print hk hs h) t'
      simpa using this

theorem spied {B : Nat} {pre : List SpyOp} {ps : List (Stream × Str)} {t : Spy}
    (h : Calls SpyOp.run {} (pre ++ .hook B :: prints ps) t) : SpyAt B ps t := by
  obtain ⟨m, h1, h2⟩ := calls_append h
  cases h2 with
  | cons h3 h4 =>
    have := spyAt_prints (spyOk_step (spyOk_calls spyOk_start h1) h3) (spyAt_hook h3) h4
    simpa using this

theorem prevIndex_at {B : Nat} {ps : List (Stream × Str)} {t : Spy} (h : SpyAt B ps t) {n : Nat} (hn : n ≤ 4) :
    prevIndex n t = (ps.length + 4 - n) % 4 := by
  unfold prevIndex
  rw [h.index]
  omega

/-- C98, exactly: the text shown is the last one to the stream among the prints whose number is that of the `n`-th last print
modulo 4. -/
theorem C98_shown_exactly {B n : Nat} {pre : List SpyOp} {ps : List (Stream × Str)} {t : Spy}
    (h : Calls SpyOp.run {} (pre ++ .hook B :: prints ps) t) (hn : n ≤ 4) :
    getNthOutput n t = .ok ((slot .out ps ((ps.length + 4 - n) % 4)).map (List.take B)) t ∧
    getNthErrorOutput n t = .ok ((slot .err ps ((ps.length + 4 - n) % 4)).map (List.take B)) t := by
  have hs := spied h
  have hp := prevIndex_at hs hn
  constructor
  · unfold getNthOutput
    rw [if_pos hn, hp, hs.out _ (Nat.mod_lt _ (by omega))]; rfl
  · unfold getNthErrorOutput
    rw [if_pos hn, hp, hs.err _ (Nat.mod_lt _ (by omega))]; rfl

theorem slot_of_last {to : Stream} {ps : List (Stream × Str)} {n : Nat} {text : Str} (h1 : 1 ≤ n) (hn : n ≤ 4) (hl : n ≤ ps.length)
    (hp : ps[ps.length - n]? = some (to, text)) : slot to ps ((ps.length + 4 - n) % 4) = some text := by
  have key : ∀ (k : Nat) (qs : List (Stream × Str)), k ≤ 3 → k < qs.length → qs[qs.length - (k + 1)]? = some (to, text) →
      slot to qs ((qs.length + 3 - k) % 4) = some text := by
    intro k
    induction k with
    | zero =>
      intro qs _ hk hq
      have hne : qs ≠ [] := by intro e; rw [e] at hk; exact absurd hk (by simp)
      obtain ⟨rs, r, rfl⟩ : ∃ rs r, qs = rs ++ [r] := ⟨qs.dropLast, qs.getLast hne, (List.dropLast_concat_getLast hne).symm⟩
      simp at hq
      rw [slot_snoc, if_pos, hq]
      rw [hq]
      refine ⟨rfl, ?_⟩
      simp only [List.length_append, List.length_cons, List.length_nil]
      omega
    | succ k ih =>
      intro qs h3 hk hq
      have hne : qs ≠ [] := by intro e; rw [e] at hk; exact absurd hk (by simp)
      obtain ⟨rs, r, rfl⟩ : ∃ rs r, qs = rs ++ [r] := ⟨qs.dropLast, qs.getLast hne, (List.dropLast_concat_getLast hne).symm⟩
      simp only [List.length_append, List.length_cons, List.length_nil] at hk hq ⊢
      rw [slot_snoc, if_neg (by rintro ⟨-, h⟩; omega)]
      have hq' : rs[rs.length - (k + 1)]? = some (to, text) := by
        rw [List.getElem?_append_left (by omega)] at hq
        rw [← hq]; congr 1; omega
      have := ih rs (by omega) (by omega) hq'
      have e : (rs.length + (0 + 1) + 3 - (k + 1)) % 4 = (rs.length + 3 - k) % 4 := by omega
      rw [e]; exact this
  obtain ⟨k, rfl⟩ : ∃ k, n = k + 1 := ⟨n - 1, by omega⟩
  have := key k ps (by omega) (by omega) hp
  have e : (ps.length + 4 - (k + 1)) % 4 = (ps.length + 3 - k) % 4 := by omega
  rw [e]; exact this

/-- C98. If the `n`-th last text (`n` from 1 to 4) printed since the hooks were set went to standard output, `printfSpy_GetNthOutput(n)` shows
it, cut to the size given to `printfSpy_Hook`; likewise for standard error. -/
theorem C98_nth_output {B n : Nat} {pre : List SpyOp} {ps : List (Stream × Str)} {t : Spy} {text : Str}
    (h : Calls SpyOp.run {} (pre ++ .hook B :: prints ps) t) (h1 : 1 ≤ n) (hn : n ≤ 4) (hl : n ≤ ps.length) :
    (ps[ps.length - n]? = some (.out, text) → getNthOutput n t = .ok (some (text.take B)) t) ∧
    (ps[ps.length - n]? = some (.err, text) → getNthErrorOutput n t = .ok (some (text.take B)) t) := by
  obtain ⟨a, b⟩ := C98_shown_exactly h hn
  constructor
  · intro hp; rw [a, slot_of_last h1 hn hl hp]; rfl
  · intro hp; rw [b, slot_of_last h1 hn hl hp]; rfl

/-- C98. The last and the previous text, if they went to that stream. -/
theorem C98_last_and_previous {B : Nat} {pre : List SpyOp} {ps : List (Stream × Str)} {t : Spy} {to to' : Stream} {last prev : Str}
    (h : Calls SpyOp.run {} (pre ++ .hook B :: prints (ps ++ [(to', prev), (to, last)])) t) :
    (to = .out → getLastOutput t = .ok (some (last.take B)) t) ∧ (to = .err → getLastErrorOutput t = .ok (some (last.take B)) t) ∧
    (to' = .out → getPreviousOutput t = .ok (some (prev.take B)) t) ∧ (to' = .err → getPreviousErrorOutput t = .ok (some (prev.take B)) t) := by
  have h1 := C98_nth_output (n := 1) (text := last) h (by omega) (by omega) (by simp)
  have h2 := C98_nth_output (n := 2) (text := prev) h (by omega) (by omega) (by simp)
  simp only [List.length_append, List.length_cons, List.length_nil] at h1 h2
  have e1 : (ps ++ [(to', prev), (to, last)])[ps.length + (0 + 1 + 1) - 1]? = some (to, last) := by
    rw [List.getElem?_append_right (by omega)]
    simp [show ps.length + (0 + 1 + 1) - 1 - ps.length = 1 by omega]
  have e2 : (ps ++ [(to', prev), (to, last)])[ps.length + (0 + 1 + 1) - 2]? = some (to', prev) := by
    rw [List.getElem?_append_right (by omega)]
    simp [show ps.length + (0 + 1 + 1) - 2 - ps.length = 0 by omega]
  rw [e1] at h1
  rw [e2] at h2
  refine ⟨?_, ?_, ?_, ?_⟩
  · rintro rfl; exact h1.1 rfl
  · rintro rfl; exact h1.2 rfl
  · rintro rfl; exact h2.1 rfl
  · rintro rfl; exact h2.2 rfl

/-- C98. The number of calls is that of the texts printed since the hooks were set. -/
theorem C98_call_count {B : Nat} {pre : List SpyOp} {ps : List (Stream × Str)} {t : Spy}
    (h : Calls SpyOp.run {} (pre ++ .hook B :: prints ps) t) : getCallCount t = .ok ps.length t := by
  simp [getCallCount, (spied h).calls]

/-- C98. Whatever a test did, after `printfSpy_Unhook` no buffer is left on the heap. -/
theorem C98_nothing_left {os : List SpyOp} {t : Spy} (h : Calls SpyOp.run {} os t) : ∃ t', spyUnhook t = .ok () t' ∧ t'.live = 0 := by
  refine ⟨_, rfl, ?_⟩
  simp [freeBuffer, (spyOk_calls spyOk_start h).live]

theorem unhooked_prints {ps : List (Stream × Str)} {s t : Spy} (hs : s.hooked = false) (h : Calls SpyOp.run s (prints ps) t) : t = s := by
  induction ps with
  | nil => cases h; rfl
  | cons p ps ih =>
    cases h with
    | cons h1 h2 =>
      simp only [SpyOp.run, M.bind_apply, hookPrint, hs, Bool.false_eq_true, if_false] at h1
      cases h1
      exact ih h2

/-- C98. From `printfSpy_Unhook` on, what is printed, to any stream, is left to the C library and not recorded: no text is shown, the number
of calls stays what it was, and nothing is allocated. -/
theorem C98_unhooked {pre : List SpyOp} {ps : List (Stream × Str)} {s t : Spy} (h : Calls SpyOp.run {} pre s)
    (h' : Calls SpyOp.run s (.unhook :: prints ps) t) :
    (∀ n, n ≤ 4 → getNthOutput n t = .ok none t ∧ getNthErrorOutput n t = .ok none t) ∧
    (∀ k, getCallCount s = .ok k s → getCallCount t = .ok k t) ∧ t.live = 0 ∧
    ∀ to text, hookPrint to text t = .ok text.length t := by
  cases h' with
  | cons h1 h2 =>
    cases h1
    cases unhooked_prints rfl h2
    refine ⟨?_, ?_, ?_, fun _ _ => rfl⟩
    · intro n hn
      unfold getNthOutput getNthErrorOutput
      rw [if_pos hn, if_pos hn]
      have key : ∀ i : Nat, (([none, none, none, none] : List (Option Str))[i]?).getD none = none := by
        intro i
        match i with
        | 0 => rfl
        | 1 => rfl
        | 2 => rfl
        | 3 => rfl
        | i + 4 => rfl
      exact ⟨congrArg (Out.ok · _) (key _), congrArg (Out.ok · _) (key _)⟩
    · intro k hk
      simp only [getCallCount, M.bind_apply, M.get] at hk ⊢
      cases hk
      rfl
    · simp [freeBuffer, (spyOk_calls spyOk_start h).live]

example : ∃ s t, Calls SpyOp.run {} [.hook 8, .print .out [0x61], .print .err [0x62]] s ∧
    Calls SpyOp.run s (.unhook :: prints [(.out, [0x63]), (.other, [0x64])]) t ∧ getCallCount t = .ok 2 t ∧
    getNthOutput 2 s = .ok (some [0x61]) s :=
  ⟨_, _, .cons rfl (.cons rfl (.cons rfl (.nil _))), .cons rfl (.cons rfl (.cons rfl (.nil _))), rfl, rfl⟩

/-- The two streams share the position, so where the `n`-th last text went to standard error, what `printfSpy_GetNthOutput(n)` shows is an
older text, printed four calls before, or NULL. -/
theorem C98_stale_output_witness :
    ∃ t, Calls SpyOp.run {} (.hook 8 :: prints [(.out, [0x61]), (.out, [0x62]), (.out, [0x63]), (.out, [0x64]), (.err, [0x65]), (.out, [0x66])]) t ∧
      getNthOutput 2 t = .ok (some [0x61]) t ∧ getNthErrorOutput 1 t = .ok none t :=
  ⟨_, .cons rfl (.cons rfl (.cons rfl (.cons rfl (.cons rfl (.cons rfl (.cons rfl (.nil _))))))), rfl, rfl⟩

example : ∃ t, Calls SpyOp.run {} ([.print .out [0x7A], .hook 1, .print .err [0x79]] ++ .hook 2 :: prints [(.out, [0x61, 0x62, 0x63]), (.err, [0x64])]) t ∧
    getNthOutput 2 t = .ok (some [0x61, 0x62]) t ∧ getNthErrorOutput 1 t = .ok (some [0x64]) t ∧ t.live = 2 :=
  ⟨_, .cons rfl (.cons rfl (.cons rfl (.cons rfl (.cons rfl (.cons rfl (.nil _)))))), rfl, rfl, rfl⟩

end Verif.Props
