import Verif.Spec.Channels
import Verif.Props.Doubles
/-
C99: the console that the tests use.
-/
namespace Verif.Props
open Verif Spec Doubles

theorem settled_ok {m : M σ α} {s t : σ} (h : settled m s = .ok () t) : (∃ a, m s = .ok a t) ∨ ∃ e, m s = .throw e t := by
  unfold settled at h
  split at h
  · next a s' e => cases h; exact .inl ⟨a, e⟩
  · next x s' e => cases h; exact .inr ⟨x, e⟩
  · cases h

theorem consHasData_state {s t : Cons} (h : settled consHasData s = .ok () t) : t = s := by
  rcases settled_ok h with ⟨a, e⟩ | ⟨x, e⟩ <;>
    (unfold consHasData at e; split at e <;> cases e; rfl)

theorem getCaptured_state {s t : Cons} (h : settled getCapturedText s = .ok () t) : t = s := by
  rcases settled_ok h with ⟨a, e⟩ | ⟨x, e⟩ <;>
    (unfold getCapturedText at e; split at e <;> cases e; try rfl)

theorem consRead_state {s t : Cons} (h : settled consRead s = .ok () t) :
    t = { s with pos := if s.readThrows = none ∧ s.pos < s.fin then s.pos + 1 else s.pos } := by
  rcases settled_ok h with ⟨a, e⟩ | ⟨x, e⟩
  · unfold consRead at e
    cases hr : s.readThrows with
    | some x => rw [hr] at e; cases e
    | none =>
      rw [hr] at e
      by_cases hp : s.pos < s.fin
      · rw [if_pos ⟨rfl, hp⟩]
        simp only [if_pos hp] at e
        cases hi : s.input[s.pos]? with
        | none => rw [hi] at e; cases e
        | some c => rw [hi] at e; cases e; rfl
      · rw [if_neg (fun q => hp q.2)]
        simp only [if_neg hp] at e
        cases e; rw [← hr]
  · unfold consRead at e
    cases hr : s.readThrows with
    | some x => rw [hr] at e; cases e; cases s; simp_all
    | none =>
      rw [hr] at e
      by_cases hp : s.pos < s.fin
      · simp only [if_pos hp] at e
        cases hi : s.input[s.pos]? with
        | none => rw [hi] at e; cases e
        | some c => rw [hi] at e; cases e
      · simp only [if_neg hp] at e
        cases e

theorem consWrite_state {s t : Cons} {c : Int} (h : settled (consWrite c) s = .ok () t) :
    t = { s with captured := if s.writeThrows = none then Capture.put (BitVec.ofInt 8 c) s.captured else s.captured } := by
  rcases settled_ok h with ⟨a, e⟩ | ⟨x, e⟩ <;>
  · unfold consWrite at e
    cases hr : s.writeThrows with
    | some x => rw [hr] at e; cases e; try (cases s; simp_all)
    | none => rw [hr] at e; cases e; try rfl

/-- The part of the state that each call sets. -/
theorem cstep {o : COp} {s t : Cons} (h : o.run s = .ok () t) :
    t.readThrows = readExc s.readThrows [o] ∧ t.writeThrows = writeExc s.writeThrows [o] ∧ t.hasThrows = hasExc s.hasThrows [o] ∧
    t.hasReturn = hasAnswer s.hasReturn [o] := by
  cases o with
  | hasData => rw [consHasData_state h]; exact ⟨rfl, rfl, rfl, rfl⟩
  | captured => rw [getCaptured_state h]; exact ⟨rfl, rfl, rfl, rfl⟩
  | read => rw [consRead_state h]; exact ⟨rfl, rfl, rfl, rfl⟩
  | write c => rw [consWrite_state h]; exact ⟨rfl, rfl, rfl, rfl⟩
  | _ => cases h; exact ⟨rfl, rfl, rfl, rfl⟩

theorem readExc_cons (e : Option Exc) (o : COp) (os : List COp) : readExc e (o :: os) = readExc (readExc e [o]) os := by cases o <;> rfl
theorem writeExc_cons (e : Option Exc) (o : COp) (os : List COp) : writeExc e (o :: os) = writeExc (writeExc e [o]) os := by cases o <;> rfl
theorem hasExc_cons (e : Option Exc) (o : COp) (os : List COp) : hasExc e (o :: os) = hasExc (hasExc e [o]) os := by cases o <;> rfl
theorem hasAnswer_cons (e : Int) (o : COp) (os : List COp) : hasAnswer e (o :: os) = hasAnswer (hasAnswer e [o]) os := by cases o <;> rfl

theorem csets {os : List COp} {s t : Cons} (h : Calls COp.run s os t) :
    t.readThrows = readExc s.readThrows os ∧ t.writeThrows = writeExc s.writeThrows os ∧ t.hasThrows = hasExc s.hasThrows os ∧
    t.hasReturn = hasAnswer s.hasReturn os := by
  induction h with
  | nil => exact ⟨rfl, rfl, rfl, rfl⟩
  | cons h _ ih =>
    obtain ⟨a, b, c, d⟩ := cstep h
    rw [readExc_cons, writeExc_cons, hasExc_cons, hasAnswer_cons, ← a, ← b, ← c, ← d]
    exact ih

theorem readsDone_cons (e : Option Exc) (o : COp) (os : List COp) (ho : o.setsInput = false) :
    readsDone e (o :: os) = readsDone e [o] + readsDone (readExc e [o]) os := by
  cases o <;> simp [readsDone, readExc, COp.setsInput] at ho ⊢

theorem cinput {os : List COp} {s t : Cons} (h : Calls COp.run s os t) (ho : ∀ o ∈ os, o.setsInput = false) (hp : s.pos ≤ s.fin) :
    t.input = s.input ∧ t.fin = s.fin ∧ t.pos = min s.fin (s.pos + readsDone s.readThrows os) := by
  induction h with
  | nil => exact ⟨rfl, rfl, by simp [readsDone]; omega⟩
  | @cons s s1 s2 o os h _ ih =>
    have h1 := ho o List.mem_cons_self
    have key : s1.input = s.input ∧ s1.fin = s.fin ∧ s1.pos = min s.fin (s.pos + readsDone s.readThrows [o]) := by
      cases o with
      | hasData => rw [consHasData_state h]; exact ⟨rfl, rfl, by simp [readsDone]; omega⟩
      | captured => rw [getCaptured_state h]; exact ⟨rfl, rfl, by simp [readsDone]; omega⟩
      | read =>
        rw [consRead_state h]
        refine ⟨rfl, rfl, ?_⟩
        simp only [readsDone]
        by_cases hr : s.readThrows = none
        · simp only [hr, true_and, if_true]
          split <;> omega
        · simp only [hr, false_and, if_false]
          omega
      | write c => rw [consWrite_state h]; exact ⟨rfl, rfl, by simp [readsDone]; omega⟩
      | uninit => cases h1
      | typed => cases h1
      | _ => cases h; exact ⟨rfl, rfl, by simp [readsDone]; omega⟩
    obtain ⟨a, b, c⟩ := ih (fun o ho' => ho o (List.mem_cons_of_mem _ ho')) (by rw [key.2.2, key.2.1]; omega)
    refine ⟨a.trans key.1, b.trans key.2.1, ?_⟩
    have e1 := readsDone_cons s.readThrows o os h1
    rw [← (cstep h).1] at e1
    rw [c, key.2.1, key.2.2, e1]
    omega

/-- C99. What is read is what was given, character by character in order, then 0; and where an exception was asked for, it is
raised instead and no character is lost. -/
theorem C99_reads {pre os : List COp} {b : Str} {n : Nat} {t : Cons} (h : Calls COp.run {} (pre ++ .typed b n :: os) t)
    (ho : ∀ o ∈ os, o.setsInput = false) :
    (∀ e, readExc none (pre ++ os) = some e → consRead t = .throw ⟨e, []⟩ t) ∧
    (readExc none (pre ++ os) = none → ∀ c, (b.take n)[readsDone (readExc none pre) os]? = some c → ∃ t', consRead t = .ok c.toInt t') ∧
    (readExc none (pre ++ os) = none → n ≤ readsDone (readExc none pre) os → consRead t = .ok 0 t) := by
  obtain ⟨m, h1, h2⟩ := calls_append h
  cases h2 with
  | @cons _ s1 _ _ _ h3 h4 =>
    have e1 := (csets h1).1
    have e2 := (csets h4).1
    cases h3
    obtain ⟨a, b', c⟩ := cinput h4 ho (Nat.zero_le _)
    simp only [Nat.zero_add] at a b' c
    simp only [e1] at c e2
    have e3 : t.readThrows = readExc none (pre ++ os) := by
      rw [e2]
      have : ∀ (e : Option Exc) (l : List COp), readExc e (l ++ os) = readExc (readExc e l) os := by
        intro e l
        induction l generalizing e with
        | nil => rfl
        | cons o l ih => rw [List.cons_append, readExc_cons, readExc_cons e o l]; exact ih _
      exact (this none pre).symm
    refine ⟨fun e he => ?_, fun he x hx => ?_, fun he hx => ?_⟩
    · unfold consRead; rw [e3, he]
    · rw [List.getElem?_take] at hx
      split at hx
      · next hlt =>
        have hpos : t.pos = readsDone (readExc none pre) os := by rw [c]; omega
        refine ⟨{ t with pos := t.pos + 1 }, ?_⟩
        unfold consRead
        rw [e3, he, hpos, b', a]
        simp only [if_pos hlt, hx]
      · cases hx
    · unfold consRead
      rw [e3, he]
      simp only [c, b']
      rw [if_neg (by omega)]

theorem written_cons (e : Option Exc) (o : COp) (os : List COp) (ho : o.setsCapture = false) :
    consWritten e (o :: os) = consWritten e [o] ++ consWritten (writeExc e [o]) os := by
  cases o <;> simp [consWritten, writeExc, COp.setsCapture] at ho ⊢

theorem put_text {b : Capture} {c : U8} {w : Str} (hb : b.text = w.take b.size) :
    Capture.put c (some b) = some ⟨b.size, (w ++ [c]).take b.size⟩ := by
  show some (if b.text.length < b.size then { b with text := b.text ++ [c] } else b) = _
  have hl : b.text.length = min b.size w.length := by rw [hb, List.length_take]
  by_cases h : w.length < b.size
  · rw [if_pos (by omega), hb, List.take_of_length_le (by omega : w.length ≤ b.size),
      List.take_of_length_le (by rw [List.length_append]; simp; omega)]
  · rw [if_neg (by omega), List.take_append_of_le_length (by omega), ← hb]

theorem ccapture {os : List COp} {s t : Cons} (h : Calls COp.run s os t) (ho : ∀ o ∈ os, o.setsCapture = false) {n : Nat} {w : Str}
    (hs : s.captured = some ⟨n, w.take n⟩) : t.captured = some ⟨n, (w ++ consWritten s.writeThrows os).take n⟩ := by
  induction h generalizing w with
  | nil => simpa [consWritten] using hs
  | @cons s s1 s2 o os h _ ih =>
    have h1 := ho o List.mem_cons_self
    have key : s1.captured = some ⟨n, (w ++ consWritten s.writeThrows [o]).take n⟩ := by
      cases o with
      | hasData => rw [consHasData_state h]; simpa [consWritten] using hs
      | captured => rw [getCaptured_state h]; simpa [consWritten] using hs
      | read => rw [consRead_state h]; simpa [consWritten] using hs
      | write c =>
        rw [consWrite_state h]
        simp only [consWritten]
        by_cases hr : s.writeThrows = none
        · simp only [hr, if_true, List.append_nil]
          rw [hs]; exact put_text rfl
        · simp only [hr, if_false, List.append_nil, List.nil_append]
          exact hs
      | uninit => cases h1
      | capture => cases h1
      | _ => cases h; simpa [consWritten] using hs
    rw [ih (fun o ho' => ho o (List.mem_cons_of_mem _ ho')) key, written_cons s.writeThrows o os h1, (cstep h).2.1, List.append_assoc]

/-- C99. The text captured is what was written, up to the size asked for; what raised an exception is not in it. -/
theorem C99_captured {pre os : List COp} {n : Nat} {t : Cons} (h : Calls COp.run {} (pre ++ .capture n :: os) t)
    (ho : ∀ o ∈ os, o.setsCapture = false) : getCapturedText t = .ok ((consWritten (writeExc none pre) os).take n) t := by
  obtain ⟨m, h1, h2⟩ := calls_append h
  cases h2 with
  | cons h3 h4 =>
    have e1 := (csets h1).2.1
    cases h3
    have := ccapture (w := []) h4 ho (n := n) (by simp)
    unfold getCapturedText
    rw [this]
    simp [e1]

/-- C99. A write raises the exception last asked for, if any. -/
theorem C99_write {os : List COp} {t : Cons} {c : Int} (h : Calls COp.run {} os t) :
    (∀ e, writeExc none os = some e → consWrite c t = .throw ⟨e, []⟩ t) ∧ (writeExc none os = none → ∃ t', consWrite c t = .ok () t') := by
  have e1 := (csets h).2.1
  constructor
  · intro e he; unfold consWrite; rw [e1, he]
  · intro he; unfold consWrite; rw [e1, he]; exact ⟨_, rfl⟩

/-- C99. Asking whether there is something to read gives the answer last asked for, or the exception. -/
theorem C99_has_data {os : List COp} {t : Cons} (h : Calls COp.run {} os t) :
    consHasData t = match hasExc none os with
      | some e => .throw ⟨e, []⟩ t
      | none => .ok (hasAnswer 0 os) t := by
  obtain ⟨-, -, a, b⟩ := csets h
  unfold consHasData
  rw [a, b]
  rfl

theorem clive {os : List COp} {s t : Cons} (h : Calls COp.run s os t) :
    t.live - (if t.captured.isSome then 1 else 0) = s.live - (if s.captured.isSome then 1 else 0) + recaptured s.captured.isSome os := by
  induction h with
  | nil => simp [recaptured]
  | @cons s s1 s2 o os h _ ih =>
    rw [ih]
    cases o with
    | hasData => rw [consHasData_state h]; rfl
    | captured => rw [getCaptured_state h]; rfl
    | read => rw [consRead_state h]; rfl
    | write c =>
      rw [consWrite_state h]
      have : (if s.writeThrows = none then Capture.put (BitVec.ofInt 8 c) s.captured else s.captured).isSome = s.captured.isSome := by
        split
        · cases s.captured <;> rfl
        · rfl
      simp only [this, recaptured]
    | uninit =>
      cases h
      simp only [recaptured]
      cases s.captured <;> simp
    | capture n =>
      cases h
      simp only [recaptured]
      cases s.captured <;> simp <;> omega
    | _ => cases h; rfl

/-- C99, exactly: what `ConsoleMock_Uninit` leaves on the heap is one buffer for each time that a test asked for a buffer while it
had one. -/
theorem C99_left_exactly {os : List COp} {t : Cons} (h : Calls COp.run {} os t) :
    ∃ t', consUninit t = .ok () t' ∧ t'.live = recaptured false os := by
  refine ⟨_, rfl, ?_⟩
  have := clive h
  simp only [Option.isSome_none, Bool.false_eq_true, if_false] at this
  show (if t.captured.isSome then t.live - 1 else t.live) = _
  split at this <;> simp_all

/-- Asking twice leaks the first buffer. -/
theorem C99_second_buffer_leaks_witness :
    ∃ t t', Calls COp.run {} [.capture 4, .write 0x61, .capture 8] t ∧ consUninit t = .ok () t' ∧ t'.live = 1 :=
  ⟨_, _, .cons rfl (.cons rfl (.cons rfl (.nil _))), rfl, rfl⟩

/-- Without a buffer, asking for the text captured goes through a null pointer. -/
theorem C99_no_buffer_witness : getCapturedText {} = .ub .nullDeref := rfl

example : ∃ t, Calls COp.run {} ([.readThrows (some .file)] ++ .typed [0x61, 0xFF] 2 :: [.read, .readThrows none, .read, .write 0x41]) t ∧
    readsDone (readExc none [.readThrows (some .file)]) [.read, .readThrows none, .read, .write 0x41] = 1 ∧
    (∃ t', consRead t = .ok (-1) t') :=
  ⟨_, .cons rfl (.cons rfl (.cons rfl (.cons rfl (.cons rfl (.cons rfl (.nil _)))))), rfl, _, rfl⟩

example : ∃ t, Calls COp.run {} ([.writeThrows (some .file), .uninit] ++ .capture 2 :: [.write 0x161, .writeThrows (some .file), .write 0x62, .writeThrows none, .write 0x63, .write 0x64]) t ∧
    getCapturedText t = .ok [0x61, 0x63] t :=
  ⟨_, .cons rfl (.cons rfl (.cons rfl (.cons rfl (.cons rfl (.cons rfl (.cons rfl (.cons rfl (.cons rfl (.nil _))))))))), rfl⟩

example : ∃ t, Calls COp.run {} [.hasThrows (some .file), .hasReturns 1, .hasThrows none] t ∧ consHasData t = .ok 1 t :=
  ⟨_, .cons rfl (.cons rfl (.cons rfl (.nil _))), rfl⟩

end Verif.Props
