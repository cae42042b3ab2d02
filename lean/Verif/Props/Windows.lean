import Verif.Spec.CommWindows
import Verif.Props.Comm
/-
C95: the channel to GDB when the program is built for Windows.
-/
namespace Verif.Props
open Verif Comm Spec

/-- The same channel for the Posix program, in a world where the end of the input is an error. -/
def endIsError (c : Comm) : Comm :=
  { c with input := fun n => match c.input n with
      | .eof => .error
      | r => r }

theorem windows_polling (c : Comm) : Windows.hasReceiveData c = .ok (readable c) { c with polls := c.polls + 1 } := by
  unfold Windows.hasReceiveData Windows.hasStdInDataToRead readable
  cases h : c.poll c.polls with
  | none => simp [M.tryCatch, h]
  | some b => cases b <;> simp [M.tryCatch, h]

theorem windows_asking (c : Comm) :
    Windows.isGdbConnected c = if c.connected then .ok true c else .ok (readable c) { c with polls := c.polls + 1 } := by
  unfold Windows.isGdbConnected
  cases h : c.connected with
  | true => simp [h]
  | false => simp [h, windows_polling]

/-- What the Windows program does on its channel, the Posix program does when the end of the input is an error. -/
theorem windows_step {e : CEvent} {c c1 : Comm} (h : WStep e c c1) : CStep e (endIsError c) (endIsError c1) := by
  cases e with
  | hasData r =>
    rw [WStep, windows_polling] at h
    rw [CStep, C65_polling]
    cases h; rfl
  | received v =>
    simp only [WStep, Windows.receiveChar, Windows.readStdIn, M.bind_apply] at h
    cases hi : c.input c.reads <;> simp [hi] at h
    obtain ⟨rfl, rfl⟩ := h
    simp [CStep, receiveChar, readStdIn, M.bind_apply, endIsError, hi]
  | receiveFailed =>
    obtain ⟨e, h⟩ := h
    simp only [Windows.receiveChar, Windows.readStdIn, M.bind_apply] at h
    cases hi : c.input c.reads <;> simp [hi] at h <;>
      (obtain ⟨rfl, rfl⟩ := h; simp [CStep, receiveChar, readStdIn, M.bind_apply, endIsError, hi])
  | sent v =>
    simp only [WStep, Windows.sendChar, Windows.writeStdOut] at h
    split at h <;> cases h
    rename_i hf
    simp [CStep, sendChar, writeStdOut, endIsError, hf]
  | sendFailed v =>
    obtain ⟨e, h⟩ := h
    simp only [Windows.sendChar, Windows.writeStdOut] at h
    split at h <;> cases h
    rename_i hf
    simp [CStep, sendChar, writeStdOut, endIsError, hf]
  | connected r =>
    rw [WStep, windows_asking] at h
    rw [CStep, C65_asking]
    by_cases hc : c.connected = true
    · rw [if_pos hc] at h; rw [if_pos (show (endIsError c).connected = true from hc)]; cases h; rfl
    · rw [if_neg hc] at h; rw [if_neg (show ¬ (endIsError c).connected = true from hc)]; cases h; rfl
  | stop r => cases h; rfl

theorem windows_hist {c c' : Comm} {es : List CEvent} (h : WHist c es c') : CHist (endIsError c) es (endIsError c') := by
  induction h with
  | nil c => exact .nil _
  | cons h _ ih => exact .cons (windows_step h) ih

/-- C95. The characters received, over any history, are the bytes of standard input in order, none lost and none repeated; where
the input ends or reading fails, the reception fails. -/
theorem C95_received_in_order {c c' : Comm} {es : List CEvent} (h : WHist c es c') :
    receptions es = (List.range' c.reads (receptions es).length).map (fun n => expectedWindows (c.input n)) ∧
      c'.reads = c.reads + (receptions es).length := by
  obtain ⟨h1, h2, -⟩ := C74_received_in_order (windows_hist h)
  refine ⟨?_, h2⟩
  rw [h1]
  simp only [List.length_map, List.length_range']
  apply List.map_congr_left
  intro n _
  simp only [endIsError]
  cases c.input n <;> rfl

/-- C95. What is written to standard output is the low byte of each character sent, in order, and nothing else. -/
theorem C95_sent_in_order {c c' : Comm} {es : List CEvent} (h : WHist c es c') :
    c'.sent = c.sent ++ (transmissions es).map (BitVec.ofInt 8) := by
  have h1 := C74_sent_in_order (windows_hist h)
  exact h1

/-- C95. Checking for data never raises, and reports "no data" when looking fails. -/
theorem C95_polling (c : Comm) : Windows.hasReceiveData c = .ok (readable c) { c with polls := c.polls + 1 } := windows_polling c

theorem connected_of_answer {c : Comm} (h : isGdbConnected c = .ok true c) : c.connected = true := by
  rw [C65_asking] at h
  by_cases hc : c.connected = true
  · exact hc
  · rw [if_neg hc] at h
    simp only [Out.ok.injEq] at h
    have := congrArg Comm.polls h.2
    simp at this

/-- C95. Once a character has been received the connection is reported as connected for ever, without looking at standard
input. -/
theorem C95_stays_connected {c c0 c' : Comm} {es : List CEvent} (h0 : init c = .ok () c0) (h : WHist c0 es c')
    (hr : ∃ v, CEvent.received v ∈ es) : Windows.isGdbConnected c' = .ok true c' := by
  have hi : init (endIsError c) = .ok () (endIsError c0) := by cases h0; rfl
  have h1 := connected_of_answer (C65_stays_connected hi (windows_hist h) hr)
  have : c'.connected = true := h1
  rw [windows_asking, if_pos this]

/-- C95. Until then the answer is whether there is something to read. In particular the end of the input does not make GDB
connected. -/
theorem C95_until_received {c c0 c' : Comm} {es : List CEvent} (h0 : init c = .ok () c0) (h : WHist c0 es c')
    (hr : ∀ v, CEvent.received v ∉ es) : Windows.isGdbConnected c' = .ok (readable c') { c' with polls := c'.polls + 1 } := by
  have hi : init (endIsError c) = .ok () (endIsError c0) := by cases h0; rfl
  have h1 := C65_until_received hi (windows_hist h) hr
  have : c'.connected = false := by
    cases hc : c'.connected with
    | false => rfl
    | true =>
      rw [C65_asking, if_pos (show (endIsError c').connected = true from hc)] at h1
      simp only [Out.ok.injEq] at h1
      have := congrArg Comm.polls h1.2
      simp at this
  rw [windows_asking, this]; rfl

/-- C95. When the input has ended, the next reception raises, whatever happened before; the Posix program receives the
character 0 instead (C69). -/
theorem C95_end_of_input {c c' : Comm} {es : List CEvent} (h : WHist c es c')
    (he : c.input (c.reads + (receptions es).length) = .eof) :
    Windows.receiveChar c' = .throw ⟨.file, []⟩ { c' with reads := c'.reads + 1 } ∧
      receiveChar c' = .ok 0 { c' with reads := c'.reads + 1, connected := true } := by
  have hin : c'.input = c.input := by
    clear he
    induction h with
    | nil => rfl
    | @cons c c1 c2 e es h _ ih =>
      refine ih.trans ?_
      cases e with
      | hasData r => rw [WStep, windows_polling] at h; cases h; rfl
      | received v =>
        simp only [WStep, Windows.receiveChar, Windows.readStdIn, M.bind_apply] at h
        cases hi : c.input c.reads <;> simp [hi] at h
        obtain ⟨rfl, rfl⟩ := h; rfl
      | receiveFailed =>
        obtain ⟨e, h⟩ := h
        simp only [Windows.receiveChar, Windows.readStdIn, M.bind_apply] at h
        cases hi : c.input c.reads <;> simp [hi] at h <;> (obtain ⟨rfl, rfl⟩ := h; rfl)
      | sent v =>
        simp only [WStep, Windows.sendChar, Windows.writeStdOut] at h
        split at h <;> cases h; rfl
      | sendFailed v =>
        obtain ⟨e, h⟩ := h
        simp only [Windows.sendChar, Windows.writeStdOut] at h
        split at h <;> cases h; rfl
      | connected r =>
        rw [WStep, windows_asking] at h
        split at h <;> cases h <;> rfl
      | stop r => cases h; rfl
  have hr := (C95_received_in_order h).2
  rw [← hin, ← hr] at he
  constructor
  · simp [Windows.receiveChar, Windows.readStdIn, M.bind_apply, he]
  · simp [receiveChar, readStdIn, M.bind_apply, he]

/-- A history: the first look fails, then something is there, it is received, GDB is answered and closes the pipe. -/
example : init channel = .ok () channel ∧ ∃ c', WHist channel
    [.hasData false, .connected true, .received 0x24, .connected true, .sent 0x2B, .receiveFailed] c' ∧
    receptions [.hasData false, .connected true, .received 0x24, .connected true, .sent 0x2B, .receiveFailed] = [some 0x24, none] :=
  ⟨rfl, _, .cons rfl (.cons rfl (.cons rfl (.cons rfl (.cons rfl (.cons ⟨_, rfl⟩ (.nil _)))))), rfl⟩
example : channel.input (channel.reads + (receptions [.received 0x24]).length) = .eof := rfl

end Verif.Props
