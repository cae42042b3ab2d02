import Verif.Spec.Comm
/-
The communication channel: C65, C74.
-/
namespace Verif.Props
open Verif Comm Spec

/-- A channel on which GDB sends "$", then closes the pipe; the first look at it fails. -/
def channel : Comm where
  poll := fun n => if n = 0 then none else some true
  input := fun n => if n = 0 then .byte 0x24 else .eof
  fails := fun _ => false

/-! ### C65 -/

/-- C65. Checking for data never raises: it tells what standard input reports, and "no data" when that fails. Nothing else
changes. -/
theorem C65_polling (c : Comm) : hasReceiveData c = .ok (readable c) { c with polls := c.polls + 1 } := by
  unfold hasReceiveData hasStdInDataToRead readable
  cases h : c.poll c.polls with
  | none => simp [M.tryCatch, h]
  | some b => cases b <;> simp [M.tryCatch, h]

/-- C65. Asking for the connection never raises either. -/
theorem C65_asking (c : Comm) : isGdbConnected c = if c.connected then .ok true c else .ok (readable c) { c with polls := c.polls + 1 } := by
  unfold isGdbConnected
  cases h : c.connected with
  | true => simp [h]
  | false => simp [h, C65_polling]

theorem step_connected {e : CEvent} {c c1 : Comm} (h : CStep e c c1) : c1.connected = (c.connected || (match e with | .received _ => true | _ => false)) := by
  cases e with
  | hasData r =>
    rw [CStep, C65_polling] at h
    cases h; simp
  | received v =>
    simp only [CStep, receiveChar, readStdIn, M.bind_apply] at h
    cases hi : c.input c.reads <;> simp [hi] at h <;> (obtain ⟨-, rfl⟩ := h; simp)
  | receiveFailed =>
    obtain ⟨e, h⟩ := h
    simp only [receiveChar, readStdIn, M.bind_apply] at h
    cases hi : c.input c.reads <;> simp [hi] at h
    obtain ⟨-, rfl⟩ := h; simp
  | sent v =>
    simp only [CStep, sendChar, writeStdOut] at h
    split at h <;> cases h; simp
  | sendFailed v =>
    obtain ⟨e, h⟩ := h
    simp only [sendChar, writeStdOut] at h
    split at h <;> cases h; simp
  | connected r =>
    rw [CStep, C65_asking] at h
    split at h <;> cases h <;> simp
  | stop r => cases h; simp

/-- C65. Whatever happens on the channel after it was opened: once a character has been received the connection is reported
as connected, without looking at standard input, and for ever, since the history goes on arbitrarily. -/
theorem C65_stays_connected {c c0 c' : Comm} {es : List CEvent} (_h0 : init c = .ok () c0) (h : CHist c0 es c')
    (hr : ∃ v, CEvent.received v ∈ es) : isGdbConnected c' = .ok true c' := by
  have key : c'.connected = true := by
    clear _h0
    induction h with
    | nil c => simp at hr
    | @cons c c1 c2 e es hs t ih =>
      have hc := step_connected hs
      by_cases hm : ∃ v, CEvent.received v ∈ es
      · exact ih hm
      · obtain ⟨v, hv⟩ := hr
        rcases List.mem_cons.1 hv with rfl | hv
        · have h1 : c1.connected = true := by rw [hc]; simp
          clear ih hs hc
          induction t with
          | nil => exact h1
          | @cons a b d e' es' hs' t' ih' =>
            refine ih' (fun ⟨w, hw⟩ => hm ⟨w, List.mem_cons_of_mem _ hw⟩) ?_ ?_
            · exact List.mem_cons_self
            · rw [step_connected hs', h1]; simp
        · exact absurd ⟨v, hv⟩ hm
  rw [C65_asking, key]; rfl

/-- C65. Until then (failed receptions do not count) the answer is whether there is something to read. -/
theorem C65_until_received {c c0 c' : Comm} {es : List CEvent} (h0 : init c = .ok () c0) (h : CHist c0 es c')
    (hr : ∀ v, CEvent.received v ∉ es) : isGdbConnected c' = .ok (readable c') { c' with polls := c'.polls + 1 } := by
  have key : c'.connected = false := by
    have hc0 : c0.connected = false := by cases h0; rfl
    clear h0
    induction h with
    | nil c => exact hc0
    | @cons c c1 c2 e es hs t ih =>
      refine ih (fun v hv => hr v (List.mem_cons_of_mem _ hv)) ?_
      have hc := step_connected hs
      cases e with
      | received v => exact absurd List.mem_cons_self (hr v)
      | _ => rw [hc, hc0]; rfl
  rw [C65_asking, key]; rfl

/-- A history: the first look fails, then something is there, then it is received and GDB is connected, though the pipe is
closed. -/
example : init channel = .ok () channel ∧ ∃ c', CHist channel [.hasData false, .connected true, .received 0x24, .connected true, .received 0] c' :=
  ⟨rfl, _, .cons rfl (.cons rfl (.cons rfl (.cons rfl (.cons rfl (.nil _)))))⟩

/-! ### C74 -/

theorem step_reads {e : CEvent} {c c1 : Comm} (h : CStep e c c1) : c1.input = c.input ∧ c1.reads = c.reads + (receptions [e]).length ∧
    receptions [e] = (List.range' c.reads (receptions [e]).length).map (fun n => expected (c.input n)) ∧
    c1.sent = c.sent ++ (transmissions [e]).map (BitVec.ofInt 8) := by
  cases e with
  | hasData r =>
    rw [CStep, C65_polling] at h
    cases h; simp [receptions, transmissions]
  | received v =>
    simp only [CStep, receiveChar, readStdIn, M.bind_apply] at h
    cases hi : c.input c.reads with
    | error => simp [hi] at h
    | eof =>
      simp [hi] at h
      obtain ⟨rfl, rfl⟩ := h
      simp [receptions, transmissions, hi, expected]
    | byte b =>
      simp [hi] at h
      obtain ⟨rfl, rfl⟩ := h
      have hx : expected (c.input c.reads) = some b.toInt := by
        have := b.isLt
        rw [hi, expected, BitVec.toInt]
        split <;> split <;> first | rfl | omega
      simp [receptions, transmissions, hx]
  | receiveFailed =>
    obtain ⟨e, h⟩ := h
    simp only [receiveChar, readStdIn, M.bind_apply] at h
    cases hi : c.input c.reads <;> simp [hi] at h
    obtain ⟨-, rfl⟩ := h
    simp [receptions, transmissions, hi, expected]
  | sent v =>
    simp only [CStep, sendChar, writeStdOut] at h
    split at h <;> cases h; simp [receptions, transmissions]
  | sendFailed v =>
    obtain ⟨e, h⟩ := h
    simp only [sendChar, writeStdOut] at h
    split at h <;> cases h; simp [receptions, transmissions]
  | connected r =>
    rw [CStep, C65_asking] at h
    split at h <;> cases h <;> simp [receptions, transmissions]
  | stop r => cases h; simp [receptions, transmissions]

theorem receptions_cons (e : CEvent) (es : List CEvent) : receptions (e :: es) = receptions [e] ++ receptions es := by
  cases e <;> rfl

theorem transmissions_cons (e : CEvent) (es : List CEvent) : transmissions (e :: es) = transmissions [e] ++ transmissions es := by
  cases e <;> rfl

/-- C74. The characters received, over any history, are the bytes of standard input in order, none lost and none repeated,
whatever else is done on the channel in between. -/
theorem C74_received_in_order {c c' : Comm} {es : List CEvent} (h : CHist c es c') :
    receptions es = (List.range' c.reads (receptions es).length).map (fun n => expected (c.input n)) ∧
      c'.reads = c.reads + (receptions es).length ∧ c'.input = c.input := by
  induction h with
  | nil c => simp [receptions]
  | @cons c c1 c2 e es hs t ih =>
    obtain ⟨h1, h2, h3, -⟩ := step_reads hs
    obtain ⟨i1, i2, i3⟩ := ih
    rw [receptions_cons, List.length_append, ← List.range'_append_1, List.map_append, ← h3, ← h2]
    rw [h1] at i1 i3
    exact ⟨by rw [← i1], by omega, i3⟩

/-- C74. What is written to standard output is the low byte of each character sent, in order, and nothing else. -/
theorem C74_sent_in_order {c c' : Comm} {es : List CEvent} (h : CHist c es c') :
    c'.sent = c.sent ++ (transmissions es).map (BitVec.ofInt 8) := by
  induction h with
  | nil c => simp [transmissions]
  | @cons c c1 c2 e es hs t ih =>
    rw [ih, (step_reads hs).2.2.2, transmissions_cons e es, List.map_append, List.append_assoc]

/-- In this history a character, the end of the input and an answer occur. -/
example : ∃ c', CHist channel [.received 0x24, .sent 0x2B, .hasData false, .received 0, .sent 0x24] c' ∧
    receptions [.received 0x24, .sent 0x2B, .hasData false, .received 0, .sent 0x24] = [some 0x24, some 0] :=
  ⟨_, .cons rfl (.cons rfl (.cons rfl (.cons rfl (.cons rfl (.nil _))))), rfl⟩

end Verif.Props
