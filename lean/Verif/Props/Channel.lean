import Verif.Lemmas.PlatComm
import Verif.Spec.Channel
import Verif.Props.Platform
/-
The channel to GDB as the debug monitor core uses it: C65 and C74 for the platform calls, over any session.
-/
namespace Verif.Props
open Verif MemSim Spec Platform

/-! ### One call -/

/-- C65. Checking for data never raises: it tells what standard input reports, and "no data" when that fails. -/
theorem C65_session_polling (p : Plat) :
    commHasReceiveData p = .ok (readable p.comm) { p with comm := { p.comm with polls := p.comm.polls + 1 }, code := none } :=
  plat_hasData p

/-- What one call does to the channel and to the setting whether to wait. -/
theorem step_channel {c : PCall} {p q : Plat} (h : PStep c p q) :
    q.comm.input = p.comm.input ∧ q.comm.fails = p.comm.fails ∧ q.comm.poll = p.comm.poll ∧
    q.comm.reads = p.comm.reads + receives [c] ∧
    q.comm.sent = p.comm.sent ++ reaching p.comm.fails p.comm.writes (sends [c]) ∧
    q.comm.writes = p.comm.writes + (sends [c]).length ∧
    (p.comm.connected = true → q.comm.connected = true) ∧
    (receives [c] = 0 → q.comm.connected = p.comm.connected) ∧ q.wait = lastWait p.wait [c] := by
  have he := step_ends h
  by_cases hl : loudCall c = true
  · cases c with
    | setWait b => cases ends_ok he; simp [receives, sends, reaching, lastWait]
    | commHasData =>
      have := ends_bind_pure he
      rw [plat_hasData] at this
      cases ends_ok this; simp [receives, sends, reaching, lastWait]
    | commIsWaiting =>
      have := ends_bind_pure he
      rw [plat_isWaiting] at this
      split at this <;> (cases ends_ok this; simp [receives, sends, reaching, lastWait])
    | commReceive =>
      have := ends_bind_pure he
      rw [plat_receive] at this
      split at this
      · cases ends_ok this; simp [receives, sends, reaching, lastWait]
      · cases ends_throw this; simp [receives, sends, reaching, lastWait]
    | commSend v =>
      change Ends (commSendChar v p) q at he
      rw [plat_send] at he
      split at he
      · rename_i hf; cases ends_throw he; simp [receives, sends, reaching, lastWait, hf]
      · rename_i hf; cases ends_ok he; simp [receives, sends, reaching, lastWait, hf]
    | _ => cases hl
  · have hl : loudCall c = false := by simpa using hl
    obtain ⟨h1, h2⟩ := (quiet_run hl).keeps p q he
    have h3 : receives [c] = 0 ∧ sends [c] = [] ∧ lastWait p.wait [c] = p.wait := by
      cases c <;> first | exact ⟨rfl, rfl, rfl⟩ | cases hl
    rw [h1, h2, h3.1, h3.2.1, h3.2.2]
    simp [reaching]

theorem receives_cons (c : PCall) (cs : List PCall) : receives (c :: cs) = receives [c] + receives cs := by
  cases c <;> simp [receives] <;> omega

theorem sends_cons (c : PCall) (cs : List PCall) : sends (c :: cs) = sends [c] ++ sends cs := by
  cases c <;> simp [sends]

theorem lastWait_cons (b : Bool) (c : PCall) (cs : List PCall) : lastWait b (c :: cs) = lastWait (lastWait b [c]) cs := by
  cases c <;> rfl

theorem reaching_append (f : Nat → Bool) (n : Nat) (vs ws : List Int) :
    reaching f n (vs ++ ws) = reaching f n vs ++ reaching f (n + vs.length) ws := by
  induction vs generalizing n with
  | nil => rfl
  | cons v vs ih => simp only [List.cons_append, reaching, ih, List.append_assoc, List.length_cons]; congr 3; omega

theorem hist_channel {p q : Plat} {cs : List PCall} (h : PHist p cs q) :
    q.comm.input = p.comm.input ∧ q.comm.fails = p.comm.fails ∧ q.comm.poll = p.comm.poll ∧
    q.comm.reads = p.comm.reads + receives cs ∧
    q.comm.sent = p.comm.sent ++ reaching p.comm.fails p.comm.writes (sends cs) ∧
    (p.comm.connected = true → q.comm.connected = true) ∧
    (receives cs = 0 → q.comm.connected = p.comm.connected) ∧ q.wait = lastWait p.wait cs := by
  induction h with
  | nil p => simp [receives, sends, reaching, lastWait]
  | @cons p p1 p2 c cs h t ih =>
    obtain ⟨a1, a2, a3, a4, a5, a6, a7, a8, a9⟩ := step_channel h
    obtain ⟨b1, b2, b3, b4, b5, b6, b7, b8⟩ := ih
    refine ⟨b1.trans a1, b2.trans a2, b3.trans a3, ?_, ?_, fun h => b6 (a7 h), fun h => ?_, ?_⟩
    · rw [b4, a4, receives_cons c cs]; omega
    · rw [b5, a5, a2, a6, sends_cons c cs, reaching_append, List.append_assoc]
    · rw [receives_cons] at h
      rw [b7 (by omega), a8 (by omega)]
    · rw [b8, a9, ← lastWait_cons]
  | packet b c _ ih => exact ih

/-! ### C65 -/

/-- C65. Once a character was received, then whatever the session does next, GDB is taken to be connected for ever, and
standard input is not looked at to find out. -/
theorem C65_session_stays_connected {p p1 q : Plat} {v : Int} {cs : List PCall} (hr : commReceiveChar p = .ok v p1)
    (h : PHist p1 cs q) : commIsWaitingForGdbToConnect q = .ok false q := by
  have h1 : p1.comm.connected = true := by
    rw [plat_receive] at hr
    split at hr <;> cases hr
    rfl
  rw [plat_isWaiting, if_pos ((hist_channel h).2.2.2.2.2.1 h1)]

/-- C65. As long as nothing is received, the session waits for GDB exactly as long as there is nothing to read; a failing
look counts as nothing. -/
theorem C65_session_waits {p q : Plat} {cs : List PCall} (h0 : p.comm.connected = false) (h : PHist p cs q)
    (hr : PCall.commReceive ∉ cs) :
    commIsWaitingForGdbToConnect q =
      .ok (!readable q.comm) { q with comm := { q.comm with polls := q.comm.polls + 1 }, code := none } := by
  have hz : receives cs = 0 := by
    clear h
    induction cs with
    | nil => rfl
    | cons c cs ih =>
      have := ih fun hm => hr (List.mem_cons_of_mem _ hm)
      rw [receives_cons, this]
      cases c <;> first | rfl | exact (hr (List.mem_cons_self ..)).elim
  have := (hist_channel h).2.2.2.2.2.2.1 hz
  rw [plat_isWaiting, if_neg (by simp [this, h0])]

/-- C65. A reception that fails does not make GDB connected. -/
theorem C65_session_failed_reception {p p1 : Plat} {e : Exn} (hr : commReceiveChar p = .throw e p1) :
    p1.comm.connected = p.comm.connected := by
  rw [plat_receive] at hr
  split at hr <;> cases hr
  rfl

/-- C65. Whether the debugger should wait for GDB is what was last set. -/
theorem C65_session_should_wait {p q : Plat} {cs : List PCall} (h : PHist p cs q) :
    commShouldWaitForGdbConnect q = .ok (lastWait p.wait cs) q := by
  rw [← (hist_channel h).2.2.2.2.2.2.2]; rfl

/-! ### C74 -/

/-- C74. Over any session, the `n`-th reception (counting from 0) yields the `n`-th byte of standard input: none is lost or
repeated, whatever else is done in between. At its end 0 is received, and where reading fails an exception is raised. -/
theorem C74_session_received {p q : Plat} {cs : List PCall} (h : PHist p cs q) :
    commReceiveChar q = match expected (p.comm.input (p.comm.reads + receives cs)) with
      | some v => .ok v { q with comm := { q.comm with reads := q.comm.reads + 1, connected := true } }
      | none => .throw ⟨.file, []⟩ { q with comm := { q.comm with reads := q.comm.reads + 1 } } := by
  obtain ⟨h1, -, -, h4, -⟩ := hist_channel h
  rw [← h1, ← h4]; exact plat_receive q

/-- C74. Over any session, what reaches standard output is the low byte of each character sent, in order, except those whose
write fails, and nothing else. -/
theorem C74_session_sent {p q : Plat} {cs : List PCall} (h : PHist p cs q) :
    q.comm.sent = p.comm.sent ++ reaching p.comm.fails p.comm.writes (sends cs) := (hist_channel h).2.2.2.2.1

/-- C74. Sending raises exactly when the write fails, and changes nothing but what was sent. -/
theorem C74_session_send_reports (v : Int) (p : Plat) :
    commSendChar v p =
      if p.comm.fails p.comm.writes then .throw ⟨.file, []⟩ { p with comm := { p.comm with writes := p.comm.writes + 1 } }
      else .ok () { p with comm := { p.comm with writes := p.comm.writes + 1, sent := p.comm.sent ++ [BitVec.ofInt 8 v] } } :=
  plat_send v p

/-- GDB sends "+" and then "$"; the second write fails. -/
def talk : Plat :=
  { platDemo with comm := { poll := fun n => if n = 0 then none else some true,
                            input := fun n => if n = 0 then .byte 0x2B else if n = 1 then .byte 0x24 else .eof,
                            fails := fun n => n == 1 } }

/-- The session waits for GDB, receives its first character, reads memory and answers. -/
def talkCalls : List PCall :=
  [.init, .setWait false, .commIsWaiting, .commIsWaiting, .commReceive, .memRead .w32 0xE000ED28, .commHasData, .commSend 0x24]

example : ∃ q, PHist talk talkCalls q ∧ q.comm.sent = [0x24] ∧ commIsWaitingForGdbToConnect q = .ok false q ∧
    commShouldWaitForGdbConnect q = .ok false q := by
  obtain ⟨q, hq⟩ := Option.isSome_iff_exists.1 (show (runCalls talkCalls talk).isSome = true by decide +kernel)
  have hc : (runCalls talkCalls talk).map (·.comm.connected) = some true := by decide +kernel
  rw [hq] at hc
  have h := runCalls_hist hq
  refine ⟨q, h, (C74_session_sent h).trans rfl, ?_, (C65_session_should_wait h).trans rfl⟩
  rw [plat_isWaiting, if_pos (by simpa using hc)]
example : sends talkCalls = [0x24] ∧ receives talkCalls = 1 := ⟨rfl, rfl⟩
example : expected (talk.comm.input (talk.comm.reads + receives talkCalls)) = some 0x24 := by decide
example : reaching talk.comm.fails 0 [0x24, 0x4F, 0x12B] = [0x24, 0x2B] := by decide
example : talk.comm.fails 0 = false ∧ talk.comm.fails 1 = true := ⟨rfl, rfl⟩
example : readable talk.comm = false := rfl

end Verif.Props
