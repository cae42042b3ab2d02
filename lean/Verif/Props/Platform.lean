import Verif.Lemmas.PlatPacket
import Verif.Props.Demo
/-
Properties of the debugger's view of the crashed program.
-/
namespace Verif.Props
open Verif MemSim Spec Platform

/-! ### A concrete state -/

/-- The fault registers from CFSR to BFAR. -/
def faultRegisters : Region where
  baseAddress := 0xE000ED28
  size := 20
  data := [0x82, 0x02, 0x00, 0x02, 0x00, 0x00, 0x00, 0x40, 0, 0, 0, 0, 0x10, 0x32, 0x54, 0x76, 0, 0, 0, 0]

/-- Memory with the fault registers. -/
def platMem : Sim := { regions := [faultRegisters], heap := goodHeap }

/-- A hard fault, with floating point registers. -/
def platDemo : Plat :=
  { mem := platMem,
    ctx := { flags := 1, r := (List.range 19).map (BitVec.ofNat 32 ·), psr := 3, fpr := (List.range 33).map (BitVec.ofNat 32 <| 0x3F800000 + ·) },
    comm := { poll := fun _ => some true, input := fun _ => .byte 0x2B, fails := fun _ => false },
    buf := { data := List.replicate 1024 0 } }

theorem platMem_sound : Sound platMem := by decide
theorem platMem_unwatched : Unwatched platMem := by decide

/-! ### C57: memory faults are counted and reported once -/

/-- A read that the simulator performs gives its result; no fault is counted. -/
theorem C57_read_succeeds {w : Width} {a : U32} {p : Plat} {v : BitVec w.bits} {s : Sim}
    (h : IMemory.read w a p.mem = .ok v s) : memRead w a p = .ok v { p with mem := s, code := none } := memRead_ok h

/-- A read that the simulator refuses gives 0 and is counted. No exception reaches the caller. -/
theorem C57_read_faults {w : Width} {a : U32} {p : Plat} {e : Exn} {s : Sim} (hn : p.faults + 1 < 2 ^ 31)
    (h : IMemory.read w a p.mem = .throw e s) :
    memRead w a p = .ok 0 { p with mem := s, code := some e.code, faults := p.faults + 1 } := by
  rw [memRead_fault h, if_pos hn]

/-- A write that the simulator performs has its effect; no fault is counted. -/
theorem C57_write_succeeds {w : Width} {a : U32} {v : BitVec w.bits} {p : Plat} {s : Sim}
    (h : IMemory.write w a v p.mem = .ok () s) : memWrite w a v p = .ok () { p with mem := s, code := none } := memWrite_ok h

/-- A write that the simulator refuses is counted. No exception reaches the caller. -/
theorem C57_write_faults {w : Width} {a : U32} {v : BitVec w.bits} {p : Plat} {e : Exn} {s : Sim} (hn : p.faults + 1 < 2 ^ 31)
    (h : IMemory.write w a v p.mem = .throw e s) :
    memWrite w a v p = .ok () { p with mem := s, code := some e.code, faults := p.faults + 1 } := by
  rw [memWrite_fault h, if_pos hn]

/-- Every history of platform calls has a number of refused accesses since the last report or initialisation. -/
theorem C57_counted {p q : Plat} {cs : List PCall} (h : PHist p cs q) (k : Nat) : ∃ n, FaultsSince p cs q k n := by
  induction h generalizing k with
  | nil p => exact ⟨k, .nil p k⟩
  | @cons p p1 p2 c cs hs _ ih =>
    by_cases hr : Resets c = true
    · obtain ⟨n, hn⟩ := ih 0
      exact ⟨n, .reset hr hs hn⟩
    · by_cases hf : Faults c p
      · obtain ⟨n, hn⟩ := ih (k + 1)
        exact ⟨n, .fault hf hs hn⟩
      · obtain ⟨n, hn⟩ := ih k
        exact ⟨n, .other hf (by simpa using hr) hs hn⟩
  | packet b c _ ih =>
    obtain ⟨n, hn⟩ := ih k
    exact ⟨n, .packet b c hn⟩

theorem faults_eq {p q : Plat} {cs : List PCall} {k n : Nat} (hk : p.faults = k) (h : FaultsSince p cs q k n) : q.faults = n := by
  induction h with
  | nil => exact hk
  | fault hf hs _ ih => exact ih (by rw [fault_step hf hs, hk])
  | reset hr hs _ ih => exact ih (reset_step hr hs)
  | other hf hr hs _ ih => exact ih (by rw [other_step hf hr hs, hk])
  | packet b c _ ih => exact ih hk

/-- After any history of platform calls, asking for faults gives the number of accesses refused since the last time it was
asked (or since initialisation), and asking again gives 0. -/
theorem C57_reported {p q : Plat} {cs : List PCall} {n : Nat} (h : FaultsSince p cs q p.faults n) :
    wasMemoryFaultEncountered q = .ok n { q with faults := 0 } ∧
      wasMemoryFaultEncountered { q with faults := 0 } = .ok 0 { q with faults := 0 } := by
  have := faults_eq rfl h
  subst this
  exact ⟨rfl, rfl⟩

/-- A history with two refused accesses, a report, and another refused access. -/
def faultCalls : List PCall :=
  [.init, .memRead .w32 0, .memRead .w32 0xE000ED28, .memWrite .w8 4 7, .wasFault, .memRead .w8 8]

/-- Running calls that return normally. -/
def runCalls : List PCall → Plat → Option Plat
  | [], p => some p
  | c :: cs, p => match c.run p with
    | .ok () q => runCalls cs q
    | _ => none

theorem runCalls_hist {cs : List PCall} {p q : Plat} (h : runCalls cs p = some q) : PHist p cs q := by
  induction cs generalizing p with
  | nil => simp only [runCalls, Option.some.injEq] at h; subst h; exact .nil p
  | cons c cs ih =>
    unfold runCalls at h
    split at h
    · rename_i r e; exact .cons (.inl e) (ih h)
    · cases h

example : (runCalls faultCalls platDemo).isSome = true := by decide +kernel
example : (runCalls faultCalls platDemo).map (·.faults) = some 1 := by decide +kernel
example : (runCalls (faultCalls.take 4) platDemo).map (·.faults) = some 2 := by decide +kernel
example : ∃ q n, PHist platDemo faultCalls q ∧ FaultsSince platDemo faultCalls q platDemo.faults n := by
  obtain ⟨q, hq⟩ := Option.isSome_iff_exists.1 (show (runCalls faultCalls platDemo).isSome = true by decide +kernel)
  obtain ⟨n, hn⟩ := C57_counted (runCalls_hist hq) platDemo.faults
  exact ⟨q, n, runCalls_hist hq, hn⟩
example : ∃ v s, IMemory.read .w32 0xE000ED28 platDemo.mem = .ok v s := ⟨_, _, rfl⟩
example : ∃ e s, IMemory.write .w8 4 7 platDemo.mem = .throw e s := ⟨_, _, rfl⟩

/-! ### C58: the signal -/

/-- The reported signal is determined by the low byte of the exception PSR. Nothing is changed. -/
theorem C58_signal (p : Plat) : determineCauseOfException p = .ok (signalFor (p.ctx.psr.toNat % 256)) p := by
  have hn := low_byte p.ctx.psr
  have hcmp : ∀ k : Nat, k < 2 ^ 32 → (p.ctx.psr &&& 0xFF = BitVec.ofNat 32 k ↔ p.ctx.psr.toNat % 256 = k) := by
    intro k hk
    rw [← hn, ← BitVec.toNat_inj, BitVec.toNat_ofNat, Nat.mod_eq_of_lt hk]
  have h2 : p.ctx.psr &&& 0xFF = (2 : U32) ↔ _ := hcmp 2 (by decide)
  have h3 : p.ctx.psr &&& 0xFF = (3 : U32) ↔ _ := hcmp 3 (by decide)
  have h4 : p.ctx.psr &&& 0xFF = (4 : U32) ↔ _ := hcmp 4 (by decide)
  have h5 : p.ctx.psr &&& 0xFF = (5 : U32) ↔ _ := hcmp 5 (by decide)
  have h6 : p.ctx.psr &&& 0xFF = (6 : U32) ↔ _ := hcmp 6 (by decide)
  have h12 : p.ctx.psr &&& 0xFF = (12 : U32) ↔ _ := hcmp 12 (by decide)
  unfold determineCauseOfException exceptionNumber
  simp only [M.bind_apply, M.get_apply, M.pure_apply, h2, h3, h4, h5, h6, h12]
  generalize p.ctx.psr.toNat % 256 = n
  by_cases c2 : n = 2; · subst c2; rfl
  by_cases c3 : n = 3; · subst c3; rfl
  by_cases c4 : n = 4; · subst c4; rfl
  by_cases c5 : n = 5; · subst c5; rfl
  by_cases c6 : n = 6; · subst c6; rfl
  by_cases c12 : n = 12; · subst c12; rfl
  simp only [c2, c3, c4, c5, c6, c12, if_false, M.pure_apply]
  congr 1
  unfold signalFor
  split <;> first | contradiction | rfl

example : determineCauseOfException platDemo = .ok .SIGSEGV platDemo := C58_signal platDemo

/-! ### C59: the fault report -/

/-- The fault report is the text specified for the exception number and the contents of the fault status registers; it is
written to the console, no exception is raised, and nothing else changes. -/
theorem C59_report {p : Plat} (hs : Sound p.mem) (hu : Unwatched p.mem) :
    ∃ c, displayFaultCause p = .ok ()
      { p with console := p.console ++ faultReport (wordIn p.mem) (p.ctx.psr.toNat % 256), code := c } :=
  displayFaultCause_eq hs hu

/-- What "the 32-bit value at an address" in the report means: with memory there, the four bytes; without, nothing. -/
theorem C59_registers {s : Sim} (hs : Sound s) (hu : Unwatched s) (a : U32) :
    (¬ Mapped s a 4 → wordIn s a = none) ∧
      ∀ i r off, Target s a 4 i r off → ∃ v, wordIn s a = some v ∧ ∀ j < 4, r.data[off + j]? = some (byteOf v j) := by
  constructor
  · intro hm
    unfold wordIn
    rw [read_eq, show Width.w32.bytes = 4 from rfl, readN_unmapped hm]
  · intro i r off ht
    have hi := ht.info hs
    rcases read32_still hs hu a with ⟨v, e⟩ | e
    · refine ⟨v, by unfold wordIn; rw [e], fun j hj => ?_⟩
      exact read_bytes hs (w := .w32) ht e j hj
    · exfalso
      rcases read_progress hs (fun q hq => by rw [hu.1 q hq]; exact hu.2) (w := .w32) ht with ⟨v, s', e'⟩ | ⟨hw, -⟩
      · rw [e] at e'; cases e'
      · cases hw

example : faultReport (wordIn platDemo.mem) (platDemo.ctx.psr.toNat % 256) =
    asc ("\n**Hard Fault**\n  Status Register: 0x40000000\n    Forced\n**MPU Fault**\n  Status Register: 0x82" ++
      "\n    Fault Address: 0x76543210\n    Data Access\n**Bus Fault**\n  Status Register: 0x02\n    Precise Data Access" ++
      "\n**Usage Fault**\n  Status Register: 0x0200\n    Divide by Zero\n") := by decide +kernel

/-! ### C60: the registers -/

/-- The registers are sent as the little-endian hexadecimal text of R0 to PSP, followed by s0 to FPSCR if the context has
floating point. Only the packet buffer changes, and in it nothing behind the text. -/
theorem C60_sent {p : Plat} (hroom : p.buf.pos + 2 * (packetBytes p.ctx).length ≤ p.buf.data.length) :
    ∃ b, copyContextToBuffer p = .ok () { p with buf := b } ∧ written b = written p.buf ++ hexOf (packetBytes p.ctx) ∧
      b.data.length = p.buf.data.length ∧ remaining b = p.buf.data.drop b.pos := by
  refine ⟨_, copyTo_eq hroom, ?_, put_length (by rw [hexOf_length]; exact hroom), ?_⟩
  all_goals
    have hl : (p.buf.data.take p.buf.pos ++ hexOf (packetBytes p.ctx)).length = p.buf.pos + (hexOf (packetBytes p.ctx)).length := by
      simp; omega
  · exact List.take_left' hl
  · exact List.drop_left' hl

/-- mri's packet buffer has room for all registers. -/
theorem C60_room {c : Regs} (h : RegsWF c) : 2 * (packetBytes c).length ≤ packetBufferSize := by
  rw [packetBytes_length, h.1, h.2]
  split <;> decide

/-- A packet with the hexadecimal text, in either case, of the registers `c` sets exactly these registers. -/
theorem C60_received {p : Plat} {c : Regs} {t u : Str} (hp : RegsWF p.ctx) (hc : RegsWF c)
    (hf : hasFloat c.flags = hasFloat p.ctx.flags) (hb : remaining p.buf = t ++ u) (ht : HexPairs t (packetBytes c)) :
    copyContextFromBuffer p = .ok () { p with
      ctx := { p.ctx with r := c.r, fpr := if hasFloat p.ctx.flags then c.fpr else p.ctx.fpr },
      buf := { p.buf with pos := p.buf.pos + t.length } } :=
  copyFrom_eq (hc.1.trans hp.1.symm) (hc.2.trans hp.2.symm) hf hb ht

/-- The round trip: the text that was sent, fed back into any state of the same kind, restores the registers. -/
theorem C60_round_trip {p q : Plat} (hp : RegsWF p.ctx) (hq : RegsWF q.ctx)
    (hf : hasFloat p.ctx.flags = hasFloat q.ctx.flags) (h0 : p.buf.pos = 0)
    (hroom : 2 * (packetBytes p.ctx).length ≤ p.buf.data.length) :
    ∃ b, copyContextToBuffer p = .ok () { p with buf := b } ∧
      ∃ b', copyContextFromBuffer { q with buf := { b with pos := 0 } } = .ok () { q with
        ctx := { q.ctx with r := p.ctx.r, fpr := if hasFloat p.ctx.flags then p.ctx.fpr else q.ctx.fpr }, buf := b' } := by
  obtain ⟨b, e, hw, -, -⟩ := C60_sent (p := p) (by omega)
  refine ⟨b, e, { b with pos := 0 + (hexOf (packetBytes p.ctx)).length }, ?_⟩
  have hrem : remaining { b with pos := 0 } = hexOf (packetBytes p.ctx) ++ b.data.drop b.pos := by
    unfold written at hw
    rw [h0, List.take_zero, List.nil_append] at hw
    unfold remaining
    rw [← hw]; simp
  rw [hf]
  exact C60_received (p := { q with buf := { b with pos := 0 } }) hq hp hf hrem (hexPairs_hexOf _)

theorem platDemo_regs : RegsWF platDemo.ctx := ⟨rfl, rfl⟩
example : platDemo.buf.pos + 2 * (packetBytes platDemo.ctx).length ≤ platDemo.buf.data.length := by decide +kernel
example : (hexOf (packetBytes platDemo.ctx)).take 16 = asc "0000000001000000" := by decide +kernel
example : hasFloat platDemo.ctx.flags = true := by decide

/-! ### C73: malformed register packets -/

/-- Every packet either sets the registers to what it says, or raises an exception after having stored just the bytes before
the first place where two hexadecimal digits were missing; nothing else changes but the position in the buffer. -/
theorem C73_any_packet (p : Plat) :
    (∃ t bs u r fpr, remaining p.buf = t ++ u ∧ HexPairs t bs ∧ bs.length = (packetBytes p.ctx).length ∧
      packetBytes { p.ctx with r := r, fpr := fpr } = bs ∧ r.length = p.ctx.r.length ∧ fpr.length = p.ctx.fpr.length ∧
      copyContextFromBuffer p = .ok () { p with
        ctx := { p.ctx with r := r, fpr := if hasFloat p.ctx.flags then fpr else p.ctx.fpr },
        buf := { p.buf with pos := p.buf.pos + t.length } }) ∨
    ∃ t bs u c r fpr b, remaining p.buf = t ++ u ∧ HexPairs t bs ∧ bs.length < (packetBytes p.ctx).length ∧ BadPair u c ∧
      copyContextFromBuffer p = .throw ⟨c, []⟩ { p with ctx := { p.ctx with r := r, fpr := fpr }, buf := b } ∧
      b.data = p.buf.data ∧ r.length = p.ctx.r.length ∧ fpr.length = p.ctx.fpr.length ∧
      (hasFloat p.ctx.flags = false → fpr = p.ctx.fpr) ∧
      packetBytes { p.ctx with r := r, fpr := fpr } = bs ++ (packetBytes p.ctx).drop bs.length := by
  rcases pairs_or_bad (packetBytes p.ctx).length (remaining p.buf) with ⟨t, bs, u, e, h, hl⟩ | ⟨t, bs, u, c, e, h, hl, hb⟩
  · left
    obtain ⟨r, fpr, h1, h2, h3⟩ := regs_of_bytes hl
    refine ⟨t, bs, u, r, fpr, e, h, hl, h3, h1, h2, ?_⟩
    exact copyFrom_eq (c := { p.ctx with r := r, fpr := fpr }) h1 h2 rfl e (h3 ▸ h)
  · right
    obtain ⟨r, fpr, b, h1, h2, h3, h4, h5, h6⟩ := copyFrom_bad e h hl hb
    exact ⟨t, bs, u, c, r, fpr, b, e, h, hl, hb, h1, h2, h3, h4, h5, h6⟩

/-- Does the code raise this exception? -/
def raises (o : Out σ α) (c : Exc) : Bool := match o with
  | .throw e _ => e.code = c
  | _ => false

example : raises (copyContextFromBuffer { platDemo with buf := { data := asc "0102030x" } }) .invalidHexDigit = true := by
  decide +kernel
example : raises (copyContextFromBuffer { platDemo with buf := { data := asc "010203" } }) .bufferOverrun = true := by
  decide +kernel

/-! ### C61: the stop reply -/

/-- One field of the stop reply. -/
def stopField (number : String) (v : U32) : Str := asc number ++ (asc ":" ++ (hexOf (le32 v) ++ asc ";"))

/-- The stop reply gets exactly four fields, with R12, SP, LR and PC. Only the packet buffer changes. -/
theorem C61_stop_reply {p : Plat} {r12 sp lr pc : U32} (h12 : p.ctx.r[12]? = some r12) (hsp : p.ctx.r[13]? = some sp)
    (hlr : p.ctx.r[14]? = some lr) (hpc : p.ctx.r[15]? = some pc) (hroom : p.buf.pos + 48 ≤ p.buf.data.length) :
    ∃ b, writeTResponseRegisters p = .ok () { p with buf := b } ∧
      written b = written p.buf ++ (stopField "0c" r12 ++ (stopField "0d" sp ++ (stopField "0e" lr ++ stopField "0f" pc))) ∧
      remaining b = p.buf.data.drop b.pos := by
  have e12 : ∀ v, hex2 12 ++ ([0x3A] ++ (hexOf (le32 v) ++ [0x3B])) = stopField "0c" v := by
    intro v; rw [show hex2 12 = asc "0c" by decide +kernel, show ([0x3A] : Str) = asc ":" by decide +kernel, show ([0x3B] : Str) = asc ";" by decide +kernel]; rfl
  have e13 : ∀ v, hex2 13 ++ ([0x3A] ++ (hexOf (le32 v) ++ [0x3B])) = stopField "0d" v := by
    intro v; rw [show hex2 13 = asc "0d" by decide +kernel, show ([0x3A] : Str) = asc ":" by decide +kernel, show ([0x3B] : Str) = asc ";" by decide +kernel]; rfl
  have e14 : ∀ v, hex2 14 ++ ([0x3A] ++ (hexOf (le32 v) ++ [0x3B])) = stopField "0e" v := by
    intro v; rw [show hex2 14 = asc "0e" by decide +kernel, show ([0x3A] : Str) = asc ":" by decide +kernel, show ([0x3B] : Str) = asc ";" by decide +kernel]; rfl
  have e15 : ∀ v, hex2 15 ++ ([0x3A] ++ (hexOf (le32 v) ++ [0x3B])) = stopField "0f" v := by
    intro v; rw [show hex2 15 = asc "0f" by decide +kernel, show ([0x3A] : Str) = asc ":" by decide +kernel, show ([0x3B] : Str) = asc ";" by decide +kernel]; rfl
  have w12 := Writes.reg 12 r12; rw [e12] at w12
  have w13 := Writes.reg 13 sp; rw [e13] at w13
  have w14 := Writes.reg 14 lr; rw [e14] at w14
  have w15 := Writes.reg 15 pc; rw [e15] at w15
  have len : ∀ n v, (asc n).length = 2 → (stopField n v).length = 12 := by
    intro n v hn
    have h1 : (asc ":").length = 1 := by decide +kernel
    have h2 : (asc ";").length = 1 := by decide +kernel
    simp only [stopField, List.length_append, hexOf_length, hn, h1, h2]
    rfl
  have l12 := len "0c" r12 (by decide +kernel)
  have l13 := len "0d" sp (by decide +kernel)
  have l14 := len "0e" lr (by decide +kernel)
  have l15 := len "0f" pc (by decide +kernel)
  have hR : ∀ {i v} (b : Buf), p.ctx.r[i]? = some v → regAt i (withBuf b p) = .ok v (withBuf b p) := by
    intro i v b hv
    unfold regAt
    simp only [withBuf, hv]
  have hW : ∀ {m t} (b : Buf), Writes m t → b.pos + t.length ≤ b.data.length → onBuf m (withBuf b p) = .ok () (withBuf (put b t) p) :=
    fun b h hr => onBuf_writes (p := withBuf b p) h hr
  have pos : ∀ (b : Buf) t, (put b t).pos = b.pos + t.length := fun _ _ => rfl
  have L1 := put_length (b := p.buf) (t := stopField "0c" r12) (by omega)
  have P1 := pos p.buf (stopField "0c" r12)
  have L2 := put_length (b := put p.buf (stopField "0c" r12)) (t := stopField "0d" sp) (by omega)
  have P2 := pos (put p.buf (stopField "0c" r12)) (stopField "0d" sp)
  have L3 := put_length (b := put (put p.buf (stopField "0c" r12)) (stopField "0d" sp)) (t := stopField "0e" lr) (by omega)
  have P3 := pos (put (put p.buf (stopField "0c" r12)) (stopField "0d" sp)) (stopField "0e" lr)
  have key : writeTResponseRegisters (withBuf p.buf p) = .ok () (withBuf (put (put (put (put p.buf (stopField "0c" r12)) (stopField "0d" sp)) (stopField "0e" lr)) (stopField "0f" pc)) p) := by
    unfold writeTResponseRegisters
    rw [M.bind_ok (hR _ h12), M.bind_ok (hW _ w12 (by omega))]
    rw [M.bind_ok (hR _ hsp), M.bind_ok (hW _ w13 (by omega))]
    rw [M.bind_ok (hR _ hlr), M.bind_ok (hW _ w14 (by omega))]
    rw [M.bind_ok (hR _ hpc), hW _ w15 (by omega)]
  rw [put_put (b := put (put p.buf (stopField "0c" r12)) (stopField "0d" sp)) (by omega),
    put_put (b := put p.buf (stopField "0c" r12)) (by omega), put_put (b := p.buf) (by omega)] at key
  refine ⟨_, key, ?_, ?_⟩
  all_goals
    have hl : (p.buf.data.take p.buf.pos ++ (stopField "0c" r12 ++ (stopField "0d" sp ++ (stopField "0e" lr ++ stopField "0f" pc)))).length =
        p.buf.pos + (stopField "0c" r12 ++ (stopField "0d" sp ++ (stopField "0e" lr ++ stopField "0f" pc))).length := by
      rw [List.length_append, List.length_take]; omega
  · exact List.take_left' hl
  · exact List.drop_left' hl

example : platDemo.ctx.r[12]? = some 12 ∧ platDemo.ctx.r[15]? = some 15 ∧ platDemo.buf.pos + 48 ≤ platDemo.buf.data.length := by
  decide +kernel

/-! ### C62: nothing but explicit writes changes the crashed program -/

/-- No history of platform calls without memory writes and register writes changes a register, a byte of memory or anything
else the simulator holds, apart from its read counters. -/
theorem C62_only_explicit_writes {p q : Plat} {cs : List PCall} (h : PHist p cs q) (hc : ∀ c ∈ cs, c.changesState = false) :
    q.ctx = p.ctx ∧ contents q.mem = contents p.mem := by
  induction h with
  | nil => exact ⟨rfl, rfl⟩
  | cons hs _ ih =>
    have h1 := unchanged_step (hc _ (by simp)) hs
    have h2 := ih fun c h => hc c (by simp [h])
    exact ⟨h2.1.trans h1.1, h2.2.trans h1.2⟩
  | packet b c _ ih => exact ih hc

/-- Calls that would change the state of a live target. -/
def steppingCalls : List PCall :=
  [.setPC 0x1000, .advancePC, .enableStep, .setBreak 0x100 2, .setWatch 0xE000ED28 4 1, .memRead .w16 0xE000ED28, .displayFault,
   .semihostReturn 1 2, .handleSemihost, .leaving]

example : (runCalls steppingCalls platDemo).isSome = true ∧ ∀ c ∈ steppingCalls, c.changesState = false := by
  constructor
  · decide +kernel
  · decide

/-! ### C63: the target description -/

/-- The lines of `targetXML`. -/
def plainLines : List String :=
  ["<?xml version=\"1.0\"?>", "<!DOCTYPE feature SYSTEM \"gdb-target.dtd\">", "<target>",
   "<feature name=\"org.gnu.gdb.arm.m-profile\">",
   "<reg name=\"r0\" bitsize=\"32\"/>", "<reg name=\"r1\" bitsize=\"32\"/>", "<reg name=\"r2\" bitsize=\"32\"/>",
   "<reg name=\"r3\" bitsize=\"32\"/>", "<reg name=\"r4\" bitsize=\"32\"/>", "<reg name=\"r5\" bitsize=\"32\"/>",
   "<reg name=\"r6\" bitsize=\"32\"/>", "<reg name=\"r7\" bitsize=\"32\"/>", "<reg name=\"r8\" bitsize=\"32\"/>",
   "<reg name=\"r9\" bitsize=\"32\"/>", "<reg name=\"r10\" bitsize=\"32\"/>", "<reg name=\"r11\" bitsize=\"32\"/>",
   "<reg name=\"r12\" bitsize=\"32\"/>", "<reg name=\"sp\" bitsize=\"32\" type=\"data_ptr\"/>", "<reg name=\"lr\" bitsize=\"32\"/>",
   "<reg name=\"pc\" bitsize=\"32\" type=\"code_ptr\"/>", "<reg name=\"xpsr\" bitsize=\"32\" regnum=\"25\"/>", "</feature>",
   "<feature name=\"org.gnu.gdb.arm.m-system\">", "<reg name=\"msp\" bitsize=\"32\" regnum=\"26\"/>",
   "<reg name=\"psp\" bitsize=\"32\" regnum=\"27\"/>", "</feature>"]

/-- The lines `targetFpuXML` has in addition. -/
def floatLines : List String :=
  ["<feature name=\"org.gnu.gdb.arm.vfp\">",
   "<reg name=\"d0\" bitsize=\"64\" type=\"ieee_double\"/>", "<reg name=\"d1\" bitsize=\"64\" type=\"ieee_double\"/>",
   "<reg name=\"d2\" bitsize=\"64\" type=\"ieee_double\"/>", "<reg name=\"d3\" bitsize=\"64\" type=\"ieee_double\"/>",
   "<reg name=\"d4\" bitsize=\"64\" type=\"ieee_double\"/>", "<reg name=\"d5\" bitsize=\"64\" type=\"ieee_double\"/>",
   "<reg name=\"d6\" bitsize=\"64\" type=\"ieee_double\"/>", "<reg name=\"d7\" bitsize=\"64\" type=\"ieee_double\"/>",
   "<reg name=\"d8\" bitsize=\"64\" type=\"ieee_double\"/>", "<reg name=\"d9\" bitsize=\"64\" type=\"ieee_double\"/>",
   "<reg name=\"d10\" bitsize=\"64\" type=\"ieee_double\"/>", "<reg name=\"d11\" bitsize=\"64\" type=\"ieee_double\"/>",
   "<reg name=\"d12\" bitsize=\"64\" type=\"ieee_double\"/>", "<reg name=\"d13\" bitsize=\"64\" type=\"ieee_double\"/>",
   "<reg name=\"d14\" bitsize=\"64\" type=\"ieee_double\"/>", "<reg name=\"d15\" bitsize=\"64\" type=\"ieee_double\"/>",
   "<reg name=\"fpscr\" bitsize=\"32\" type=\"int\" group=\"float\"/>", "</feature>"]

theorem asc_nl (s : String) : asc s ++ [0x0A] = asc (s ++ "\n") := by rw [asc_append]; congr 1

theorem targetXML_lines : targetXML = joinLines ((plainLines ++ ["</target>"]).map asc) := by
  unfold targetXML plainLines joinLines
  simp only [asc_append, List.append_assoc]
  simp only [List.map_cons, List.map_nil, List.cons_append, List.nil_append, List.flatMap_cons, List.flatMap_nil, asc_nl,
    String.reduceAppend, List.append_nil]

theorem targetFpuXML_lines : targetFpuXML = joinLines ((plainLines ++ (floatLines ++ ["</target>"])).map asc) := by
  unfold targetFpuXML plainLines floatLines joinLines
  simp only [asc_append, List.append_assoc]
  simp only [List.map_cons, List.map_nil, List.cons_append, List.nil_append, List.flatMap_cons, List.flatMap_nil, asc_nl,
    String.reduceAppend, List.append_nil]

theorem declaredInLine_bytes (l : Str) : declaredInLine l = (quoted [0x3C, 0x72, 0x65, 0x67] 0x3E l).map fun e =>
    ((quoted [0x20, 0x6E, 0x61, 0x6D, 0x65, 0x3D, 0x22] 0x22 e).flatten,
      decimal (quoted [0x20, 0x62, 0x69, 0x74, 0x73, 0x69, 0x7A, 0x65, 0x3D, 0x22] 0x22 e).flatten) := by
  unfold declaredInLine
  rw [show asc "<reg" = [0x3C, 0x72, 0x65, 0x67] by decide +kernel,
    show asc " name=\"" = [0x20, 0x6E, 0x61, 0x6D, 0x65, 0x3D, 0x22] by decide +kernel,
    show asc " bitsize=\"" = [0x20, 0x62, 0x69, 0x74, 0x73, 0x69, 0x7A, 0x65, 0x3D, 0x22] by decide +kernel]

/-- What a line declares. -/
def LineOf (s : String) (r : List (Str × Nat)) : Prop := (0x0A : U8) ∉ asc s ∧ declaredInLine (asc s) = r

theorem lineOf {s : String} {l : List Char} {r : List (Str × Nat)} (h : s = String.ofList l)
    (h1 : (0x0A : U8) ∉ l.map (fun c => BitVec.ofNat 8 c.toNat))
    (h2 : ((quoted [0x3C, 0x72, 0x65, 0x67] 0x3E (l.map (fun c => BitVec.ofNat 8 c.toNat))).map fun e =>
    ((quoted [0x20, 0x6E, 0x61, 0x6D, 0x65, 0x3D, 0x22] 0x22 e).flatten,
      decimal (quoted [0x20, 0x62, 0x69, 0x74, 0x73, 0x69, 0x7A, 0x65, 0x3D, 0x22] 0x22 e).flatten)) = r) : LineOf s r := by
  subst h
  unfold LineOf
  rw [asc_ofList, declaredInLine_bytes]
  exact ⟨h1, h2⟩

theorem plainLines_declare : List.Forall₂ LineOf plainLines
  [[], [], [], [], [(asc "r0", 32)], [(asc "r1", 32)], [(asc "r2", 32)], [(asc "r3", 32)], [(asc "r4", 32)], [(asc "r5",
  32)], [(asc "r6", 32)], [(asc "r7", 32)], [(asc "r8", 32)], [(asc "r9", 32)], [(asc "r10", 32)], [(asc "r11", 32)],
  [(asc "r12", 32)], [(asc "sp", 32)], [(asc "lr", 32)], [(asc "pc", 32)], [(asc "xpsr", 32)], [], [], [(asc "msp", 32)],
  [(asc "psp", 32)], []] := by
  unfold plainLines
  repeat (refine .cons (lineOf rfl (by decide +kernel) (by decide +kernel)) ?_)
  exact .nil

theorem floatLines_declare : List.Forall₂ LineOf floatLines
  [[], [(asc "d0", 64)], [(asc "d1", 64)], [(asc "d2", 64)], [(asc "d3", 64)], [(asc "d4", 64)], [(asc "d5", 64)], [(asc
  "d6", 64)], [(asc "d7", 64)], [(asc "d8", 64)], [(asc "d9", 64)], [(asc "d10", 64)], [(asc "d11", 64)], [(asc "d12",
  64)], [(asc "d13", 64)], [(asc "d14", 64)], [(asc "d15", 64)], [(asc "fpscr", 32)], []] := by
  unfold floatLines
  repeat (refine .cons (lineOf rfl (by decide +kernel) (by decide +kernel)) ?_)
  exact .nil

theorem lastLine_declares : List.Forall₂ LineOf ["</target>"] [[]] :=
  .cons (lineOf rfl (by decide +kernel) (by decide +kernel)) .nil

theorem forall₂_append {R : String → List (Str × Nat) → Prop} {as bs as' bs'} (h : List.Forall₂ R as bs) (h' : List.Forall₂ R as' bs') :
    List.Forall₂ R (as ++ as') (bs ++ bs') := by
  induction h with
  | nil => exact h'
  | cons hr _ ih => exact .cons hr ih

theorem declared_of_lines {ls : List String} {rs : List (List (Str × Nat))} (h : List.Forall₂ LineOf ls rs) :
    declared (joinLines (ls.map asc)) = rs.flatten := by
  rw [declared_lines]
  · induction h with
    | nil => rfl
    | cons hr _ ih => rw [List.map_cons, List.flatMap_cons, List.flatten_cons, hr.2, ih]
  · intro l hl
    induction h with
    | nil => simp at hl
    | cons hr _ ih =>
      rcases List.mem_cons.1 hl with rfl | hl
      · exact hr.1
      · exact ih hl

/-- The target description declares the registers of the packet, by name and in the order sent, with sizes that add up to what
is sent (the 32 single precision registers are declared as 16 double precision ones); its reported size is its length. -/
theorem C63_target_description {p : Plat} (hp : RegsWF p.ctx) :
    ∃ xml, getTargetXml p = .ok xml p ∧ getTargetXmlSize p = .ok xml.length p ∧
      (declared xml).map Prod.fst = registerNames (hasFloat p.ctx.flags) ∧
      (declared xml).map Prod.snd = List.replicate 19 32 ++ (if hasFloat p.ctx.flags then List.replicate 16 64 ++ [32] else []) ∧
      ((declared xml).map Prod.snd).sum = 8 * (packetBytes p.ctx).length := by
  unfold getTargetXml getTargetXmlSize
  simp only [M.bind_apply, M.get_apply, hasFPU_eq]
  rw [packetBytes_length, hp.1, hp.2]
  by_cases hf : hasFloat p.ctx.flags = true
  · simp only [hf, if_true]
    refine ⟨targetFpuXML, rfl, rfl, ?_⟩
    rw [targetFpuXML_lines, declared_of_lines (forall₂_append plainLines_declare (forall₂_append floatLines_declare lastLine_declares))]
    exact ⟨rfl, rfl, rfl⟩
  · simp only [hf, Bool.false_eq_true, if_false]
    refine ⟨targetXML, rfl, rfl, ?_⟩
    rw [targetXML_lines, declared_of_lines (forall₂_append plainLines_declare lastLine_declares)]
    exact ⟨rfl, rfl, rfl⟩

example : RegsWF platDemo.ctx := platDemo_regs

end Verif.Props
