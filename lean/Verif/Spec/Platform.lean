import Verif.Model.Platform
import Verif.Spec.Dump
/-
Vocabulary for stating properties of the debugger's view of the crashed program.
-/
namespace Verif.Spec
open Verif MemSim Platform

/-! ### Histories of platform calls -/

/-- The calls the debug monitor core may make. -/
inductive PCall
  | init | setWait (b : Bool) | entering | leaving | enteringHook | leavingHook
  | memRead (w : Width) (a : U32) | memWrite (w : Width) (a : U32) (v : BitVec w.bits)
  | commHasData | commReceive | commSend (c : Int) | commCaused | commClear | commShouldWait | commSharing | commPrepare
  | commIsWaiting | commWaitToStop
  | cause | displayFault
  | enableStep | disableStep | isStepping | setPC (v : U32) | advancePC | pcModified
  | wasFault
  | writeT | copyTo | copyFrom
  | mapXml | mapXmlSize | targetXml | targetXmlSize
  | setBreak (a k : U32) | clearBreak (a k : U32) | setWatch (a n t : U32) | clearWatch (a n t : U32)
  | instructionType | semihostParameters | semihostReturn (r e : Int) | isSemihost | handleSemihost

/-- What each call does; its result is not kept. -/
def PCall.run : PCall → M Plat Unit
  | .init => Platform.init
  | .setWait b => setWaitForGdbConnect b
  | .entering => enteringDebugger
  | .leaving => leavingDebugger
  | .enteringHook => enteringDebuggerHook
  | .leavingHook => leavingDebuggerHook
  | .memRead w a => do let _ ← Platform.memRead w a
  | .memWrite w a v => Platform.memWrite w a v
  | .commHasData => do let _ ← commHasReceiveData
  | .commReceive => do let _ ← commReceiveChar
  | .commSend c => commSendChar c
  | .commCaused => do let _ ← commCausedInterrupt
  | .commClear => commClearInterrupt
  | .commShouldWait => do let _ ← commShouldWaitForGdbConnect
  | .commSharing => do let _ ← commSharingWithApplication
  | .commPrepare => commPrepareToWaitForGdbConnection
  | .commIsWaiting => do let _ ← commIsWaitingForGdbToConnect
  | .commWaitToStop => commWaitForReceiveDataToStop
  | .cause => do let _ ← determineCauseOfException
  | .displayFault => displayFaultCause
  | .enableStep => enableSingleStep
  | .disableStep => disableSingleStep
  | .isStepping => do let _ ← isSingleStepping
  | .setPC v => setProgramCounter v
  | .advancePC => advanceProgramCounter
  | .pcModified => do let _ ← wasProgramCounterModifiedByUser
  | .wasFault => do let _ ← wasMemoryFaultEncountered
  | .writeT => writeTResponseRegisters
  | .copyTo => copyContextToBuffer
  | .copyFrom => copyContextFromBuffer
  | .mapXml => do let _ ← getDeviceMemoryMapXml
  | .mapXmlSize => do let _ ← getDeviceMemoryMapXmlSize
  | .targetXml => do let _ ← getTargetXml
  | .targetXmlSize => do let _ ← getTargetXmlSize
  | .setBreak a k => setHardwareBreakpoint a k
  | .clearBreak a k => clearHardwareBreakpoint a k
  | .setWatch a n t => setHardwareWatchpoint a n t
  | .clearWatch a n t => clearHardwareWatchpoint a n t
  | .instructionType => typeOfCurrentInstruction
  | .semihostParameters => do let _ ← getSemihostCallParameters
  | .semihostReturn r e => setSemihostCallReturnAndErrnoValues r e
  | .isSemihost => do let _ ← isDebuggeeMakingSemihostCall
  | .handleSemihost => do let _ ← handleSemihostRequest

/-- The call returns, normally or with an exception, in state `p'`. -/
def PStep (c : PCall) (p p' : Plat) : Prop := c.run p = .ok () p' ∨ ∃ e, c.run p = .throw e p'

/-- `PHist p cs p'`: the calls `cs`, made one after the other from `p`, end in `p'`. Between two calls the core may replace
the packet buffer by another one (it resets it and receives packets into it), and raise and handle exceptions of its own
(which sets and clears the exception code). -/
inductive PHist : Plat → List PCall → Plat → Prop
  | nil (p : Plat) : PHist p [] p
  | cons {p p1 p2 : Plat} {c : PCall} {cs : List PCall} (h : PStep c p p1) (t : PHist p1 cs p2) : PHist p (c :: cs) p2
  | packet {p p2 : Plat} {cs : List PCall} (b : Buf) (c : Option Exc) (t : PHist { p with buf := b, code := c } cs p2) : PHist p cs p2

/-- The call is a memory access which the simulator refuses. -/
def Faults (c : PCall) (p : Plat) : Prop :=
  match c with
  | .memRead w a => ∃ e s, IMemory.read w a p.mem = .throw e s
  | .memWrite w a v => ∃ e s, IMemory.write w a v p.mem = .throw e s
  | _ => False

/-- The call starts the counting of faults afresh. -/
def Resets : PCall → Bool
  | .wasFault => true
  | .init => true
  | _ => false

/-- `FaultsSince p cs p' k n`: along the history `cs` from `p` to `p'` there were `n` refused accesses since the last call
that starts the counting afresh, `k` of them before the history began. -/
inductive FaultsSince : Plat → List PCall → Plat → Nat → Nat → Prop
  | nil (p : Plat) (k : Nat) : FaultsSince p [] p k k
  | fault {p p1 p2 : Plat} {c : PCall} {cs : List PCall} {k n : Nat} (hf : Faults c p) (h : PStep c p p1)
      (t : FaultsSince p1 cs p2 (k + 1) n) : FaultsSince p (c :: cs) p2 k n
  | reset {p p1 p2 : Plat} {c : PCall} {cs : List PCall} {k n : Nat} (hr : Resets c = true) (h : PStep c p p1)
      (t : FaultsSince p1 cs p2 0 n) : FaultsSince p (c :: cs) p2 k n
  | other {p p1 p2 : Plat} {c : PCall} {cs : List PCall} {k n : Nat} (hf : ¬ Faults c p) (hr : Resets c = false)
      (h : PStep c p p1) (t : FaultsSince p1 cs p2 k n) : FaultsSince p (c :: cs) p2 k n
  | packet {p p2 : Plat} {cs : List PCall} {k n : Nat} (b : Buf) (c : Option Exc)
      (t : FaultsSince { p with buf := b, code := c } cs p2 k n) :
      FaultsSince p cs p2 k n

/-- The calls by which the debugger means to change the crashed program's state. -/
def PCall.changesState : PCall → Bool
  | .memWrite .. => true
  | .copyFrom => true
  | _ => false

/-- Everything the simulator holds except its read counters: addresses, sizes, bytes, protection, aliases, watchpoints. -/
def contents (s : Sim) : List Region := s.regions.map fun r => { r with readCounts := none }

/-! ### Signals -/

/-- The signal for each Cortex-M exception number. -/
def signalFor (exception : Nat) : Signal :=
  match exception with
  | 2 => .SIGINT
  | 3 => .SIGSEGV
  | 4 => .SIGSEGV
  | 5 => .SIGBUS
  | 6 => .SIGILL
  | 12 => .SIGTRAP
  | _ => .SIGSTOP

/-! ### Hexadecimal -/

/-- Hexadecimal digit, lower case. -/
def lowerDigit (n : Nat) : U8 := (asc "0123456789abcdef").getD n 0

/-- A byte in two hexadecimal digits. -/
def hex2 (b : U8) : Str := [lowerDigit (b.toNat / 16), lowerDigit (b.toNat % 16)]

/-- Bytes in hexadecimal. -/
def hexOf (bs : Str) : Str := bs.flatMap hex2

/-- A number as the console shows it: without leading zero bytes, but at least one byte. -/
def shownHex (v : U32) : Str :=
  match [byteOf v 3, byteOf v 2, byteOf v 1, byteOf v 0].dropWhile (· = 0) with
  | [] => asc "0x00"
  | bs => asc "0x" ++ hexOf bs

/-! ### Fault reports -/

/-- Where the status bits of a kind of fault are, and what they mean. -/
structure FaultKind where
  title : String
  /-- The field of the configurable fault status register. -/
  shift : Nat
  width : Nat
  /-- The register with the fault address, valid if bit 7 of the field is set. -/
  address : Option U32
  /-- The documented bits, in the order in which they are listed. -/
  bits : List (Nat × String)

def memManage : FaultKind :=
  { title := "MPU Fault", shift := 0, width := 8, address := some 0xE000ED34,
    bits := [(5, "FP Lazy Preservation"), (4, "Stacking Error"), (3, "Unstacking Error"), (1, "Data Access"),
      (0, "Instruction Fetch")] }

def busFault : FaultKind :=
  { title := "Bus Fault", shift := 8, width := 8, address := some 0xE000ED38,
    bits := [(5, "FP Lazy Preservation"), (4, "Stacking Error"), (3, "Unstacking Error"), (2, "Imprecise Data Access"),
      (1, "Precise Data Access"), (0, "Instruction Prefetch")] }

def usageFault : FaultKind :=
  { title := "Usage Fault", shift := 16, width := 16, address := none,
    bits := [(9, "Divide by Zero"), (8, "Unaligned Access"), (3, "Coprocessor Access"),
      (2, "Invalid Exception Return State"), (1, "Invalid State"), (0, "Undefined Instruction")] }

/-- One line for each listed bit that is set in the register. -/
def bitLines (reg : U32) (shift : Nat) (bits : List (Nat × String)) : Str :=
  bits.flatMap fun b => if reg.getLsbD (shift + b.1) then asc ("\n    " ++ b.2) else []

/-- The status field of a kind of fault. -/
def FaultKind.status (k : FaultKind) (cfsr : U32) : U32 := (cfsr.extractLsb' k.shift k.width).setWidth 32

/-- What is said about the fault address. `reg a` is the 32-bit value at address `a`, if there is memory. -/
def addressLine (reg : U32 → Option U32) (k : FaultKind) (cfsr : U32) : Str :=
  match k.address with
  | none => []
  | some a => if cfsr.getLsbD (k.shift + 7) then
      match reg a with
      | some v => asc "\n    Fault Address: " ++ shownHex v
      | none => []
    else []

/-- What is said about a kind of fault: nothing if the status register is missing or its field is zero. -/
def faultSection (reg : U32 → Option U32) (k : FaultKind) : Str :=
  match reg 0xE000ED28 with
  | none => []
  | some cfsr =>
    if k.status cfsr = 0 then []
    else asc ("\n**" ++ k.title ++ "**") ++ (asc "\n  Status Register: " ++ (shownHex (k.status cfsr) ++
      (addressLine reg k cfsr ++ bitLines cfsr k.shift k.bits)))

/-- What is said about a hard fault. If it was forced, the three other kinds follow. -/
def hardFaultSection (reg : U32 → Option U32) : Str :=
  asc "\n**Hard Fault**" ++
  match reg 0xE000ED2C with
  | none => []
  | some hfsr => asc "\n  Status Register: " ++ (shownHex hfsr ++
      (bitLines hfsr 0 [(31, "Debug Event"), (1, "Vector Table Read")] ++
        if hfsr.getLsbD 30 then
          asc "\n    Forced" ++ (faultSection reg memManage ++ (faultSection reg busFault ++ faultSection reg usageFault))
        else []))

/-- The whole report, by exception number. -/
def faultReport (reg : U32 → Option U32) (exception : Nat) : Str :=
  match exception with
  | 3 => hardFaultSection reg ++ asc "\n"
  | 4 => faultSection reg memManage ++ asc "\n"
  | 5 => faultSection reg busFault ++ asc "\n"
  | 6 => faultSection reg usageFault ++ asc "\n"
  | _ => []

/-- What a debugger reading 32 bits would get. -/
def wordIn (s : Sim) (a : U32) : Option U32 :=
  match IMemory.read .w32 a s with
  | .ok v _ => some v
  | _ => none

/-! ### Registers -/

/-- The bytes of the registers sent to the debugger: R0 to PSP, then s0 to FPSCR if the context has floating point. -/
def packetBytes (c : Regs) : Str := c.r.flatMap le32 ++ if hasFloat c.flags then c.fpr.flatMap le32 else []

/-- What has been written to the buffer, or read from it. -/
def written (b : Buf) : Str := b.data.take b.pos

/-- What is left in the buffer. -/
def remaining (b : Buf) : Str := b.data.drop b.pos

/-- `HexPairs t bs`: `t` gives the bytes `bs`, each by two hexadecimal digits of either case. -/
inductive HexPairs : Str → Str → Prop
  | nil : HexPairs [] []
  | cons {hi lo : U8} {x y : Nat} {t bs : Str} {b : U8} (hx : hexDigit hi = some x) (hy : hexDigit lo = some y)
      (hb : b.toNat = 16 * x + y) (h : HexPairs t bs) : HexPairs (hi :: lo :: t) (b :: bs)

/-- What can go wrong at the place where two hexadecimal digits are expected. -/
def BadPair (t : Str) (c : Exc) : Prop :=
  (t = [] ∧ c = .bufferOverrun) ∨
  (∃ hi u, t = hi :: u ∧ hexDigit hi = none ∧ c = .invalidHexDigit) ∨
  (∃ hi x, t = [hi] ∧ hexDigit hi = some x ∧ c = .bufferOverrun) ∨
  ∃ hi x lo u, t = hi :: lo :: u ∧ hexDigit hi = some x ∧ hexDigit lo = none ∧ c = .invalidHexDigit

/-- `PacketGives t n bs`: reading `n` bytes from the text `t` of a register packet gives `bs`: all of them, or those before the
first place where two hexadecimal digits are missing. -/
def PacketGives (t : Str) (n : Nat) (bs : Str) : Prop :=
  ∃ s u, t = s ++ u ∧ HexPairs s bs ∧ (bs.length = n ∨ bs.length < n ∧ ∃ c, BadPair u c)

/-- `RegisterWrites p cs p' ws`: along the history `cs` from `p` to `p'` the register packets gave the bytes `ws`, in this
order. -/
inductive RegisterWrites : Plat → List PCall → Plat → List Str → Prop
  | nil (p : Plat) : RegisterWrites p [] p []
  | write {p p1 p2 : Plat} {cs : List PCall} {bs : Str} {ws : List Str} (h : PStep .copyFrom p p1)
      (hb : PacketGives (remaining p.buf) (packetBytes p.ctx).length bs) (t : RegisterWrites p1 cs p2 ws) :
      RegisterWrites p (.copyFrom :: cs) p2 (bs :: ws)
  | other {p p1 p2 : Plat} {c : PCall} {cs : List PCall} {ws : List Str} (hc : c ≠ .copyFrom) (h : PStep c p p1)
      (t : RegisterWrites p1 cs p2 ws) : RegisterWrites p (c :: cs) p2 ws
  | packet {p p2 : Plat} {cs : List PCall} {ws : List Str} (b : Buf) (c : Option Exc)
      (t : RegisterWrites { p with buf := b, code := c } cs p2 ws) : RegisterWrites p cs p2 ws

/-- The first bytes are replaced. -/
def overwrite (old new : Str) : Str := new ++ old.drop new.length

/-- The names GDB knows the registers by, in the order in which they are sent. -/
def registerNames (float : Bool) : List Str :=
  (["r0", "r1", "r2", "r3", "r4", "r5", "r6", "r7", "r8", "r9", "r10", "r11", "r12", "sp", "lr", "pc", "xpsr", "msp", "psp"] ++
    if float then ["d0", "d1", "d2", "d3", "d4", "d5", "d6", "d7", "d8", "d9", "d10", "d11", "d12", "d13", "d14", "d15",
      "fpscr"] else []).map asc

/-! ### The target description -/

/-- The text from just after each place where `start` occurs up to the next character `stop`. -/
def quoted (start : Str) (stop : U8) : Str → List Str
  | [] => []
  | c :: t =>
    (if start.isPrefixOf (c :: t) then [((c :: t).drop start.length).takeWhile (· != stop)] else []) ++ quoted start stop t

/-- A decimal number. -/
def decimal (t : Str) : Nat := t.foldl (fun n c => 10 * n + (c.toNat - 0x30)) 0

/-- The registers declared in a line of an XML target description, with their sizes in bits: the `name` and `bitsize` of
each element `<reg name="…" bitsize="…" …>`. -/
def declaredInLine (line : Str) : List (Str × Nat) :=
  (quoted (asc "<reg") 0x3E line).map fun e =>
    ((quoted (asc " name=\"") 0x22 e).flatten, decimal (quoted (asc " bitsize=\"") 0x22 e).flatten)

/-- The registers an XML target description declares, in order. -/
def declared (xml : Str) : List (Str × Nat) := (xml.splitOn 0x0A).flatMap declaredInLine

end Verif.Spec
