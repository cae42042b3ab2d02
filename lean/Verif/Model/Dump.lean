import Verif.Model.Host
/-
Model of libCrashDebug/src/CrashCatcherDump.c (line numbers refer to that file unless stated otherwise).
-/
namespace Verif.Dump
open Verif MemSim

/-- From CrashCatcher.h (submodule not in /repo): signature bytes, version 3.0, stack overflow sentinel. -/
def SIGNATURE_BYTE0 : U8 := 0x63
/-- CrashCatcher.h (submodule not in /repo), used at libCrashDebug/src/CrashCatcherDump.c:114-118. -/
def SIGNATURE_BYTE1 : U8 := 0x43
/-- CrashCatcher.h, used at libCrashDebug/src/CrashCatcherDump.c:116. -/
def VERSION_MAJOR : U8 := 3
/-- CrashCatcher.h, used at libCrashDebug/src/CrashCatcherDump.c:117. -/
def VERSION_MINOR : U8 := 0
/-- CrashCatcher.h, used at libCrashDebug/src/CrashCatcherDump.c:214. -/
def STACK_SENTINEL : U32 := 0xACCE55ED

/-- Result of one call of `Object::read` (libCrashDebug/src/CrashCatcherDump.c:30): the bytes stored in the buffer and the rest
of the file; `bad` if it raised `fileFormatException` after storing them. -/
inductive Rd
  | got (bs : Str) (rest : Str)
  | bad (bs : Str) (rest : Str)
  deriving DecidableEq

/-- `Object::read`. See libCrashDebug/src/CrashCatcherDump.c:30. -/
abbrev Reader := Nat → Str → Rd

/-- `binaryRead`, libCrashDebug/src/CrashCatcherDump.c:77-80. -/
def binaryRead : Reader := fun n t => .got (t.take n) (t.drop n)

/-- `readNextCharacterSkippingNewLines`, libCrashDebug/src/CrashCatcherDump.c:285-298: `none` at the end of the file. -/
def nextChar : Str → Option (U8 × Str)
  | [] => none
  | c :: t => if c = 0x0D ∨ c = 0x0A then nextChar t else some (c, t)

/-- `nibbleDigitToVal`, libCrashDebug/src/CrashCatcherDump.c:300-311: `none` where it raises `fileFormatException`. -/
def nibbleDigitToVal (c : U8) : Option U8 :=
  if 0x30 ≤ c.toNat ∧ c.toNat ≤ 0x39 then some (c - 0x30)
  else if 0x61 ≤ c.toNat ∧ c.toNat ≤ 0x66 then some (c - 0x61 + 10)
  else if 0x41 ≤ c.toNat ∧ c.toNat ≤ 0x46 then some (c - 0x41 + 10)
  else none

/-- `hexRead`, libCrashDebug/src/CrashCatcherDump.c:262-283. -/
def hexRead : Reader
  | 0, t => .got [] t
  | n + 1, t =>
    match nextChar t with
    | none => .got [] []
    | some (hi, t1) =>
      match nextChar t1 with
      | none => .got [] []
      | some (lo, t2) =>
        match nibbleDigitToVal hi, nibbleDigitToVal lo with
        | some h, some l =>
          match hexRead n t2 with
          | .got bs t3 => .got (((h <<< 4) ||| l) :: bs) t3
          | .bad bs t3 => .bad (((h <<< 4) ||| l) :: bs) t3
        | _, _ => .bad [] t2

/-- `struct Object`, libCrashDebug/src/CrashCatcherDump.c:28-35: the file's unread part, `isVersion2Dump`, and the surroundings
(memory, registers). -/
structure D where
  host : Host
  rest : Str
  v2 : Bool := false

/-- One call of `pObject->read` of `n` bytes into a buffer; `put` stores the bytes read there. Returns them. See
libCrashDebug/src/CrashCatcherDump.c:30. -/
def readInto (rd : Reader) (n : Nat) (put : Str → D → D) : M D Str := fun d =>
  match rd n d.rest with
  | .got bs t => .ok bs (put bs { d with rest := t })
  | .bad bs t => .throw ⟨.fileFormat, []⟩ (put bs { d with rest := t })

/-- A read into a local variable. See libCrashDebug/src/CrashCatcherDump.c:30. -/
def readBytes (rd : Reader) (n : Nat) : M D Str := readInto rd n (fun _ d => d)

/-- Change the register context. See libCrashDebug/src/CrashCatcherDump.c:32. -/
def D.setCtx (d : D) (f : Regs → Regs) : D := { d with host := { d.host with ctx := f d.host.ctx } }

/-- `validateDumpSignature`, libCrashDebug/src/CrashCatcherDump.c:112-136. -/
def validateDumpSignature (rd : Reader) : M D Unit := do
  let sig ← readBytes rd 4
  if sig.length ≠ 4 then M.throw .fileFormat (asc "The dump file was too short to contain the 4-byte signature.")
  else if sig = [SIGNATURE_BYTE0, SIGNATURE_BYTE1, VERSION_MAJOR, VERSION_MINOR] then pure ()
  else if sig = [SIGNATURE_BYTE0, SIGNATURE_BYTE1, 2, 0] then M.modify fun d => { d with v2 := true }
  else M.throw .fileFormat (asc "The dump file didn't start with the expected 4-byte signature.")

/-- `readFlags`, libCrashDebug/src/CrashCatcherDump.c:138-143. -/
def readFlags (rd : Reader) : M D Unit := do
  let bs ← readInto rd 4 (fun bs d => d.setCtx fun c => { c with flags := overlayWord c.flags bs })
  if bs.length ≠ 4 then M.throw .fileFormat (asc "The dump file was too short to contain the flags.") else pure ()

/-- `readIntegerRegisters`, libCrashDebug/src/CrashCatcherDump.c:145-163. -/
def readIntegerRegisters (rd : Reader) : M D Unit := do
  let d ← M.get
  let n := if d.v2 then 4 * 17 else 4 * 19
  if d.v2 then
    M.modify fun d => d.setCtx fun c => { c with r := (c.r.set regMSP DEFAULT_SP_VALUE).set regPSP DEFAULT_SP_VALUE }
  let bs ← readInto rd n (fun bs d => d.setCtx fun c => { c with r := overlay c.r bs })
  if bs.length ≠ n then M.throw .fileFormat (asc "The dump file was too short to contain the integer registers.")
  else do
    let bs ← readInto rd 4 (fun bs d => d.setCtx fun c => { c with psr := overlayWord c.psr bs })
    if bs.length ≠ 4 then M.throw .fileFormat (asc "The dump file was too short to contain the exception PSR.")
    else pure ()

/-- `readFloatingPointRegisters`, libCrashDebug/src/CrashCatcherDump.c:165-173. -/
def readFloatingPointRegisters (rd : Reader) : M D Unit := do
  let d ← M.get
  if d.host.ctx.flags &&& FLAGS_FLOATING_POINT = 0 then pure ()
  else do
    let bs ← readInto rd (4 * 33) (fun bs d => d.setCtx fun c => { c with fpr := overlay c.fpr bs })
    if bs.length ≠ 4 * 33 then
      M.throw .fileFormat (asc "The dump file was too short to contain the floating point registers.")
    else pure ()

/-- Code that works on the simulator. See libCrashDebug/src/CrashCatcherDump.c:31. -/
def onMem (m : M Sim α) : M D α :=
  M.zoom (fun d : D => d.host.mem) (fun s d => { d with host := { d.host with mem := s } }) m

/-- The loop of `createAndLoadMemoryRegion`, libCrashDebug/src/CrashCatcherDump.c:224-231 (`n` bytes still to be loaded). -/
def loadRegionBytes (rd : Reader) : (n : Nat) → (address : U32) → M D Unit
  | 0, _ => pure ()
  | n + 1, address => do
    let bs ← readBytes rd 1
    match bs with
    | [b] => do
      onMem (IMemory.write .w8 address b)
      loadRegionBytes rd n (address + 1)
    | _ => M.throw .fileFormat

/-- `createAndLoadMemoryRegion`, libCrashDebug/src/CrashCatcherDump.c:217-232. -/
def createAndLoadMemoryRegion (rd : Reader) (startAddress endAddress : U32) : M D Unit := do
  let bytesInRegion := endAddress - startAddress
  onMem (createRegion startAddress bytesInRegion)
  loadRegionBytes rd bytesInRegion.toNat startAddress

/-- `readNextMemoryRegion`, libCrashDebug/src/CrashCatcherDump.c:185-215: true at the end of the file. -/
def readNextMemoryRegion (rd : Reader) : M D Bool := do
  let bs ← readBytes rd 8
  if bs.length = 4 ∧ BitVec.ofNat 32 (leVal bs) = STACK_SENTINEL then
    M.throw .stackOverflow (asc "The dump file ended with an indication that CrashCatcher detected a stack overflow.")
  else if bs.length = 0 then pure true
  else if bs.length ≠ 8 then
    M.throw .fileFormat (asc "The dump file contained a truncated memory region header.")
  else do
    let startAddress : U32 := BitVec.ofNat 32 (leVal (bs.take 4))
    let endAddress : U32 := BitVec.ofNat 32 (leVal (bs.drop 4))
    M.tryCatch (createAndLoadMemoryRegion rd startAddress endAddress) (fun e =>
      M.throw e.code (asc "The dump file failed to load RAM memory region at 0x" ++ fmt08X startAddress ++
        asc " - 0x" ++ fmt08X endAddress ++ asc "."))
    pure false

/-- `readMemoryRegions`, libCrashDebug/src/CrashCatcherDump.c:175-183. The `do` loop has no bound in C; here `fuel` bounds it
and running out of it is an outcome of its own, which the theorems exclude. -/
def readMemoryRegions (rd : Reader) : (fuel : Nat) → M D Unit
  | 0 => M.ub .outOfFuel
  | fuel + 1 => do
    if ← readNextMemoryRegion rd then pure () else readMemoryRegions rd fuel

/-- `readDump`, libCrashDebug/src/CrashCatcherDump.c:103-110. The step bound is more than the number of characters left in the
file. -/
def readDump (rd : Reader) : M D Unit := do
  validateDumpSignature rd
  readFlags rd
  readIntegerRegisters rd
  readFloatingPointRegisters rd
  let d ← M.get
  readMemoryRegions rd (d.rest.length + 1)

/-- `CrashCatcherDump_ReadBinary`, libCrashDebug/src/CrashCatcherDump.c:60-75, and `CrashCatcherDump_ReadHex`, lines 245-260,
with `initObject`, lines 82-93, `openFileAndThrowOnError`, lines 95-101, and `destructObject`, lines 234-241. `object.pFile` is
only set when `fopen` succeeded. Simplification: `object` is not volatile, so after the `longjmp` its value is formally
indeterminate; the model takes it to be what was stored last. -/
def readFile (rd : Reader) (name : Str) : M Host Unit := do
  match ← Host.fopen name with
  | none => M.throwMsg .file (asc "Failed to open the \"" ++ name ++ asc "\" dump file.")
  | some f => fun h =>
    match readDump rd { host := h, rest := f.bytes } with
    | .ok _ d => Host.fclose d.host
    | .throw e d => (do Host.fclose; M.rethrow e) d.host
    | .ub r => .ub r

/-- `CrashCatcherDump_ReadBinary`, libCrashDebug/src/CrashCatcherDump.c:60-75. -/
def readBinary : Str → M Host Unit := readFile binaryRead
/-- `CrashCatcherDump_ReadHex`, libCrashDebug/src/CrashCatcherDump.c:245-260. -/
def readHex : Str → M Host Unit := readFile hexRead

end Verif.Dump
