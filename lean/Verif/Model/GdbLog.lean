import Verif.Model.Host
import Verif.Model.Libc
/-
Model of libCrashDebug/src/GdbLogParser.c (line numbers refer to that file unless stated otherwise).
-/
namespace Verif.GdbLog
open Verif MemSim Libc

/-- `struct ParseResults`, libCrashDebug/src/GdbLogParser.c:39-56, without the parts of the union that the type leaves
undefined. `values` are the first `valueCount` entries of the array. -/
inductive Results
  | other
  | memory (address : U32) (values : List U32)
  | register (offset : Nat) (value : U32)
  deriving DecidableEq

/-- `struct ParseObject`, libCrashDebug/src/GdbLogParser.c:22-30, with the file's unread part. The line buffer is local to the
functions here. -/
structure Obj where
  host : Host
  regionStart : U32 := 0xFFFFFFFF
  regionSize : U32 := 0
  nextExpectedAddress : U32 := 0xFFFFFFFF

/-- `isHexDigit`, libCrashDebug/src/GdbLogParser.c:227-232. -/
def isHexDigit (c : U8) : Bool :=
  (0x30 ≤ c.toNat ∧ c.toNat ≤ 0x39) ∨ (0x61 ≤ c.toNat ∧ c.toNat ≤ 0x66) ∨ (0x41 ≤ c.toNat ∧ c.toNat ≤ 0x46)

/-- `is8DigitHexValue`, libCrashDebug/src/GdbLogParser.c:213-225. Reading past the end of the string gives its NUL, which ends
the comparison. -/
def is8DigitHexValue : Str → Bool
  | c0 :: c1 :: d0 :: d1 :: d2 :: d3 :: d4 :: d5 :: d6 :: d7 :: _ =>
    c0 = 0x30 ∧ c1 = 0x78 ∧ isHexDigit d0 ∧ isHexDigit d1 ∧ isHexDigit d2 ∧ isHexDigit d3 ∧ isHexDigit d4 ∧
      isHexDigit d5 ∧ isHexDigit d6 ∧ isHexDigit d7
  | _ => false

/-- `isMemoryLine`, libCrashDebug/src/GdbLogParser.c:208-211. -/
def isMemoryLine (line : Str) : Bool := line.length > 11 ∧ is8DigitHexValue line

/-- `skipWhitespace`, libCrashDebug/src/GdbLogParser.c:273-278. -/
def skipWhitespace (line : Str) : Str := line.dropWhile isspace

/-- The loop of `skipSymbol`, libCrashDebug/src/GdbLogParser.c:286-295. -/
def skipSymbolLoop : Str → Int → Str
  | [], _ => []
  | c :: t, level =>
    if c = 0x3C then skipSymbolLoop t (level + 1)
    else if c = 0x3E then skipSymbolLoop t (level - 1)
    else if isspace c ∧ level = 0 then c :: t
    else skipSymbolLoop t level

/-- `skipSymbol`, libCrashDebug/src/GdbLogParser.c:280-298. -/
def skipSymbol (line : Str) : Str :=
  if line.head? ≠ some 0x3C then line else skipSymbolLoop line 0

/-- `skipWhitespaceAndSymbol`, libCrashDebug/src/GdbLogParser.c:265-271. -/
def skipWhitespaceAndSymbol (line : Str) : Str := skipWhitespace (skipSymbol (skipWhitespace line))

/-- Size of `values`, libCrashDebug/src/GdbLogParser.c:46. -/
def VALUES_SIZE : Nat := 4

/-- `parseValue`, libCrashDebug/src/GdbLogParser.c:300-305: the value is stored at index `valueCount`; a store outside the array
is undefined behaviour. -/
def parseValue (values : List U32) (line : Str) : M Obj (List U32 × Str) :=
  if values.length < VALUES_SIZE then pure (values ++ [strtoul32 line], (strtoul line).2) else M.ub .outOfBounds

/-- `skipWhitespaceSymbolsAndParseNextValue`, libCrashDebug/src/GdbLogParser.c:258-263. -/
def parseNextValue (values : List U32) (line : Str) : M Obj (List U32 × Str) :=
  parseValue values (skipWhitespaceAndSymbol line)

/-- `areMoreValuesToParseOnLine`, libCrashDebug/src/GdbLogParser.c:253-256. -/
def areMoreValues (values : List U32) (line : Str) : Bool := line ≠ [] ∧ values.length < VALUES_SIZE

/-- The loop of `parseMemoryLine`, libCrashDebug/src/GdbLogParser.c:241-242. `fuel` bounds it in the model. -/
def parseValues : (fuel : Nat) → (values : List U32) → (line : Str) → M Obj (List U32)
  | 0, _, _ => M.ub .outOfFuel
  | fuel + 1, values, line =>
    if areMoreValues values line then do
      let (values, line) ← parseNextValue values line
      parseValues fuel values line
    else pure values

/-- `parseMemoryLine`, libCrashDebug/src/GdbLogParser.c:234-244, with `parseAddress`, lines 246-251. -/
def parseMemoryLine (line : Str) : M Obj Results := do
  let address := strtoul32 line
  if line.length < 11 then M.ub .outOfBounds
  else do
    let values ← parseValues (VALUES_SIZE + 1) [] (line.drop 11)
    pure (.memory address values)

/-- `offsetof(RegisterContext, R[i])` and `offsetof(RegisterContext, FPR[i])`, include/mriPlatform.h:78-84. -/
def offsetR (i : Nat) : Nat := 4 + 4 * i
/-- include/mriPlatform.h:78-84. -/
def offsetFPR (i : Nat) : Nat := 4 + 4 * 19 + 4 + 4 * i

/-- The table `registers`, libCrashDebug/src/GdbLogParser.c:310-368. -/
def registers : List (Str × Nat) :=
  [(asc "r0             ", offsetR 0), (asc "r1             ", offsetR 1), (asc "r2             ", offsetR 2),
   (asc "r3             ", offsetR 3), (asc "r4             ", offsetR 4), (asc "r5             ", offsetR 5),
   (asc "r6             ", offsetR 6), (asc "r7             ", offsetR 7), (asc "r8             ", offsetR 8),
   (asc "r9             ", offsetR 9), (asc "r10            ", offsetR 10), (asc "r11            ", offsetR 11),
   (asc "r12            ", offsetR 12), (asc "sp             ", offsetR regSP), (asc "lr             ", offsetR regLR),
   (asc "pc             ", offsetR regPC), (asc "xpsr           ", offsetR regXPSR),
   (asc "msp            ", offsetR regMSP), (asc "psp            ", offsetR regPSP),
   (asc "s0             ", offsetFPR 0), (asc "s1             ", offsetFPR 1), (asc "s2             ", offsetFPR 2),
   (asc "s3             ", offsetFPR 3), (asc "s4             ", offsetFPR 4), (asc "s5             ", offsetFPR 5),
   (asc "s6             ", offsetFPR 6), (asc "s7             ", offsetFPR 7), (asc "s8             ", offsetFPR 8),
   (asc "s9             ", offsetFPR 9), (asc "s10            ", offsetFPR 10), (asc "s11            ", offsetFPR 11),
   (asc "s12            ", offsetFPR 12), (asc "s13            ", offsetFPR 13), (asc "s14            ", offsetFPR 14),
   (asc "s15            ", offsetFPR 15), (asc "s16            ", offsetFPR 16), (asc "s17            ", offsetFPR 17),
   (asc "s18            ", offsetFPR 18), (asc "s19            ", offsetFPR 19), (asc "s20            ", offsetFPR 20),
   (asc "s21            ", offsetFPR 21), (asc "s22            ", offsetFPR 22), (asc "s23            ", offsetFPR 23),
   (asc "s24            ", offsetFPR 24), (asc "s25            ", offsetFPR 25), (asc "s26            ", offsetFPR 26),
   (asc "s27            ", offsetFPR 27), (asc "s28            ", offsetFPR 28), (asc "s29            ", offsetFPR 29),
   (asc "s30            ", offsetFPR 30), (asc "s31            ", offsetFPR 31), (asc "fpscr          ", offsetFPR 32)]

/-- `isRegisterLine`, libCrashDebug/src/GdbLogParser.c:307-379: the offset of the register. -/
def isRegisterLine (line : Str) : Option Nat := (registers.find? fun e => strncmpEq e.1 line 15).map (·.2)

/-- `isFloatingPointRegister`, libCrashDebug/src/GdbLogParser.c:161-165. -/
def isFloatingPointRegister (offset : Nat) : Bool := offsetFPR 0 ≤ offset ∧ offset ≤ offsetFPR 31

/-- `findWhitespace`, libCrashDebug/src/GdbLogParser.c:414-419. -/
def findWhitespace (line : Str) : Str := line.dropWhile (fun c => !isspace c)

/-- `parseFloatRegisterLine`, libCrashDebug/src/GdbLogParser.c:399-412, for the text after the name field (`&pLine[15]`). -/
def parseFloatRegister (text : Str) : U32 :=
  let p := skipWhitespace (findWhitespace text)
  if ¬ strncmpEq p (asc "(raw ") 5 then 0xFFFFFFFF else strtoul32 (p.drop 5)

/-- `parseRegisterLine`, libCrashDebug/src/GdbLogParser.c:381-397. -/
def parseRegisterLine (line : Str) (offset : Nat) : M Obj Results :=
  if line.length < 15 then M.ub .outOfBounds
  else if isFloatingPointRegister offset then pure (.register offset (parseFloatRegister (line.drop 15)))
  else pure (.register offset (strtoul32 (line.drop 15)))

/-- `parseLine`, libCrashDebug/src/GdbLogParser.c:197-206, and `parseOtherLine`, lines 421-426. -/
def parseLine (line : Str) : M Obj Results :=
  if isMemoryLine line then parseMemoryLine line
  else match isRegisterLine line with
    | some offset => parseRegisterLine line offset
    | none => pure .other

/-- Code that works on the simulator. See libCrashDebug/src/GdbLogParser.c:141-152, 158. -/
def onMem (m : M Sim α) : M Obj α :=
  M.zoom (fun o : Obj => o.host.mem) (fun s o => { o with host := { o.host with mem := s } }) m

/-- `firstPassMemoryHandler`, libCrashDebug/src/GdbLogParser.c:141-152. -/
def firstPassMemoryHandler (address : U32) (values : List U32) : M Obj Unit := do
  let o ← M.get
  if address ≠ o.nextExpectedAddress then do
    if o.regionStart ≠ 0xFFFFFFFF then onMem (createRegion o.regionStart o.regionSize)
    M.modify fun o => { o with regionStart := address, regionSize := 0 }
  M.modify fun o => { o with regionSize := o.regionSize + BitVec.ofNat 32 (values.length * 4),
                             nextExpectedAddress := address + BitVec.ofNat 32 (values.length * 4) }

/-- Store a word at a byte offset of the register context. A store outside it is undefined behaviour; so is, in this
model, one that does not hit a field. See libCrashDebug/src/GdbLogParser.c:158. -/
def storeContext (offset : Nat) (v : U32) : M Obj Unit := fun o =>
  let put (f : Regs → Regs) : Out Obj Unit := .ok () { o with host := { o.host with ctx := f o.host.ctx } }
  if offset % 4 ≠ 0 then .ub .outOfBounds
  else if offset = 0 then put fun c => { c with flags := v }
  else if offset < offsetR 19 then put fun c => { c with r := c.r.set ((offset - offsetR 0) / 4) v }
  else if offset = offsetR 19 then put fun c => { c with psr := v }
  else if offset < offsetFPR 33 then put fun c => { c with fpr := c.fpr.set ((offset - offsetFPR 0) / 4) v }
  else .ub .outOfBounds

/-- `firstPassRegisterHandler`, libCrashDebug/src/GdbLogParser.c:154-159. -/
def firstPassRegisterHandler (offset : Nat) (v : U32) : M Obj Unit := do
  if isFloatingPointRegister offset then
    M.modify fun o => { o with host := { o.host with ctx := { o.host.ctx with flags := o.host.ctx.flags ||| FLAGS_FLOATING_POINT } } }
  storeContext offset v

/-- `firstPassHandler`, libCrashDebug/src/GdbLogParser.c:125-139. -/
def firstPassHandler : Results → M Obj Unit
  | .memory a vs => firstPassMemoryHandler a vs
  | .register off v => firstPassRegisterHandler off v
  | .other => pure ()

/-- The loop of `secondPassHandler`, libCrashDebug/src/GdbLogParser.c:172-173, from index `i` on. -/
def writeValues (address : U32) : (i : Nat) → List U32 → M Obj Unit
  | _, [] => pure ()
  | i, v :: vs => do
    onMem (IMemory.write .w32 (address + BitVec.ofNat 32 (i * 4)) v)
    writeValues address (i + 1) vs

/-- `secondPassHandler`, libCrashDebug/src/GdbLogParser.c:167-174. -/
def secondPassHandler : Results → M Obj Unit
  | .memory a vs => writeValues a 0 vs
  | _ => pure ()

/-- `sizeof(lineText)`, libCrashDebug/src/GdbLogParser.c:29. -/
def LINE_SIZE : Nat := 1024

/-- The loop of `parseLines`, libCrashDebug/src/GdbLogParser.c:188-192, on the unread part of the file. `fuel` bounds it in the
model. -/
def parseLoop (handler : Results → M Obj Unit) : (fuel : Nat) → (rest : Str) → M Obj Unit
  | 0, _ => M.ub .outOfFuel
  | fuel + 1, rest =>
    match fgets (LINE_SIZE - 1) rest with
    | none => pure ()
    | some (buf, rest) => do
      let results ← parseLine (cstr buf)
      handler results
      parseLoop handler fuel rest

/-- `parseLines`, libCrashDebug/src/GdbLogParser.c:176-195. -/
def parseLines (handler : Results → M Obj Unit) (bytes : Str) : M Host Unit := fun h =>
  let m : M Obj Unit := do
    parseLoop handler (bytes.length + 1) bytes
    let o ← M.get
    if o.regionSize ≠ 0 then onMem (createRegion o.regionStart o.regionSize) else pure ()
  match m { host := h } with
  | .ok _ o => .ok () o.host
  | .throw e o => .throw e o.host
  | .ub r => .ub r

/-- `initPSPandMSP`, libCrashDebug/src/GdbLogParser.c:119-123. -/
def initPSPandMSP : M Host Unit :=
  M.modify fun h => { h with ctx := { h.ctx with r := (h.ctx.r.set regMSP DEFAULT_SP_VALUE).set regPSP DEFAULT_SP_VALUE } }

/-- `rewindLogFileAndThrowOnError`, libCrashDebug/src/GdbLogParser.c:428-433. -/
def rewindLogFile (f : File) : M Host Unit :=
  if f.seekSetFails then M.throw .file (asc "Failed to rewind GDB log for second pass.") else pure ()

/-- `GdbLogParse`, libCrashDebug/src/GdbLogParser.c:90-109, and `openFileAndThrowOnError`, lines 111-117. Simplification: a read
error ends the file for both passes, as in the model of files. -/
def parse (name : Str) : M Host Unit := do
  match ← Host.fopen name with
  | none => M.throwMsg .file (asc "Failed to open \"" ++ name ++ asc "\" GDB log.")
  | some f => M.tryCatch (do
      initPSPandMSP
      parseLines firstPassHandler f.bytes
      rewindLogFile f
      parseLines secondPassHandler f.bytes
      Host.fclose) (fun e => do
      Host.fclose
      M.rethrow e)

end Verif.GdbLog
