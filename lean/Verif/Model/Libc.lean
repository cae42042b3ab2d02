import Verif.Model.Base
/-
The C library functions for text that the modelled code calls, on C strings without their terminating NUL. Assumptions:
the "C" locale, 64-bit `unsigned long` (LP64 hosts; see `Long.lean` for others), `isspace` false for bytes from 0x80 on.
-/
namespace Verif.Libc
open Verif

/-- `isspace`. See libCrashDebug/src/GdbLogParser.c:275, 292, 416. -/
def isspace (c : U8) : Bool := c = 0x20 ∨ (0x09 ≤ c.toNat ∧ c.toNat ≤ 0x0D)

/-- The value of a digit or letter in `strtoul`; `none` for other characters. See libCrashDebug/src/GdbLogParser.c:248, 303,
394, 411 and libCrashDebug/src/CrashDebugCommandLine.c:175, 207-209. -/
def digitVal (c : U8) : Option Nat :=
  if 0x30 ≤ c.toNat ∧ c.toNat ≤ 0x39 then some (c.toNat - 0x30)
  else if 0x41 ≤ c.toNat ∧ c.toNat ≤ 0x5A then some (c.toNat - 0x41 + 10)
  else if 0x61 ≤ c.toNat ∧ c.toNat ≤ 0x7A then some (c.toNat - 0x61 + 10)
  else none

/-- Is it a digit in this base? See libCrashDebug/src/GdbLogParser.c:248, 303, 394, 411 and
libCrashDebug/src/CrashDebugCommandLine.c:175, 207-209. -/
def isDigit (base : Nat) (c : U8) : Bool :=
  match digitVal c with
  | some d => d < base
  | none => false

/-- The number that digits denote. See libCrashDebug/src/GdbLogParser.c:248, 303, 394, 411 and
libCrashDebug/src/CrashDebugCommandLine.c:175, 207-209. -/
def digitsVal (base : Nat) (ds : Str) : Nat := ds.foldl (fun n c => n * base + (digitVal c).getD 0) 0

/-- Optional sign: true for minus. See libCrashDebug/src/GdbLogParser.c:248, 303, 394, 411 and
libCrashDebug/src/CrashDebugCommandLine.c:175, 207-209. -/
def takeSign : Str → Bool × Str
  | c :: t => if c = 0x2D then (true, t) else if c = 0x2B then (false, t) else (false, c :: t)
  | [] => (false, [])

/-- Base 0 of `strtoul`: 16 after a `0x` that a hexadecimal digit follows, 8 after another 0, else 10. See
libCrashDebug/src/GdbLogParser.c:248, 303, 394, 411 and libCrashDebug/src/CrashDebugCommandLine.c:175, 207-209. -/
def takeBase : Str → Nat × Str
  | c :: x :: d :: t =>
    if c = 0x30 ∧ (x = 0x78 ∨ x = 0x58) ∧ isDigit 16 d then (16, d :: t)
    else if c = 0x30 then (8, c :: x :: d :: t) else (10, c :: x :: d :: t)
  | c :: t => if c = 0x30 then (8, c :: t) else (10, c :: t)
  | [] => (10, [])

/-- `strtoul(t, &end, 0)`: the result and the text from `end` on. See libCrashDebug/src/GdbLogParser.c:248, 303, 394, 411 and
libCrashDebug/src/CrashDebugCommandLine.c:175, 207-209. -/
def strtoul (t : Str) : Nat × Str :=
  let (neg, t2) := takeSign (t.dropWhile isspace)
  let (base, t3) := takeBase t2
  let ds := t3.takeWhile (isDigit base)
  if ds = [] then (0, t)
  else
    let n := digitsVal base ds
    (if 2 ^ 64 ≤ n then 2 ^ 64 - 1 else if neg then (2 ^ 64 - n) % 2 ^ 64 else n, t3.dropWhile (isDigit base))

/-- The result of `strtoul` stored in a `uint32_t`. See libCrashDebug/src/GdbLogParser.c:248, 303, 394, 411 and
libCrashDebug/src/CrashDebugCommandLine.c:175, 207-209. -/
def strtoul32 (t : Str) : U32 := BitVec.ofNat 32 (strtoul t).1

/-- What a buffer of characters is as a C string: the characters before the first NUL. See
libCrashDebug/src/GdbLogParser.c:188-205. -/
def cstr (buf : Str) : Str := buf.takeWhile (fun c => c ≠ 0)

/-- `fgets(buf, n + 1, f)` for a file whose unread part is `t`: the characters stored and the unread part after it.
At the end of the file `none` (NULL). See libCrashDebug/src/GdbLogParser.c:188. -/
def fgets : (n : Nat) → (t : Str) → Option (Str × Str)
  | 0, t => some ([], t)
  | _ + 1, [] => none
  | n + 1, c :: t =>
    if c = 0x0A then some ([c], t)
    else match fgets n t with
      | none => some ([c], [])
      | some (l, r) => some (c :: l, r)

/-- `strncmp(a, b, n) == 0`. See libCrashDebug/src/GdbLogParser.c:372, 409. -/
def strncmpEq (a b : Str) (n : Nat) : Bool := a.take n = b.take n

end Verif.Libc
