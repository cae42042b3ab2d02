import Verif.Spec.Platform
/-
How GDB numbers the registers that a target description declares (C110). By GDB's documentation of target descriptions, a register
has the number of its `regnum` attribute; without one it has the number after that of the register before it, and the first
register has the number 0. Registers are in the packet with all registers in the order of their numbers, and the stop reply names
registers by them.
-/
namespace Verif.Spec
open Verif Platform

/-- The registers declared in a line, with the number if there is one. -/
def regnumsInLine (line : Str) : List (Str × Option Nat) :=
  (quoted (asc "<reg") 0x3E line).map fun e =>
    ((quoted (asc " name=\"") 0x22 e).flatten, (quoted (asc " regnum=\"") 0x22 e).head?.map decimal)

/-- The registers with their numbers; `next` is the number for a register without one. -/
def number : Nat → List (Str × Option Nat) → List (Str × Nat)
  | _, [] => []
  | next, (name, n) :: rs => (name, n.getD next) :: number (n.getD next + 1) rs

/-- The registers a target description declares, with their numbers. -/
def numbered (xml : Str) : List (Str × Nat) := number 0 ((xml.splitOn 0x0A).flatMap regnumsInLine)

/-! By GDB's documentation of the standard features for ARM, it looks for r0 to r12, sp, lr, pc and xpsr of a Cortex-M in the
feature org.gnu.gdb.arm.m-profile, for msp and psp in org.gnu.gdb.arm.m-system, and for d0 to d15 and fpscr in
org.gnu.gdb.arm.vfp. -/

/-- What a line of a target description says: the feature it begins, the registers it declares, with their types if they have
them, and whether it ends a feature. -/
structure XmlLine where
  begins : Option Str := none
  regs : List (Str × Option Str) := []
  ends : Bool := false
deriving DecidableEq

/-- Reads a line. -/
def xmlLine (line : Str) : XmlLine where
  begins := (quoted (asc "<feature name=\"") 0x22 line).head?
  regs := (quoted (asc "<reg") 0x3E line).map fun e =>
    ((quoted (asc " name=\"") 0x22 e).flatten, (quoted (asc " type=\"") 0x22 e).head?)
  ends := !(quoted (asc "</feature") 0x3E line).isEmpty

/-- The registers with their types and the feature they are declared in, `f` being the feature of the lines before. -/
def inFeatures : Option Str → List XmlLine → List (Str × Option Str × Option Str)
  | _, [] => []
  | f, l :: ls =>
    (l.regs.map fun r => (r.1, r.2, l.begins.or f)) ++ inFeatures (if l.ends then none else l.begins.or f) ls

/-- The registers a target description declares: name, type and feature. -/
def described (xml : Str) : List (Str × Option Str × Option Str) := inFeatures none ((xml.splitOn 0x0A).map xmlLine)

/-- The features and types GDB wants. -/
def wanted (float : Bool) : List (Str × Option Str × Option Str) :=
  ["r0", "r1", "r2", "r3", "r4", "r5", "r6", "r7", "r8", "r9", "r10", "r11", "r12"].map
      (fun n => (asc n, none, some (asc "org.gnu.gdb.arm.m-profile"))) ++
    [(asc "sp", some (asc "data_ptr"), some (asc "org.gnu.gdb.arm.m-profile")),
     (asc "lr", none, some (asc "org.gnu.gdb.arm.m-profile")),
     (asc "pc", some (asc "code_ptr"), some (asc "org.gnu.gdb.arm.m-profile")),
     (asc "xpsr", none, some (asc "org.gnu.gdb.arm.m-profile")),
     (asc "msp", none, some (asc "org.gnu.gdb.arm.m-system")), (asc "psp", none, some (asc "org.gnu.gdb.arm.m-system"))] ++
    if float then
      ["d0", "d1", "d2", "d3", "d4", "d5", "d6", "d7", "d8", "d9", "d10", "d11", "d12", "d13", "d14", "d15"].map
          (fun n => (asc n, some (asc "ieee_double"), some (asc "org.gnu.gdb.arm.vfp"))) ++
        [(asc "fpscr", some (asc "int"), some (asc "org.gnu.gdb.arm.vfp"))]
    else []

/-- A field of a stop reply, `nn:rrrrrrrr;`, that gives GDB the value `v` of the register with the number `n`. -/
def replyField (n : Nat) (v : U32) : Str := hexOf [BitVec.ofNat 8 n] ++ (asc ":" ++ (hexOf (le32 v) ++ asc ";"))

/-- The field gives GDB, which knows registers by the target description, the value of the register of this name, which is the one
at the place of the name among the registers. -/
def GivesRegister (xml : Str) (c : Regs) (name field : Str) : Prop :=
  ∃ (n : Nat) (v : U32) (k : Nat), n < 256 ∧ (name, n) ∈ numbered xml ∧ (registerNames false)[k]? = some name ∧ c.r[k]? = some v ∧ field = replyField n v

/-- Which words of the registers each of GDB's registers is made of. The words are R0 to R12, SP, LR, PC, XPSR, MSP and PSP, then S0 to S31
and FPSCR; a double precision register is made of two single precision ones, the lower half first. -/
def valueWords : List (Str × List Nat) :=
  [(asc "r0", [0]), (asc "r1", [1]), (asc "r2", [2]), (asc "r3", [3]), (asc "r4", [4]), (asc "r5", [5]), (asc "r6", [6]), (asc "r7", [7]),
   (asc "r8", [8]), (asc "r9", [9]), (asc "r10", [10]), (asc "r11", [11]), (asc "r12", [12]), (asc "sp", [13]), (asc "lr", [14]),
   (asc "pc", [15]), (asc "xpsr", [16]), (asc "msp", [17]), (asc "psp", [18]),
   (asc "d0", [19, 20]), (asc "d1", [21, 22]), (asc "d2", [23, 24]), (asc "d3", [25, 26]), (asc "d4", [27, 28]), (asc "d5", [29, 30]),
   (asc "d6", [31, 32]), (asc "d7", [33, 34]), (asc "d8", [35, 36]), (asc "d9", [37, 38]), (asc "d10", [39, 40]), (asc "d11", [41, 42]),
   (asc "d12", [43, 44]), (asc "d13", [45, 46]), (asc "d14", [47, 48]), (asc "d15", [49, 50]), (asc "fpscr", [51])]

/-- The bytes of a register of GDB. -/
def valueBytes (c : Regs) (name : Str) : List U8 :=
  ((valueWords.lookup name).getD []).flatMap fun k => ((c.r ++ c.fpr)[k]?).elim [] le32

end Verif.Spec
