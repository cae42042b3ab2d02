import Verif.Spec.AnyLog
import Verif.Spec.CommandLine
import Verif.Model.Ctype
/-
Logs whose lines about memory and floating point registers are free of bytes that are negative characters. Nothing here mentions a
parser.
-/
namespace Verif.Spec
open Verif

/-- A byte of ASCII, or 0xFF, or any byte at all where `char` is unsigned. -/
def PlainByte (signed : Bool) (c : U8) : Prop := signed = false ∨ c.toNat < 0x80 ∨ c.toNat = 0xFF

/-- A line about memory is plain after the address, and one about a register s0 to s31 is plain after the name. Other lines can
have any bytes. -/
def LinePlain (signed : Bool) (line : Str) : Prop :=
  (LikeMemory line → ∀ c ∈ line.drop 11, PlainByte signed c) ∧ ∀ (r : Reg) (t : Str), r.isFloat = true → line = r.field ++ t → ∀ c ∈ t, PlainByte signed c

/-- All lines of a file that is taken for a log are plain, up to their first NUL. -/
def LogPlain (signed : Bool) (text : Str) : Prop := ∃ ps, Lines text ps ∧ ∀ p ∈ ps, LinePlain signed (upToNul p)

/-- The dump that a command line names is plain, if it is a log. -/
def DumpPlain (signed : Bool) (args : List Str) (p : CommandLine.Prog) : Prop :=
  ∀ os d f0 f, Spelled args os → lastDump os = some d → p.host.files.opens (p.host.files.next + 1) d = some f0 →
    ¬ [0x63, 0x43] <+: f0.bytes → ¬ asc "6343" <+: f0.bytes →
    p.host.files.opens (p.host.files.next + 2) d = some f → LogPlain signed f.bytes

/-- `CrashDebugCommandLine_Init` with these words on a host whose `char` is signed or not, where `isspace` is undefined for
negative characters. -/
def startUpC (signed : Bool) (args : List Str) : M CommandLine.Prog Unit := CommandLine.initC signed args.length args

end Verif.Spec
