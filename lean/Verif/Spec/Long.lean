import Verif.Spec.AnyLog
import Verif.Spec.CommandLine
import Verif.Model.Long
/-
Numbers of at most 32 bits, on the command line and in logs. Nothing here mentions a parser.
-/
namespace Verif.Spec
open Verif

/-- If the text begins with a number, this has at most 32 bits. -/
def NumFits (t : Str) : Prop := ∀ minus n rest, Begins t minus n rest → n < 2 ^ 32

/-- So do all numbers that are taken from the text, at most `k`. -/
inductive AllFit : Nat → Str → Prop
  | enough {t : Str} : AllFit 0 t
  | ended {k : Nat} : AllFit k []
  | value {k : Nat} {t u rest : Str} {v : U32} (h : t ≠ []) (hs : Skips t u) (hf : NumFits u) (hv : Counts u v rest) (ht : AllFit k rest) :
      AllFit (k + 1) t

/-- The numbers in a line of a log have at most 32 bits. -/
inductive LineFits (line : Str) : Prop
  | memory (h : LikeMemory line) (ha : NumFits line) (hv : AllFit 4 (line.drop 11))
  | core {r : Reg} {t : Str} (hr : r.isFloat = false) (hl : line = r.field ++ t) (hv : NumFits t)
  | raw {r : Reg} {t : Str} (hr : r.isFloat = true) (hw : AfterWord line r (asc "(raw " ++ t)) (hv : NumFits t)
  | noRaw {r : Reg} {rest : Str} (hr : r.isFloat = true) (hw : AfterWord line r rest) (hn : ¬ asc "(raw " <+: rest)
  | other (h : ¬ LikeMemory line) (hr : ¬ LikeRegister line)

/-- The numbers in a file that is taken for a log have at most 32 bits. -/
def LogFits (text : Str) : Prop := ∃ ps, Lines text ps ∧ ∀ p ∈ ps, LineFits (upToNul p)

/-- The numbers in an option have at most 32 bits. -/
def OptFits : Opt → Prop
  | .bin _ b => NumFits b
  | .alias b s r => NumFits b ∧ NumFits s ∧ NumFits r
  | _ => True

/-- The numbers in the complete options at the front of a command line have at most 32 bits. -/
def WordsFit (args : List Str) : Prop := ∀ pre rest os, args = pre ++ rest → Spelled pre os → ∀ o ∈ os, OptFits o

/-- The numbers in the dump that a command line names, if it is a log, have at most 32 bits. -/
def DumpFits (args : List Str) (p : CommandLine.Prog) : Prop :=
  ∀ os d f0 f, Spelled args os → lastDump os = some d → p.host.files.opens (p.host.files.next + 1) d = some f0 →
    ¬ [0x63, 0x43] <+: f0.bytes → ¬ asc "6343" <+: f0.bytes →
    p.host.files.opens (p.host.files.next + 2) d = some f → LogFits f.bytes

/-- `CrashDebugCommandLine_Init` with these words on a host whose `unsigned long` has `w` bits. -/
def startUpW (w : Nat) (args : List Str) : M CommandLine.Prog Unit := CommandLine.initW w args.length args

end Verif.Spec
