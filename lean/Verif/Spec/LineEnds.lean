import Verif.Spec.Dump
import Verif.Spec.AnyLog
import Verif.Spec.CommandLine
/-
Text files whose lines end in one way or another. Nothing here mentions a parser.
-/
namespace Verif.Spec
open Verif

/-- Two texts that differ in their line ends only: the characters other than carriage returns and line feeds are the same ones, in the
same order. -/
def SameText (t1 t2 : Str) : Prop := t1.filter (fun c => !isNewline c) = t2.filter (fun c => !isNewline c)

/-- The text with its lines ending in a carriage return and a line feed instead of a line feed. -/
def crlf (text : Str) : Str := text.flatMap fun c => if c = 0x0A then [0x0D, 0x0A] else [c]

/-- A line with an address and nothing else, not even a colon. -/
def BareAddress (line : Str) : Prop := ∃ ds, ds.length = 8 ∧ AllHex ds ∧ line = asc "0x" ++ ds ++ [0x0A]

/-- The lines that mean something. -/
def telling (ms : List Meaning) : List Meaning := ms.filter fun m => match m with | .other => false | _ => true

/-- A text file with a crash, and the same file with other line ends: a hexadecimal dump whose lines are broken in any other way, or a
log whose lines end in a carriage return and a line feed. No line of the log is a bare address. -/
inductive OtherLineEnds : Str → Str → Prop
  | hex {text text' : Str} (h1 : asc "6343" <+: text) (h2 : asc "6343" <+: text') (h : SameText text text') : OtherLineEnds text text'
  | log {text : Str} {ps : List Str} (h1 : ¬ [0x63, 0x43] <+: text) (h2 : ¬ asc "6343" <+: text) (hl : Lines text ps)
      (hp : ∀ p ∈ ps, ¬ BareAddress p) : OtherLineEnds text (crlf text)

/-- The file system `g` does not differ from that of `p` where this command line names a file, except for the line ends of the dump. -/
def SameButLineEnds (args : List Str) (g : Nat → Str → Option File) (p : CommandLine.Prog) : Prop :=
  ∀ os, Spelled args os →
    (∀ n, imageFile os = some n → g p.host.files.next n = p.host.files.opens p.host.files.next n) ∧
    ∀ d, lastDump os = some d → ∃ text text', OtherLineEnds text text' ∧ ∀ i, i = p.host.files.next + 1 ∨ i = p.host.files.next + 2 →
      p.host.files.opens i d = some (File.of text) ∧ g i d = some (File.of text')

end Verif.Spec
