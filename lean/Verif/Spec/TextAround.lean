import Verif.Spec.AnyCrash
import Verif.Spec.LineEnds
/-
Text around a hexadecimal dump, such as a terminal records it. Nothing here mentions a parser.
-/
namespace Verif.Spec
open Verif

/-- The text before the dump when CrashCatcher sends one to a terminal; see README.creole, "CrashCatcher HexDump". -/
def beforeDump : Str := asc "\r\n\r\nCRASH ENCOUNTERED\r\nEnable logging and then press any key to start dump.\r\n\r\n"

/-- The text after it. -/
def afterDump : Str := asc "\r\nEnd of dump\r\n"

/-- There is no `0x` in the text and there are no two spaces next to each other, as in what GDB writes into a log. -/
def NotFromGdb (text : Str) : Prop := ¬ asc "0x" <:+: text ∧ ¬ asc "  " <:+: text

/-- The registers of a file that shows none. -/
def noRegisters : Regs := regsIn []

/-- A character that is neither a hexadecimal digit nor part of a line end. -/
def Foreign (c : U8) : Prop := hexDigit c = none ∧ isNewline c = false

end Verif.Spec
