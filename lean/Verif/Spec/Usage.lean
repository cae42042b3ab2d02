import Verif.Spec.CommandLine
/-
What the synopsis in a usage text says: `( )` encloses alternatives, `[ ]` what may be left out, `--word` is the name of an option, and
the words after it are its parameters. Options may come in any order and may be repeated.
-/
namespace Verif.Spec
open Verif

/-- One place of the synopsis: the forms an option may have here (its name and its parameters), and whether it may be left out. -/
structure Place where
  mayBeMissing : Bool
  forms : List (List Str)
  deriving DecidableEq

/-- The text up to a pattern. -/
def before (pat : Str) : Str → Str
  | [] => []
  | c :: t => if pat <+: c :: t then [] else c :: before pat t

/-- The words of a text, at blanks and line ends; brackets and bars are words of their own. -/
def synopsisWords (t : Str) : List Str :=
  let spread := t.flatMap fun c => if c ∈ [0x28#8, 0x29#8, 0x5B#8, 0x5D#8, 0x7C#8] then [0x20#8, c, 0x20#8] else [c]
  (spread.splitOnP fun c => c = 0x20#8 ∨ c = 0x0A#8).filter (· ≠ [])

/-- Reading one word of the synopsis; the place being read is the first in the list. The flag says that a bracket is open. -/
def readWord : Bool × List Place → Str → Bool × List Place
  | (_, ps), [0x28#8] => (true, ⟨false, []⟩ :: ps)
  | (_, ps), [0x5B#8] => (true, ⟨true, []⟩ :: ps)
  | (_, ps), [0x29#8] => (false, ps)
  | (_, ps), [0x5D#8] => (false, ps)
  | (o, ps), [0x7C#8] => (o, ps)
  | (true, p :: ps), 0x2D#8 :: 0x2D#8 :: w => (true, { p with forms := p.forms ++ [[0x2D#8 :: 0x2D#8 :: w]] } :: ps)
  | (o, ps), 0x2D#8 :: 0x2D#8 :: w => (o, ⟨false, [[0x2D#8 :: 0x2D#8 :: w]]⟩ :: ps)
  | (o, p :: ps), w => (o, { p with forms := p.forms.dropLast ++ p.forms.getLast?.toList.map (· ++ [w]) } :: ps)
  | (o, []), _ => (o, [])

/-- The synopsis of a usage text: what is between the program's name and the explanations. -/
def synopsis (text : Str) : List Place :=
  ((synopsisWords ((before (asc "Where:") text).drop (asc "Usage: CrashDebug ").length)).foldl readWord (false, [])).2.reverse

/-- The words are options of these forms: each has the name of one, in upper or lower case, and as many parameters. -/
inductive Follows (forms : List (List Str)) : List Str → List (List Str) → Prop
  | nil : Follows forms [] []
  | cons {name w : Str} {params ps ws : List Str} {fs : List (List Str)} (hf : name :: params ∈ forms) (hn : Spells w name)
      (hl : ps.length = params.length) (h : Follows forms ws fs) : Follows forms (w :: (ps ++ ws)) ((name :: params) :: fs)

/-- The command line is as the synopsis says. -/
def AsShown (ps : List Place) (args : List Str) : Prop :=
  ∃ fs, Follows (ps.flatMap Place.forms) args fs ∧ ∀ p ∈ ps, p.mayBeMissing = false → ∃ f ∈ p.forms, f ∈ fs

end Verif.Spec
