import Verif.Spec.Diagnosis
/-
C108: dumps that are refused without a word.
-/
namespace Verif.Spec
open Verif CommandLine

/-- The dump is refused, and nothing is said about why: its text is spoiled before the memory blocks or between them, or it is a
log that shows a word of the image. -/
inductive Silent (image : List (U32 × List U8)) (text : Str) : Prop
  | head {bytes : Str} (hr : DumpSpoiled text bytes) (h : (headComplaint bytes).isSome) (hs : ¬ WrongSignature bytes)
  | rest {df : DumpFile} {u : Str} (hr : DumpSpoiled text (encode df ++ u)) (hw : df.WF) (hu : EndsAt u) (h8 : u.length < 8)
      (hno : ∀ q ∈ df.mem, ¬ Clashes image q)
  | log {ms : List Meaning} (hr : LogReads text ms) (h : ∃ m ∈ memoryIn ms, ∃ i < m.2.length, WordInside image (wordAt m i))

end Verif.Spec
