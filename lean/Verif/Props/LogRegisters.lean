import Verif.Lemmas.LogRegisters
import Verif.Props.GdbLog
/-
C41 and C42 for files whose lines are of any kind.
-/
namespace Verif.Props
open Verif MemSim Spec GdbLog

/-- C41 for files with lines of any kind: every register for which there is a line holds the value that the last such line
gives it, well-formed or not. -/
theorem C41_any_lines {h h' : Host} {name : Str} {ts : List Str} {f : File} (hs : Sound h.mem) (hu : Unwatched h.mem)
    (hc : RegsWF h.ctx) (hn : h.files.opens h.files.next name = some f) (hb : f.bytes = ts.flatten) (ho : AnyLines ts)
    (he : ReadAll (parse name h) h') {r : Reg} {t : Str} {v : U32} (hl : lastFor ts r = some t) (hv : Gives t r v) :
    r.get h'.ctx = some v := by
  rw [ctx_of_readAll hs hu hn he, hb, results_any ho, get_last (startCtx_wf hc) hl hv]

/-- C41. Every line that begins with the name of a register gives it one value. -/
theorem C41_gives_one {line : Str} {r : Reg} : r.field <+: line ↔ ∃ v, Gives line r v ∧ ∀ r' v', Gives line r' v' → r' = r ∧ v' = v := by
  constructor
  · intro h
    obtain ⟨v, hv⟩ := gives_exists h
    refine ⟨v, hv, fun r' v' hv' => ?_⟩
    have e := gives_result hv
    rw [gives_result hv'] at e
    exact ⟨field_inj (gives_field hv') h, (Results.register.inj e).2⟩
  · rintro ⟨v, hv, -⟩
    exact gives_field hv

/-- C42. A line for one of s0 to s31 that shows no raw value sets the register to all ones. -/
theorem C42_without_raw {h h' : Host} {name : Str} {ts : List Str} {f : File} (hs : Sound h.mem) (hu : Unwatched h.mem)
    (hc : RegsWF h.ctx) (hn : h.files.opens h.files.next name = some f) (hb : f.bytes = ts.flatten) (ho : AnyLines ts)
    (he : ReadAll (parse name h) h') {i : Fin 33} (hi : i.val < 32) {t rest : Str} (hl : lastFor ts (.float i) = some t)
    (hw : AfterWord t (.float i) rest) (hr : ¬ asc "(raw " <+: rest) : h'.ctx.fpr[i.val]? = some 0xFFFFFFFF :=
  C41_any_lines hs hu hc hn hb ho he hl (.noRaw (by simpa [Reg.isFloat] using hi) hw hr)

/-- A log with a register line without a value, one without a raw value, and one with a number in octal. -/
def oddLines : List Str :=
  [asc "s1             0.5 0x3f000000\n", asc "r3             0400 256\n", asc "r4             <unavailable>\n"]

theorem oddLines_any : AnyLines oddLines :=
  .cons (isLine_mk (by decide +kernel)) (.cons (isLine_mk (by decide +kernel)) (.cons (isLine_mk (by decide +kernel)) .nil))

/-- Has all of the log been read? -/
def allRead : Out Host Unit → Bool
  | .ok _ _ => true
  | .throw e _ => e.code != .outOfMemory
  | .ub _ => false

theorem readAll_of {o : Out Host Unit} (h : allRead o = true) : ∃ h', ReadAll o h' := by
  cases o with
  | ok u h' => exact ⟨h', .inl rfl⟩
  | throw e h' => exact ⟨h', .inr ⟨e, rfl, by simpa [allRead] using h⟩⟩
  | ub r => cases h

example : ∃ (h h' : Host) (name : Str) (f : File), Sound h.mem ∧ Unwatched h.mem ∧ RegsWF h.ctx ∧ h.files.opens h.files.next name = some f ∧
    f.bytes = oddLines.flatten ∧ AnyLines oddLines ∧ ReadAll (parse name h) h' := by
  obtain ⟨h', e⟩ := readAll_of (o := parse (asc "x.txt") { hostWith oddLines.flatten with mem := quiet }) (by decide +kernel)
  exact ⟨_, h', _, _, quiet_sound, quiet_unwatched, ⟨rfl, rfl⟩, rfl, rfl, oddLines_any, e⟩

/-- The number is in octal in the second line; nothing in the third line is a number. -/
example : lastFor oddLines (.core 3) = some oddLines[1] ∧ Gives oddLines[1] (.core 3) 256 ∧
    lastFor oddLines (.core 4) = some oddLines[2] ∧ Gives oddLines[2] (.core 4) 0 := by
  have hm : ∀ (t : Str) v, Libc.strtoul32 t = v → Means t v := by
    intro t v h
    obtain ⟨w, hw⟩ := Libc.means_exists t
    rw [← h, Libc.strtoul32_means hw]
    exact hw
  have e1 : oddLines[1] = (Reg.core 3).field ++ asc "0400 256\n" := by decide +kernel
  have e2 : oddLines[2] = (Reg.core 4).field ++ asc "<unavailable>\n" := by decide +kernel
  refine ⟨by decide +kernel, ?_, by decide +kernel, ?_⟩
  · rw [e1]; exact .core rfl (hm _ _ (by decide +kernel))
  · rw [e2]; exact .core rfl (hm _ _ (by decide +kernel))

example : lastFor oddLines (.float 1) = some oddLines[0] ∧ AfterWord oddLines[0] (.float 1) (asc "0x3f000000\n") ∧
    ¬ asc "(raw " <+: asc "0x3f000000\n" := by
  refine ⟨by decide +kernel, ⟨asc "0.5", asc " ", by decide +kernel, by decide +kernel, by decide +kernel, by decide +kernel, by decide +kernel⟩,
    by decide +kernel⟩

end Verif.Props
