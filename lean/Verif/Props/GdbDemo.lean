import Verif.Lemmas.GdbSafe
import Verif.Props.Dump
/- Concrete GDB logs. -/
namespace Verif.Props
open Verif MemSim Spec GdbLog

/-! ### Concrete logs -/

theorem hexNum_mk {ds : Str} {v : U32} (h : ds ≠ [] ∧ AllHex ds ∧ hexNat ds = v.toNat) : HexNum (asc "0x" ++ ds) v :=
  ⟨ds, rfl, h.1, h.2.1, h.2.2⟩

theorem numEnds_mk {t : Str} (h : t.head?.all (fun c => (hexDigit c).isNone) = true) : NumEnds t := by
  rintro c t' rfl
  simpa using h

/-- One value after a tab. -/
theorem values_tab {ds t rest : Str} {v : U32} {vs : List U32} (hv : Values t vs rest) (s : Str)
    (h : s = asc "\t" ++ (asc "0x" ++ ds) ++ t ∧ (ds ≠ [] ∧ AllHex ds ∧ hexNat ds = v.toNat) ∧
      t.head?.all (fun c => (hexDigit c).isNone) = true) : Values s (v :: vs) rest := by
  obtain ⟨rfl, h, he⟩ := h
  exact .cons (.space (by decide)) (hexNum_mk h) (numEnds_mk he) hv

def line1 : Str := asc "0x30000000 <main>:\t0x11111111\t0x22222222\t0x33333333\t0x44444444\n"
def line2 : Str := asc "0x30000010:\t0x55555555\t0x66666666\t0x77777777\t0x88888888\n"
def line3 : Str := asc "pc             0x30000000\t0x30000000 <main>\n"
def line4 : Str := asc "s0             1.5\t(raw 0x3fc00000)\n"
def line5 : Str := asc "Some other text\n"
def line6 : Str := asc "0x30000100:\t0xdeadbeef"
def shortLine : Str := asc "0x2ffffff8:\t0xaaaaaaaa\t0xbbbbbbbb\n"

theorem line1_says : Says line1 (.memory 0x30000000 [0x11111111, 0x22222222, 0x33333333, 0x44444444]) := by
  refine ⟨asc "0x30000000", 0x20, asc "<main>:\t0x11111111\t0x22222222\t0x33333333\t0x44444444\n", asc "\n", by decide +kernel,
    hexNum_mk (ds := asc "30000000") (by decide +kernel), by decide +kernel, by decide +kernel, ?_, by decide +kernel, by decide +kernel, .inl rfl⟩
  have h4 : Values (asc "\t0x44444444\n") [0x44444444] (asc "\n") := values_tab (ds := asc "44444444") .nil _ (by decide +kernel)
  have h3 : Values (asc "\t0x33333333\t0x44444444\n") [0x33333333, 0x44444444] (asc "\n") :=
    values_tab (ds := asc "33333333") h4 _ (by decide +kernel)
  have h2 : Values (asc "\t0x22222222\t0x33333333\t0x44444444\n") [0x22222222, 0x33333333, 0x44444444] (asc "\n") :=
    values_tab (ds := asc "22222222") h3 _ (by decide +kernel)
  have hb : Balanced (asc "main") := by
    rw [show asc "main" = [0x6D, 0x61, 0x69, 0x6E] by decide +kernel]
    exact .char (by decide) (by decide) (.char (by decide) (by decide) (.char (by decide) (by decide) (.char (by decide) (by decide) .nil)))
  have hg : Gap (asc "<main>:\t") := by
    rw [show asc "<main>:\t" = [] ++ 0x3C :: (asc "main" ++ 0x3E :: (asc ":" ++ 0x09 :: [])) by decide +kernel]
    exact .symbol (by decide) hb (by decide +kernel) (by decide +kernel) (by decide) (by decide)
  rw [show asc "<main>:\t0x11111111\t0x22222222\t0x33333333\t0x44444444\n" =
    asc "<main>:\t" ++ (asc "0x" ++ asc "11111111") ++ asc "\t0x22222222\t0x33333333\t0x44444444\n" by decide +kernel]
  exact .cons hg (hexNum_mk (by decide +kernel)) (numEnds_mk (by decide +kernel)) h2

theorem line2_says : Says line2 (.memory 0x30000010 [0x55555555, 0x66666666, 0x77777777, 0x88888888]) := by
  refine ⟨asc "0x30000010", 0x3A, asc "\t0x55555555\t0x66666666\t0x77777777\t0x88888888\n", asc "\n", by decide +kernel,
    hexNum_mk (ds := asc "30000010") (by decide +kernel), by decide +kernel, by decide +kernel, ?_, by decide +kernel, by decide +kernel, .inl rfl⟩
  have h4 : Values (asc "\t0x88888888\n") [0x88888888] (asc "\n") := values_tab (ds := asc "88888888") .nil _ (by decide +kernel)
  have h3 : Values (asc "\t0x77777777\t0x88888888\n") [0x77777777, 0x88888888] (asc "\n") :=
    values_tab (ds := asc "77777777") h4 _ (by decide +kernel)
  have h2 : Values (asc "\t0x66666666\t0x77777777\t0x88888888\n") [0x66666666, 0x77777777, 0x88888888] (asc "\n") :=
    values_tab (ds := asc "66666666") h3 _ (by decide +kernel)
  exact values_tab (ds := asc "55555555") h2 _ (by decide +kernel)

theorem line3_says : Says line3 (.register (.core 15) 0x30000000) := by
  refine ⟨[], asc "0x30000000", asc "\t0x30000000 <main>\n", by decide +kernel, by decide +kernel,
    hexNum_mk (ds := asc "30000000") (by decide +kernel), numEnds_mk (by decide +kernel)⟩

theorem line4_says : Says line4 (.register (.float 0) 0x3fc00000) := by
  refine ⟨asc "1.5", asc "\t", asc "0x3fc00000", asc ")\n", by decide +kernel, by decide +kernel, by decide +kernel, by decide +kernel,
    hexNum_mk (ds := asc "3fc00000") (by decide +kernel), numEnds_mk (by decide +kernel)⟩

theorem notLike {t : Str} (h1 : isMemoryLine t = false) (h2 : isRegisterLine t = none) : Says t .other := by
  constructor
  · intro h
    rw [← likeMemory_iff, h1] at h
    cases h
  · intro h
    rw [← likeRegister_iff, h2] at h
    cases h

theorem line5_says : Says line5 .other := notLike (by decide +kernel) (by decide +kernel)

theorem line6_says : Says line6 (.memory 0x30000100 [0xdeadbeef]) := by
  refine ⟨asc "0x30000100", 0x3A, asc "\t0xdeadbeef", [], by decide +kernel,
    hexNum_mk (ds := asc "30000100") (by decide +kernel), by decide +kernel, by decide +kernel, ?_, by decide +kernel, by decide +kernel, .inr (by decide +kernel)⟩
  exact values_tab (ds := asc "deadbeef") (t := []) .nil _ (by decide +kernel)

theorem short_says : Says shortLine (.memory 0x2ffffff8 [0xaaaaaaaa, 0xbbbbbbbb]) := by
  refine ⟨asc "0x2ffffff8", 0x3A, asc "\t0xaaaaaaaa\t0xbbbbbbbb\n", asc "\n", by decide +kernel,
    hexNum_mk (ds := asc "2ffffff8") (by decide +kernel), by decide +kernel, by decide +kernel, ?_, by decide +kernel, by decide +kernel, .inr (by decide +kernel)⟩
  have h2 : Values (asc "\t0xbbbbbbbb\n") [0xbbbbbbbb] (asc "\n") := values_tab (ds := asc "bbbbbbbb") .nil _ (by decide +kernel)
  exact values_tab (ds := asc "aaaaaaaa") h2 _ (by decide +kernel)

theorem isLine_mk {t : Str} (h : t = t.dropLast ++ [0x0A] ∧ (∀ c ∈ t.dropLast, c ≠ 0x0A ∧ c ≠ 0) ∧ t.length ≤ 1023) : IsLine t :=
  ⟨t.dropLast, h.1, h.2.1, h.2.2⟩

/-- A log of memory, registers and other text, in that order. -/
def gdbExample : List LogLine :=
  [⟨line1, .memory 0x30000000 [0x11111111, 0x22222222, 0x33333333, 0x44444444]⟩,
   ⟨line5, .other⟩,
   ⟨line2, .memory 0x30000010 [0x55555555, 0x66666666, 0x77777777, 0x88888888]⟩,
   ⟨line3, .register (.core 15) 0x30000000⟩,
   ⟨line4, .register (.float 0) 0x3fc00000⟩,
   ⟨line6, .memory 0x30000100 [0xdeadbeef]⟩]

theorem gdbExample_ok : LogOK gdbExample :=
  .cons (isLine_mk (by decide +kernel)) line1_says (.cons (isLine_mk (by decide +kernel)) line5_says
    (.cons (isLine_mk (by decide +kernel)) line2_says (.cons (isLine_mk (by decide +kernel)) line3_says
      (.cons (isLine_mk (by decide +kernel)) line4_says (.last (by unfold IsLastLine; decide +kernel) line6_says)))))

theorem hostWith_log (bytes name : Str) : NextLog (hostWith bytes) name bytes := ⟨_, rfl, rfl, rfl⟩

theorem gdbExample_runs : runs (shown gdbExample) =
    [(0x30000000, [0x11111111, 0x22222222, 0x33333333, 0x44444444, 0x55555555, 0x66666666, 0x77777777, 0x88888888]),
     (0x30000100, [0xdeadbeef])] := by decide

theorem gdbExample_free (bytes : Str) : Free (hostWith bytes).mem (blocks (runs (shown gdbExample))) := by
  rw [gdbExample_runs]
  exact free_above 0x30000000 (by show ∀ r ∈ demo.regions, _; decide) (by decide)

/-- A log of two lines. The second shows two words just below the first. -/
def shortLog : List LogLine :=
  [⟨line1, .memory 0x30000000 [0x11111111, 0x22222222, 0x33333333, 0x44444444]⟩,
   ⟨shortLine, .memory 0x2ffffff8 [0xaaaaaaaa, 0xbbbbbbbb]⟩]

theorem shortLog_ok : LogOK shortLog :=
  .cons (isLine_mk (by decide +kernel)) line1_says (.cons (isLine_mk (by decide +kernel)) short_says .nil)

theorem shortLog_contributed : contributed shortLog =
    [(0x30000000, [0x11111111, 0x22222222, 0x33333333, 0x44444444]), (0x2ffffff8, [0xaaaaaaaa, 0xbbbbbbbb, 0])] := by decide +kernel

end Verif.Props
