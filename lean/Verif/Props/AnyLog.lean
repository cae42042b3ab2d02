import Verif.Lemmas.AnyLog
import Verif.Props.LogRegisters
/-
C109: what any file means if it is taken for a log.
-/
namespace Verif.Props
open Verif MemSim Spec GdbLog

/-- C109. The lines of every file, whatever bytes it consists of, are taken for exactly one thing each. -/
theorem C109_one_meaning (text : Str) : ∃ ms, LogTakenFor text ms ∧ ∀ ms', LogTakenFor text ms' → ms' = ms := by
  obtain ⟨ms, h⟩ := log_exists text
  refine ⟨ms, h, fun ms' h' => ?_⟩
  have e := (results_taken h').symm.trans (results_taken h)
  clear h h'
  induction ms' generalizing ms with
  | nil => cases ms with | nil => rfl | cons m ms => cases e
  | cons m' ms' ih =>
    cases ms with
    | nil => cases e
    | cons m ms =>
      simp only [List.map_cons, List.cons.injEq] at e
      rw [resIs_inj e.1, ih _ e.2]

/-- C109. Nothing else about the file matters: two files whose lines are taken for the same lead to the same outcome in every way. -/
theorem C109_nothing_else {h : Host} {name name' text text' : Str} {ms : List Meaning} (hn : NextLog h name text)
    (hn' : NextLog h name' text') (hm : LogTakenFor text ms) (hm' : LogTakenFor text' ms) : parse name h = parse name' h := by
  obtain ⟨f, h1, rfl, h2⟩ := hn
  obtain ⟨f', h1', rfl, h2'⟩ := hn'
  rw [parse_eq h1, parse_eq h1', h2, h2', results_taken hm, results_taken hm']

/-- C109. If the memory shown fits next to what is there, everything that is shown can be read: each word reads as the word last
shown there, and each byte as the byte last shown there. -/
theorem C109_memory {h : Host} {name text : Str} {ms : List Meaning} (hr : Ready h) (hn : NextLog h name text) (hm : LogTakenFor text ms)
    (hf : Free h.mem (blocks (runs (memoryIn ms)))) (hl : ∀ r ∈ runs (memoryIn ms), 4 * r.2.length < 2 ^ 32)
    (hw : WholeWords (memoryIn ms)) :
    ∃ h', parse name h = .ok () h' ∧ HoldsWords h'.mem (memoryIn ms) ∧ HoldsBytes h'.mem (blocks (memoryIn ms)) ∧
      AddsBlocks h.mem h'.mem (blocks (runs (memoryIn ms))) := by
  have hl' : LoadOK h.mem (memOf (results text)) := by
    rw [memoryIn_taken hm]
    exact .of_free (memoryIn_ne hm) hl hf hw
  obtain ⟨h', e, hg⟩ := gdb_loads hr hn hl'
  have hsp := hg.split
  rw [memoryIn_taken hm] at hl' hsp
  exact ⟨h', e, hl'.holds hsp, fun a b hb => hl'.bytes hsp hf hb, adds_runs hsp hl⟩

/-- C109. Whatever the outcome, the regions added are the runs of memory lines, in order, each as long as its lines; if an
allocation fails, those up to it. -/
theorem C109_regions {h h' : Host} {name : Str} {ms : List Meaning} {f : File} (hs : Sound h.mem) (hu : Unwatched h.mem)
    (hn : h.files.opens h.files.next name = some f) (hm : LogTakenFor f.bytes ms) (ha : ∀ m ∈ memoryIn ms, m.1 ≠ 0xFFFFFFFF)
    (hl : ∀ r ∈ runs (memoryIn ms), 4 * r.2.length < 2 ^ 32) (he : Ends (parse name h) h') :
    ∃ k, AddsRuns h.mem h'.mem ((runs (memoryIn ms)).take k) ∧
      (PlentyOfMemory h.mem ∨ parse name h = .ok () h' → (runs (memoryIn ms)).length ≤ k) := by
  rw [← memoryIn_taken hm] at ha hl ⊢
  have key := both_adds (h := Dump.opened h) (fails := f.seekSetFails) hs hu results_valid ha hl
  have e0 : parse name h = both _ _ (Dump.opened h) := parse_eq hn
  rw [← e0] at key
  rcases he with ⟨u, he⟩ | ⟨e, he⟩
  · rw [he] at key
    exact ⟨_, by rw [List.take_length]; exact key, fun _ => Nat.le_refl _⟩
  · rw [he] at key
    obtain ⟨k, k1, k2⟩ := key
    refine ⟨k, k1, ?_⟩
    rintro (hp | hp)
    · exact k2 hp
    · rw [he] at hp; cases hp

/-- C109. Every register holds the value of the last line for it; without one, MSP and PSP are 0xBAADBAAD and the others as before.
The floating point flag is set if it was before or there is a line for one of s0 to s31. -/
theorem C109_registers {h h' : Host} {name : Str} {ms : List Meaning} {f : File} (hs : Sound h.mem) (hu : Unwatched h.mem)
    (hc : RegsWF h.ctx) (hn : h.files.opens h.files.next name = some f) (hm : LogTakenFor f.bytes ms) (he : ReadAll (parse name h) h') :
    (∀ r : Reg, r.get h'.ctx = match registerIn ms r with
      | some v => some v
      | none => if r = .core 17 ∨ r = .core 18 then some 0xBAADBAAD else r.get h.ctx) ∧
    h'.ctx.flags = if floatIn ms = true then h.ctx.flags ||| 1 else h.ctx.flags := by
  rw [ctx_of_readAll hs hu hn he, results_taken hm]
  refine ⟨fun r => ?_, flags_taken ms _⟩
  rw [get_taken (startCtx_wf hc), get_start hc]
  cases registerIn ms r <;> rfl

/-- C109 agrees with what well-formed logs contribute. -/
theorem C109_well_formed {ls : List LogLine} (ho : LogOK ls) {ms : List Meaning} (hm : LogTakenFor (logText ls) ms) :
    memoryIn ms = contributed ls ∧ ∀ r, registerIn ms r = lastValue ls r := by
  constructor
  · rw [← memoryIn_taken hm, results_log ho, memOf_log]
  · intro r
    have e : ms.map resIs = ls.map resOf := by rw [← results_taken hm, results_log ho]
    have hw : ∀ v : U32, RegsWF { r := List.replicate 19 v, fpr := List.replicate 33 v } := fun v => ⟨by simp, by simp⟩
    have g : ∀ v : U32, (registerIn ms r).or (r.get { r := List.replicate 19 v, fpr := List.replicate 33 v }) =
        (lastValue ls r).or (r.get { r := List.replicate 19 v, fpr := List.replicate 33 v }) := by
      intro v
      rw [← get_taken (hw v), ← get_lines (hw v), e]
    have hg : ∀ v : U32, r.get { r := List.replicate 19 v, fpr := List.replicate 33 v } = some v := by
      intro v
      cases r with
      | core i => simp only [Reg.get]; rw [List.getElem?_replicate, if_pos i.isLt]
      | float i => simp only [Reg.get]; rw [List.getElem?_replicate, if_pos i.isLt]
    have g0 := g 0
    have g1 := g 1
    rw [hg] at g0 g1
    cases h1 : registerIn ms r <;> cases h2 : lastValue ls r <;> rw [h1, h2] at g0 g1
    · simp at g0 g1; rw [← g0] at g1; exact absurd g1 (by decide)
    · simp at g0 g1; rw [g0] at g1; exact absurd g1 (by decide)
    · simpa using g0

/-- C109 agrees with well-formed logs about the floating point registers, too. -/
theorem C109_float {ls : List LogLine} (ho : LogOK ls) {ms : List Meaning} (hm : LogTakenFor (logText ls) ms) : floatIn ms = showsFloat ls := by
  have e : ms.map resIs = ls.map resOf := by rw [← results_taken hm, results_log ho]
  have h := (flags_taken ms {}).symm.trans ((congrArg (fun x => (x.foldl ctxOf {}).flags) e).trans (flags_lines ls {}))
  revert h
  cases floatIn ms <;> cases showsFloat ls <;> decide

/-! ### An example -/

/-- Anything at all. -/
def anObj : Obj := { host := { mem := { heap := { fails := fun _ => false } }, files := { opens := fun _ _ => none } } }

def givesResult (line : Str) (r : Results) : Bool := match parseLine line anObj with | .ok x _ => x == r | _ => false

theorem taken_of {line : Str} {m : Meaning} (h : givesResult line (resIs m) = true) : TakenFor line m := by
  obtain ⟨m', h'⟩ := taken_exists line
  have e : resIs m' = resIs m := by
    unfold givesResult at h
    rw [resultOf_spec, taken_result h'] at h
    simpa using h
  rw [← resIs_inj e]
  exact h'

theorem lines_of {text : Str} {ps : List Str} (h : chunks text = ps) : Lines text ps := by
  obtain ⟨ps', h'⟩ := lines_exist text
  rw [← h, chunks_lines h']
  exact h'

/-- A log with a line whose memory cannot be read, a line with a NUL in it, an unbalanced symbol, and an s register without a raw
value. -/
def oddPieces : List Str :=
  [asc "0x30000000:\tCannot access\n", asc "0x30000010 <a<b>:\t0x7\n", asc "r5             0x12" ++ 0 :: asc "34\n",
   asc "s1             0.5 0x3f000000\n", asc "0x30000014 <f>:\t010 -1 7"]

def oddLog : Str := oddPieces.flatten

/-- What it is taken for. -/
def oddMeanings : List Meaning :=
  [.memory 0x30000000 [0, 0, 0, 0], .memory 0x30000010 [0], .register (.core 5) 0x12, .register (.float 1) 0xFFFFFFFF,
   .memory 0x30000014 [8, 0xFFFFFFFF, 7]]

theorem oddLog_taken : LogTakenFor oddLog oddMeanings :=
  ⟨oddPieces, lines_of (by decide +kernel),
    .cons (taken_of (by decide +kernel)) (.cons (taken_of (by decide +kernel)) (.cons (taken_of (by decide +kernel))
      (.cons (taken_of (by decide +kernel)) (.cons (taken_of (by decide +kernel)) .nil))))⟩

theorem oddLog_runs : runs (memoryIn oddMeanings) = [(0x30000000, [0, 0, 0, 0, 0, 8, 0xFFFFFFFF, 7])] := by decide +kernel

example : ∃ h name, Ready h ∧ NextLog h name oddLog ∧ LogTakenFor oddLog oddMeanings ∧ Free h.mem (blocks (runs (memoryIn oddMeanings))) ∧
    (∀ r ∈ runs (memoryIn oddMeanings), 4 * r.2.length < 2 ^ 32) ∧ WholeWords (memoryIn oddMeanings) ∧
    ∀ m ∈ memoryIn oddMeanings, m.1 ≠ 0xFFFFFFFF :=
  ⟨hostWith _, asc "x.txt", hostWith_ready _, hostWith_log _ _, oddLog_taken,
    by rw [oddLog_runs]; exact free_above 0x30000000 (by show ∀ r ∈ demo.regions, _; decide) (by decide),
    by rw [oddLog_runs]; decide, whole_of_aligned (by decide) (by decide), by decide⟩

/-- Another file that is taken for the same. -/
theorem oddLog_other : LogTakenFor (asc "0x30000000 <main>: 0x0 0 0 0\n0x30000010:\t0\x00\nr5             18\ns1             1 (raw -1)\n" ++
    asc "0x30000014:\t8 4294967295 0x7") oddMeanings :=
  ⟨[asc "0x30000000 <main>: 0x0 0 0 0\n", asc "0x30000010:\t0\x00\n", asc "r5             18\n", asc "s1             1 (raw -1)\n",
    asc "0x30000014:\t8 4294967295 0x7"], lines_of (by decide +kernel),
    .cons (taken_of (by decide +kernel)) (.cons (taken_of (by decide +kernel)) (.cons (taken_of (by decide +kernel))
      (.cons (taken_of (by decide +kernel)) (.cons (taken_of (by decide +kernel)) .nil))))⟩

example : ∃ (h h' : Host) (name : Str) (f : File), Sound h.mem ∧ Unwatched h.mem ∧ RegsWF h.ctx ∧ h.files.opens h.files.next name = some f ∧
    LogTakenFor f.bytes oddMeanings ∧ ReadAll (parse name h) h' := by
  obtain ⟨h', e⟩ := readAll_of (o := parse (asc "x.txt") { hostWith oddLog with mem := quiet }) (by decide +kernel)
  exact ⟨_, h', _, _, quiet_sound, quiet_unwatched, ⟨rfl, rfl⟩, rfl, oddLog_taken, e⟩

example : registerIn oddMeanings (.core 5) = some 0x12 ∧ registerIn oddMeanings (.core 6) = none ∧ floatIn oddMeanings = true := by decide

end Verif.Props
