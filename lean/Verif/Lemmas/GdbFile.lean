import Verif.Lemmas.GdbLine
import Verif.Lemmas.Sat
/- Whole GDB logs as sequences of parsed lines. -/
namespace Verif.GdbLog
open Verif MemSim Spec Libc

/-! ### Lines of a file -/

theorem fgets_some {n : Nat} {t b r : Str} (h : fgets n t = some (b, r)) : t = b ++ r := by
  induction n generalizing t b with
  | zero => simp only [fgets, Option.some.injEq, Prod.mk.injEq] at h; simp [← h.1, h.2]
  | succ n ih =>
    cases t with
    | nil => simp [fgets] at h
    | cons c t =>
      simp only [fgets] at h
      by_cases hc : c = 0x0A
      · rw [if_pos hc] at h
        simp only [Option.some.injEq, Prod.mk.injEq] at h
        rw [← h.1, ← h.2]; rfl
      · rw [if_neg hc] at h
        cases hf : fgets n t with
        | none =>
          rw [hf] at h
          simp only [Option.some.injEq, Prod.mk.injEq] at h
          cases n with
          | zero => simp [fgets] at hf
          | succ n =>
            cases t with
            | nil => rw [← h.1, ← h.2]; rfl
            | cons d t =>
              simp only [fgets] at hf
              split at hf
              · cases hf
              · split at hf <;> cases hf
        | some p =>
          obtain ⟨l, r'⟩ := p
          rw [hf] at h
          simp only [Option.some.injEq, Prod.mk.injEq] at h
          obtain ⟨rfl, rfl⟩ := h
          rw [List.cons_append, ← ih hf]

theorem fgets_none {n : Nat} {t : Str} (h : fgets (n + 1) t = none) : t = [] := by
  cases t with
  | nil => rfl
  | cons c t =>
    simp only [fgets] at h
    split at h
    · cases h
    · split at h <;> cases h

theorem fgets_pos {n : Nat} {t b r : Str} (h : fgets (n + 1) t = some (b, r)) : r.length < t.length := by
  have h1 := fgets_some h
  cases t with
  | nil => simp [fgets] at h
  | cons c t =>
    cases b with
    | nil =>
      simp only [fgets] at h
      split at h
      · cases h
      · split at h <;> cases h
    | cons d b => rw [h1]; simp; omega

/-- The lines as the program sees them. -/
def chunksF : Nat → Str → List Str
  | 0, _ => []
  | f + 1, t =>
    match fgets (LINE_SIZE - 1) t with
    | none => []
    | some (b, r) => b :: chunksF f r

def chunks (t : Str) : List Str := chunksF (t.length + 1) t

theorem chunksF_fuel {f g : Nat} {t : Str} (hf : t.length < f) (hg : t.length < g) : chunksF f t = chunksF g t := by
  induction f generalizing g t with
  | zero => omega
  | succ f ih =>
    cases g with
    | zero => omega
    | succ g =>
      simp only [chunksF]
      cases h : fgets (LINE_SIZE - 1) t with
      | none => rfl
      | some p =>
        obtain ⟨b, r⟩ := p
        have := fgets_pos (n := 1022) h
        simp only
        rw [ih (g := g) (by omega) (by omega)]

theorem chunks_nil : chunks [] = [] := rfl

theorem chunks_cons {t b r : Str} (h : fgets (LINE_SIZE - 1) t = some (b, r)) : chunks t = b :: chunks r := by
  have := fgets_pos (n := 1022) h
  unfold chunks
  rw [chunksF]
  simp only [h]
  rw [chunksF_fuel (f := t.length) (g := r.length + 1) (by omega) (by omega)]

theorem fgets_append {n : Nat} {p : Str} (t : Str) (hp : p.getLast? = some 0x0A) :
    ∃ b p', fgets (n + 1) p = some (b, p') ∧ fgets (n + 1) (p ++ t) = some (b, p' ++ t) ∧ WholeLines p' := by
  induction n generalizing p with
  | zero =>
    cases p with
    | nil => cases hp
    | cons c p =>
      by_cases hc : c = 0x0A
      · refine ⟨[c], p, by simp [fgets, hc], by simp [fgets, hc], ?_⟩
        cases p with
        | nil => exact .inl rfl
        | cons d p => exact .inr (by simpa using hp)
      · refine ⟨[c], p, by simp [fgets, hc], by simp [fgets, hc], ?_⟩
        cases p with
        | nil => exact .inl rfl
        | cons d p => exact .inr (by simpa using hp)
  | succ n ih =>
    cases p with
    | nil => cases hp
    | cons c p =>
      by_cases hc : c = 0x0A
      · refine ⟨[c], p, by simp [fgets, hc], by simp [fgets, hc], ?_⟩
        cases p with
        | nil => exact .inl rfl
        | cons d p => exact .inr (by simpa using hp)
      · have hp' : p.getLast? = some 0x0A := by
          cases p with
          | nil => simp at hp; exact absurd hp hc
          | cons d p => simpa using hp
        obtain ⟨b, p', h1, h2, h3⟩ := ih hp'
        refine ⟨c :: b, p', ?_, ?_, h3⟩
        · rw [fgets, if_neg hc, h1]
        · rw [List.cons_append, fgets, if_neg hc, h2]

theorem chunks_append {p : Str} (t : Str) (hp : WholeLines p) : chunks (p ++ t) = chunks p ++ chunks t := by
  generalize hn : p.length = n
  induction n using Nat.strongRecOn generalizing p with
  | ind n ih =>
    subst hn
    rcases hp with rfl | hp
    · rfl
    · obtain ⟨b, p', h1, h2, h3⟩ := fgets_append (n := 1022) t hp
      have h1' : fgets (LINE_SIZE - 1) p = some (b, p') := h1
      have h2' : fgets (LINE_SIZE - 1) (p ++ t) = some (b, p' ++ t) := h2
      rw [chunks_cons h2', chunks_cons h1', ih _ (fgets_pos h1) h3 rfl]
      rfl

theorem fgets_line {u : Str} (t : Str) {n : Nat} (hu : ∀ c ∈ u, c ≠ 0x0A) (hn : u.length + 1 ≤ n) :
    fgets n (u ++ 0x0A :: t) = some (u ++ [0x0A], t) := by
  induction u generalizing n with
  | nil =>
    cases n with
    | zero => simp at hn
    | succ n => simp [fgets]
  | cons c u ih =>
    cases n with
    | zero => simp at hn
    | succ n =>
      simp only [List.cons_append, fgets]
      rw [if_neg (hu c (by simp)), ih (fun d hd => hu d (by simp [hd])) (by simpa using hn)]

theorem fgets_last {u : Str} {n : Nat} (h0 : u ≠ []) (hu : ∀ c ∈ u, c ≠ 0x0A) (hn : u.length ≤ n) : fgets n u = some (u, []) := by
  induction u generalizing n with
  | nil => exact absurd rfl h0
  | cons c u ih =>
    cases n with
    | zero => simp at hn
    | succ n =>
      simp only [fgets]
      rw [if_neg (hu c (by simp))]
      by_cases hz : u = []
      · subst hz
        cases n <;> rfl
      · rw [ih hz (fun d hd => hu d (by simp [hd])) (by simpa using hn)]

theorem chunks_line {l t : Str} (h : IsLine l) : chunks (l ++ t) = l :: chunks t := by
  obtain ⟨u, rfl, h1, h2⟩ := h
  simp only [List.length_append, List.length_singleton] at h2
  rw [List.append_assoc]
  exact chunks_cons (fgets_line t (fun c hc => (h1 c hc).1) (by simp only [LINE_SIZE]; omega))

theorem chunks_last {l : Str} (h : IsLastLine l) : chunks l = [l] := by
  obtain ⟨h0, h1, h2⟩ := h
  rw [chunks_cons (fgets_last h0 (fun c hc => (h1 c hc).1) (by simp only [LINE_SIZE]; omega)), chunks_nil]

theorem cstr_line {l : Str} (h : ∀ c ∈ l, c ≠ 0) : cstr l = l := by
  have := (takeWhile_stop (p := fun c => decide (c ≠ 0)) (a := l) (b := []) (by simpa using h) (by intro c t e; cases e)).1
  simpa [cstr] using this

theorem isLine_nonul {l : Str} (h : IsLine l) : ∀ c ∈ l, c ≠ 0 := by
  obtain ⟨u, rfl, h1, -⟩ := h
  intro c hc
  rcases List.mem_append.1 hc with hc | hc
  · exact (h1 c hc).2
  · simp at hc; rw [hc]; decide

/-! ### Parsed lines -/

/-- What parsing a line gives. -/
noncomputable def resultOf (line : Str) : Results := (parse_pure line).choose

theorem resultOf_valid (line : Str) : Valid (resultOf line) := (parse_pure line).choose_spec.1
theorem resultOf_spec (line : Str) (o : Obj) : parseLine line o = .ok (resultOf line) o := (parse_pure line).choose_spec.2 o

theorem resultOf_eq {line : Str} {r : Results} (h : ∀ o, parseLine line o = .ok r o) : resultOf line = r := by
  have h1 := h { host := { mem := { heap := { fails := fun _ => false } }, files := { opens := fun _ _ => none } } }
  rw [resultOf_spec] at h1
  exact (Out.ok.inj h1).1

/-- What parsing all lines of a file gives. -/
noncomputable def results (bytes : Str) : List Results := (chunks bytes).map fun b => resultOf (cstr b)

theorem results_valid {bytes : Str} : ∀ r ∈ results bytes, Valid r := by
  intro r hr
  obtain ⟨b, -, rfl⟩ := List.mem_map.1 hr
  exact resultOf_valid _

/-- Handle parsed lines one after the other. -/
def runAll (handler : Results → M Obj Unit) : List Results → M Obj Unit
  | [] => pure ()
  | r :: rs => do handler r; runAll handler rs

theorem loop_eq {handler : Results → M Obj Unit} {f : Nat} {t : Str} (hf : t.length < f) (o : Obj) :
    parseLoop handler f t o = runAll handler ((chunksF f t).map fun b => resultOf (cstr b)) o := by
  induction f generalizing t o with
  | zero => omega
  | succ f ih =>
    simp only [parseLoop, chunksF]
    cases h : fgets (LINE_SIZE - 1) t with
    | none => rfl
    | some p =>
      obtain ⟨b, r⟩ := p
      have := fgets_pos (n := 1022) h
      simp only [List.map_cons, runAll]
      rw [M.bind_ok (resultOf_spec (cstr b) o)]
      simp only [M.bind_apply]
      cases handler (resultOf (cstr b)) o with
      | ok a o' => exact ih (by omega) o'
      | throw e o' => rfl
      | ub r => rfl

theorem parseLoop_eq {handler : Results → M Obj Unit} {t : Str} (o : Obj) :
    parseLoop handler (t.length + 1) t o = runAll handler (results t) o := loop_eq (by omega) o

/-- Create the last region. -/
def finish : M Obj Unit := do
  let o ← M.get
  if o.regionSize ≠ 0 then onMem (createRegion o.regionStart o.regionSize) else pure ()

/-- One pass over the parsed lines. -/
def pass (handler : Results → M Obj Unit) (rs : List Results) : M Host Unit := fun h =>
  match (runAll handler rs >>= fun _ => finish) { host := h } with
  | .ok _ o => .ok () o.host
  | .throw e o => .throw e o.host
  | .ub r => .ub r

theorem parseLines_eq (handler : Results → M Obj Unit) (bytes : Str) : parseLines handler bytes = pass handler (results bytes) := by
  funext h
  unfold parseLines pass finish
  simp only [M.bind_apply, parseLoop_eq]
  rfl

def rewind (fails : Bool) : M Host Unit :=
  if fails then M.throw .file (asc "Failed to rewind GDB log for second pass.") else pure ()

/-- Both passes on an opened file. -/
def both (rs : List Results) (seekFails : Bool) : M Host Unit := M.tryCatch (do
  initPSPandMSP
  pass firstPassHandler rs
  rewind seekFails
  pass secondPassHandler rs
  Host.fclose) (fun e => do
  Host.fclose
  M.rethrow e)

theorem parse_eq {name : Str} {h : Host} {f : File} (hf : h.files.opens h.files.next name = some f) :
    parse name h = both (results f.bytes) f.seekSetFails
      { h with files := { h.files with next := h.files.next + 1, live := h.files.live + 1 } } := by
  unfold parse
  rw [M.bind_apply]
  unfold Host.fopen
  rw [hf]
  simp only [parseLines_eq]
  rfl

theorem parse_missing {name : Str} {h : Host} (hf : h.files.opens h.files.next name = none) :
    parse name h = .throw ⟨.file, (asc "Failed to open \"" ++ name ++ asc "\" GDB log.").take 1023⟩
      { h with files := { h.files with next := h.files.next + 1 } } := by
  unfold parse
  rw [M.bind_apply]
  unfold Host.fopen
  rw [hf]
  rfl

/-! ### Well-formed logs -/

/-- What a line is to the program. -/
def resOf (l : LogLine) : Results :=
  match l.says with
  | .memory a vs => .memory a (if vs.length < 4 ∧ l.text.getLast?.any isSpace then vs ++ [0] else vs)
  | .register r v => .register (offsetOf r) v
  | .other => .other

theorem resultOf_says {l : LogLine} (h : Says l.text l.says) : resultOf l.text = resOf l := by
  refine resultOf_eq fun o => ?_
  unfold resOf
  cases hs : l.says with
  | memory a vs => rw [hs] at h; exact parse_memory h o
  | register r v => rw [hs] at h; exact parse_register h o
  | other => rw [hs] at h; exact parse_other h.1 h.2 o

theorem results_log {ls : List LogLine} (h : LogOK ls) : results (logText ls) = ls.map resOf := by
  unfold results
  induction h with
  | nil => rfl
  | @last l h hs =>
    have : logText [l] = l.text := by simp [logText]
    rw [this, chunks_last h]
    simp only [List.map_cons, List.map_nil]
    rw [cstr_line (fun c hc => (h.2.1 c hc).2), resultOf_says hs]
  | @cons l ls h hs _ ih =>
    have : logText (l :: ls) = l.text ++ logText ls := by simp [logText]
    rw [this, chunks_line h]
    simp only [List.map_cons]
    rw [cstr_line (isLine_nonul h), resultOf_says hs, ih]

/-- The memory lines among parsed lines. -/
def memOf (rs : List Results) : List (U32 × List U32) :=
  rs.filterMap fun r => match r with | .memory a vs => some (a, vs) | _ => none

theorem memOf_log (ls : List LogLine) : memOf (ls.map resOf) = contributed ls := by
  unfold memOf contributed
  rw [List.filterMap_map]
  congr 1
  funext l
  simp only [Function.comp, resOf]
  cases l.says <;> rfl

end Verif.GdbLog
