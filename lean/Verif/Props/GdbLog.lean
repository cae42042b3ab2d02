import Verif.Props.GdbDemo
/-
C36-C42: reading logs of GDB sessions.
-/
namespace Verif.Props
open Verif MemSim Spec GdbLog

/-! ### C36 -/

theorem gdbExample_notShort : ∀ l ∈ gdbExample, ¬ Short l := by
  intro l hl
  simp only [gdbExample, List.mem_cons, List.not_mem_nil, or_false] at hl
  rcases hl with rfl | rfl | rfl | rfl | rfl | rfl <;> simp only [Short] <;> decide +kernel

/-- What a log contributes is what it shows, without short lines. -/
theorem contributed_eq {ls : List LogLine} (h : ∀ l ∈ ls, ¬ Short l) : contributed ls = shown ls := by
  unfold contributed shown
  induction ls with
  | nil => rfl
  | cons l ls ih =>
    have ih := ih fun x hx => h x (by simp [hx])
    have := h l (by simp)
    unfold Short at this
    simp only [List.filterMap_cons, ih]
    cases hs : l.says with
    | memory a vs =>
      rw [hs] at this
      simp only
      rw [if_neg this]
    | register r v => rfl
    | other => rfl

theorem contributed_ne {ls : List LogLine} (h : LogOK ls) : ∀ m ∈ contributed ls, m.2 ≠ [] := by
  rw [← memOf_log, ← results_log h]
  exact memOf_ne results_valid

/-- C36. If the log contains no memory line with fewer than four values before white space such as a newline, everything
it shows can be read: each word reads as the word last shown there, and each byte as the byte last shown there. Missing
for C36: such short lines, see `C36_short_line_witness`. -/
theorem C36_log_loads_partial {h : Host} {name : Str} {ls : List LogLine} (hr : Ready h) (hn : NextLog h name (logText ls))
    (ho : LogOK ls) (hs : ∀ l ∈ ls, ¬ Short l) (hf : Free h.mem (blocks (runs (shown ls))))
    (hl : ∀ r ∈ runs (shown ls), 4 * r.2.length < 2 ^ 32) (hw : WholeWords (shown ls)) :
    ∃ h', parse name h = .ok () h' ∧ HoldsWords h'.mem (shown ls) ∧ HoldsBytes h'.mem (blocks (shown ls)) ∧
      AddsBlocks h.mem h'.mem (blocks (runs (shown ls))) := by
  have hl' : LoadOK h.mem (memOf (results (logText ls))) := by
    rw [results_log ho, memOf_log, contributed_eq hs]
    exact .of_free (contributed_eq hs ▸ contributed_ne ho) hl hf hw
  obtain ⟨h', e, hg⟩ := gdb_loads hr hn hl'
  have hsp := hg.split
  rw [results_log ho, memOf_log, contributed_eq hs] at hl' hsp
  exact ⟨h', e, hl'.holds hsp, fun a b hb => hl'.bytes hsp hf hb, adds_runs hsp hl⟩

example : ∃ h name, Ready h ∧ NextLog h name (logText gdbExample) ∧ LogOK gdbExample ∧ (∀ l ∈ gdbExample, ¬ Short l) ∧
    Free h.mem (blocks (runs (shown gdbExample))) ∧ (∀ r ∈ runs (shown gdbExample), 4 * r.2.length < 2 ^ 32) ∧
    WholeWords (shown gdbExample) := by
  exact ⟨hostWith _, asc "x.txt", hostWith_ready _, hostWith_log _ _, gdbExample_ok, gdbExample_notShort, gdbExample_free _,
    by rw [gdbExample_runs]; decide, whole_of_aligned (by decide) (by decide)⟩

theorem lastByte_mem {mem : List (U32 × List U8)} (hd : Spec.Disjoint mem) {r : U32 × List U8} (hr : r ∈ mem) {a : U32} {b : U8}
    (hb : byteIn r a = some b) : lastByte mem a = some b := by
  obtain ⟨k, hk, rfl⟩ := List.mem_iff_getElem.1 hr
  exact Dump.lastByte_disjoint hd (List.getElem?_eq_getElem hk) hb

/-- C36, when no byte is shown twice: each word is exactly the one shown. -/
theorem C36_words_exact_partial {h : Host} {name : Str} {ls : List LogLine} (hr : Ready h) (hn : NextLog h name (logText ls))
    (ho : LogOK ls) (hs : ∀ l ∈ ls, ¬ Short l) (hf : Free h.mem (blocks (runs (shown ls))))
    (hl : ∀ r ∈ runs (shown ls), 4 * r.2.length < 2 ^ 32) (hw : WholeWords (shown ls)) (hd : Spec.Disjoint (blocks (shown ls))) :
    ∃ h', parse name h = .ok () h' ∧ ∀ m ∈ shown ls, ∀ i v, m.2[i]? = some v →
      ∃ s', IMemory.read .w32 (m.1 + BitVec.ofNat 32 (4 * i)) h'.mem = .ok v s' := by
  obtain ⟨h', e, hh, -⟩ := C36_log_loads_partial hr hn ho hs hf hl hw
  refine ⟨h', e, ?_⟩
  intro m hm i v hv
  have hi := (List.getElem?_eq_some_iff.1 hv).1
  obtain ⟨w, s', e1, e2⟩ := hh m hm i hi
  have hfit : m.1.toNat + 4 * m.2.length ≤ 2 ^ 32 := by
    have hl' : LoadOK h.mem (shown ls) := .of_free (contributed_eq hs ▸ contributed_ne ho) hl hf hw
    simpa [Fits, blk, wordBytes_length] using hl'.line_fits m hm
  have : w = v := by
    refine word_eq fun j hj => ?_
    have h1 := e2 j hj
    have h2 := lastByte_mem hd (show blk m ∈ blocks (shown ls) from List.mem_map_of_mem hm)
      (a := wordAt m i + BitVec.ofNat 32 j) (b := byteOf v j) (word_byte hfit hv hj)
    rw [h2] at h1
    exact (Option.some.inj h1).symm
  rw [this] at e1
  rw [Nat.mul_comm]
  exact ⟨s', e1⟩

/-- C36, with short lines: everything can be read as if each short line showed one more word, 0. -/
theorem C36_log_loads_general {h : Host} {name : Str} {ls : List LogLine} (hr : Ready h) (hn : NextLog h name (logText ls))
    (ho : LogOK ls) (hf : Free h.mem (blocks (runs (contributed ls))))
    (hl : ∀ r ∈ runs (contributed ls), 4 * r.2.length < 2 ^ 32) (hw : WholeWords (contributed ls)) :
    ∃ h', parse name h = .ok () h' ∧ HoldsWords h'.mem (contributed ls) ∧ HoldsBytes h'.mem (blocks (contributed ls)) ∧
      AddsBlocks h.mem h'.mem (blocks (runs (contributed ls))) := by
  have hl' : LoadOK h.mem (memOf (results (logText ls))) := by
    rw [results_log ho, memOf_log]
    exact .of_free (contributed_ne ho) hl hf hw
  obtain ⟨h', e, hg⟩ := gdb_loads hr hn hl'
  have hsp := hg.split
  rw [results_log ho, memOf_log] at hl' hsp
  exact ⟨h', e, hl'.holds hsp, fun a b hb => hl'.bytes hsp hf hb, adds_runs hsp hl⟩

theorem shortLog_free (bytes : Str) : Free (hostWith bytes).mem (blocks (runs (contributed shortLog))) := by
  rw [shortLog_contributed]
  exact free_above 0x20100000 (by show ∀ r ∈ demo.regions, _; decide) (by decide)

example : ∃ h name, Ready h ∧ NextLog h name (logText shortLog) ∧ LogOK shortLog ∧ Free h.mem (blocks (runs (contributed shortLog))) ∧
    (∀ r ∈ runs (contributed shortLog), 4 * r.2.length < 2 ^ 32) ∧ WholeWords (contributed shortLog) :=
  ⟨hostWith _, asc "x.txt", hostWith_ready _, hostWith_log _ _, shortLog_ok, shortLog_free _, by rw [shortLog_contributed]; decide,
    by rw [shortLog_contributed]; exact whole_of_aligned (by decide) (by decide)⟩

/-- C36 does not hold with short lines: the word that the first line shows at 0x30000000 reads as 0, though no other line
shows anything there. -/
theorem C36_short_line_witness : LogOK shortLog ∧ Spec.Disjoint (blocks (shown shortLog)) ∧
    ∃ h h' s', NextLog h (asc "x.txt") (logText shortLog) ∧ parse (asc "x.txt") h = .ok () h' ∧
      IMemory.read .w32 0x30000000 h'.mem = .ok (0 : U32) s' := by
  refine ⟨shortLog_ok, ?_, ?_⟩
  · rw [show shown shortLog = [(0x30000000, [0x11111111, 0x22222222, 0x33333333, 0x44444444]), (0x2ffffff8, [0xaaaaaaaa, 0xbbbbbbbb])] by decide +kernel]
    unfold Spec.Disjoint blocks
    simp only [List.map_cons, List.map_nil, List.pairwise_cons, List.mem_singleton, forall_eq, List.not_mem_nil, false_implies,
      implies_true, List.Pairwise.nil, and_true]
    intro a
    cases h1 : byteIn ((0x30000000 : U32), wordBytes [0x11111111, 0x22222222, 0x33333333, 0x44444444]) a with
    | none => exact .inl rfl
    | some b =>
      cases h2 : byteIn ((0x2ffffff8 : U32), wordBytes [0xaaaaaaaa, 0xbbbbbbbb]) a with
      | none => exact .inr rfl
      | some c =>
        have := byteIn_range (by rw [h1]; rfl)
        have := byteIn_range (by rw [h2]; rfl)
        simp [wordBytes_length] at *
        omega
  · have hw : WholeWords (contributed shortLog) := by rw [shortLog_contributed]; exact whole_of_aligned (by decide) (by decide)
    obtain ⟨h', e, hh, -⟩ := C36_log_loads_general (name := asc "x.txt") (hostWith_ready _) (hostWith_log (logText shortLog) _) shortLog_ok
      (shortLog_free _) (by rw [shortLog_contributed]; decide) hw
    rw [shortLog_contributed] at hh
    obtain ⟨v, s', e1, e2⟩ := hh (0x2ffffff8, [0xaaaaaaaa, 0xbbbbbbbb, 0]) (by simp) 2 (by simp)
    refine ⟨_, h', s', hostWith_log _ _, e, ?_⟩
    have : v = 0 := by
      refine word_eq fun j hj => ?_
      have h1 := e2 j hj
      have h2 : ∀ j < 4, lastByte (blocks [(0x30000000, [0x11111111, 0x22222222, 0x33333333, 0x44444444]), (0x2ffffff8, [0xaaaaaaaa, 0xbbbbbbbb, 0])])
          (wordAt (0x2ffffff8, [0xaaaaaaaa, 0xbbbbbbbb, 0]) 2 + BitVec.ofNat 32 j) = some 0 := by decide
      rw [h2 j hj] at h1
      have h3 : ∀ j < 4, (0 : U8) = byteOf (0 : U32) j := by decide
      exact (Option.some.inj h1).symm.trans (h3 j hj)
    rw [this] at e1
    exact e1

/-- The word at `a` after parsing. -/
def wordAfter (h : Host) (a : U32) : Option U32 :=
  match parse (asc "x.txt") h with
  | .ok _ h' => match IMemory.read .w32 a h'.mem with
    | .ok v _ => some v
    | _ => none
  | _ => none

theorem wordAfter_some {h : Host} {a v : U32} (hw : wordAfter h a = some v) :
    ∃ h' s', parse (asc "x.txt") h = .ok () h' ∧ IMemory.read .w32 a h'.mem = .ok v s' := by
  unfold wordAfter at hw
  cases e : parse (asc "x.txt") h with
  | ok u h' =>
    rw [e] at hw
    simp only at hw
    cases e2 : IMemory.read .w32 a h'.mem with
    | ok w s' =>
      rw [e2] at hw
      cases hw
      exact ⟨h', s', rfl, e2⟩
    | throw x s' => rw [e2] at hw; cases hw
    | ub r => rw [e2] at hw; cases hw
  | throw x s' => rw [e] at hw; cases hw
  | ub r => rw [e] at hw; cases hw

/-- Nor does C36 hold for lines with a symbol in which `<` and `>` are not balanced, as in C++: this line's word reads as 0. -/
theorem C36_unbalanced_symbol_witness :
    ∃ h h' s', NextLog h (asc "x.txt") (asc "0x30000000 <operator<(S)>:\t0x11111111") ∧
      parse (asc "x.txt") h = .ok () h' ∧ IMemory.read .w32 0x30000000 h'.mem = .ok (0 : U32) s' := by
  have : wordAfter (hostWith (asc "0x30000000 <operator<(S)>:\t0x11111111")) 0x30000000 = some 0 := by decide +kernel
  obtain ⟨h', s', h1, h2⟩ := wordAfter_some this
  exact ⟨_, h', s', hostWith_log _ _, h1, h2⟩

/-! ### C37 -/

/-- C37. Whatever the outcome (unless an allocation fails), the regions added are exactly the runs of memory lines, in
order, each as long as its lines. Missing for C37: memory lines at 0xFFFFFFFF, see `C37_top_witness`, runs of 4 GiB, and
short lines (in `C37_regions_are_runs_general` they count with their additional word). -/
theorem C37_regions_are_runs_partial {h h' : Host} {name : Str} {ls : List LogLine} {f : File} (hs : Sound h.mem)
    (hu : Unwatched h.mem) (hp : PlentyOfMemory h.mem) (hn : h.files.opens h.files.next name = some f) (hb : f.bytes = logText ls)
    (ho : LogOK ls) (hsh : ∀ l ∈ ls, ¬ Short l) (ha : ∀ m ∈ shown ls, m.1 ≠ 0xFFFFFFFF)
    (hl : ∀ r ∈ runs (shown ls), 4 * r.2.length < 2 ^ 32) (he : Ends (parse name h) h') :
    AddsRuns h.mem h'.mem (runs (shown ls)) := by
  rw [← contributed_eq hsh, ← memOf_log, ← results_log ho, ← hb] at ha hl ⊢
  rw [parse_eq hn] at he
  have key := both_adds (h := Dump.opened h) (fails := f.seekSetFails) hs hu results_valid ha hl
  rcases he with ⟨u, he⟩ | ⟨e, he⟩
  · rw [show both _ _ (Dump.opened h) = _ from he] at key
    exact key
  · rw [show both _ _ (Dump.opened h) = _ from he] at key
    obtain ⟨k, k1, k2⟩ := key
    rw [List.take_of_length_le (k2 hp)] at k1
    exact k1

example : ∃ h h' name f, Sound h.mem ∧ Unwatched h.mem ∧ PlentyOfMemory h.mem ∧ h.files.opens h.files.next name = some f ∧
    f.bytes = logText gdbExample ∧ LogOK gdbExample ∧ (∀ l ∈ gdbExample, ¬ Short l) ∧ (∀ m ∈ shown gdbExample, m.1 ≠ 0xFFFFFFFF) ∧
    (∀ r ∈ runs (shown gdbExample), 4 * r.2.length < 2 ^ 32) ∧ Ends (parse name h) h' := by
  refine ⟨{ hostWith (logText gdbExample) with mem := quiet }, ?_⟩
  have hd : Ready { hostWith (logText gdbExample) with mem := quiet } := ⟨quiet_sound, fun _ => rfl, ⟨rfl, rfl⟩, by decide⟩
  obtain ⟨h', e, -⟩ := C36_log_loads_partial (h := { hostWith (logText gdbExample) with mem := quiet }) (name := asc "x.txt") hd
    ⟨_, rfl, rfl, rfl⟩ gdbExample_ok gdbExample_notShort
    (by rw [gdbExample_runs]; exact free_above 0x30000000 (by show ∀ r ∈ quiet.regions, _; decide) (by decide))
    (by rw [gdbExample_runs]; decide) (whole_of_aligned (by decide) (by decide))
  exact ⟨h', _, _, quiet_sound, quiet_unwatched, fun _ => rfl, rfl, rfl, gdbExample_ok, gdbExample_notShort, by decide,
    by rw [gdbExample_runs]; decide, .inl ⟨(), e⟩⟩

/-- C37 with short lines, and with allocation failures: then a prefix of the runs gets its regions. -/
theorem C37_regions_are_runs_general {h h' : Host} {name : Str} {ls : List LogLine} {f : File} (hs : Sound h.mem)
    (hu : Unwatched h.mem) (hn : h.files.opens h.files.next name = some f) (hb : f.bytes = logText ls)
    (ho : LogOK ls) (ha : ∀ m ∈ contributed ls, m.1 ≠ 0xFFFFFFFF)
    (hl : ∀ r ∈ runs (contributed ls), 4 * r.2.length < 2 ^ 32) (he : Ends (parse name h) h') :
    ∃ k, AddsRuns h.mem h'.mem ((runs (contributed ls)).take k) ∧
      (PlentyOfMemory h.mem ∨ parse name h = .ok () h' → (runs (contributed ls)).length ≤ k) := by
  rw [← memOf_log, ← results_log ho, ← hb] at ha hl ⊢
  have key := both_adds (h := Dump.opened h) (fails := f.seekSetFails) hs hu results_valid ha hl
  have e0 : parse name h = both _ _ (Dump.opened h) := parse_eq hn
  rw [← e0] at key
  rcases he with ⟨u, he⟩ | ⟨e, he⟩
  · rw [he] at key
    exact ⟨_, by rw [List.take_length]; exact key, fun _ => Nat.le_refl _⟩
  · rw [he] at key
    obtain ⟨k, k1, k2⟩ := key
    refine ⟨k, k1, ?_⟩
    rintro (hp | hp)
    · exact k2 hp
    · rw [he] at hp; cases hp

/-- The runs are what they should be: the lines' words in order, and no run starts where the one before it ends. -/
theorem C37_runs_maximal (ms : List (U32 × List U32)) :
    (runs ms).flatMap (·.2) = ms.flatMap (·.2) ∧
      (runs ms).IsChain fun r q => r.1 + BitVec.ofNat 32 (4 * r.2.length) ≠ q.1 := by
  induction ms with
  | nil => exact ⟨rfl, .nil⟩
  | cons m ms ih =>
    obtain ⟨h1, h2⟩ := ih
    simp only [runs]
    cases hr : runs ms with
    | nil =>
      rw [hr] at h1
      exact ⟨by simpa using h1, .singleton _⟩
    | cons r rs =>
      rw [hr] at h1 h2
      simp only
      split
      · next hj =>
        refine ⟨by simp only [List.flatMap_cons, ← h1, List.append_assoc], ?_⟩
        cases rs with
        | nil => exact .singleton _
        | cons q qs =>
          rw [List.isChain_cons_cons] at h2 ⊢
          refine ⟨?_, h2.2⟩
          simp only [List.length_append, Nat.mul_add, BitVec.ofNat_add, ← BitVec.add_assoc]
          rw [hj]
          exact h2.1
      · next hj =>
        refine ⟨by simp only [List.flatMap_cons, ← h1], ?_⟩
        rw [List.isChain_cons_cons]
        exact ⟨hj, h2⟩

/-- A log with a line at 0xFFFFFFFF and another one. -/
def topLog : Str := asc "0xffffffff:\t0x1\t0x2\t0x3\t0x4\n0x30000000:\t0x1\t0x2\t0x3\t0x4\n"

/-- C37 does not hold with a line at 0xFFFFFFFF: only one of these two runs gets a region (and the log is refused). -/
theorem C37_top_witness : ∃ h h' e, NextLog h (asc "x.txt") topLog ∧ parse (asc "x.txt") h = .throw e h' ∧ e.code = .busError ∧
    h'.mem.regions.length = h.mem.regions.length + 1 := by
  have : (match parse (asc "x.txt") (hostWith topLog) with
    | .throw e h' => decide (e.code = .busError ∧ h'.mem.regions.length = (hostWith topLog).mem.regions.length + 1)
    | _ => false) = true := by decide +kernel
  cases e : parse (asc "x.txt") (hostWith topLog) with
  | ok u h' => rw [e] at this; cases this
  | ub r => rw [e] at this; cases this
  | throw x h' =>
    rw [e] at this
    simp only [decide_eq_true_eq] at this
    exact ⟨_, h', x, hostWith_log _ _, e, this⟩

/-! ### C38 -/

/-- C38. Adding a line that is neither a memory nor a register line, anywhere, does not change the outcome in any way:
on the same host, the file with it and the file without it lead to the same result and the same state. -/
theorem C38_other_lines_no_effect {h : Host} {name name' pre line post : Str} (hn : NextLog h name (pre ++ post))
    (hn' : NextLog h name' (pre ++ line ++ post)) (hp : WholeLines pre) (hl : IsLine line ∨ (IsLastLine line ∧ post = []))
    (hs : Says line .other) : parse name' h = parse name h := by
  obtain ⟨f, h1, h2, h3⟩ := hn
  obtain ⟨g, k1, k2, k3⟩ := hn'
  rw [parse_eq h1, parse_eq k1, h2, k2, h3, k3]
  have e1 : results (pre ++ post) = results pre ++ results post := by
    unfold results; rw [chunks_append _ hp, List.map_append]
  have hc : chunks (line ++ post) = line :: chunks post := by
    rcases hl with hl | ⟨hl, rfl⟩
    · exact chunks_line hl
    · rw [List.append_nil, chunks_last hl]; rfl
  have hz : ∀ c ∈ line, c ≠ 0 := by
    rcases hl with hl | ⟨hl, -⟩
    · exact isLine_nonul hl
    · exact fun c hc => (hl.2.1 c hc).2
  have e2 : results (pre ++ line ++ post) = results pre ++ .other :: results post := by
    unfold results
    rw [List.append_assoc, chunks_append _ hp, hc, List.map_append, List.map_cons, cstr_line hz,
      resultOf_says (l := ⟨line, .other⟩) hs]
    rfl
  rw [e1, e2, both_other]

/-- A host with two files. -/
def hostTwo (name : Str) (a b : Str) : Host :=
  { mem := demo, files := { opens := fun _ n => some (File.of (if n = name then a else b)) } }

example : ∃ h name name' pre line post, NextLog h name (pre ++ post) ∧ NextLog h name' (pre ++ line ++ post) ∧ WholeLines pre ∧
    (IsLine line ∨ (IsLastLine line ∧ post = [])) ∧ Says line .other ∧ pre ≠ [] ∧ post ≠ [] :=
  ⟨hostTwo [1] (line1 ++ line3) (line1 ++ line5 ++ line3), [1], [2], line1, line5, line3, ⟨_, rfl, rfl, rfl⟩, ⟨_, rfl, rfl, rfl⟩,
    .inr (by decide +kernel), .inl (isLine_mk (by decide +kernel)), line5_says, by decide +kernel, by decide +kernel⟩

/-- A line too long for the buffer: its second part looks like a memory line. -/
def longLine : Str := List.replicate 1023 0x78 ++ asc "0x30000000:\t0x00000001\n"

/-- C38 does not extend to lines too long for the parser's buffer of 1024 characters: this one is neither a memory nor a
register line, but alone in a file it creates memory, other than an empty file. -/
theorem C38_long_line_witness : Says longLine .other ∧ ∃ h h' s', NextLog h (asc "x.txt") longLine ∧
    parse (asc "x.txt") h = .ok () h' ∧ ¬ Mapped h.mem 0x30000000 4 ∧ IMemory.read .w32 0x30000000 h'.mem = .ok (1 : U32) s' := by
  refine ⟨notLike (by decide +kernel) (by decide +kernel), ?_⟩
  have : wordAfter (hostWith longLine) 0x30000000 = some 1 := by decide +kernel
  obtain ⟨h', s', h1, h2⟩ := wordAfter_some this
  refine ⟨_, h', s', hostWith_log _ _, h1, ?_, h2⟩
  show ¬ Mapped demo 0x30000000 4
  decide

/-! ### C39 -/

theorem runs_one (m : U32 × List U32) : runs [m] = [m] := rfl

theorem oneLine_ok {line : Str} {says : Meaning} (hl : IsLine line ∨ IsLastLine line) (hs : Says line says) : LogOK [⟨line, says⟩] := by
  rcases hl with hl | hl
  · exact .cons hl hs .nil
  · exact .last hl hs

/-- C39. A file that consists of one memory line creates one region, of exactly as many words as the line shows, if it
shows four or does not end with white space such as a newline. Missing for C39: the other lines, for which
`C39_short_line` shows what happens instead. -/
theorem C39_word_count_partial {h h' : Host} {name line : Str} {f : File} {a : U32} {vs : List U32} (hs : Sound h.mem)
    (hu : Unwatched h.mem) (hp : PlentyOfMemory h.mem) (hn : h.files.opens h.files.next name = some f) (hb : f.bytes = line)
    (hl : IsLine line ∨ IsLastLine line) (hm : ShowsMemory line a vs) (hw : vs.length = 4 ∨ line.getLast?.any isSpace = false)
    (ha : a ≠ 0xFFFFFFFF) (he : Ends (parse name h) h') : AddsRuns h.mem h'.mem [(a, vs)] := by
  have h4 : vs.length ≤ 4 := by obtain ⟨-, -, -, -, -, -, -, -, -, -, h4, -⟩ := hm; exact h4
  have hrs : runs (shown [⟨line, .memory a vs⟩]) = [(a, vs)] := rfl
  rw [← hrs]
  refine C37_regions_are_runs_partial (ls := [⟨line, .memory a vs⟩]) hs hu hp hn (by simp [hb, logText]) (oneLine_ok hl hm) ?_ ?_ ?_ he
  · intro l hl
    simp only [List.mem_singleton] at hl
    subst hl
    rintro ⟨h1, h2⟩
    rcases hw with hw | hw
    · omega
    · rw [hw] at h2; cases h2
  · intro m hm
    simp only [shown, List.filterMap_cons, List.filterMap_nil, List.mem_singleton] at hm
    rw [hm]; exact ha
  · intro r hr
    rw [hrs, List.mem_singleton] at hr
    rw [hr]
    show 4 * vs.length < 2 ^ 32
    omega

/-- C39 does not hold for the other lines: the region has one word more. -/
theorem C39_short_line {h h' : Host} {name line : Str} {f : File} {a : U32} {vs : List U32} (hs : Sound h.mem)
    (hu : Unwatched h.mem) (hp : PlentyOfMemory h.mem) (hn : h.files.opens h.files.next name = some f) (hb : f.bytes = line)
    (hl : IsLine line ∨ IsLastLine line) (hm : ShowsMemory line a vs) (hw : vs.length < 4 ∧ line.getLast?.any isSpace = true)
    (ha : a ≠ 0xFFFFFFFF) (he : Ends (parse name h) h') : AddsRuns h.mem h'.mem [(a, vs ++ [0])] := by
  have hc : contributed [⟨line, .memory a vs⟩] = [(a, vs ++ [0])] := by simp [contributed, hw]
  obtain ⟨k, k1, k2⟩ := C37_regions_are_runs_general (ls := [⟨line, .memory a vs⟩]) hs hu hn (by simp [hb, logText]) (oneLine_ok hl hm)
    (by rw [hc]; simpa using ha) (by rw [hc]; simp [runs]; omega) he
  rw [hc] at k1 k2
  rw [List.take_of_length_le (k2 (.inl hp))] at k1
  exact k1

theorem ends_of_safe {h : Host} {name : Str} (hs : Sound h.mem) (hu : Unwatched h.mem) : ∃ h', Ends (parse name h) h' := by
  cases hf : h.files.opens h.files.next name with
  | none => exact ⟨_, .inr ⟨_, parse_missing hf⟩⟩
  | some f =>
    have key := both_safe (h := Dump.opened h) (fails := f.seekSetFails) hs hu (results_valid (bytes := f.bytes))
    have e0 : parse name h = both _ _ (Dump.opened h) := parse_eq hf
    rw [← e0] at key
    cases e : parse name h with
    | ok u h' => exact ⟨h', .inl ⟨u, rfl⟩⟩
    | throw x h' => exact ⟨h', .inr ⟨x, rfl⟩⟩
    | ub r => rw [e] at key; exact key.elim

example : ∃ h h' name f, Sound h.mem ∧ Unwatched h.mem ∧ PlentyOfMemory h.mem ∧ h.files.opens h.files.next name = some f ∧ f.bytes = line6 ∧
    (IsLine line6 ∨ IsLastLine line6) ∧ ShowsMemory line6 0x30000100 [0xdeadbeef] ∧ line6.getLast?.any isSpace = false ∧
    Ends (parse name h) h' := by
  obtain ⟨h', he⟩ := ends_of_safe (h := { hostWith line6 with mem := quiet }) (name := asc "x.txt") quiet_sound quiet_unwatched
  exact ⟨_, h', _, _, quiet_sound, quiet_unwatched, fun _ => rfl, rfl, rfl, .inr (by unfold IsLastLine; decide +kernel), line6_says,
    by decide +kernel, he⟩

/-- The same for a line that is cut short by its newline. -/
theorem C39_short_line_witness : ∃ h h' name, NextLog h name shortLine ∧ ShowsMemory shortLine 0x2ffffff8 [0xaaaaaaaa, 0xbbbbbbbb] ∧
    Ends (parse name h) h' ∧ AddsRuns h.mem h'.mem [(0x2ffffff8, [0xaaaaaaaa, 0xbbbbbbbb, 0])] ∧
    ¬ AddsRuns h.mem h'.mem [(0x2ffffff8, [0xaaaaaaaa, 0xbbbbbbbb])] := by
  obtain ⟨h', he⟩ := ends_of_safe (h := { hostWith shortLine with mem := quiet }) (name := asc "x.txt") quiet_sound quiet_unwatched
  have key : AddsRuns quiet h'.mem [(0x2ffffff8, [0xaaaaaaaa, 0xbbbbbbbb, 0])] :=
    C39_short_line (vs := [0xaaaaaaaa, 0xbbbbbbbb]) (h := { hostWith shortLine with mem := quiet }) quiet_sound quiet_unwatched
      (fun _ => rfl) rfl rfl (.inl (isLine_mk (by decide +kernel))) short_says (by decide +kernel) (by decide) he
  refine ⟨_, h', _, ⟨_, rfl, rfl, rfl⟩, short_says, he, key, ?_⟩
  intro h2
  have := key.symm.trans h2
  rw [List.append_cancel_left_eq] at this
  revert this
  decide

/-! ### C40 -/

/-- C40. Whatever bytes the file holds, parsing terminates with a defined outcome: it returns, or raises a file, out of
memory or bus error exception; no array is overrun. The file is closed again. Memory was changed only by creating
regions and writing to them, the context has its 19 and 33 registers, of its other fields the exception PSR is as before
and so are all flags but bit 0. -/
theorem C40_any_file {h : Host} {name : Str} (hs : Sound h.mem) (hu : Unwatched h.mem) (hc : RegsWF h.ctx) :
    Defined (parse name h) [.file, .outOfMemory, .busError] ∧ ∀ h', Ends (parse name h) h' →
      h'.files.live = h.files.live ∧ ByCalls createsOrWrites h.mem h'.mem ∧ Sound h'.mem ∧ Unwatched h'.mem ∧
      RegsWF h'.ctx ∧ h'.ctx.psr = h.ctx.psr ∧ (h'.ctx.flags = h.ctx.flags ∨ h'.ctx.flags = h.ctx.flags ||| 1) := by
  cases hf : h.files.opens h.files.next name with
  | none =>
    rw [parse_missing hf]
    refine ⟨.inr ⟨_, _, rfl, by simp⟩, ?_⟩
    rintro h' (⟨u, he⟩ | ⟨e, he⟩)
    · cases he
    · cases he
      exact ⟨rfl, .refl _, hs, hu, hc, rfl, .inl rfl⟩
  | some f =>
    have key := both_safe (h := Dump.opened h) (fails := f.seekSetFails) hs hu (results_valid (bytes := f.bytes))
    have e0 : parse name h = both _ _ (Dump.opened h) := parse_eq hf
    rw [← e0] at key
    have hv : ∀ k, ∀ r ∈ (results f.bytes).take k, Valid r := fun k r hr => results_valid r (List.mem_of_mem_take hr)
    refine ⟨Sat.defined (key.mono (fun _ _ _ => trivial) fun _ _ h => h.2.2.2.1), fun h' he => ?_⟩
    have key2 := key.mono (Q' := fun _ h' => MemInv createsOrWrites h.mem h'.mem ∧ h'.files.live = h.files.live ∧
        ∃ k, h'.ctx = ((results f.bytes).take k).foldl ctxOf (startCtx h.ctx))
      (E' := fun _ h' => MemInv createsOrWrites h.mem h'.mem ∧ h'.files.live = h.files.live ∧
        ∃ k, h'.ctx = ((results f.bytes).take k).foldl ctxOf (startCtx h.ctx))
      (by
        rintro _ h' ⟨m1, m2, m3⟩
        refine ⟨m1, ?_, (results f.bytes).length, by rw [List.take_length]; exact m3⟩
        rw [m2]
        show h.files.live + 1 - 1 = h.files.live
        omega)
      (by
        rintro _ h' ⟨m1, m2, m3, -⟩
        refine ⟨m1, ?_, m3⟩
        rw [m2]
        show h.files.live + 1 - 1 = h.files.live
        omega)
    obtain ⟨k1, k2, k, k3⟩ := key2.ends he
    obtain ⟨c1, c2, c3⟩ := ctx_kept (hv k) (startCtx_wf hc)
    rw [← k3] at c1 c2 c3
    exact ⟨k2, k1.2.2, k1.1, k1.2.1, c1, c2, c3⟩

example : ∃ h : Host, Sound h.mem ∧ Unwatched h.mem ∧ RegsWF h.ctx :=
  ⟨{ hostWith [1, 2, 3] with mem := quiet }, quiet_sound, quiet_unwatched, ⟨rfl, rfl⟩⟩

/-! ### C41 -/

/-- C40. A log that cannot be opened: the exception says so, and nothing changes. -/
theorem C40_cannot_open {h : Host} {name : Str} (ho : h.files.opens h.files.next name = none) :
    ∃ h', parse name h = .throw ⟨.file, (asc "Failed to open \"" ++ name ++ asc "\" GDB log.").take 1023⟩ h' ∧
      h'.mem = h.mem ∧ h'.ctx = h.ctx ∧ h'.files.live = h.files.live := ⟨_, parse_missing ho, rfl, rfl, rfl⟩

example : ∃ h : Host, h.files.opens h.files.next (asc "x.txt") = none := ⟨{ mem := demo, files := { opens := fun _ _ => none } }, rfl⟩

/-- C40. Once the log is open, a file exception means that going back for the second pass failed; and when that fails the
log is never accepted. -/
theorem C40_rewind {h : Host} {name : Str} {f : File} (hs : Sound h.mem) (hu : Unwatched h.mem)
    (ho : h.files.opens h.files.next name = some f) :
    (f.seekSetFails = true → ∃ e h', parse name h = .throw e h' ∧
      (e = ⟨.file, asc "Failed to rewind GDB log for second pass."⟩ ∨ e.code = .outOfMemory)) ∧
    (f.seekSetFails = false → ∀ e h', parse name h = .throw e h' → e.code ≠ .file) := by
  have hk : Kept createsOrWrites { Dump.opened h with ctx := startCtx h.ctx } { Dump.opened h with ctx := startCtx h.ctx } :=
    ⟨MemInv.init hs hu, rfl⟩
  have key := both_sat (rs := results f.bytes) (fails := f.seekSetFails) (h := Dump.opened h)
    (Q1 := fun h' => Kept createsOrWrites { Dump.opened h with ctx := startCtx h.ctx } h')
    (Q := fun _ => f.seekSetFails = false)
    (E := fun e _ => (e = ⟨.file, asc "Failed to rewind GDB log for second pass."⟩ ∧ f.seekSetFails = true) ∨
      e.code = .outOfMemory ∨ e.code = .busError ∧ f.seekSetFails = false)
    ((first_pass_kept (P := createsOrWrites) (fun _ _ => trivial) (results_valid (bytes := f.bytes)) hk).mono
      (fun _ _ h => h.1) fun _ _ h => .inr (.inl h.2.2))
    (fun _ _ hf => .inl ⟨rfl, hf⟩)
    (fun h' hq hf => (second_pass_kept (P := createsOrWrites) (fun _ _ _ => trivial) (h0 := h') (h := h')
      ⟨⟨MemInv.init hq.mem.1 hq.mem.2.1, rfl⟩, rfl, rfl⟩).mono (fun _ _ _ => hf) fun _ _ h => .inr (.inr ⟨h.2, hf⟩))
  have e0 : parse name h = both _ _ (Dump.opened h) := parse_eq ho
  rw [← e0] at key
  constructor
  · intro hf
    cases hp : parse name h with
    | ok u h' => rw [hp] at key; have : f.seekSetFails = false := key; rw [hf] at this; cases this
    | ub r => rw [hp] at key; exact key.elim
    | throw e h' =>
      rw [hp] at key
      refine ⟨e, h', rfl, ?_⟩
      rcases key with ⟨h1, -⟩ | h1 | ⟨-, h1⟩
      · exact .inl h1
      · exact .inr h1
      · rw [hf] at h1; cases h1
  · intro hf e h' hp
    rw [hp] at key
    rcases key with ⟨-, h1⟩ | h1 | ⟨h1, -⟩
    · rw [hf] at h1; cases h1
    · rw [h1]; simp
    · rw [h1]; simp

example : ∃ (h : Host) (f : File), Sound h.mem ∧ Unwatched h.mem ∧ h.files.opens h.files.next (asc "x.txt") = some f ∧ f.seekSetFails = true :=
  ⟨{ mem := init goodHeap, files := { opens := fun _ _ => some { bytes := asc "r0 0x1 1\n", tell := 9, seekSetFails := true } } }, _,
    by decide, by decide, rfl, rfl⟩

theorem ctx_of_readAll {h h' : Host} {name : Str} {f : File} (hs : Sound h.mem) (hu : Unwatched h.mem)
    (hn : h.files.opens h.files.next name = some f) (he : ReadAll (parse name h) h') :
    h'.ctx = (results f.bytes).foldl ctxOf (startCtx h.ctx) := by
  have key := both_safe (h := Dump.opened h) (fails := f.seekSetFails) hs hu (results_valid (bytes := f.bytes))
  have e0 : parse name h = both _ _ (Dump.opened h) := parse_eq hn
  rw [← e0] at key
  rcases he with he | ⟨e, he, hne⟩
  · rw [he] at key; exact key.2.2
  · rw [he] at key; exact key.2.2.2.2 hne

/-- C41. Every register holds the value of the last line for it. Without such a line, MSP and PSP are 0xBAADBAAD and the
others as before. -/
theorem C41_registers {h h' : Host} {name : Str} {ls : List LogLine} {f : File} (hs : Sound h.mem) (hu : Unwatched h.mem)
    (hc : RegsWF h.ctx) (hn : h.files.opens h.files.next name = some f) (hb : f.bytes = logText ls) (ho : LogOK ls)
    (he : ReadAll (parse name h) h') (r : Reg) :
    r.get h'.ctx = match lastValue ls r with
      | some v => some v
      | none => if r = .core 17 ∨ r = .core 18 then some 0xBAADBAAD else r.get h.ctx := by
  rw [ctx_of_readAll hs hu hn he, hb, results_log ho, get_lines (startCtx_wf hc), get_start hc]
  cases lastValue ls r <;> rfl

/-- C41 for files with lines of any kind, also malformed ones: a register changes only if some line begins with its name,
apart from the placeholders. -/
theorem C41_unnamed_kept {h h' : Host} {name : Str} {ts : List Str} {f : File} (hs : Sound h.mem) (hu : Unwatched h.mem)
    (hc : RegsWF h.ctx) (hn : h.files.opens h.files.next name = some f) (hb : f.bytes = ts.flatten) (ho : AnyLines ts)
    (he : ReadAll (parse name h) h') (r : Reg) (hr : ∀ t ∈ ts, ¬ r.field <+: t) :
    r.get h'.ctx = if r = .core 17 ∨ r = .core 18 then some 0xBAADBAAD else r.get h.ctx := by
  rw [ctx_of_readAll hs hu hn he, hb, results_any ho, get_any (startCtx_wf hc) hr, get_start hc]

theorem quiet_reads (ls : List LogLine) (hok : ∃ h', parse (asc "x.txt") { hostWith (logText ls) with mem := quiet } = .ok () h') :
    ∃ (h h' : Host) (name : Str) (f : File), Sound h.mem ∧ Unwatched h.mem ∧ RegsWF h.ctx ∧ h.files.opens h.files.next name = some f ∧
      f.bytes = logText ls ∧ ReadAll (parse name h) h' := by
  obtain ⟨h', e⟩ := hok
  exact ⟨_, h', _, _, quiet_sound, quiet_unwatched, ⟨rfl, rfl⟩, rfl, rfl, .inl e⟩

theorem gdbExample_parses : ∃ h', parse (asc "x.txt") { hostWith (logText gdbExample) with mem := quiet } = .ok () h' := by
  have hd : Ready { hostWith (logText gdbExample) with mem := quiet } := ⟨quiet_sound, fun _ => rfl, ⟨rfl, rfl⟩, by decide⟩
  obtain ⟨h', e, -⟩ := C36_log_loads_partial (h := { hostWith (logText gdbExample) with mem := quiet }) (name := asc "x.txt") hd
    ⟨_, rfl, rfl, rfl⟩ gdbExample_ok gdbExample_notShort
    (by rw [gdbExample_runs]; exact free_above 0x30000000 (by show ∀ r ∈ quiet.regions, _; decide) (by decide))
    (by rw [gdbExample_runs]; decide) (whole_of_aligned (by decide) (by decide))
  exact ⟨h', e⟩

example : ∃ (h h' : Host) (name : Str) (f : File), Sound h.mem ∧ Unwatched h.mem ∧ RegsWF h.ctx ∧ h.files.opens h.files.next name = some f ∧
    f.bytes = logText gdbExample ∧ ReadAll (parse name h) h' := quiet_reads gdbExample gdbExample_parses

example : lastValue gdbExample (.core 15) = some 0x30000000 ∧ lastValue gdbExample (.core 0) = none := by decide

/-! ### C42 -/

/-- C42. The floating point flag (bit 0) is set afterwards if and only if it was before or some line is for one of s0 to
s31; the other flags are as before; and each of s0 to s31 holds the raw value of the last line for it. -/
theorem C42_float_flag {h h' : Host} {name : Str} {ls : List LogLine} {f : File} (hs : Sound h.mem) (hu : Unwatched h.mem)
    (hc : RegsWF h.ctx) (hn : h.files.opens h.files.next name = some f) (hb : f.bytes = logText ls) (ho : LogOK ls)
    (he : ReadAll (parse name h) h') :
    (h'.ctx.flags.getLsbD 0 = true ↔ h.ctx.flags.getLsbD 0 = true ∨ showsFloat ls = true) ∧
      (∀ i, 0 < i → h'.ctx.flags.getLsbD i = h.ctx.flags.getLsbD i) ∧
      ∀ (i : Fin 33) v, lastValue ls (.float i) = some v → h'.ctx.fpr[i.val]? = some v := by
  have e := ctx_of_readAll hs hu hn he
  rw [hb, results_log ho] at e
  have hfl := flags_lines ls (startCtx h.ctx)
  rw [← e] at hfl
  refine ⟨?_, ?_, ?_⟩
  · rw [hfl]
    cases showsFloat ls
    · simp [startCtx]
    · simp [startCtx]
  · intro i hi
    rw [hfl]
    cases showsFloat ls
    · simp [startCtx]
    · have : (1#32).getLsbD i = false := by
        rw [BitVec.getLsbD_one]; simp; omega
      simp [startCtx, this]
  · intro i v hv
    have := C41_registers hs hu hc hn hb ho he (.float i)
    rw [hv] at this
    exact this

/-- C42 for files with lines of any kind: the flag depends only on whether a line begins with the name of one of s0 to s31. -/
theorem C42_float_flag_any_lines {h h' : Host} {name : Str} {ts : List Str} {f : File} (hs : Sound h.mem) (hu : Unwatched h.mem)
    (hn : h.files.opens h.files.next name = some f) (hb : f.bytes = ts.flatten) (ho : AnyLines ts) (he : ReadAll (parse name h) h') :
    h'.ctx.flags.getLsbD 0 = true ↔ h.ctx.flags.getLsbD 0 = true ∨ ∃ t ∈ ts, ∃ r : Reg, r.isFloat = true ∧ r.field <+: t := by
  have e := ctx_of_readAll hs hu hn he
  rw [hb, results_any ho] at e
  have hfl := flags_any ts (startCtx h.ctx)
  rw [← e] at hfl
  by_cases hf : FloatIn ts
  · rw [hfl.1 hf]
    simp only [startCtx, BitVec.getLsbD_or, Bool.or_eq_true]
    exact ⟨fun _ => .inr hf, fun _ => .inr (by decide)⟩
  · rw [hfl.2 hf]
    exact ⟨fun h => .inl h, fun h => h.resolve_right hf⟩

example : ∃ (h h' : Host) (name : Str) (f : File) (ts : List Str), Sound h.mem ∧ Unwatched h.mem ∧ RegsWF h.ctx ∧
    h.files.opens h.files.next name = some f ∧ f.bytes = ts.flatten ∧ AnyLines ts ∧ ReadAll (parse name h) h' ∧ 4 < ts.length := by
  obtain ⟨h', e⟩ := gdbExample_parses
  refine ⟨_, h', _, _, [line1, line5, line2, line3, line4, line6], quiet_sound, quiet_unwatched, ⟨rfl, rfl⟩, rfl, ?_, ?_, .inl e, by decide⟩
  · simp [logText, gdbExample, hostWith, File.of]
  · exact .cons (isLine_mk (by decide +kernel)) (.cons (isLine_mk (by decide +kernel)) (.cons (isLine_mk (by decide +kernel))
      (.cons (isLine_mk (by decide +kernel)) (.cons (isLine_mk (by decide +kernel)) (.last (by unfold IsLastLine; decide +kernel))))))

end Verif.Props
