import Verif.Lemmas.Recipe
import Verif.Props.Told
import Verif.Props.AliasStart
import Verif.Props.Clash
/-
C112: the recipe in the README records the crash.
-/
namespace Verif.Props
open Verif MemSim Spec CommandLine Platform Main

/-- A run starts where a line starts. -/
theorem run_start {ms : List (U32 × List U32)} {r : U32 × List U32} (hr : r ∈ runs ms) : ∃ m ∈ ms, m.1 = r.1 := by
  induction ms generalizing r with
  | nil => cases hr
  | cons l ms ih =>
    simp only [runs] at hr
    cases he : runs ms with
    | nil =>
      rw [he] at hr
      cases List.mem_singleton.1 hr
      exact ⟨_, .head _, rfl⟩
    | cons q rs =>
      rw [he] at hr ih
      simp only at hr
      have tail : ∀ x ∈ q :: rs, ∃ m ∈ l :: ms, m.1 = x.1 := fun x hx => let ⟨m, h1, h2⟩ := ih hx; ⟨m, .tail _ h1, h2⟩
      by_cases hj : l.1 + BitVec.ofNat 32 (4 * l.2.length) = q.1
      · rw [if_pos hj] at hr
        rcases List.mem_cons.1 hr with rfl | hr
        · exact ⟨l, .head _, rfl⟩
        · exact tail r (.tail _ hr)
      · rw [if_neg hj] at hr
        rcases List.mem_cons.1 hr with rfl | hr
        · exact ⟨r, .head _, rfl⟩
        · exact tail r hr

/-- The words of a line are in a run, at their place. -/
theorem run_contains {ms : List (U32 × List U32)} (h0 : ∀ x ∈ ms, x.2 ≠ []) (hf : ∀ r ∈ runs ms, GdbLog.RunFits r)
    {m : U32 × List U32} (hm : m ∈ ms) :
    ∃ r ∈ runs ms, ∃ pre post, r.2 = pre ++ m.2 ++ post ∧ m.1.toNat = r.1.toNat + 4 * pre.length := by
  induction ms with
  | nil => cases hm
  | cons l ms ih =>
    have h0' : ∀ x ∈ ms, x.2 ≠ [] := fun x hx => h0 x (by simp [hx])
    have hf' := GdbLog.runs_tail_fits h0' hf
    have hne := GdbLog.runs_nonempty h0'
    have ih := fun hm => ih h0' hf' hm
    simp only [runs] at hf ⊢
    cases he : runs ms with
    | nil =>
      rcases List.mem_cons.1 hm with rfl | hm
      · exact ⟨m, by simp, [], [], by simp, by simp⟩
      · obtain ⟨r, hr, -⟩ := ih hm
        rw [he] at hr; cases hr
    | cons q rs =>
      rw [he] at hf ih hne
      simp only at hf ⊢
      by_cases hj : l.1 + BitVec.ofNat 32 (4 * l.2.length) = q.1
      · rw [if_pos hj] at hf ⊢
        have hfit := hf _ (by simp : (l.1, l.2 ++ q.2) ∈ _)
        unfold GdbLog.RunFits at hfit
        simp only [List.length_append] at hfit
        have hq := List.length_pos_iff.2 (hne q (by simp))
        have hq1 : q.1.toNat = l.1.toNat + 4 * l.2.length := by
          rw [← hj]
          simp only [BitVec.toNat_add, BitVec.toNat_ofNat]
          omega
        rcases List.mem_cons.1 hm with rfl | hm
        · exact ⟨(m.1, m.2 ++ q.2), by simp, [], q.2, by simp, by simp⟩
        · obtain ⟨r, hr, pre, post, h1, h2⟩ := ih hm
          rcases List.mem_cons.1 hr with rfl | hr
          · exact ⟨(l.1, l.2 ++ r.2), by simp, l.2 ++ pre, post, by simp [h1], by simp only [List.length_append]; omega⟩
          · exact ⟨r, by simp [hr], pre, post, h1, h2⟩
      · rw [if_neg hj]
        rcases List.mem_cons.1 hm with rfl | hm
        · exact ⟨m, by simp, [], [], by simp, by simp⟩
        · obtain ⟨r, hr, pre, post, h1, h2⟩ := ih hm
          exact ⟨r, List.mem_cons_of_mem _ hr, pre, post, h1, h2⟩

theorem recipe_memory {word : U32 → U32} {label : U32 → Str} {ram : List (U32 × U32)} :
    ∀ l ∈ recipeLog word label ram, (∃ a vs, l.says = .memory a vs ∧ vs.length = 4) ∨ l.says = .other := by
  intro l hl
  obtain ⟨r, -, hm⟩ := List.mem_flatMap.1 hl
  obtain ⟨k, -, rfl⟩ := List.mem_map.1 hm
  unfold recipeLogLine
  simp only
  split
  · exact .inl ⟨_, _, rfl, rfl⟩
  · exact .inr rfl

theorem recipe_last (word : U32 → U32) (label : U32 → Str) (ram : List (U32 × U32)) (info : List LogLine) (r : Reg) :
    lastValue (recipeLog word label ram ++ info) r = lastValue info r := by
  unfold lastValue
  rw [List.filterMap_append, List.filterMap_eq_nil_iff.2, List.nil_append]
  intro l hl
  rcases recipe_memory l hl with ⟨a, vs, e, -⟩ | e <;> rw [e]

theorem recipe_registers (word : U32 → U32) (label : U32 → Str) (ram : List (U32 × U32)) (info : List LogLine) :
    logRegs (recipeLog word label ram ++ info) = logRegs info := by
  have h2 : showsFloat (recipeLog word label ram ++ info) = showsFloat info := by
    unfold showsFloat
    rw [List.any_append, List.any_eq_false.2, Bool.false_or]
    intro l hl
    rcases recipe_memory l hl with ⟨a, vs, e, -⟩ | e <;> rw [e] <;> simp
  unfold logRegs
  simp only [recipe_last, h2]

theorem recipe_not_short {word : U32 → U32} {label : U32 → Str} {ram : List (U32 × U32)} {info : List LogLine} (hi : shown info = []) :
    ∀ l ∈ recipeLog word label ram ++ info, ¬ Short l := by
  intro l hl
  unfold Short
  rcases List.mem_append.1 hl with hl | hl
  · rcases recipe_memory l hl with ⟨a, vs, e, h4⟩ | e <;> rw [e]
    · exact fun h => absurd h.1 (by omega)
    · exact id
  · have := List.filterMap_eq_nil_iff.1 hi l hl
    cases e : l.says with
    | memory a vs => rw [e] at this; cases this
    | register r v => exact id
    | other => exact id

theorem recipe_starts {word : U32 → U32} {label : U32 → Str} {ram : List (U32 × U32)} (t : Str) (h : ram ≠ [])
    (hr : ∀ r ∈ ram, r.1.toNat < r.2.toNat) : ∃ u, recipeText word label ram ++ t = 0x30 :: u := by
  cases ram with
  | nil => exact (h rfl).elim
  | cons r ram =>
    obtain ⟨n, hn⟩ : ∃ n, rounds r = n + 1 := ⟨rounds r - 1, by have := hr r (.head _); unfold rounds; omega⟩
    have e : asc "0x" = 0x30 :: [0x78] := by decide +kernel
    unfold recipeText
    rw [List.flatMap_cons, hn, List.range_succ_eq_map, List.flatMap_cons]
    unfold recipeLine
    rw [e]
    simp only [List.cons_append, List.append_assoc]
    exact ⟨_, rfl⟩

theorem recipe_eq (word : U32 → U32) (label : U32 → Str) (ram : List (U32 × U32)) (info : List LogLine) :
    recipeText word label ram ++ logText info = logText (recipeLog word label ram ++ info) := by
  rw [← recipeLog_text]
  exact List.flatMap_append.symm

theorem recipe_head {word : U32 → U32} {label : U32 → Str} {ram : List (U32 × U32)} {info : List LogLine} (hr : SomeRam ram) :
    ¬ [0x63, 0x43] <+: logText (recipeLog word label ram ++ info) ∧ ¬ asc "6343" <+: logText (recipeLog word label ram ++ info) := by
  obtain ⟨u, hu⟩ := recipe_starts (word := word) (label := label) (logText info) hr.1 hr.2
  rw [← recipe_eq, hu, show asc "6343" = 0x36 :: [0x33, 0x34, 0x33] by decide +kernel, List.cons_prefix_cons, List.cons_prefix_cons]
  exact ⟨fun h => absurd h.1 (by decide), fun h => absurd h.1 (by decide)⟩

theorem recipe_length {word : U32 → U32} {ram : List (U32 × U32)} (hr : HighRam ram) (hf : ∀ r ∈ ramBlocks word ram, Fits r) :
    ∀ r ∈ runs (ram.map (ramWords word)), 4 * r.2.length < 2 ^ 32 := by
  intro r h
  have hfit := hf (r.1, wordBytes r.2) (List.mem_map.2 ⟨r, h, rfl⟩)
  obtain ⟨m, h1, h2⟩ := run_start h
  obtain ⟨x, h3, rfl⟩ := List.mem_map.1 h1
  have h4 : 0x10000000 ≤ r.1.toNat := by rw [← h2]; exact hr x h3
  have h5 := GdbLog.wordBytes_length r.2
  unfold Fits at hfit
  simp only at hfit
  omega

/-- For RAM anywhere, what happens instead of C112: GDB is told the memory of the device in what is left of these ranges without the
lines whose address is below 0x10000000, and nothing of the rest. The registers are those that `info all-registers` showed. -/
theorem C112_session_general {args : List Str} {os : List Opt} {p : Prog} {n d image text : Str} {blks shows : List (U32 × List U8)}
    {word : U32 → U32} {label : U32 → Str} {ram : List (U32 × U32)} {info : List LogLine}
    (hs : Spelled args os) (hn : imageFile os = some n) (hd : lastDump os = some d) (hi : OnDisk p.host n image)
    (ht : OnDisk p.host d text) (hb : ImageBlocks os image blks) (hr : Recorded word label ram info text)
    (hx : List.Forall₂ (AliasShows (blks ++ ramBlocks word (foundRam ram))) (aliases os) shows)
    (hdj : Spec.Disjoint (blks ++ ramBlocks word (foundRam ram) ++ shows))
    (hf : ∀ r ∈ blks ++ ramBlocks word (foundRam ram) ++ shows, Fits r) (hp : PlentyOfMemory p.host.mem) :
    ∃ q, startUp args p = .ok () q ∧ ∀ w cs pl ws, RegisterWrites (platform w q) cs pl ws →
      Told pl ((crashOf blks (ramBlocks word (foundRam ram)) (aliases os) shows).after cs) 0 (ws.foldl overwrite (packetBytes (logRegs info))) := by
  have e : runs (shown (recipeLog word label ram ++ info)) = runs ((foundRam ram).map (ramWords word)) :=
    recipe_runs word label hr.ram.2 hr.none
  have := C91_told_of_log (ls := recipeLog word label ram ++ info) hs hn hd hi (by rw [← recipe_eq, ← hr.text]; exact ht) hb
    (recipeLog_ok hr.label hr.rest) (recipe_not_short hr.none) (recipe_head hr.ram).1 (recipe_head hr.ram).2
    (by
      rw [e]
      exact recipe_length (fun r h => (foundRam_mem hr.ram.2 r h).1) fun r h => hf r (List.mem_append_left _ (List.mem_append_right _ h)))
    (shows := shows) (by rw [e]; exact hx) (by rw [e]; exact hdj) (by rw [e]; exact hf) hp
  rw [e, recipe_registers] at this
  exact this

/-- C112, for a whole session: whatever GDB does after start-up, it is told the memory of the device in these ranges and the
registers that `info all-registers` showed. Missing: RAM below 0x10000000 (false there: `C112_low_memory_witness`;
`C112_session_general` says what happens), and symbols with unbalanced `<` and `>` (false: `C36_unbalanced_symbol_witness`). -/
theorem C112_session_partial {args : List Str} {os : List Opt} {p : Prog} {n d image text : Str} {blks shows : List (U32 × List U8)}
    {word : U32 → U32} {label : U32 → Str} {ram : List (U32 × U32)} {info : List LogLine}
    (hs : Spelled args os) (hn : imageFile os = some n) (hd : lastDump os = some d) (hi : OnDisk p.host n image)
    (ht : OnDisk p.host d text) (hb : ImageBlocks os image blks) (hr : Recorded word label ram info text) (hh : HighRam ram)
    (hx : List.Forall₂ (AliasShows (blks ++ ramBlocks word ram)) (aliases os) shows)
    (hdj : Spec.Disjoint (blks ++ ramBlocks word ram ++ shows)) (hf : ∀ r ∈ blks ++ ramBlocks word ram ++ shows, Fits r)
    (hp : PlentyOfMemory p.host.mem) :
    ∃ q, startUp args p = .ok () q ∧ ∀ w cs pl ws, RegisterWrites (platform w q) cs pl ws →
      Told pl ((crashOf blks (ramBlocks word ram) (aliases os) shows).after cs) 0 (ws.foldl overwrite (packetBytes (logRegs info))) := by
  have e := foundRam_high hh hr.ram.2
  have := C112_session_general (shows := shows) hs hn hd hi ht hb hr (by rw [e]; exact hx) (by rw [e]; exact hdj) (by rw [e]; exact hf) hp
  rw [e] at this
  exact this

/-- C112, for the words of the device, wherever its RAM is: after start-up each register is what `info all-registers` showed, and each
word in what is left of these ranges without the lines whose address is below 0x10000000 reads as it was in the device. -/
theorem C112_words_general {args : List Str} {os : List Opt} {p : Prog} {n d image text : Str} {blks shows : List (U32 × List U8)}
    {word : U32 → U32} {label : U32 → Str} {ram : List (U32 × U32)} {info : List LogLine}
    (hs : Spelled args os) (hn : imageFile os = some n) (hd : lastDump os = some d) (hi : OnDisk p.host n image)
    (ht : OnDisk p.host d text) (hb : ImageBlocks os image blks) (hr : Recorded word label ram info text)
    (hx : List.Forall₂ (AliasShows (blks ++ ramBlocks word (foundRam ram))) (aliases os) shows)
    (hdj : Spec.Disjoint (blks ++ ramBlocks word (foundRam ram) ++ shows))
    (hf : ∀ r ∈ blks ++ ramBlocks word (foundRam ram) ++ shows, Fits r) (hp : PlentyOfMemory p.host.mem) :
    ∃ q, startUp args p = .ok () q ∧ (∀ r v, lastValue info r = some v → r.get q.host.ctx = some v) ∧
      ∀ r ∈ foundRam ram, ∀ i, r.1.toNat + 4 * i < r.2.toNat →
        ∃ s', IMemory.read .w32 (r.1 + BitVec.ofNat 32 (4 * i)) q.host.mem = .ok (word (r.1 + BitVec.ofNat 32 (4 * i))) s' := by
  have e : runs (shown (recipeLog word label ram ++ info)) = runs ((foundRam ram).map (ramWords word)) :=
    recipe_runs word label hr.ram.2 hr.none
  have hfound := foundRam_mem hr.ram.2
  have hlen := recipe_length (fun r h => (hfound r h).1) fun r h => hf r (List.mem_append_left _ (List.mem_append_right _ h))
  obtain ⟨q, h1, -, h2, h3, -⟩ := C89_aliases_of_log (ls := recipeLog word label ram ++ info) hs hn hd hi
    (by rw [← recipe_eq, ← hr.text]; exact ht) hb
    (recipeLog_ok hr.label hr.rest) (recipe_not_short hr.none) (recipe_head hr.ram).1 (recipe_head hr.ram).2
    (by rw [e]; exact hlen)
    (shows := shows) (by rw [e]; exact hx) (by rw [e]; exact hdj) (by rw [e]; exact hf) hp
  refine ⟨q, h1, ?_, ?_⟩
  · intro r v h
    rw [h2.1 r, recipe_last, h]
    rfl
  intro r hm i hi
  have hne : ∀ x ∈ (foundRam ram).map (ramWords word), x.2 ≠ [] := by
    intro x hx e
    obtain ⟨y, hy, rfl⟩ := List.mem_map.1 hx
    have := (hfound y hy).2
    have := congrArg List.length e
    simp only [ramWords, List.length_map, List.length_range, List.length_nil, rounds] at this
    omega
  have hfit : ∀ x ∈ runs ((foundRam ram).map (ramWords word)), GdbLog.RunFits x := by
    intro x h
    have := hf (x.1, wordBytes x.2) (List.mem_append_left _ (List.mem_append_right _ (List.mem_map.2 ⟨x, h, rfl⟩)))
    unfold Fits at this
    unfold GdbLog.RunFits
    rw [← GdbLog.wordBytes_length]
    exact this
  obtain ⟨x, hx, pre, post, h4, h5⟩ := run_contains hne hfit (List.mem_map.2 ⟨r, hm, rfl⟩)
  have hk : i < 4 * rounds r := by unfold rounds; omega
  have hv : x.2[pre.length + i]? = some (word (r.1 + BitVec.ofNat 32 (4 * i))) := by
    rw [h4, List.append_assoc, List.getElem?_append_right (by omega), Nat.add_sub_cancel_left,
      List.getElem?_append_left (by simpa [ramWords] using hk)]
    simp [ramWords, hk]
  have hl := (List.getElem?_eq_some_iff.1 hv).1
  have hfx := hfit x hx
  unfold GdbLog.RunFits at hfx
  have h5 : r.1.toNat = x.1.toNat + 4 * pre.length := h5
  have ha : (r.1 + BitVec.ofNat 32 (4 * i)).toNat = x.1.toNat + 4 * (pre.length + i) := by
    simp only [BitVec.toNat_add, BitVec.toNat_ofNat]
    omega
  obtain ⟨v, s', h6, h7⟩ := h3 (x.1, wordBytes x.2)
    (List.mem_append_left _ (List.mem_append_right _ (by rw [e]; exact List.mem_map.2 ⟨x, hx, rfl⟩))) .w32 (r.1 + BitVec.ofNat 32 (4 * i))
    (by rw [ha]; simp only; omega) (by rw [ha]; simp only [GdbLog.wordBytes_length, Width.bytes]; omega)
  refine ⟨s', ?_⟩
  rw [h6]
  congr 1
  refine GdbLog.word_eq fun j hj => ?_
  have h8 := h7 j hj
  simp only [ha, Nat.add_sub_cancel_left] at h8
  rw [GdbLog.wordBytes_get hv hj] at h8
  exact (Option.some.inj h8).symm

/-- C112, for the words of the device: after start-up each word in these ranges reads as it was in the device, and each
register is what `info all-registers` showed. Missing: as in `C112_session_partial`. -/
theorem C112_words_partial {args : List Str} {os : List Opt} {p : Prog} {n d image text : Str} {blks shows : List (U32 × List U8)}
    {word : U32 → U32} {label : U32 → Str} {ram : List (U32 × U32)} {info : List LogLine}
    (hs : Spelled args os) (hn : imageFile os = some n) (hd : lastDump os = some d) (hi : OnDisk p.host n image)
    (ht : OnDisk p.host d text) (hb : ImageBlocks os image blks) (hr : Recorded word label ram info text) (hh : HighRam ram)
    (hx : List.Forall₂ (AliasShows (blks ++ ramBlocks word ram)) (aliases os) shows)
    (hdj : Spec.Disjoint (blks ++ ramBlocks word ram ++ shows)) (hf : ∀ r ∈ blks ++ ramBlocks word ram ++ shows, Fits r)
    (hp : PlentyOfMemory p.host.mem) :
    ∃ q, startUp args p = .ok () q ∧ (∀ r v, lastValue info r = some v → r.get q.host.ctx = some v) ∧
      ∀ r ∈ ram, ∀ i, r.1.toNat + 4 * i < r.2.toNat →
        ∃ s', IMemory.read .w32 (r.1 + BitVec.ofNat 32 (4 * i)) q.host.mem = .ok (word (r.1 + BitVec.ofNat 32 (4 * i))) s' := by
  have e := foundRam_high hh hr.ram.2
  have := C112_words_general (shows := shows) hs hn hd hi ht hb hr (by rw [e]; exact hx) (by rw [e]; exact hdj) (by rw [e]; exact hf) hp
  rw [e] at this
  exact this

/-! ### A device -/

/-- What the device had in each word. -/
def deviceWord (a : U32) : U32 := a * 3 + 1

/-- At 0x10000010 the device has a variable. -/
def deviceLabel (a : U32) : Str := if a = 0x10000010 then asc " <g+4>" else []

theorem deviceLabel_ok (a : U32) : Label (deviceLabel a) := by
  unfold deviceLabel
  split
  · exact .inr ⟨asc "g+4", by
      rw [show asc "g+4" = [0x67, 0x2B, 0x34] by decide +kernel]
      exact .char (by decide) (by decide) (.char (by decide) (by decide) (.char (by decide) (by decide) .nil)), by decide +kernel, by decide +kernel, by decide +kernel⟩
  · exact .inl rfl

/-- The device's RAM; the second range does not have a whole number of lines. -/
def deviceRam : List (U32 × U32) := [(0x10000000, 0x10000020), (0x2007C000, 0x2007C014)]

def deviceInfo : List LogLine := [⟨line3, .register (.core 15) 0x30000000⟩, ⟨line4, .register (.float 0) 0x3fc00000⟩]

theorem device_recorded : Recorded deviceWord deviceLabel deviceRam deviceInfo
    (recipeText deviceWord deviceLabel deviceRam ++ logText deviceInfo) :=
  ⟨rfl, ⟨by simp [deviceRam], by decide⟩, deviceLabel_ok,
    .cons (isLine_mk (by decide +kernel)) line3_says (.cons (isLine_mk (by decide +kernel)) line4_says .nil), rfl⟩

example : recipeText deviceWord deviceLabel deviceRam = asc
    ("0x10000000:\t0x30000001\t0x3000000d\t0x30000019\t0x30000025\n" ++
     "0x10000010 <g+4>:\t0x30000031\t0x3000003d\t0x30000049\t0x30000055\n" ++
     "0x2007c000:\t0x60174001\t0x6017400d\t0x60174019\t0x60174025\n" ++
     "0x2007c010:\t0x60174031\t0x6017403d\t0x60174049\t0x60174055\n") := by decide +kernel

theorem device_blocks : ramBlocks deviceWord deviceRam = [((0x10000000 : U32), wordBytes ((List.range 8).map fun i => deviceWord (0x10000000 + BitVec.ofNat 32 (4 * i)))),
    (0x2007C000, wordBytes ((List.range 8).map fun i => deviceWord (0x2007C000 + BitVec.ofNat 32 (4 * i))))] := by decide +kernel

example : ∃ q, startUp argsOver (progOver (recipeText deviceWord deviceLabel deviceRam ++ logText deviceInfo)) = .ok () q ∧
    (∀ r v, lastValue deviceInfo r = some v → r.get q.host.ctx = some v) ∧
    ∃ s', IMemory.read .w32 0x10000014 q.host.mem = .ok (0x3000003D : U32) s' := by
  obtain ⟨q, h1, h2, h3⟩ := C112_words_partial (args := argsOver)
    (p := progOver (recipeText deviceWord deviceLabel deviceRam ++ logText deviceInfo)) (n := [0x62]) (d := [0x64]) (image := [1, 2, 3, 4, 5, 6])
    (blks := [(0x30000004, [1, 2, 3, 4, 5, 6])]) (shows := []) spelledOver rfl rfl (fun _ => rfl) (fun _ => rfl)
    ⟨by simp, by decide, by decide +kernel⟩ device_recorded (by unfold HighRam; decide) .nil
    (by rw [device_blocks]; exact disjoint_ranges (by decide +kernel)) (by rw [device_blocks]; unfold Fits; decide +kernel) (fun _ => rfl)
  exact ⟨q, h1, h2, h3 (0x10000000, 0x10000020) (by simp [deviceRam]) 5 (by decide)⟩

/-! ### RAM below 0x10000000 -/

def startsWithout (o : Out Prog Unit) (a : U32) : Bool :=
  match o with
  | .ok _ q => match IMemory.read .w32 a q.host.mem with
    | .throw _ _ => true
    | _ => false
  | _ => false

theorem startsWithout_spec {o : Out Prog Unit} {a : U32} (h : startsWithout o a = true) :
    ∃ q e s, o = .ok () q ∧ IMemory.read .w32 a q.host.mem = .throw e s := by
  unfold startsWithout at h
  cases o with
  | ok u q =>
    simp only at h
    cases e : IMemory.read .w32 a q.host.mem with
    | throw x s => exact ⟨q, x, s, rfl, e⟩
    | ok v s => rw [e] at h; cases h
    | ub r => rw [e] at h; cases h
  | throw x s => cases h
  | ub r => cases h

/-- RAM on both sides of 0x10000000, and below it. -/
def lowRam : List (U32 × U32) := [(0x0FFFFFE8, 0x10000020), (0x02000000, 0x02000020)]

theorem low_recorded : Recorded deviceWord deviceLabel lowRam deviceInfo (recipeText deviceWord deviceLabel lowRam ++ logText deviceInfo) :=
  ⟨rfl, ⟨by simp [lowRam], by decide⟩, deviceLabel_ok,
    .cons (isLine_mk (by decide +kernel)) line3_says (.cons (isLine_mk (by decide +kernel)) line4_says .nil), rfl⟩

/-- Of this RAM, the lines at 0x10000008 and 0x10000018 are found. -/
theorem low_found : foundRam lowRam = [(0x10000008, 0x10000020)] ∧
    ramBlocks deviceWord (foundRam lowRam) = [((0x10000008 : U32), wordBytes ((List.range 8).map fun i => deviceWord (0x10000008 + BitVec.ofNat 32 (4 * i))))] := by
  decide +kernel

example : ∃ q, startUp argsOver (progOver (recipeText deviceWord deviceLabel lowRam ++ logText deviceInfo)) = .ok () q ∧
    (∃ s', IMemory.read .w32 0x1000000C q.host.mem = .ok (0x30000025 : U32) s') := by
  obtain ⟨q, h1, -, h3⟩ := C112_words_general (args := argsOver)
    (p := progOver (recipeText deviceWord deviceLabel lowRam ++ logText deviceInfo)) (n := [0x62]) (d := [0x64]) (image := [1, 2, 3, 4, 5, 6])
    (blks := [(0x30000004, [1, 2, 3, 4, 5, 6])]) (shows := []) spelledOver rfl rfl (fun _ => rfl) (fun _ => rfl)
    ⟨by simp, by decide, by decide +kernel⟩ low_recorded .nil
    (by rw [low_found.2]; exact disjoint_ranges (by decide +kernel)) (by rw [low_found.2]; unfold Fits; decide +kernel) (fun _ => rfl)
  exact ⟨q, h1, h3 (0x10000008, 0x10000020) (by rw [low_found.1]; simp) 1 (by decide)⟩

/-- C112 does not hold for RAM below 0x10000000: GDB writes fewer than eight digits for the addresses there, the lines are
passed over without a word, and the session that starts has no memory there. -/
theorem C112_low_memory_witness : ∃ (word : U32 → U32) (ram : List (U32 × U32)) (text : Str) (q : Prog) (e : Exn) (s : Sim),
    (∀ r ∈ ram, r.1.toNat < r.2.toNat) ∧ text = recipeText word (fun _ => []) ram ++ logText deviceInfo ∧
    startUp argsOver (progOver text) = .ok () q ∧
    ∃ r ∈ ram, IMemory.read .w32 r.1 q.host.mem = .throw e s := by
  have h : startsWithout (startUp argsOver (progOver (recipeText deviceWord (fun _ => []) [(0x02000000, 0x02000020)] ++ logText deviceInfo)))
      0x02000000 = true := by decide +kernel
  obtain ⟨q, e, s, h1, h2⟩ := startsWithout_spec h
  exact ⟨deviceWord, [(0x02000000, 0x02000020)], _, q, e, s, by decide, rfl, h1, _, List.mem_singleton.2 rfl, h2⟩

end Verif.Props
