import Verif.Props.Diagnosis
import Verif.Props.Messages
import Verif.Spec.SaysWhy
/-
C108: when start-up fails, the program says why. It does not always.
-/
namespace Verif.Props
open Verif MemSim Spec CommandLine

theorem app_ne {a b : Str} (h : a ≠ []) : a ++ b ≠ [] := fun h0 => h (List.append_eq_nil_iff.1 h0).1

theorem stuck_says {rest : List Str} {m : Str} (h : Stuck rest m) : m ≠ [] := by
  cases h with
  | noDashes => decide +kernel
  | unknown =>
    intro h
    rw [List.append_assoc, show asc "\"" = [0x22] by decide] at h
    simp at h
  | tooFew k => cases k <;> decide +kernel

theorem header_says {b m : Str} (h : headerComplaint b = some m) : m ≠ [] := by
  unfold headerComplaint at h
  repeat' split at h
  all_goals first
    | (cases h; decide +kernel)
    | (cases h; rw [List.append_assoc]; exact app_ne (by decide +kernel))
    | cases h

theorem elf_says {b m : Str} (h : elfComplaint b = some m) : m ≠ [] := by
  unfold elfComplaint at h
  cases hc : headerComplaint b with
  | some x => rw [hc, Option.some_or] at h; cases h; exact header_says hc
  | none =>
    rw [hc, Option.none_or] at h
    cases he : (List.range (phnum b)).findSome? (entryComplaint b) with
    | some x =>
      rw [he, Option.some_or] at h
      cases h
      obtain ⟨l1, i, l2, -, e2, -⟩ := List.findSome?_eq_some_iff.1 he
      unfold entryComplaint at e2
      split at e2
      · cases e2
        simp only [List.append_assoc]
        exact app_ne (by decide +kernel)
      · simp only at e2
        split at e2
        · cases e2
          simp only [List.append_assoc]
          exact app_ne (by decide +kernel)
        · cases e2
    | none =>
      rw [he, Option.none_or] at h
      split at h
      · cases h; decide +kernel
      · cases h

theorem image_says {os : List Opt} {b : Str} {e : Exn} (h : imageComplaint os b = some e) : e.msg ≠ [] := by
  unfold imageComplaint at h
  split at h
  · rw [Option.map_eq_some_iff] at h
    obtain ⟨m, h, rfl⟩ := h
    exact elf_says h
  · split at h
    · cases h
      unfold rawComplaint
      simp only [List.append_assoc]
      exact app_ne (by decide +kernel)
    · cases h
  · cases h

theorem head_says {t m : Str} (h : headComplaint t = some m) : m ≠ [] := by
  unfold headComplaint at h
  repeat' split at h
  all_goals first
    | (cases h; decide +kernel)
    | cases h

theorem region_says (lo hi : U32) : regionComplaint lo hi ≠ [] := by
  unfold regionComplaint
  simp only [List.append_assoc]
  exact app_ne (by decide +kernel)

theorem rest_says {t : Str} {e : Exn} (h : restComplaint t = some e) : e.msg ≠ [] := by
  unfold restComplaint at h
  repeat' split at h
  all_goals first
    | (cases h; decide +kernel)
    | (cases h; simp only [List.append_assoc]; exact app_ne (by decide +kernel))
    | cases h

theorem open_says (n : Str) : (asc "Failed to open \"" ++ n ++ asc "\".").take 1023 ≠ [] := by
  intro h
  rw [List.append_assoc, show asc "Failed to open \"" = 0x46 :: (asc "Failed to open \"").tail by decide +kernel] at h
  simp at h

/-- A dump that is refused is refused silently or with a message. -/
theorem dump_says {image : List (U32 × List U8)} {text : Str} {e : Exn} (h : DumpProblem image text e) : e.msg ≠ [] ∨ Silent image text := by
  cases h with
  | head hr h => exact .inl (head_says h)
  | @spoiledHead bytes m hr h =>
    by_cases hw : WrongSignature bytes
    · refine .inl ?_
      simp only [if_pos hw]
      exact head_says h
    · exact .inr (.head hr (by rw [h]; rfl) hw)
  | block => exact .inl (region_says _ _)
  | part => exact .inl (region_says _ _)
  | rest _ _ _ hu => exact .inl (rest_says hu)
  | @spoiledRest bytes u df hr hw hb hu hno =>
    subst hb
    by_cases h8 : u.length < 8
    · exact .inr (.rest hr hw hu h8 fun q hq => hno q (by simp [hq]))
    · refine .inl ?_
      unfold spoiledComplaint
      rw [if_neg h8]
      exact region_says _ _
  | log hr h => exact .inr (.log hr h)

theorem silent_problem {image : List (U32 × List U8)} {text : Str} (h : Silent image text) : ∃ c, DumpProblem image text ⟨c, []⟩ := by
  cases h with
  | @head bytes hr h hs =>
    obtain ⟨m, hm⟩ := Option.isSome_iff_exists.1 h
    have := DumpProblem.spoiledHead (image := image) hr hm
    rw [if_neg hs] at this
    exact ⟨_, this⟩
  | @rest df u hr hw hu h8 hno =>
    have := DumpProblem.spoiledRest (image := image) hr hw rfl hu (by
      intro q hq
      rcases List.mem_append.1 hq with hq | hq
      · exact hno q hq
      · rw [List.mem_singleton] at hq
        subst hq
        rintro ⟨x, hx, -⟩
        rw [Dump.byteIn_iff] at hx
        simp only [lastPart, List.length_drop] at hx
        omega)
    unfold spoiledComplaint at this
    rw [if_pos h8] at this
    exact ⟨_, this⟩
  | log hr h => exact ⟨_, .log hr h⟩

/-- C108. When start-up fails, the message is empty if and only if the dump is refused silently: the files that are needed are
there and the image is in order, but the text of the dump is spoiled outside of the contents of a block, or it is a log that shows a
word of the image. -/
theorem C108_silent_iff {args : List Str} {disk : Str → Option Str} {p q : Prog} {e : Exn} (ho : OrdinaryStart args disk)
    (hp : PlentyOfMemory p.host.mem) (hk : HasDisk p disk) (h : startUp args p = .throw e q) :
    e.msg = [] ↔ ∃ os n d b text, Spelled args os ∧ imageFile os = some n ∧ lastDump os = some d ∧ disk n = some b ∧
      imageComplaint os b = none ∧ disk d = some text ∧ Silent (imageBlocks os b) text := by
  have hpr := ((C107_exactly ho hp hk).1 e).1 ⟨q, h⟩
  constructor
  · intro h0
    cases hpr with
    | word _ _ hw => exact absurd h0 (stuck_says hw)
    | noImage => exact absurd h0 (by decide +kernel)
    | noDump => exact absurd h0 (by decide +kernel)
    | imageMissing => exact absurd h0 (open_says _)
    | image _ _ _ _ hw => exact absurd h0 (image_says hw)
    | dumpMissing => exact absurd h0 (open_says _)
    | dump hs hn hd hi hc ht h =>
      rcases dump_says h with h | h
      · exact absurd h0 h
      · exact ⟨_, _, _, _, _, hs, hn, hd, hi, hc, ht, h⟩
    | badAlias =>
      refine absurd h0 ?_
      unfold aliasComplaint
      simp only [List.append_assoc]
      exact app_ne (by decide +kernel)
  · rintro ⟨os, n, d, b, text, hs, hn, hd, hi, hc, ht, hsi⟩
    obtain ⟨c, hsi⟩ := silent_problem hsi
    rw [← (C107_only_one ho hpr).1 _ (.dump hs hn hd hi hc ht hsi)]

/-- C108. A start-up that fails says why, after "ERROR: ", if the dump is a binary one, or a hexadecimal one without spoiled text.
What is missing: a hexadecimal dump that is spoiled, and a log. -/
theorem C108_says_why_partial {args : List Str} {disk : Str → Option Str} {p q : Prog} {e : Exn} (ho : OrdinaryStart args disk)
    (hp : PlentyOfMemory p.host.mem) (hk : HasDisk p disk)
    (hd : ∀ os d text, Spelled args os → lastDump os = some d → disk d = some text → ∃ bytes, DumpReads text bytes)
    (h : startUp args p = .throw e q) :
    e.msg ≠ [] ∧ q.err = p.err ++ (asc "ERROR: " ++ e.msg ++ asc "\n" ++ copyrightNotice ++ usage) := by
  refine ⟨fun h0 => ?_, (C94_start_up h).2⟩
  obtain ⟨os, n, d, b, text, hs, -, hdu, -, -, ht, hsi⟩ := (C108_silent_iff ho hp hk h).1 h0
  obtain ⟨bytes, hr⟩ := hd os d text hs hdu ht
  have hsp : ∀ bytes', ¬ DumpSpoiled text bytes' := by
    rintro bytes' ⟨h1, h2⟩
    rcases hr with ⟨h3, -⟩ | ⟨-, h3⟩
    · obtain ⟨t, rfl⟩ := h3
      obtain ⟨u, hu⟩ := h1
      rw [show asc "6343" = [0x36, 0x33, 0x34, 0x33] by decide] at hu
      simp at hu
    · exact Dump.not_both h3 h2
  cases hsi with
  | head hr => exact hsp _ hr
  | rest hr => exact hsp _ hr
  | log hl =>
    rcases hr with ⟨h3, -⟩ | ⟨h3, -⟩
    · exact hl.1 h3
    · exact hl.2.1 h3

/-- With an alias that leads nowhere, for instance. -/
example : ∃ e q, startUp (argsRedirect (asc "0x10")) (progOver (encode dumpOne ++ [])) = .throw e q ∧ e.msg ≠ [] := by
  have ho : OrdinaryStart (argsRedirect (asc "0x10")) (diskOver (encode dumpOne ++ [])) :=
    ordinaryOver (ordinary_binary dumpOne_wf (.inl rfl) (by unfold Fits; decide +kernel))
  have h1 : [0x63, 0x43] <+: encode dumpOne ++ [] := by decide +kernel
  obtain ⟨q, hq⟩ := C107_first_problem (p := progOver (encode dumpOne ++ [])) ho (fun _ => rfl) (fun _ _ => rfl)
    (.badAlias (spelledRedirect _) (n := [0x62]) (d := [0x64]) rfl rfl (b := [1, 2, 3, 4, 5, 6]) rfl (by decide +kernel) rfl
      (.dump (.inl ⟨h1, List.append_nil _⟩) dumpOne_wf dumpOne_apart) (pre := []) (post := []) (x := (0x50, 4, 0x10)) (by decide +kernel)
      (by simp) (by rw [inside_iff]; decide +kernel))
  refine ⟨_, q, hq, (C108_says_why_partial ho (fun _ => rfl) (fun _ _ => rfl) ?_ hq).1⟩
  intro os d text hs hd ht
  cases spelled_unique hs (spelledRedirect _)
  cases (hd : some [0x64] = some d)
  cases (ht : some (encode dumpOne ++ []) = some text)
  exact ⟨_, .inl ⟨h1, rfl⟩⟩

/-- A hexadecimal dump that is too short for the registers. -/
theorem ordinary_short {text : Str} (h1 : asc "6343" <+: text) (h2 : text.length < 160) : OrdinaryDump text := by
  refine ⟨?_, fun ls h => absurd h1 h.2.1⟩
  intro bytes df u hr hw e hu
  exfalso
  have hlen : bytes.length < 80 := by
    rcases hr with (⟨⟨t, rfl⟩, -⟩ | ⟨-, h | ⟨t, c, nl, rfl, h, -⟩⟩) | ⟨-, t, hi, nl, lo, rest, rfl, h, -⟩
    · obtain ⟨u, hu⟩ := h1
      rw [show asc "6343" = [0x36, 0x33, 0x34, 0x33] by decide] at hu
      simp at hu
    · have := Dump.hex_length h
      omega
    · have := Dump.hex_length h
      simp at h2
      omega
    · have := Dump.hex_length h
      simp at h2
      omega
  have : 80 ≤ (encode df).length := by
    have hl := hw.regs
    have : ∀ ws : List U32, (ws.flatMap le32).length = 4 * ws.length := by
      intro ws
      induction ws with
      | nil => rfl
      | cons w ws ih => simp [List.flatMap_cons, ih]; omega
    simp only [encode, encodeHead, List.length_append, this, hl, Dump.le32_length, List.length_cons, List.length_nil]
    have : 17 ≤ (if df.v2 then 17 else 19) := by split <;> omega
    omega
  rw [e] at hlen
  simp at hlen
  omega

/-- Where "zz" stands instead of the flags. -/
def dumpZz : Str := asc "63430300zz"

/-- C108. This dump is refused, and the program does not say why: the user sees "ERROR: " and nothing else. -/
theorem C108_spoiled_witness : ∃ q, startUp (argsRedirect (asc "0x10")) (progOver dumpZz) = .throw ⟨.fileFormat, []⟩ q ∧
    q.err = (progOver dumpZz).err ++ (asc "ERROR: " ++ asc "\n" ++ copyrightNotice ++ usage) := by
  have hd : DumpSpoiled dumpZz [0x63, 0x43, 3, 0] := by
    refine ⟨by decide +kernel, asc "63430300", 0x7A, [], 0x7A, [], by decide +kernel, ?_, by decide, by decide, by simp, .inl (by decide)⟩
    rw [show asc "63430300" = [0x36, 0x33, 0x34, 0x33, 0x30, 0x33, 0x30, 0x30] by decide]
    exact .byte (nl := []) (x := 6) (y := 3) (by decide) (by decide) (by simp) (by decide)
      (.byte (nl := []) (x := 4) (y := 3) (by decide) (by decide) (by simp) (by decide)
        (.byte (nl := []) (x := 0) (y := 3) (by decide) (by decide) (by simp) (by decide)
          (.byte (nl := []) (x := 0) (y := 0) (by decide) (by decide) (by simp) (by decide) .nil)))
  have key := DumpProblem.spoiledHead (image := imageBlocks (optsRedirect (asc "0x10")) [1, 2, 3, 4, 5, 6]) hd
    (show headComplaint [0x63, 0x43, 3, 0] = some _ by rfl)
  rw [if_neg (by decide)] at key
  obtain ⟨q, hq⟩ := C107_first_problem (p := progOver dumpZz)
    (ordinaryOver (to := asc "0x10") (ordinary_short (text := dumpZz) (by decide +kernel) (by decide +kernel)))
    (fun _ => rfl) (fun _ _ => rfl)
    (.dump (spelledRedirect _) (n := [0x62]) (d := [0x64]) rfl rfl (b := [1, 2, 3, 4, 5, 6]) rfl (by decide +kernel) rfl key)
  exact ⟨q, hq, (C94_start_up hq).2⟩

/-- C108. Neither does it for this log, of which the second word is where the image is. -/
theorem C108_log_witness : ∃ q, startUp argsOver (progOver (logText gdbExample)) = .throw ⟨.busError, []⟩ q ∧
    q.err = (progOver (logText gdbExample)).err ++ (asc "ERROR: " ++ asc "\n" ++ copyrightNotice ++ usage) := by
  obtain ⟨q, hq⟩ := C93_log_over_image (p := progOver (logText gdbExample)) (n := [0x62]) (d := [0x64]) (bytes := [1, 2, 3, 4, 5, 6])
    (blks := [(0x30000004, [1, 2, 3, 4, 5, 6])]) (ls := gdbExample) spelledOver rfl rfl (fun _ => rfl) (fun _ => rfl)
    ⟨by simp, by decide, by decide +kernel⟩ (List.pairwise_singleton _ _) gdbExample_ok gdbExample_notShort (by decide +kernel)
    (by decide +kernel) (by rw [gdbExample_runs]; unfold Fits; decide) (by rw [gdbExample_runs]; decide) (fun _ => rfl)
    ⟨(0x30000000, [0x11111111, 0x22222222, 0x33333333, 0x44444444]), by decide +kernel, 1, by decide,
      (0x30000004, [1, 2, 3, 4, 5, 6]), by simp, by decide, by decide⟩
  exact ⟨q, hq, (C94_start_up hq).2⟩

end Verif.Props
