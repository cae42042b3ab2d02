import Verif.Spec.TextAround
import Verif.Props.AnyCrash
import Verif.Props.Complete
import Verif.Props.LineEnds
/-
C116: text around a hexadecimal dump.
-/
namespace Verif.Props
open Verif MemSim Spec Host Main Platform CommandLine Elf

theorem hexText_chars {t bs : Str} (h : HexText t bs) : ∀ c ∈ t, ¬ Foreign c := by
  induction h with
  | nil => intro c hc; cases hc
  | newline hn _ ih =>
    intro c hc
    rcases List.mem_cons.1 hc with rfl | hc
    · intro h; rw [h.2] at hn; cases hn
    · exact ih c hc
  | byte hx hy hn _ _ ih =>
    intro c hc
    rcases List.mem_cons.1 hc with rfl | hc
    · intro h; rw [h.1] at hx; cases hx
    · rcases List.mem_append.1 hc with hc | hc
      · intro h; have := hn c hc; rw [h.2] at this; cases this
      · rcases List.mem_cons.1 hc with rfl | hc
        · intro h; rw [h.1] at hy; cases hy
        · exact ih c hc

/-- C116, for text after (or inside) a dump: a file that begins with the signature and has a character that belongs in no dump is
refused, unless that character is the very last one (see C33). -/
theorem C116_text_after_partial {args : List Str} {os : List Opt} {p : Prog} {disk : Str → Option Str} {d a b : Str} {c : U8}
    (hd : ∀ k n, p.host.files.opens k n = (disk n).map File.of) (hs : Spelled args os) (hl : lastDump os = some d)
    (ht : disk d = some (a ++ c :: b)) (h6 : asc "6343" <+: a) (hc : Foreign c) (hb : ∃ x ∈ b, isNewline x = false) (q : Prog) :
    startUp args p ≠ .ok () q := by
  intro h
  obtain ⟨os', n, d', image, text, hs', -, hl', -, ht', -, hcd⟩ := C105_success_means_complete hd h
  cases spelled_unique hs hs'
  cases hl.symm.trans hl'
  cases ht.symm.trans ht'
  have h6' : asc "6343" <+: a ++ c :: b := h6.trans (List.prefix_append _ _)
  rcases hcd with ⟨h1, -⟩ | ⟨-, df, -, hx, -⟩ | ⟨-, h2⟩
  · obtain ⟨u, hu⟩ := h6'
    obtain ⟨v, hv⟩ := h1
    rw [← hu] at hv
    exact absurd (List.cons.inj hv).1 (by decide)
  · rcases hx with hx | ⟨t, x, nl, e, hx, hnx, hnl⟩
    · exact hexText_chars hx c (by simp) hc
    · rcases List.append_eq_append_iff.1 e with ⟨as, e1, e2⟩ | ⟨bs, e1, e2⟩
      · cases as with
        | nil =>
          obtain ⟨y, hy, hy'⟩ := hb
          have := hnl y ((List.cons.inj e2).2 ▸ hy)
          rw [hy'] at this
          cases this
        | cons z as =>
          have := hexText_chars hx z (by rw [e1]; simp)
          exact this ((List.cons.inj e2).1 ▸ hc)
      · cases bs with
        | nil =>
          obtain ⟨y, hy, hy'⟩ := hb
          have := hnl y ((List.cons.inj e2).2 ▸ hy)
          rw [hy'] at this
          cases this
        | cons z bs =>
          have := hnl c (by rw [(List.cons.inj e2).2]; simp)
          rw [hc.2] at this
          cases this
  · exact h2 h6'

/-! ### Text before the dump -/

theorem field_spaces (r : Reg) : asc "  " <:+: r.field := by
  cases r with
  | core i => revert i; decide +kernel
  | float i => revert i; decide +kernel

theorem notFromGdb_infix {text line : Str} (h : NotFromGdb text) (hl : line <:+: text) : ¬ LikeMemory line ∧ ¬ LikeRegister line := by
  constructor
  · rintro ⟨-, h2, -⟩
    exact h.1 (h2 ▸ ((List.take_prefix 2 line).isInfix.trans hl))
  · rintro ⟨r, hr⟩
    exact h.2 (((field_spaces r).trans hr.isInfix).trans hl)

theorem lines_infix {text : Str} {ps : List Str} (h : Lines text ps) : ∀ p ∈ ps, p <:+: text := by
  induction h with
  | nil => intro p hp; cases hp
  | @cons p rest ps _ _ ih =>
    intro q hq
    rcases List.mem_cons.1 hq with rfl | hq
    · exact (List.prefix_append _ _).isInfix
    · exact (ih q hq).trans (List.suffix_append _ _).isInfix

/-- Text that is not from GDB tells of nothing. -/
theorem tells_nothing {text : Str} (h : NotFromGdb text) (h1 : ¬ [0x63, 0x43] <+: text) (h2 : ¬ asc "6343" <+: text) :
    TellsOf text noRegisters [] := by
  obtain ⟨ps, hp⟩ := GdbLog.lines_exist text
  have ho : ∀ ps : List Str, (∀ p ∈ ps, p <:+: text) →
      List.Forall₂ (fun p m => TakenFor (upToNul p) m) ps (ps.map fun _ => Meaning.other) := by
    intro ps
    induction ps with
    | nil => intro _; exact .nil
    | cons p ps ih =>
      intro hh
      have hp := notFromGdb_infix h (((List.takeWhile_prefix _).isInfix : upToNul p <:+: p).trans (hh p List.mem_cons_self))
      exact .cons (.other hp.1 hp.2) (ih fun p hp => hh p (List.mem_cons_of_mem _ hp))
  have hm : ∀ ps : List Str, memoryIn (ps.map fun _ => Meaning.other) = [] := by
    intro ps; induction ps with
    | nil => rfl
    | cons p ps ih => exact ih
  have hr : ∀ ps : List Str, regsIn (ps.map fun _ => Meaning.other) = noRegisters := by
    intro ps; induction ps with
    | nil => rfl
    | cons p ps ih => exact ih
  have := TellsOf.log (text := text) (ms := ps.map fun _ => Meaning.other) ⟨h1, h2, ps, hp, ho ps (lines_infix hp)⟩ (by rw [hm]; intro r h; cases h)
  rwa [hm, hr] at this

/-- What C116 says does not hold of text before a dump: any text that does not look like GDB's is accepted instead of a dump. Start-up
succeeds; all registers are 0 (MSP and PSP 0xBAADBAAD), and there is no memory but the image. -/
theorem C116_text_before {args : List Str} {os : List Opt} {p : Prog} {n d bytes text : Str} {image : List (U32 × List U8)}
    (hs : Spelled args os) (ha : aliases os = []) (hn : imageFile os = some n) (hd : lastDump os = some d)
    (hi : OnDisk p.host n bytes) (ht : OnDisk p.host d text) (hb : ImageBlocks os bytes image) (hdj : Spec.Disjoint image)
    (hf : ∀ r ∈ image, Fits r) (hp : PlentyOfMemory p.host.mem)
    (hg : NotFromGdb text) (h1 : ¬ [0x63, 0x43] <+: text) (h2 : ¬ asc "6343" <+: text) :
    ∃ q, startUp args p = .ok () q ∧ q.host.ctx = noRegisters ∧ ∀ W (w : Width) (a : U32),
      (CanRead (platform W q) w a ↔ ∃ b ∈ image, Within b a w.bytes) ∧ ¬ CanWrite (platform W q) w a := by
  have hc : CrashGiven args p os image noRegisters [] [] :=
    ⟨hs, ⟨n, bytes, hn, hi, hb⟩, ⟨d, text, hd, ht, tells_nothing hg h1 h2⟩, by rw [ha]; exact .nil, by simpa using hdj, by simpa using hf, hp⟩
  obtain ⟨q, e, c, -⟩ := crash_rep hc
  obtain ⟨q', e', h'⟩ := C102_accessible_iff hc
  rw [e] at e'
  cases e'
  refine ⟨q, e, c, fun W w a => ?_⟩
  have := h' W [] _ (.nil _) (by show 0 + 1 < 2 ^ 31; decide) w a
  rw [ha] at this
  simpa using this

/-! ### Terminal logs of CrashCatcher -/

theorem spaces_append {u v : Str} (hu : ¬ asc "  " <:+: u) (hv : ¬ asc "  " <:+: v) (hl : u.getLast? ≠ some 0x20) :
    ¬ asc "  " <:+: u ++ v := by
  rintro ⟨a, b, e⟩
  have e : a ++ ((0x20 : U8) :: 0x20 :: b) = u ++ v := by rw [← e, List.append_assoc]; rfl
  rcases List.append_eq_append_iff.1 e with ⟨as, e1, e2⟩ | ⟨bs, e1, e2⟩
  · match as with
    | [] => exact hv ⟨[], b, e2⟩
    | [x] =>
      cases (List.cons.inj e2).1
      exact hl (by rw [e1]; simp)
    | x :: y :: as =>
      cases (List.cons.inj e2).1
      cases (List.cons.inj (List.cons.inj e2).2).1
      exact hu ⟨a, as, by rw [e1, List.append_assoc]; rfl⟩
  · exact hv ⟨bs, b, by rw [e2, List.append_assoc]; rfl⟩

theorem chars_append {u v : Str} {c : U8} (hu : c ∉ u) (hv : c ∉ v) : c ∉ u ++ v := fun h => (List.mem_append.1 h).elim hu hv

theorem hexText_no {t bs : Str} (h : HexText t bs) {c : U8} (hc : Foreign c) : c ∉ t := fun hm => hexText_chars h c hm hc

theorem recorded_notFromGdb {t bs : Str} (h : HexText t bs) : NotFromGdb (beforeDump ++ t ++ afterDump) := by
  have hx : (0x78 : U8) ∉ beforeDump ++ t ++ afterDump :=
    chars_append (chars_append (by decide +kernel) (hexText_no h (by unfold Foreign; decide +kernel))) (by decide +kernel)
  have hs : (0x20 : U8) ∉ t := hexText_no h (by unfold Foreign; decide +kernel)
  constructor
  · intro hi
    exact hx (hi.subset (by decide +kernel))
  · rw [List.append_assoc]
    refine spaces_append (by decide +kernel) (spaces_append ?_ (by decide +kernel) ?_) (by decide +kernel)
    · intro hi
      exact hs (hi.subset (by decide +kernel))
    · intro hl
      exact hs (List.mem_of_getLast? hl)

/-- C116 does not hold of what a terminal records when CrashCatcher sends a dump, whatever the dump is, if the text before it is not
deleted: start-up succeeds, and GDB is shown a device without RAM whose registers are all 0. -/
theorem C116_recorded_witness {t bs : Str} (h : HexText t bs) :
    ∃ q, startUp argsBin (progText (beforeDump ++ t ++ afterDump)) = .ok () q ∧ q.host.ctx = noRegisters ∧ ∀ W (w : Width) (a : U32),
      (CanRead (platform W q) w a ↔ Within (0x100, [1, 2]) a w.bytes) ∧ ¬ CanWrite (platform W q) w a := by
  have hb : ∀ x : U8, x ≠ 0x0D → ¬ [x] <+: beforeDump ++ t ++ afterDump := by
    rintro x hx ⟨u, hu⟩
    exact hx (List.cons.inj hu).1
  obtain ⟨q, e, hc, ha⟩ := C116_text_before (p := progText (beforeDump ++ t ++ afterDump))
    (image := [(0x100, [1, 2])]) spelledBin rfl (n := [0x62]) rfl (d := [0x64]) rfl (fun _ => rfl) (fun _ => rfl)
    ⟨by simp, by decide, by decide +kernel⟩ (disjoint_ranges (by decide)) (by unfold Fits; decide) (fun _ => rfl) (recorded_notFromGdb h)
    (fun hh => hb 0x63 (by decide) (((List.prefix_append [0x63] [0x43])).trans hh))
    (fun hh => hb 0x36 (by decide) ((show [0x36] <+: asc "6343" from ⟨asc "343", rfl⟩).trans hh))
  refine ⟨q, e, hc, fun W w a => ?_⟩
  simpa using ha W w a

theorem hexDigit_lower : ∀ n : Fin 16, hexDigit (lowerDigit n) = some n.val := by decide +kernel

theorem hexText_hexOf (bs : Str) : HexText (hexOf bs) bs := by
  induction bs with
  | nil => exact .nil
  | cons b bs ih =>
    have hb := b.isLt
    exact HexText.byte (nl := []) (hexDigit_lower ⟨b.toNat / 16, by omega⟩) (hexDigit_lower ⟨b.toNat % 16, by omega⟩)
      (by intro c h; cases h) (by simp only; omega) ih

/-- The hypotheses are met by the dump of `hexDump`, which is accepted without the text. -/
example : (∃ bs, HexText hexDump bs) ∧ r5After hexDump = some (some 0x11111111, 1) ∧
    r5After (beforeDump ++ hexDump ++ afterDump) = some (some 0, 1) :=
  ⟨⟨[0x63, 0x43, 3, 0, 0, 0, 0, 0] ++ List.replicate 80 0x11,
    (by decide +kernel : hexDump = hexOf ([0x63, 0x43, 3, 0, 0, 0, 0, 0] ++ List.replicate 80 0x11)) ▸ hexText_hexOf _⟩,
    by decide +kernel, by decide +kernel⟩

/-- The hypotheses of `C116_text_after_partial` are met by this dump and the text after it. -/
example : asc "6343" <+: hexDump ++ asc "\r\nE" ∧ Foreign 0x6E ∧ (∃ x ∈ asc "d of dump\r\n", isNewline x = false) ∧
    hexDump ++ afterDump = (hexDump ++ asc "\r\nE") ++ 0x6E :: asc "d of dump\r\n" ∧ r5After (hexDump ++ afterDump) = none :=
  ⟨by decide +kernel, by unfold Foreign; decide +kernel, ⟨0x64, by decide +kernel, by decide +kernel⟩, by decide +kernel, by decide +kernel⟩

end Verif.Props
