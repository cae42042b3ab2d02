import Verif.Lemmas.Diagnosis
/-
C107: start-up reports the first thing that is wrong, in a fixed order, and succeeds if nothing is wrong.
-/
namespace Verif.Props
open Verif MemSim Spec CommandLine

theorem disk_there {p : Prog} {disk : Str → Option Str} {n b : Str} (hd : HasDisk p disk) (h : disk n = some b) : OnDisk p.host n b := by
  intro k
  rw [hd, h]
  rfl

theorem disk_missing {p : Prog} {disk : Str → Option Str} {n : Str} (hd : HasDisk p disk) (h : disk n = none) (k : Nat) :
    p.host.files.opens k n = none := by
  rw [hd, h]
  rfl

/-- The state after an image with which nothing is wrong. -/
theorem image_stands {args : List Str} {disk : Str → Option Str} {os : List Opt} {p : Prog} {n d b : Str} (ho : OrdinaryStart args disk)
    (hp : PlentyOfMemory p.host.mem) (hk : HasDisk p disk) (hs : Spelled args os) (hn : imageFile os = some n)
    (hd : lastDump os = some d) (hi : disk n = some b) (hc : imageComplaint os b = none) :
    ∃ s, s.regions = (imageBlocks os b).map Elf.romRegion ∧ (∀ r ∈ imageBlocks os b, r.2.length < 2 ^ 32) ∧
      Ready (peeked (atMem (withMemory (chosen os p)) s).host) ∧
      match p.host.files.opens (p.host.files.next + 1) d with
      | none => ∃ q, startUp args p = .throw ⟨.file, (asc "Failed to open \"" ++ d ++ asc "\".").take 1023⟩ q
      | some f =>
        match readerFor f.bytes d (peeked (atMem (withMemory (chosen os p)) s).host) with
        | .ub r => startUp args p = .ub r
        | .throw e _ => ∃ q, startUp args p = .throw e q
        | .ok _ h2 =>
          match createAliases (aliases os) h2.mem with
          | .ub r => startUp args p = .ub r
          | .throw e _ => ∃ q, startUp args p = .throw e q
          | .ok _ s2 => ∃ q, startUp args p = .ok () q ∧ q.host = { h2 with mem := s2 } := by
  obtain ⟨h1, h2, h3⟩ := image_fine hn (ho.image os n b hs hn hi) hc
  obtain ⟨s, e, w, hlt, hr⟩ := image_ready hn (disk_there hk hi) h1 h2 h3 hp
  exact ⟨s, w, hlt, hr, startUp_image_ok hs hn hd e⟩

/-- What happens to the aliases after a dump with which nothing is wrong. -/
theorem aliases_follow {args : List Str} {disk : Str → Option Str} {os : List Opt} {p : Prog} {n d b text : Str}
    {mem : List (U32 × List U8)} (ho : OrdinaryStart args disk)
    (hp : PlentyOfMemory p.host.mem) (hk : HasDisk p disk) (hs : Spelled args os) (hn : imageFile os = some n)
    (hd : lastDump os = some d) (hi : disk n = some b) (hc : imageComplaint os b = none) (ht : disk d = some text)
    (hf : DumpFine (imageBlocks os b) text mem) :
    ((∀ y ∈ aliases os, Inside (imageBlocks os b ++ mem) y.2.2) ∧ ∃ q, startUp args p = .ok () q) ∨
    ∃ pre x post, aliases os = pre ++ x :: post ∧ (∀ y ∈ pre, Inside (imageBlocks os b ++ mem) y.2.2) ∧
      ¬ Inside (imageBlocks os b ++ mem) x.2.2 ∧ ∃ q, startUp args p = .throw ⟨.busError, aliasComplaint x⟩ q := by
  obtain ⟨s, w, hlt, hr, key⟩ := image_stands ho hp hk hs hn hd hi hc
  rw [disk_there hk ht] at key
  simp only at key
  obtain ⟨h', e1, e2, e3, e4⟩ := dump_fine hr w hlt (disk_there hk ht) (ho.dump os d text hs hd ht) hf
  rw [show (File.of text).bytes = text from rfl, e1] at key
  simp only at key
  have ha := aliases_either (todo := aliases os) (done := []) e2 e4 (fun r hr h => by rw [e3 r hr] at h; cases h) (ho.aliases os hs)
  cases e5 : createAliases (aliases os) h'.mem with
  | ub r => rw [e5] at ha; exact ha.elim
  | throw e s' =>
    rw [e5] at ha key
    obtain ⟨pre, x, post, g1, g2, g3, rfl⟩ := ha
    exact .inr ⟨pre, x, post, g1, g2, g3, key⟩
  | ok u s' =>
    rw [e5] at ha key
    obtain ⟨q, hq, -⟩ := key
    exact .inl ⟨ha, q, hq⟩

/-- C107. Start-up reports the first thing that is wrong. -/
theorem C107_first_problem {args : List Str} {disk : Str → Option Str} {p : Prog} {e : Exn} (ho : OrdinaryStart args disk)
    (hp : PlentyOfMemory p.host.mem) (hk : HasDisk p disk) (h : Problem args disk e) : ∃ q, startUp args p = .throw e q := by
  cases h with
  | word ha hs h =>
    subst ha
    obtain ⟨q, hq, -⟩ := C53_refused hs h p
    exact ⟨q, hq⟩
  | noImage hs h =>
    obtain ⟨q, hq, -⟩ := (C53_option_missing hs p).1 h
    exact ⟨q, hq⟩
  | noDump hs hn h =>
    obtain ⟨q, hq, -⟩ := (C53_option_missing hs p).2 (by rw [hn]; simp) h
    exact ⟨q, hq⟩
  | imageMissing hs hn hd h =>
    refine C78_unreadable_image hs hn hd ?_
    unfold fileComplaint
    rw [disk_missing hk h]
  | image hs hn hd hi h => exact image_wrong hs hn hd (disk_there hk hi) (ho.image _ _ _ hs hn hi) hp h
  | dumpMissing hs hn hd hi hc h =>
    obtain ⟨s, w, hlt, hr, key⟩ := image_stands ho hp hk hs hn hd hi hc
    rw [disk_missing hk h] at key
    exact key
  | @dump os n d b text e hs hn hd hi hc ht h =>
    obtain ⟨s, w, hlt, hr, key⟩ := image_stands ho hp hk hs hn hd hi hc
    rw [disk_there hk ht] at key
    simp only at key
    obtain ⟨h', he⟩ := dump_problem hr w hlt (disk_there hk ht) (ho.dump os d text hs hd ht) h
    rw [show (File.of text).bytes = text from rfl, he] at key
    exact key
  | badAlias hs hn hd hi hc ht hf ha hpre h =>
    rcases aliases_follow ho hp hk hs hn hd hi hc ht hf with ⟨g, -⟩ | ⟨pre', x', post', g1, g2, g3, g4⟩
    · exact absurd (g _ (by rw [ha]; simp)) h
    · have := first_unique (P := fun y : U32 × U32 × U32 => Inside _ y.2.2) (ha.symm.trans g1) hpre h g2 g3
      rw [this]
      exact g4

/-- C107. If nothing is wrong, start-up succeeds. -/
theorem C107_nothing_wrong {args : List Str} {disk : Str → Option Str} {p : Prog} (ho : OrdinaryStart args disk)
    (hp : PlentyOfMemory p.host.mem) (hk : HasDisk p disk) (h : Fine args disk) : ∃ q, startUp args p = .ok () q := by
  obtain ⟨hs, hn, hd, hi, hc, ht, hf, ha⟩ := h
  rcases aliases_follow ho hp hk hs hn hd hi hc ht hf with ⟨-, g⟩ | ⟨pre, x, post, g1, -, g3, -⟩
  · exact g
  · exact absurd (ha x (by rw [g1]; simp)) g3

/-- C107. Every file is a dump, possibly with some damage, or a dump that is spoiled after some bytes, or does not look like a
dump. -/
theorem C107_every_file (text : Str) : (∃ bytes, DumpReads text bytes) ∨ (∃ bytes, DumpSpoiled text bytes) ∨
    ¬ [0x63, 0x43] <+: text ∧ ¬ asc "6343" <+: text := by
  classical
  by_cases h1 : [0x63, 0x43] <+: text
  · exact .inl ⟨text, .inl ⟨h1, rfl⟩⟩
  · by_cases h2 : asc "6343" <+: text
    · rcases Dump.every_text _ text (Nat.le_refl _) with ⟨bytes, h⟩ | ⟨bytes, h⟩
      · exact .inl ⟨bytes, .inr ⟨h2, h⟩⟩
      · exact .inr (.inl ⟨bytes, h2, h⟩)
    · exact .inr (.inr ⟨h1, h2⟩)

/-- C107. There is a first problem, or nothing is wrong. -/
theorem C107_always_one {args : List Str} {disk : Str → Option Str} (ho : OrdinaryStart args disk) :
    (∃ e, Problem args disk e) ∨ Fine args disk := by
  classical
  rcases split_args args with ⟨os, hs⟩ | ⟨pre, os, rest, m, ha, hs, h⟩
  case inr => exact .inl ⟨_, .word ha hs h⟩
  cases hn : imageFile os with
  | none => exact .inl ⟨_, .noImage hs hn⟩
  | some n =>
  cases hd : lastDump os with
  | none => exact .inl ⟨_, .noDump hs hn hd⟩
  | some d =>
  cases hi : disk n with
  | none => exact .inl ⟨_, .imageMissing hs hn hd hi⟩
  | some b =>
  cases hc : imageComplaint os b with
  | some e => exact .inl ⟨_, .image hs hn hd hi hc⟩
  | none =>
  cases ht : disk d with
  | none => exact .inl ⟨_, .dumpMissing hs hn hd hi hc ht⟩
  | some text =>
  have hdump : (∃ e, DumpProblem (imageBlocks os b) text e) ∨ ∃ mem, DumpFine (imageBlocks os b) text mem := by
    rcases C107_every_file text with ⟨bytes, hr⟩ | ⟨bytes, hr⟩ | ⟨h1, h2⟩
    · rcases C106_every_dump bytes with h | ⟨df, u, hw, hb, hu⟩
      · obtain ⟨m, hm⟩ := Option.isSome_iff_exists.1 h
        exact .inl ⟨_, .head hr hm⟩
      · rcases exists_first (fun q => ¬ Clashes (imageBlocks os b) q) df.mem with h | ⟨pre, r, post, h1, h2, h3⟩
        · rcases hu with rfl | hu
          · rw [List.append_nil] at hb
            subst hb
            exact .inr ⟨_, .dump hr hw h⟩
          · obtain ⟨e, he⟩ := Option.isSome_iff_exists.1 hu
            by_cases hl : Clashes (imageBlocks os b) (lastPart u)
            · exact .inl ⟨_, .part (.inl hr) hw hb he h hl⟩
            · refine .inl ⟨_, .rest hr hw hb he ?_⟩
              intro q hq
              rcases List.mem_append.1 hq with hq | hq
              · exact h q hq
              · rw [List.mem_singleton] at hq
                rw [hq]; exact hl
        · exact .inl ⟨_, .block (.inl hr) hw hb hu h1 h2 (Classical.not_not.1 h3)⟩
    · rcases C106_every_dump bytes with h | ⟨df, u, hw, hb, hu⟩
      · obtain ⟨m, hm⟩ := Option.isSome_iff_exists.1 h
        exact .inl ⟨_, .spoiledHead hr hm⟩
      · rcases exists_first (fun q => ¬ Clashes (imageBlocks os b) q) df.mem with h | ⟨pre, r, post, h1, h2, h3⟩
        · by_cases hl : Clashes (imageBlocks os b) (lastPart u)
          · rcases hu with rfl | hu
            · obtain ⟨x, hx, -⟩ := hl
              rw [Dump.byteIn_iff] at hx
              simp [lastPart] at hx
              omega
            · obtain ⟨e, he⟩ := Option.isSome_iff_exists.1 hu
              exact .inl ⟨_, .part (.inr hr) hw hb he h hl⟩
          · refine .inl ⟨_, .spoiledRest hr hw hb hu ?_⟩
            intro q hq
            rcases List.mem_append.1 hq with hq | hq
            · exact h q hq
            · rw [List.mem_singleton] at hq
              rw [hq]; exact hl
        · exact .inl ⟨_, .block (.inr hr) hw hb hu h1 h2 (Classical.not_not.1 h3)⟩
    · obtain ⟨ms, hm⟩ := GdbLog.log_exists text
      have hr : LogReads text ms := ⟨h1, h2, hm⟩
      by_cases h : ∃ m ∈ memoryIn ms, ∃ i < m.2.length, WordInside (imageBlocks os b) (wordAt m i)
      · exact .inl ⟨_, .log hr h⟩
      · exact .inr ⟨_, .log hr fun m hm i hi hw => h ⟨m, hm, i, hi, hw⟩⟩
  rcases hdump with ⟨e, h⟩ | ⟨mem, hf⟩
  · exact .inl ⟨e, .dump hs hn hd hi hc ht h⟩
  · rcases exists_first (fun y : U32 × U32 × U32 => Inside (imageBlocks os b ++ mem) y.2.2) (aliases os) with h | ⟨pre, x, post, h1, h2, h3⟩
    · exact .inr (.mk hs hn hd hi hc ht hf h)
    · exact .inl ⟨_, .badAlias hs hn hd hi hc ht hf h1 h2 h3⟩

/-- C107. Start-up fails with an exception if and only if that is the first problem, and it succeeds if and only if nothing is
wrong. -/
theorem C107_exactly {args : List Str} {disk : Str → Option Str} {p : Prog} (ho : OrdinaryStart args disk)
    (hp : PlentyOfMemory p.host.mem) (hk : HasDisk p disk) :
    (∀ e, (∃ q, startUp args p = .throw e q) ↔ Problem args disk e) ∧ ((∃ q, startUp args p = .ok () q) ↔ Fine args disk) := by
  constructor
  · intro e
    refine ⟨?_, C107_first_problem ho hp hk⟩
    rintro ⟨q, hq⟩
    rcases C107_always_one ho with ⟨e', h⟩ | h
    · obtain ⟨q', hq'⟩ := C107_first_problem ho hp hk h
      rw [hq] at hq'
      cases hq'
      exact h
    · obtain ⟨q', hq'⟩ := C107_nothing_wrong ho hp hk h
      rw [hq] at hq'; cases hq'
  · refine ⟨?_, C107_nothing_wrong ho hp hk⟩
    rintro ⟨q, hq⟩
    rcases C107_always_one ho with ⟨e', h⟩ | h
    · obtain ⟨q', hq'⟩ := C107_first_problem ho hp hk h
      rw [hq] at hq'; cases hq'
    · exact h

/-- C107. In particular there is never more than one first problem, and none if nothing is wrong. -/
theorem C107_only_one {args : List Str} {disk : Str → Option Str} {e : Exn} (ho : OrdinaryStart args disk) (h : Problem args disk e) :
    (∀ e', Problem args disk e' → e' = e) ∧ ¬ Fine args disk := by
  have hp : PlentyOfMemory ({ host := { mem := MemSim.init goodHeap, files := { opens := fun _ n => (disk n).map File.of } } } : Prog).host.mem :=
    fun _ => rfl
  have hk : HasDisk { host := { mem := MemSim.init goodHeap, files := { opens := fun _ n => (disk n).map File.of } } } disk := fun _ _ => rfl
  obtain ⟨q, hq⟩ := C107_first_problem ho hp hk h
  constructor
  · intro e' h'
    obtain ⟨q', hq'⟩ := C107_first_problem ho hp hk h'
    rw [hq] at hq'
    cases hq'
    rfl
  · intro hf
    obtain ⟨q', hq'⟩ := C107_nothing_wrong ho hp hk hf
    rw [hq] at hq'; cases hq'

/-- A binary dump in which there may be something wrong after the blocks, and all of which fits into the address space. -/
theorem ordinary_binary {df : DumpFile} {u : Str} (hw : df.WF) (hu : EndsAt u) (hf : ∀ r ∈ df.mem ++ [lastPart u], Fits r) :
    OrdinaryDump (encode df ++ u) := by
  have h1 : [0x63, 0x43] <+: encode df ++ u := by
    refine ⟨[if df.v2 then 2 else 3, 0] ++ le32 df.flags ++ df.regs.flatMap le32 ++ le32 df.psr ++ df.fpr.flatMap le32 ++ df.mem.flatMap encodeBlock ++ u, ?_⟩
    simp [encode, encodeHead]
  refine ⟨?_, fun ms h => absurd h1 h.1⟩
  rintro bytes df' u' ((⟨-, rfl⟩ | ⟨h2, -⟩) | ⟨h2, -⟩) hw' e hu'
  · obtain ⟨rfl, rfl⟩ := Dump.encode_inj hw hw' hu hu' e
    exact hf
  all_goals
    exfalso
    obtain ⟨t, ht⟩ := h1
    rw [← ht] at h2
    obtain ⟨v, hv⟩ := h2
    rw [show asc "6343" = [0x36, 0x33, 0x34, 0x33] by decide] at hv
    simp at hv

/-- `--alias 0x50 4 <redirect> --dump d --bin b 0x30000004` -/
def argsRedirect (to : Str) : List Str := [asc "--alias", asc "0x50", asc "4", to] ++ argsOver
def optsRedirect (to : Str) : List Opt := .alias (asc "0x50") (asc "4") to :: optsOver
theorem spelledRedirect (to : Str) : Spelled (argsRedirect to) (optsRedirect to) :=
  .cons (o := .alias _ _ _) (spells .alias (by decide +kernel)) spelledOver

/-- An image "b" of six bytes and this dump "d". -/
def diskOver (text : Str) : Str → Option Str := fun n => [([0x62], [1, 2, 3, 4, 5, 6]), ([0x64], text)].lookup n

theorem ordinaryOver {to text : Str} (h : OrdinaryDump text) : OrdinaryStart (argsRedirect to) (diskOver text) := by
  refine ⟨?_, ?_, ?_⟩
  · intro os n b hs hn hb
    cases spelled_unique hs (spelledRedirect to)
    cases (hn : some [0x62] = some n)
    cases (hb : some [1, 2, 3, 4, 5, 6] = some b)
    exact ⟨by decide, fun h => absurd rfl h⟩
  · intro os d t hs hd ht
    cases spelled_unique hs (spelledRedirect to)
    cases (hd : some [0x64] = some d)
    cases (ht : some text = some t)
    exact h
  · intro os hs
    cases spelled_unique hs (spelledRedirect to)
    exact List.pairwise_singleton _ _

theorem inside_iff {a : U32} {blks : List (U32 × List U8)} :
    Inside blks a ↔ ∃ b ∈ blks, b.1.toNat ≤ a.toNat ∧ a.toNat < b.1.toNat + b.2.length := by
  unfold Inside
  simp only [Dump.byteIn_iff]

theorem dumpOne_apart : ∀ q ∈ dumpOne.mem, ¬ Clashes (imageBlocks (optsRedirect to) [1, 2, 3, 4, 5, 6]) q := by
  rintro q hq ⟨x, h1, b, h2, h3⟩
  have hq : q = (0x20000000, [1, 2, 3, 4]) := by simpa [dumpOne] using hq
  have hb : b = (0x30000004, [1, 2, 3, 4, 5, 6]) := by
    rw [List.mem_singleton.1 (show b ∈ [(Libc.strtoul32 (asc "0x30000004"), [1, 2, 3, 4, 5, 6])] from h2)]
    congr 1
  subst hq hb
  rw [Dump.byteIn_iff] at h1 h3
  simp at h1 h3
  omega

/-- The second block has only three of its eight bytes, the first of which belong where the image is. That is reported although
the alias leads nowhere. -/
example : ∃ q, startUp (argsRedirect (asc "0x10")) (progOver (encode dumpOne ++ (le32 0x30000002 ++ le32 0x3000000A ++ [1, 2, 3]))) =
    .throw ⟨.busError, asc "The dump file failed to load RAM memory region at 0x30000002 - 0x3000000A."⟩ q := by
  have hu : restComplaint (le32 0x30000002 ++ le32 0x3000000A ++ [1, 2, 3]) =
      some ⟨.fileFormat, asc "The dump file failed to load RAM memory region at 0x30000002 - 0x3000000A."⟩ := by decide +kernel
  have h1 : [0x63, 0x43] <+: encode dumpOne ++ (le32 0x30000002 ++ le32 0x3000000A ++ [1, 2, 3]) := by decide +kernel
  have key := C107_first_problem (p := progOver (encode dumpOne ++ (le32 0x30000002 ++ le32 0x3000000A ++ [1, 2, 3])))
    (ordinaryOver (to := asc "0x10") (ordinary_binary dumpOne_wf (.inr (by rw [hu]; rfl)) (by unfold Fits; decide +kernel)))
    (fun _ => rfl) (fun _ _ => rfl)
    (.dump (spelledRedirect _) (n := [0x62]) (d := [0x64]) rfl rfl (b := [1, 2, 3, 4, 5, 6]) rfl (by decide +kernel) rfl
      (.part (.inl (.inl ⟨h1, rfl⟩)) dumpOne_wf rfl hu dumpOne_apart
        ⟨0x30000004, by decide +kernel, (0x30000004, [1, 2, 3, 4, 5, 6]), by decide +kernel, by decide +kernel⟩))
  exact key

/-- With nothing after the first block, the alias is reported; if it leads to the dump's memory, start-up succeeds. -/
example : (∃ q, startUp (argsRedirect (asc "0x10")) (progOver (encode dumpOne ++ [])) =
      .throw ⟨.busError, asc "Failed to create alias of 0x00000050 to 0x00000010 of size 4."⟩ q) ∧
    ∃ q, startUp (argsRedirect (asc "0x20000001")) (progOver (encode dumpOne ++ [])) = .ok () q := by
  have h1 : [0x63, 0x43] <+: encode dumpOne ++ [] := by decide +kernel
  have ho : ∀ to, OrdinaryStart (argsRedirect to) (diskOver (encode dumpOne ++ [])) := fun to =>
    ordinaryOver (ordinary_binary dumpOne_wf (.inl rfl) (by unfold Fits; decide +kernel))
  have hf : ∀ to, DumpFine (imageBlocks (optsRedirect to) [1, 2, 3, 4, 5, 6]) (encode dumpOne ++ []) dumpOne.mem := fun to =>
    .dump (.inl ⟨h1, List.append_nil _⟩) dumpOne_wf dumpOne_apart
  constructor
  · have key := C107_first_problem (p := progOver (encode dumpOne ++ [])) (ho (asc "0x10")) (fun _ => rfl) (fun _ _ => rfl)
      (.badAlias (spelledRedirect _) (n := [0x62]) (d := [0x64]) rfl rfl (b := [1, 2, 3, 4, 5, 6]) rfl (by decide +kernel) rfl
        (hf _) (pre := []) (post := []) (x := (0x50, 4, 0x10)) (by decide +kernel) (by simp) (by rw [inside_iff]; decide +kernel))
    exact key
  · exact C107_nothing_wrong (p := progOver (encode dumpOne ++ [])) (ho (asc "0x20000001")) (fun _ => rfl) (fun _ _ => rfl)
      (.mk (spelledRedirect _) (n := [0x62]) (d := [0x64]) rfl rfl (b := [1, 2, 3, 4, 5, 6]) rfl (by decide +kernel) rfl
        (hf _) (by
          intro y hy
          have : aliases (optsRedirect (asc "0x20000001")) = [(0x50, 4, 0x20000001)] := by decide +kernel
          rw [this, List.mem_singleton] at hy
          rw [hy, inside_iff]
          decide +kernel))

/-- A log, not well-formed, one of whose words is where the image is. That is reported although the alias leads nowhere. -/
example : ∃ q, startUp (argsRedirect (asc "0x10")) (progOver oddLog) = .throw ⟨.busError, []⟩ q := by
  have h1 : ¬ [0x63, 0x43] <+: oddLog := by decide +kernel
  have h2 : ¬ asc "6343" <+: oddLog := by decide +kernel
  have ho : OrdinaryDump oddLog := by
    refine ⟨?_, ?_⟩
    · rintro bytes df u ((⟨h, -⟩ | ⟨h, -⟩) | ⟨h, -⟩)
      · exact absurd h h1
      · exact absurd h h2
      · exact absurd h h2
    · rintro ms ⟨-, -, h⟩
      obtain ⟨ms0, -, hu⟩ := C109_one_meaning oddLog
      rw [hu ms h, ← hu _ oddLog_taken, oddLog_runs]
      unfold Fits
      decide
  exact C107_first_problem (p := progOver oddLog) (ordinaryOver (to := asc "0x10") ho) (fun _ => rfl) (fun _ _ => rfl)
    (.dump (spelledRedirect _) (n := [0x62]) (d := [0x64]) rfl rfl (b := [1, 2, 3, 4, 5, 6]) rfl (by decide +kernel) rfl
      (.log ⟨h1, h2, oddLog_taken⟩ ⟨(0x30000000, [0, 0, 0, 0]), by decide, 1, by decide,
        (0x30000004, [1, 2, 3, 4, 5, 6]), by decide +kernel, by decide, by decide⟩))

end Verif.Props
