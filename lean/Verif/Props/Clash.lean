import Verif.Lemmas.Clash
import Verif.Props.AnyLog
import Verif.Props.StartLog
import Verif.Props.StartFail
/-
C93: a dump or log that has memory where the image is.
-/
namespace Verif.Props
open Verif MemSim Spec CommandLine Elf

theorem rom_plain {blks : List (U32 × List U8)} {s : Sim} (h : s.regions = blks.map romRegion) :
    ∀ q ∈ s.regions, q.isAlias = false ∧ q.isReadOnly = true := by
  intro q hq
  rw [h] at hq
  obtain ⟨b, -, rfl⟩ := List.mem_map.1 hq
  exact ⟨rfl, rfl⟩

theorem rom_mapped {blks : List (U32 × List U8)} {s : Sim} (h : s.regions = blks.map romRegion)
    (hl : ∀ r ∈ blks, r.2.length < 2 ^ 32) {x : U32} {n : Nat} :
    (∃ q ∈ s.regions, Covers q x n) ↔ ∃ b ∈ blks, b.1.toNat ≤ x.toNat ∧ x.toNat + n ≤ b.1.toNat + b.2.length := by
  rw [h]
  constructor
  · rintro ⟨q, hq, hc⟩
    obtain ⟨b, hb, rfl⟩ := List.mem_map.1 hq
    exact ⟨b, hb, (rom_covers (hl b hb)).1 hc⟩
  · rintro ⟨b, hb, hc⟩
    exact ⟨_, List.mem_map_of_mem hb, (rom_covers (hl b hb)).2 hc⟩

theorem clashes_iff {blks : List (U32 × List U8)} {s : Sim} (h : s.regions = blks.map romRegion)
    (hl : ∀ r ∈ blks, r.2.length < 2 ^ 32) {r : U32 × List U8} :
    Clashes blks r ↔ ∃ x, (byteIn r x).isSome ∧ Mapped s x 1 := by
  unfold Clashes Mapped
  refine exists_congr fun x => and_congr_right fun _ => ?_
  rw [rom_mapped h hl]
  refine exists_congr fun b => and_congr_right fun _ => ?_
  rw [Dump.byteIn_iff]
  omega

/-- The simulator after the image, as the reader of the dump gets it. -/
theorem image_ready {os : List Opt} {p : Prog} {n bytes : Str} {blks : List (U32 × List U8)}
    (hn : imageFile os = some n) (hi : OnDisk p.host n bytes) (hb : ImageBlocks os bytes blks) (hf : ∀ r ∈ blks, Fits r)
    (hdj : Spec.Disjoint blks) (hp : PlentyOfMemory p.host.mem) :
    ∃ s, loadImageFile (withMemory (chosen os p)) = .ok () (atMem (withMemory (chosen os p)) s) ∧
      s.regions = blks.map romRegion ∧ (∀ r ∈ blks, r.2.length < 2 ^ 32) ∧
      Ready (peeked (atMem (withMemory (chosen os p)) s).host) := by
  obtain ⟨hlt, s1, e1, w2, w3, w4, hso1⟩ := image_stage (os := os) (p := p) hn hi hb hf hdj hp
  exact ⟨_, e1, w2, hlt, ⟨Spec.Sound.congr hso1 rfl, w4, ⟨rfl, rfl⟩, by show s1.hits < 2 ^ 31; rw [w3]; decide⟩⟩

/-- C93. A dump one of whose blocks has a byte where the image has one is refused, with a message that gives the addresses of
the first such block. -/
theorem C93_dump_over_image {args : List Str} {os : List Opt} {p : Prog} {n d bytes text : Str} {blks pre post : List (U32 × List U8)}
    {df : DumpFile} {r : U32 × List U8} (hs : Spelled args os) (hn : imageFile os = some n) (hd : lastDump os = some d)
    (hi : OnDisk p.host n bytes) (ht : OnDisk p.host d text) (hb : ImageBlocks os bytes blks) (hdj : Spec.Disjoint blks)
    (hf : ∀ r ∈ blks ++ df.mem, Fits r) (hdt : DumpText text df) (hwf : df.WF) (hp : PlentyOfMemory p.host.mem)
    (hm : df.mem = pre ++ r :: post) (hpre : ∀ q ∈ pre, ¬ Clashes blks q) (hc : Clashes blks r) :
    ∃ q, startUp args p = .throw ⟨.busError, asc "The dump file failed to load RAM memory region at 0x" ++ eightDigits r.1 ++
      asc " - 0x" ++ eightDigits (r.1 + BitVec.ofNat 32 r.2.length) ++ asc "."⟩ q := by
  obtain ⟨s, e, w, hlt, hr⟩ := image_ready hn hi hb (fun r hr => hf r (List.mem_append_left _ hr)) hdj hp
  have key := startUp_image_ok hs hn hd e
  rw [ht] at key
  simp only at key
  have hmem : ∀ q ∈ pre ++ r :: post, Fits q := fun q hq => hf q (List.mem_append_right _ (hm ▸ hq))
  obtain ⟨h', he⟩ := text_clash (name := d) hdt hr ⟨_, ht _, rfl⟩ hwf (rom_plain w) hm
    (fun q hq => ⟨hmem q (by simp [hq]), fun x hx hmap => hpre q hq ((clashes_iff w hlt).2 ⟨x, hx, hmap⟩)⟩) (hmem r (by simp))
    ((clashes_iff w hlt).1 hc)
  rw [show (File.of text).bytes = text from rfl, he] at key
  exact key

/-- `--dump d --bin b 0x30000004` -/
def argsOver : List Str := [asc "--dump", [0x64], asc "--bin", [0x62], asc "0x30000004"]
def optsOver : List Opt := [.dump [0x64], .bin [0x62] (asc "0x30000004")]
theorem spelledOver : Spelled argsOver optsOver :=
  .cons (o := .dump _) (spells .dump (by decide +kernel)) (.cons (o := .bin _ _) (spells .bin (by decide +kernel)) .nil)

/-- A disk with an image "b" of six bytes and this dump "d". -/
def progOver (text : Str) : Prog :=
  { progExample with host := { progExample.host with
      files := { opens := fun _ n => ([([0x62], [1, 2, 3, 4, 5, 6]), ([0x64], text)].lookup n).map File.of } } }

/-- The last byte of the first block of `dumpExample` is where the image is. -/
example : ∃ q, startUp argsOver (progOver (encode (dumpExample false true))) =
    .throw ⟨.busError, asc "The dump file failed to load RAM memory region at 0x30000000 - 0x30000005."⟩ q := by
  obtain ⟨q, h⟩ := C93_dump_over_image (p := progOver (encode (dumpExample false true))) (n := [0x62]) (d := [0x64])
    (bytes := [1, 2, 3, 4, 5, 6]) (blks := [(0x30000004, [1, 2, 3, 4, 5, 6])]) (pre := []) (post := [(0x30000010, [6, 7])])
    (r := (0x30000000, [1, 2, 3, 4, 5])) (df := dumpExample false true) spelledOver rfl rfl (fun _ => rfl) (fun _ => rfl)
    ⟨by simp, by decide, by decide +kernel⟩ (List.pairwise_singleton _ _) (by unfold Fits; decide) (.inl rfl) (dumpExample_wf _ _)
    (fun _ => rfl) rfl (by simp) ⟨0x30000004, by decide, (0x30000004, [1, 2, 3, 4, 5, 6]), by simp, by decide⟩
  exact ⟨q, h⟩

/-- C93. If start-up with a valid dump succeeds, no block of the dump has a byte where the image has one. -/
theorem C93_success_no_clash {args : List Str} {os : List Opt} {p q : Prog} {n d bytes text : Str} {blks : List (U32 × List U8)}
    {df : DumpFile} (hs : Spelled args os) (hn : imageFile os = some n) (hd : lastDump os = some d)
    (hi : OnDisk p.host n bytes) (ht : OnDisk p.host d text) (hb : ImageBlocks os bytes blks) (hdj : Spec.Disjoint blks)
    (hf : ∀ r ∈ blks ++ df.mem, Fits r) (hdt : DumpText text df) (hwf : df.WF) (hp : PlentyOfMemory p.host.mem)
    (hq : startUp args p = .ok () q) : ∀ r ∈ df.mem, ¬ Clashes blks r := by
  intro r hr hc
  classical
  have : ∃ pre r post, df.mem = pre ++ r :: post ∧ (∀ q ∈ pre, ¬ Clashes blks q) ∧ Clashes blks r := by
    clear hq hf hdt hwf ht
    generalize df.mem = mem at hr
    induction mem with
    | nil => cases hr
    | cons m mem ih =>
      by_cases hm : Clashes blks m
      · exact ⟨[], m, mem, rfl, by simp, hm⟩
      · rcases List.mem_cons.1 hr with rfl | hr
        · exact absurd hc hm
        · obtain ⟨pre, r, post, h1, h2, h3⟩ := ih hr
          refine ⟨m :: pre, r, post, by simp [h1], ?_, h3⟩
          intro q hq
          rcases List.mem_cons.1 hq with rfl | hq
          · exact hm
          · exact h2 q hq
  obtain ⟨pre, r, post, h1, h2, h3⟩ := this
  obtain ⟨q', h'⟩ := C93_dump_over_image hs hn hd hi ht hb hdj hf hdt hwf hp h1 h2 h3
  rw [hq] at h'; cases h'

/-- C93. Without aliases, start-up with a valid dump succeeds if and only if no block of the dump clashes with the image;
blocks of the dump may overlap each other. -/
theorem C93_dump_accepted_iff {args : List Str} {os : List Opt} {p : Prog} {n d bytes text : Str} {blks : List (U32 × List U8)}
    {df : DumpFile} (hs : Spelled args os) (ha : aliases os = []) (hn : imageFile os = some n) (hd : lastDump os = some d)
    (hi : OnDisk p.host n bytes) (ht : OnDisk p.host d text) (hb : ImageBlocks os bytes blks) (hdj : Spec.Disjoint blks)
    (hf : ∀ r ∈ blks ++ df.mem, Fits r) (hdt : DumpText text df) (hwf : df.WF) (hp : PlentyOfMemory p.host.mem) :
    (∃ q, startUp args p = .ok () q) ↔ ∀ r ∈ df.mem, ¬ Clashes blks r := by
  constructor
  · rintro ⟨q, hq⟩
    exact C93_success_no_clash hs hn hd hi ht hb hdj hf hdt hwf hp hq
  · intro h
    obtain ⟨s, e, w, hlt, hr⟩ := image_ready hn hi hb (fun r hr => hf r (List.mem_append_left _ hr)) hdj hp
    have key := startUp_image_ok hs hn hd e
    rw [ht] at key
    simp only at key
    obtain ⟨h', he, -⟩ := text_loads (name := d) hdt hr ⟨_, ht _, rfl⟩ hwf
      (fun q hq => ⟨hf q (List.mem_append_right _ hq), fun x hx hmap => h q hq ((clashes_iff w hlt).2 ⟨x, hx, hmap⟩)⟩)
    rw [show (File.of text).bytes = text from rfl, he, ha] at key
    obtain ⟨q, hq, -⟩ := key
    exact ⟨q, hq⟩

/-- What the reader makes of any log. -/
theorem log_either {os : List Opt} {p : Prog} {d text : Str} {blks : List (U32 × List U8)} {ms : List Meaning} {s : Sim}
    (hr : Ready (peeked (atMem (withMemory (chosen os p)) s).host)) (w : s.regions = blks.map romRegion)
    (hlt : ∀ r ∈ blks, r.2.length < 2 ^ 32) (ht : OnDisk p.host d text)
    (hm : LogTakenFor text ms) (h1 : ¬ [0x63, 0x43] <+: text) (h2 : ¬ asc "6343" <+: text)
    (hf : ∀ r ∈ blocks (runs (memoryIn ms)), Fits r) (hl : ∀ r ∈ runs (memoryIn ms), 4 * r.2.length < 2 ^ 32) :
    Sat (fun _ h' => (∀ m ∈ memoryIn ms, ∀ i < m.2.length, ¬ WordInside blks (wordAt m i)) ∧ h'.mem.heap.fails = s.heap.fails ∧
        ∃ news', Dump.Split h'.mem s.regions news' ∧ news'.map shape = ((runs (memoryIn ms)).map GdbLog.reg).map shape)
      (fun e _ => e = ⟨.busError, []⟩ ∧ ∃ m ∈ memoryIn ms, ∃ i < m.2.length, WordInside blks (wordAt m i))
      (readerFor text d (peeked (atMem (withMemory (chosen os p)) s).host)) := by
  unfold readerFor
  rw [if_neg h1, if_neg h2]
  have hit : ∀ a, GdbLog.Hit s.regions a ↔ WordInside blks a := fun a => rom_mapped w hlt
  have key := GdbLog.parse_either (name := d) (bytes := text) hr ⟨_, ht _, rfl, rfl⟩ (rom_plain w) (by
    rw [GdbLog.memoryIn_taken hm]
    refine ⟨GdbLog.memoryIn_ne hm, hl, fun r hr' => ?_⟩
    have := hf (GdbLog.blk r) (List.mem_map_of_mem hr')
    simpa [Fits, GdbLog.RunFits, GdbLog.blk, GdbLog.wordBytes_length] using this)
  rw [GdbLog.memoryIn_taken hm] at key
  refine Sat.mono key (fun _ _ h => ⟨fun m hm j hj hw => h.1 m hm j hj ((hit _).2 hw), h.2⟩) ?_
  rintro e _ ⟨k1, m, k2, j, k3, k4⟩
  exact ⟨k1, m, k2, j, k3, (hit _).1 k4⟩

/-- C93. Any log that shows a word which lies inside a block of the image is refused, with a bus error without a message. -/
theorem C93_any_log_over_image {args : List Str} {os : List Opt} {p : Prog} {n d bytes text : Str} {blks : List (U32 × List U8)}
    {ms : List Meaning} (hs : Spelled args os) (hn : imageFile os = some n) (hd : lastDump os = some d)
    (hi : OnDisk p.host n bytes) (ht : OnDisk p.host d text) (hb : ImageBlocks os bytes blks) (hdj : Spec.Disjoint blks)
    (hm : LogTakenFor text ms) (h1 : ¬ [0x63, 0x43] <+: text) (h2 : ¬ asc "6343" <+: text)
    (hf : ∀ r ∈ blks ++ blocks (runs (memoryIn ms)), Fits r)
    (hl : ∀ r ∈ runs (memoryIn ms), 4 * r.2.length < 2 ^ 32) (hp : PlentyOfMemory p.host.mem)
    (hc : ∃ m ∈ memoryIn ms, ∃ i < m.2.length, WordInside blks (wordAt m i)) :
    ∃ q, startUp args p = .throw ⟨.busError, []⟩ q := by
  obtain ⟨s, e, w, hlt, hr⟩ := image_ready hn hi hb (fun r hr => hf r (List.mem_append_left _ hr)) hdj hp
  have key := startUp_image_ok hs hn hd e
  rw [ht] at key
  simp only at key
  rw [show (File.of text).bytes = text from rfl] at key
  have h := log_either (d := d) hr w hlt ht hm h1 h2 (fun r hr => hf r (List.mem_append_right _ hr)) hl
  cases he : readerFor text d (peeked (atMem (withMemory (chosen os p)) s).host) with
  | ub r => rw [he] at h; exact h.elim
  | throw x h' => rw [he] at h key; rw [← h.1]; exact key
  | ok u h' =>
    rw [he] at h
    obtain ⟨m, hm, i, hi', hw⟩ := hc
    exact (h.1 m hm i hi' hw).elim

/-- C93. A GDB log that shows a word which lies inside a block of the image is refused, with a bus error without a message. -/
theorem C93_log_over_image {args : List Str} {os : List Opt} {p : Prog} {n d bytes : Str} {blks : List (U32 × List U8)} {ls : List LogLine}
    (hs : Spelled args os) (hn : imageFile os = some n) (hd : lastDump os = some d)
    (hi : OnDisk p.host n bytes) (ht : OnDisk p.host d (logText ls)) (hb : ImageBlocks os bytes blks) (hdj : Spec.Disjoint blks)
    (ho : LogOK ls) (hsh : ∀ l ∈ ls, ¬ Short l) (h1 : ¬ [0x63, 0x43] <+: logText ls) (h2 : ¬ asc "6343" <+: logText ls)
    (hf : ∀ r ∈ blks ++ blocks (runs (shown ls)), Fits r)
    (hl : ∀ r ∈ runs (shown ls), 4 * r.2.length < 2 ^ 32) (hp : PlentyOfMemory p.host.mem)
    (hc : ∃ m ∈ shown ls, ∃ i < m.2.length, WordInside blks (wordAt m i)) :
    ∃ q, startUp args p = .throw ⟨.busError, []⟩ q := by
  obtain ⟨ms, hm⟩ := GdbLog.log_exists (logText ls)
  have e := ((C109_well_formed ho hm).1.trans (contributed_eq hsh)).symm
  rw [e] at hf hl hc
  exact C93_any_log_over_image hs hn hd hi ht hb hdj hm h1 h2 hf hl hp hc

/-- The second word `gdbExample` shows is where the image is. -/
example : ∃ q, startUp argsOver (progOver (logText gdbExample)) = .throw ⟨.busError, []⟩ q := by
  have hr := gdbExample_runs
  exact C93_log_over_image (p := progOver (logText gdbExample)) (n := [0x62]) (d := [0x64]) (bytes := [1, 2, 3, 4, 5, 6])
    (blks := [(0x30000004, [1, 2, 3, 4, 5, 6])]) (ls := gdbExample) spelledOver rfl rfl (fun _ => rfl) (fun _ => rfl)
    ⟨by simp, by decide, by decide +kernel⟩ (List.pairwise_singleton _ _) gdbExample_ok gdbExample_notShort (by decide +kernel)
    (by decide +kernel) (by rw [hr]; unfold Fits; decide) (by rw [hr]; decide) (fun _ => rfl)
    ⟨(0x30000000, [0x11111111, 0x22222222, 0x33333333, 0x44444444]), by decide +kernel, 1, by decide,
      (0x30000004, [1, 2, 3, 4, 5, 6]), by simp, by decide, by decide⟩

/-- C93. Without aliases, start-up with any log succeeds if and only if no word the log shows lies inside a block of the image. -/
theorem C93_any_log_accepted_iff {args : List Str} {os : List Opt} {p : Prog} {n d bytes text : Str} {blks : List (U32 × List U8)}
    {ms : List Meaning} (hs : Spelled args os) (ha : aliases os = []) (hn : imageFile os = some n) (hd : lastDump os = some d)
    (hi : OnDisk p.host n bytes) (ht : OnDisk p.host d text) (hb : ImageBlocks os bytes blks) (hdj : Spec.Disjoint blks)
    (hm : LogTakenFor text ms) (h1 : ¬ [0x63, 0x43] <+: text) (h2 : ¬ asc "6343" <+: text)
    (hf : ∀ r ∈ blks ++ blocks (runs (memoryIn ms)), Fits r)
    (hl : ∀ r ∈ runs (memoryIn ms), 4 * r.2.length < 2 ^ 32) (hp : PlentyOfMemory p.host.mem) :
    (∃ q, startUp args p = .ok () q) ↔ ∀ m ∈ memoryIn ms, ∀ i < m.2.length, ¬ WordInside blks (wordAt m i) := by
  constructor
  · rintro ⟨q, hq⟩ m hmm i hi' hw
    obtain ⟨q', h'⟩ := C93_any_log_over_image hs hn hd hi ht hb hdj hm h1 h2 hf hl hp ⟨m, hmm, i, hi', hw⟩
    rw [hq] at h'; cases h'
  intro hno
  obtain ⟨s, e, w, hlt, hr⟩ := image_ready hn hi hb (fun r hr => hf r (List.mem_append_left _ hr)) hdj hp
  have key := startUp_image_ok hs hn hd e
  rw [ht] at key
  simp only at key
  rw [show (File.of text).bytes = text from rfl] at key
  have h := log_either (d := d) hr w hlt ht hm h1 h2 (fun r hr => hf r (List.mem_append_right _ hr)) hl
  cases he : readerFor text d (peeked (atMem (withMemory (chosen os p)) s).host) with
  | ub r => rw [he] at h; exact h.elim
  | throw x h' =>
    rw [he] at h
    obtain ⟨-, m, hmm, i, hi', hw⟩ := h
    exact (hno m hmm i hi' hw).elim
  | ok u h' =>
    rw [he, ha] at key
    obtain ⟨q, hq, -⟩ := key
    exact ⟨q, hq⟩

/-- `oddLog` is accepted if the image is at 0x30000020, and not if it is at 0x30000004. -/
example : (∃ q, startUp [asc "--bin", [0x62], asc "0x30000020", asc "--dump", [0x64]] (progOver oddLog) = .ok () q) ∧
    ∃ q, startUp argsOver (progOver oddLog) = .throw ⟨.busError, []⟩ q := by
  have hr := oddLog_runs
  constructor
  · exact (C93_any_log_accepted_iff (os := [.bin [0x62] (asc "0x30000020"), .dump [0x64]]) (p := progOver oddLog) (n := [0x62])
      (d := [0x64]) (bytes := [1, 2, 3, 4, 5, 6]) (blks := [(0x30000020, [1, 2, 3, 4, 5, 6])]) (.cons (o := .bin _ _) (spells .bin (by decide +kernel)) (.cons (o := .dump _) (spells .dump (by decide +kernel)) .nil)) rfl rfl rfl (fun _ => rfl) (fun _ => rfl)
      ⟨by simp, by decide, by decide +kernel⟩ (List.pairwise_singleton _ _) oddLog_taken (by decide +kernel)
      (by decide +kernel) (by rw [hr]; unfold Fits; decide) (by rw [hr]; decide) (fun _ => rfl)).2 (by unfold WordInside; decide)
  · exact C93_any_log_over_image (p := progOver oddLog) (n := [0x62]) (d := [0x64]) (bytes := [1, 2, 3, 4, 5, 6])
      (blks := [(0x30000004, [1, 2, 3, 4, 5, 6])]) spelledOver rfl rfl (fun _ => rfl) (fun _ => rfl)
      ⟨by simp, by decide, by decide +kernel⟩ (List.pairwise_singleton _ _) oddLog_taken (by decide +kernel)
      (by decide +kernel) (by rw [hr]; unfold Fits; decide) (by rw [hr]; decide) (fun _ => rfl)
      ⟨(0x30000000, [0, 0, 0, 0]), by decide, 1, by decide, (0x30000004, [1, 2, 3, 4, 5, 6]), by simp, by decide, by decide⟩

/-- C93. Without aliases, start-up with a well-formed log succeeds if and only if no word the log shows lies inside a block of
the image. -/
theorem C93_log_accepted_iff {args : List Str} {os : List Opt} {p : Prog} {n d bytes : Str} {blks : List (U32 × List U8)} {ls : List LogLine}
    (hs : Spelled args os) (ha : aliases os = []) (hn : imageFile os = some n) (hd : lastDump os = some d)
    (hi : OnDisk p.host n bytes) (ht : OnDisk p.host d (logText ls)) (hb : ImageBlocks os bytes blks) (hdj : Spec.Disjoint blks)
    (ho : LogOK ls) (hsh : ∀ l ∈ ls, ¬ Short l) (h1 : ¬ [0x63, 0x43] <+: logText ls) (h2 : ¬ asc "6343" <+: logText ls)
    (hf : ∀ r ∈ blks ++ blocks (runs (shown ls)), Fits r)
    (hl : ∀ r ∈ runs (shown ls), 4 * r.2.length < 2 ^ 32) (hp : PlentyOfMemory p.host.mem) :
    (∃ q, startUp args p = .ok () q) ↔ ∀ m ∈ shown ls, ∀ i < m.2.length, ¬ WordInside blks (wordAt m i) := by
  obtain ⟨ms, hm⟩ := GdbLog.log_exists (logText ls)
  have e := ((C109_well_formed ho hm).1.trans (contributed_eq hsh)).symm
  rw [e] at hf hl ⊢
  exact C93_any_log_accepted_iff hs ha hn hd hi ht hb hdj hm h1 h2 hf hl hp

end Verif.Props
