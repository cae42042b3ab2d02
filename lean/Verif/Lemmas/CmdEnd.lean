import Verif.Lemmas.CmdTop
import Verif.Lemmas.DumpHex
import Verif.Lemmas.DumpFile
/- Start-up with valid files. -/
namespace Verif.CommandLine
open Verif MemSim Spec Libc Elf

theorem text_loads {h : Host} {name bytes : Str} {d : DumpFile} (ht : DumpText bytes d) (hr : Ready h) (hn : NextFile h name bytes)
    (hwf : d.WF) (hf : Free h.mem d.mem) :
    ∃ h', readerFor bytes name h = .ok () h' ∧ h'.ctx = loadedRegs d h.ctx ∧ Dump.Loaded h h' d.mem := by
  rcases ht with rfl | ⟨h1, h2⟩
  · have : [0x63, 0x43] <+: encode d := by
      refine ⟨[if d.v2 then 2 else 3, 0] ++ le32 d.flags ++ d.regs.flatMap le32 ++ le32 d.psr ++ d.fpr.flatMap le32 ++ d.mem.flatMap encodeBlock, ?_⟩
      simp [encode, encodeHead]
    unfold readerFor
    rw [if_pos this]
    exact Dump.dump_loads hr hn hwf hf
  · have hne : ¬ [0x63, 0x43] <+: bytes := by
      rintro ⟨t, rfl⟩
      obtain ⟨u, hu⟩ := h1
      rw [show asc "6343" = [0x36, 0x33, 0x34, 0x33] by decide] at hu
      simp at hu
    unfold readerFor
    rw [if_neg hne, if_pos h1]
    obtain ⟨f, dd, k1, k2, k3, k4, k5⟩ := Dump.dump_at (t := []) hr hwf hf
    refine ⟨Dump.closed dd.host, ?_, k4, k5⟩
    unfold Dump.readHex
    rw [Dump.readFile_eq hn]
    rw [List.append_nil] at k2
    have := Dump.rel_dump Dump.rel_hex Dump.hex_consumes Dump.binary_consumes (d1 := Dump.start h bytes) (d2 := Dump.start h (encode d)) ⟨rfl, rfl, h2⟩
    rw [k2, Dump.regions_eof k3] at this
    cases e1 : Dump.readDump Dump.hexRead (Dump.start h bytes) with
    | ok a d1 => rw [e1] at this; simp [this.2.1]
    | throw e d1 => rw [e1] at this; exact this.1.elim
    | ub r => rw [e1] at this; exact this.elim

theorem whole_of (bytes : Str) : Whole (File.of bytes) := ⟨rfl, rfl, by simp [File.of], by simp [File.of]⟩

theorem disjoint_left {a b : List (U32 × List U8)} (h : Spec.Disjoint (a ++ b)) : Spec.Disjoint a := (List.pairwise_append.1 h).1
theorem disjoint_right {a b : List (U32 × List U8)} (h : Spec.Disjoint (a ++ b)) : Spec.Disjoint b := (List.pairwise_append.1 h).2.1

theorem free_beside {a b : List (U32 × List U8)} {s : Sim} (h : Spec.Disjoint (a ++ b)) (hf : ∀ r ∈ a ++ b, Fits r)
    (hr : s.regions = a.map romRegion) (hl : ∀ r ∈ a, r.2.length < 2 ^ 32) : Free s b := by
  intro r hb
  refine ⟨hf r (List.mem_append_right _ hb), ?_⟩
  rintro x hx ⟨q, hq, hc⟩
  rw [hr] at hq
  obtain ⟨p, hp, rfl⟩ := List.mem_map.1 hq
  rcases (List.pairwise_append.1 h).2.2 p hp r hb x with hn | hn
  · have hc' := (rom_covers (hl p hp)).1 hc
    have : (byteIn p x).isSome := Dump.byteIn_iff.2 ⟨hc'.1, by omega⟩
    rw [hn] at this; cases this
  · rw [hn] at hx; cases hx

/-- A valid image ends up in the empty simulator. -/
theorem image_loads {os : List Opt} {p : Prog} {bytes : Str} {blocks : List (U32 × List U8)} (hp : PlentyOfMemory p.host.mem)
    (hb : ImageBlocks os bytes blocks) (hf : ∀ r ∈ blocks, Fits r) (hd : Spec.Disjoint blocks) :
    (∀ r ∈ blocks, r.2.length < 2 ^ 32) ∧
    ∃ s1, imageWork (chosen os p) (File.of bytes) (emptySim p) = .ok () s1 ∧ s1.regions = blocks.map romRegion ∧ s1.hits = 0 ∧
      PlentyOfMemory s1 := by
  have hpe : PlentyOfMemory (emptySim p) := hp
  have hse : Sound (emptySim p) := sound_init _
  have hlen : (File.of bytes).tell.toNat = bytes.length := by simp [File.of]
  have htake : (File.of bytes).bytes.take (File.of bytes).tell.toNat = bytes := by rw [hlen]; simp [File.of]
  unfold ImageBlocks at hb
  unfold imageWork
  rw [chosen_elf, chosen_base, htake, hlen]
  cases he : lastElf os with
  | some n =>
    rw [he] at hb
    obtain ⟨h2, h3, h4, h5, rfl⟩ := hb
    have hfree : Free (emptySim p) (elfBlocks bytes) := by
      intro r hr
      refine ⟨hf r hr, ?_⟩
      rintro a - ⟨q, hq, -⟩
      cases hq
    obtain ⟨k, l, e⟩ := fromMemory_loads hse hpe h2 h3 h4 h5 hfree hd
    exact ⟨elfBlocks_lt _, _, e, rfl, rfl, hp⟩
  | none =>
    rw [he] at hb
    cases hbn : lastBin os with
    | none => rw [hbn] at hb; exact hb.elim
    | some x =>
      rw [hbn] at hb
      obtain ⟨name, base⟩ := x
      obtain ⟨h1, hfull, rfl⟩ := hb
      have hfit := hf _ (List.mem_singleton.2 rfl)
      simp only [Fits] at hfit
      have hpos : 0 < bytes.length := List.length_pos_iff.2 h1
      simp only [Option.map_some, Option.getD_some]
      refine ⟨by intro r hr; rw [List.mem_singleton.1 hr]; exact hfull, ?_⟩
      have hn : (BitVec.ofInt 32 (File.of bytes).tell).toNat = bytes.length := by
        rw [ofInt_toNat (whole_of bytes) (by rw [hlen]; exact hfull), hlen]
      have := loadSegment_eq (a := strtoul32 base) (n := BitVec.ofInt 32 (File.of bytes).tell) (data := bytes) hse hpe (by omega) (by omega) (by omega)
        (by rintro x - - ⟨q, hq, -⟩; cases hq)
      rw [hn, List.take_length] at this
      refine ⟨{ bumpHeap (emptySim p) 3 3 with regions := (emptySim p).regions ++ [romRegion (strtoul32 base, bytes)] }, ?_, rfl, rfl, hp⟩
      unfold binWork
      rw [M.tryCatch_apply, this]

/-- Start-up with an image that is loaded as these blocks, and a valid dump. -/
theorem start_loads_of {os : List Opt} {p : Prog} {n d bytes text : Str} {blocks : List (U32 × List U8)} {df : DumpFile}
    (hn : imageFile os = some n) (hd : lastDump os = some d) (hi : OnDisk p.host n bytes) (ht : OnDisk p.host d text)
    (hlt : ∀ r ∈ blocks, r.2.length < 2 ^ 32) {s1 : Sim} (w1 : imageWork (chosen os p) (File.of bytes) (emptySim p) = .ok () s1)
    (w2 : s1.regions = blocks.map romRegion) (w3 : s1.hits = 0) (w4 : PlentyOfMemory s1)
    (hdt : DumpText text df) (hwf : df.WF) (hdj : Spec.Disjoint (blocks ++ df.mem))
    (hf : ∀ r ∈ blocks ++ df.mem, Fits r) (hp : PlentyOfMemory p.host.mem) :
    ∃ q, memStages [] (withMemory (chosen os p)) = .ok () q ∧ HoldsBlocks q.host.mem (blocks ++ df.mem) ∧
      RefusesWrites q.host.mem blocks ∧ q.host.ctx = loadedRegs df {} ∧ q.memory = true ∧
      q.host.mem.regions = blocks.map romRegion ++ Dump.loadMem [] df.mem ∧ Sound q.host.mem ∧ PlentyOfMemory q.host.mem ∧
      q.host.mem.hits < 2 ^ 31 := by
  have hso1 : Sound s1 := by
    intro r hr
    rw [w2] at hr
    obtain ⟨b, hb', rfl⟩ := List.mem_map.1 hr
    exact rom_ok (hlt b hb')
  have hfree : Free s1 df.mem := free_beside hdj hf w2 hlt
  have himg : loadImageFile (withMemory (chosen os p)) = .ok () (atMem (withMemory (chosen os p)) (bumpHeap s1 0 (-1))) := by
    have hin : imageName (withMemory (chosen os p)) = some n := (chosen_image os p).trans hn
    rcases loadImageFile_cases (p := withMemory (chosen os p)) rfl (imageName_split hin) with ⟨e, k, h1, h2, h3⟩ | ⟨f, h1, h2, h3⟩
    · exact (h3 (File.of bytes) (hi _) (whole_of bytes) hp).elim
    · have : f = File.of bytes := Option.some.inj (h1.symm.trans (hi _))
      subst this
      have he : imageWork (withMemory (chosen os p)) (File.of bytes) (bumpHeap (withMemory (chosen os p)).host.mem 1 1) = .ok () s1 := w1
      rw [h3, he]
  have hr1 : Ready (peeked (atMem (withMemory (chosen os p)) (bumpHeap s1 0 (-1))).host) :=
    ⟨Spec.Sound.congr hso1 rfl, w4, ⟨rfl, rfl⟩, by show s1.hits < 2 ^ 31; rw [w3]; decide⟩
  have hfree1 : Free (peeked (atMem (withMemory (chosen os p)) (bumpHeap s1 0 (-1))).host).mem df.mem := hfree
  obtain ⟨h', l1, l2, l3⟩ := text_loads (name := d) hdt hr1 ⟨_, ht _, rfl⟩ hwf hfree1
  have hdump : loadDumpFile (atMem (withMemory (chosen os p)) (bumpHeap s1 0 (-1))) =
      .ok () { atMem (withMemory (chosen os p)) (bumpHeap s1 0 (-1)) with host := h' } := by
    rw [loadDumpFile_some (p := atMem (withMemory (chosen os p)) (bumpHeap s1 0 (-1))) ((chosen_dump os p).trans hd) (ht _), onMemory_apply rfl]
    have : (if [0x63, 0x43] <+: (File.of text).bytes then Dump.readBinary d
      else if asc "6343" <+: (File.of text).bytes then Dump.readHex d else GdbLog.parse d)
        (peeked (atMem (withMemory (chosen os p)) (bumpHeap s1 0 (-1))).host) = .ok () h' := by
      rw [← l1]
      unfold readerFor
      show (if [0x63, 0x43] <+: text then Dump.readBinary d else if asc "6343" <+: text then Dump.readHex d else GdbLog.parse d) _ = _
      by_cases c1 : [0x63, 0x43] <+: text
      · rw [if_pos c1, if_pos c1]
      · rw [if_neg c1, if_neg c1]
        by_cases c2 : asc "6343" <+: text
        · rw [if_pos c2, if_pos c2]
        · rw [if_neg c2, if_neg c2]
    simp only [this]
  refine ⟨{ atMem (withMemory (chosen os p)) (bumpHeap s1 0 (-1)) with host := h' }, ?_, ?_, ?_, l2, rfl,
    by rw [l3.split.regions]; exact congrArg (· ++ _) w2, Dump.sound_append l3.split, l3.heap w4, l3.split.hits⟩
  · unfold memStages
    rw [M.bind_ok himg, M.bind_ok hdump]
    rfl
  · have hreg : h'.mem.regions = blocks.map romRegion ++ Dump.loadMem [] df.mem := by
      rw [l3.split.regions]; exact congrArg (· ++ _) w2
    have h1 := rom_access_more (Dump.sound_append l3.split) l3.split.hits hreg (disjoint_left hdj) hlt
    have h2 := Dump.holds_blocks l3.split (disjoint_right hdj) hfree1 hwf.mem
    intro r hr
    rcases List.mem_append.1 hr with hr | hr
    · exact h1.1 r hr
    · exact h2 r hr
  · have hreg : h'.mem.regions = blocks.map romRegion ++ Dump.loadMem [] df.mem := by
      rw [l3.split.regions]; exact congrArg (· ++ _) w2
    exact (rom_access_more (Dump.sound_append l3.split) l3.split.hits hreg (disjoint_left hdj) hlt).2

/-- Start-up with a valid image and dump. -/
theorem start_loads {args : List Str} {os : List Opt} {p : Prog} {n d bytes text : Str} {blocks : List (U32 × List U8)} {df : DumpFile}
    (_hs : Spelled args os) (hn : imageFile os = some n) (hd : lastDump os = some d) (hi : OnDisk p.host n bytes) (ht : OnDisk p.host d text)
    (hb : ImageBlocks os bytes blocks) (hdt : DumpText text df) (hwf : df.WF) (hdj : Spec.Disjoint (blocks ++ df.mem))
    (hf : ∀ r ∈ blocks ++ df.mem, Fits r) (hp : PlentyOfMemory p.host.mem) :
    ∃ q, memStages [] (withMemory (chosen os p)) = .ok () q ∧ HoldsBlocks q.host.mem (blocks ++ df.mem) ∧
      RefusesWrites q.host.mem blocks ∧ q.host.ctx = loadedRegs df {} ∧ q.memory = true := by
  obtain ⟨hlt, s1, w1, w2, w3, w4⟩ := image_loads (os := os) (p := p) hp hb (fun r hr => hf r (List.mem_append_left _ hr)) (disjoint_left hdj)
  obtain ⟨q, h1, h2, h3, h4, h5, -⟩ := start_loads_of hn hd hi ht hlt w1 w2 w3 w4 hdt hwf hdj hf hp
  exact ⟨q, h1, h2, h3, h4, h5⟩

/-- A raw image of any size: only the low 32 bits of its size count. -/
theorem binWork_any {s : Sim} (hs : Sound s) (hp : PlentyOfMemory s) (hr : s.regions = []) {base : U32} {bytes : Str}
    (h0 : 0 < bytes.length % 2 ^ 32) (hfit : base.toNat + bytes.length % 2 ^ 32 ≤ 2 ^ 32) :
    binWork base bytes (File.of bytes).tell s =
      .ok () { bumpHeap s 3 3 with regions := s.regions ++ [romRegion (base, bytes.take (bytes.length % 2 ^ 32))] } := by
  have hn : (BitVec.ofInt 32 (File.of bytes).tell).toNat = bytes.length % 2 ^ 32 := by
    rw [BitVec.toNat_ofInt]
    show ((bytes.length : Int) % (2 ^ 32 : Nat)).toNat = _
    omega
  have hle := Nat.mod_le bytes.length (2 ^ 32)
  have := loadSegment_eq (a := base) (n := BitVec.ofInt 32 (File.of bytes).tell) (data := bytes) hs hp (by omega) (by omega) (by omega)
    (by rintro x - - ⟨q, hq, -⟩; rw [hr] at hq; cases hq)
  unfold binWork
  rw [M.tryCatch_apply, this, hn]

end Verif.CommandLine
