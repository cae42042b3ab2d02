import Verif.Lemmas.DumpRegs
import Verif.Lemmas.CmdTop
import Verif.Props.Clash
import Verif.Props.Session
/-
C105: a start-up that succeeds was given complete files.
-/
namespace Verif.Props
open Verif MemSim Spec CommandLine Main

theorem image_complete {os : List Opt} {p : Prog} {n image : Str} {s : Sim} (hn : imageFile os = some n)
    (hi : imageWork (chosen os p) (File.of image) (emptySim p) = .ok () s) : CompleteImage os image := by
  intro hlen
  have htake : (File.of image).bytes.take (File.of image).tell.toNat = image := by simp [File.of]
  have htell : (File.of image).tell.toNat = image.length := by simp [File.of]
  cases he : lastElf os with
  | some e =>
    unfold imageWork at hi
    rw [(chosen_elf os p).trans he, htake, htell] at hi
    obtain ⟨h1, h2, h3⟩ := C77_accepted_is_complete (fun i _ => by
      unfold entryWraps
      simp only [decide_eq_false_iff_not]
      omega) hi
    refine ⟨elfBlocks image, ?_, fun h => by cases h⟩
    unfold ImageBlocks
    rw [he]
    refine ⟨h1, h2, h3, ?_, rfl⟩
    obtain ⟨⟨g, g1, g2⟩, -⟩ := C47_success_means_loaded hi
    intro e0
    have : g.block image ∈ elfBlocks image := List.mem_map_of_mem (List.mem_filter.2 ⟨g1, g2⟩)
    rw [e0] at this; cases this
  | none =>
    cases hb : lastBin os with
    | none => rw [imageFile, he, hb] at hn; cases hn
    | some b =>
      obtain ⟨name, base⟩ := b
      unfold imageWork binWork at hi
      rw [(chosen_elf os p).trans he, htake, chosen_base, hb] at hi
      simp only at hi
      have hnn : (BitVec.ofInt 32 (File.of image).tell).toNat = image.length := by
        rw [ofInt_toNat (whole_of image) (by rw [htell]; omega), htell]
      have hgood : ¬ (image.length = 0 ∨ 2 ^ 32 < (Libc.strtoul32 base).toNat + image.length) := by
        intro hbad
        obtain ⟨e, s', h1, -⟩ := loadSegment_refused (s := emptySim p) rfl (a := Libc.strtoul32 base)
          (n := BitVec.ofInt 32 (File.of image).tell) (data := image) (by rw [hnn]; exact Nat.le_refl _) (by rw [hnn]; exact hbad)
        rw [M.tryCatch_apply] at hi
        simp only [Option.map_some, Option.getD_some] at hi
        rw [h1] at hi
        cases hi
      refine ⟨[(Libc.strtoul32 base, image)], ?_, fun _ r hr => ?_⟩
      · unfold ImageBlocks
        rw [he, hb]
        exact ⟨fun e => hgood (.inl (by rw [e]; rfl)), by omega, rfl⟩
      · rw [List.mem_singleton] at hr
        subst hr
        unfold Fits
        simp only
        omega

/-- C105. If start-up succeeds, the command line consists of complete options with an image and a dump among them, and both files
are there and complete: a complete ELF file or a raw image that fits into the address space, and a complete crash dump, whose
registers are those of the session (or a file that is read as a log). The files are ordinary ones; memory may run out. -/
theorem C105_success_means_complete {args : List Str} {p q : Prog} {disk : Str → Option Str}
    (hd : ∀ k n, p.host.files.opens k n = (disk n).map File.of) (h : startUp args p = .ok () q) :
    ∃ os n d image text, Spelled args os ∧ imageFile os = some n ∧ lastDump os = some d ∧ disk n = some image ∧ disk d = some text ∧
      CompleteImage os image ∧ CompleteDump text q.host.ctx := by
  obtain ⟨os, n, d, f, s1, s2, hs, hn, hl, ho, hw, hi, -⟩ := startUp_ok h
  rw [hd] at ho
  cases hdn : disk n with
  | none => rw [hdn] at ho; cases ho
  | some image =>
    rw [hdn] at ho
    obtain rfl : File.of image = f := Option.some.inj ho
    have hin : imageName (withMemory (chosen os p)) = some n := (chosen_image os p).trans hn
    have hopen : (withMemory (chosen os p)).host.files.opens (withMemory (chosen os p)).host.files.next n = some (File.of image) := by
      show p.host.files.opens _ _ = _
      rw [hd, hdn]; rfl
    have key : ∃ s, loadImageFile (withMemory (chosen os p)) = .ok () (atMem (withMemory (chosen os p)) s) := by
      rcases loadImageFile_cases (p := withMemory (chosen os p)) rfl (imageName_split hin) with ⟨e, k, h1, -⟩ | ⟨f, h1, h2, h3⟩
      · obtain ⟨q', hq⟩ := startUp_image_fails hs hn hl h1
        rw [h] at hq; cases hq
      · obtain rfl : File.of image = f := Option.some.inj (hopen.symm.trans h1)
        rw [show imageWork (withMemory (chosen os p)) (File.of image) (bumpHeap (withMemory (chosen os p)).host.mem 1 1) = .ok () s1 from hi] at h3
        exact ⟨_, h3⟩
    obtain ⟨s, key⟩ := key
    have hst := startUp_image_ok hs hn hl key
    rw [hd] at hst
    cases hdd : disk d with
    | none =>
      rw [hdd] at hst
      obtain ⟨q', hq⟩ := hst
      rw [h] at hq; cases hq
    | some text =>
      rw [hdd] at hst
      simp only [Option.map_some] at hst
      refine ⟨os, n, d, image, text, hs, hn, hl, hdn, hdd, image_complete hn hi, ?_⟩
      · generalize hh : peeked (atMem (withMemory (chosen os p)) s).host = h0 at hst
        have hctx : h0.ctx = {} := by rw [← hh]; rfl
        have hnext : NextFile h0 d text := ⟨File.of text, by rw [← hh]; show p.host.files.opens _ _ = _; rw [hd, hdd]; rfl, rfl⟩
        have hc : RegsWF h0.ctx := by rw [hctx]; exact ⟨rfl, rfl⟩
        cases hr : readerFor (File.of text).bytes d h0 with
        | ub r => rw [hr] at hst; rw [h] at hst; cases hst
        | throw e h2 => rw [hr] at hst; obtain ⟨q', hq⟩ := hst; rw [h] at hq; cases hq
        | ok u h2 =>
          rw [hr] at hst
          simp only at hst
          have hq : q.host.ctx = h2.ctx := by
            cases ha : createAliases (aliases os) h2.mem with
            | ub r => rw [ha] at hst; rw [h] at hst; cases hst
            | throw e h2 => rw [ha] at hst; obtain ⟨q', hq⟩ := hst; rw [h] at hq; cases hq
            | ok u s2 =>
              rw [ha] at hst
              obtain ⟨q', hq, hq2⟩ := hst
              rw [h] at hq
              injection hq with _ hq
              subst hq
              rw [hq2]
          rw [show (File.of text).bytes = text from rfl] at hr
          unfold readerFor at hr
          rw [hq]
          by_cases c1 : [0x63, 0x43] <+: text
          · rw [if_pos c1] at hr
            unfold Dump.readBinary at hr
            rw [Dump.readFile_eq hnext] at hr
            cases e : Dump.readDump Dump.binaryRead (Dump.start h0 text) with
            | ub r => rw [e] at hr; cases hr
            | throw x d => rw [e] at hr; cases hr
            | ok u d1 =>
              rw [e] at hr
              obtain ⟨df, k1, k2, k3⟩ := Dump.dump_regs (d := Dump.start h0 text) rfl hc e
              cases hr
              exact .inl ⟨c1, df, k1, k2, by rw [← hctx]; exact k3⟩
          · rw [if_neg c1] at hr
            by_cases c2 : asc "6343" <+: text
            · rw [if_pos c2] at hr
              unfold Dump.readHex at hr
              rw [Dump.readFile_eq hnext] at hr
              cases e : Dump.readDump Dump.hexRead (Dump.start h0 text) with
              | ub r => rw [e] at hr; cases hr
              | throw x d => rw [e] at hr; cases hr
              | ok u d1 =>
                rw [e] at hr
                obtain ⟨df, k1, k2, k3⟩ := Dump.hex_regs hc e
                cases hr
                exact .inr (.inl ⟨c2, df, k1, k2, by rw [← hctx]; exact k3⟩)
            · exact .inr (.inr ⟨c1, c2⟩)

theorem aliases_keep {w : Width} {a : U32} {i off : Nat} {r : Region} : ∀ {xs : List (U32 × U32 × U32)} {s s' : Sim},
    Hit s a w.bytes i r off → createAliases xs s = .ok () s' →
      ∃ f : Sim → Sim, f s = s' ∧ IMemory.read w a s' = mapState f (IMemory.read w a s) ∧
        ∀ v, IMemory.write w a v s' = mapState f (IMemory.write w a v s) := by
  have hid : ∀ {α : Type} (o : Out Sim α), mapState id o = o := by intro α o; cases o <;> rfl
  have hcomp : ∀ {α : Type} (f g : Sim → Sim) (o : Out Sim α), mapState f (mapState g o) = mapState (fun t => f (g t)) o := by
    intro α f g o; cases o <;> rfl
  intro xs
  induction xs with
  | nil =>
    intro s s' _ h
    obtain rfl : s = s' := by cases h; rfl
    exact ⟨id, rfl, (hid _).symm, fun v => (hid _).symm⟩
  | cons x xs ih =>
    intro s s' hh h
    unfold createAliases at h
    rw [M.bind_apply, M.tryCatch_apply] at h
    rcases createAlias_cases x.1 x.2.2 x.2.1 s with ⟨k, h1⟩ | ⟨k, h1, -⟩ | ⟨j, a', t, -, -, h1⟩ | ⟨u, h1, -⟩ <;> rw [h1] at h
    · cases h
    · cases h
    · obtain ⟨f, k0, k1, k2⟩ := ih (Hit.grow (x := newAlias x.1 x.2.2 x.2.1 j t) hh) h
      refine ⟨fun u => f (grow (newAlias x.1 x.2.2 x.2.1 j t) (bumpHeap s 2 2).heap u), k0, ?_, fun v => ?_⟩
      · rw [k1, read_grow hh, hcomp]
      · rw [k2, write_grow hh, hcomp]
    · cases h

/-- C105. If start-up succeeds, then no block of the dump has a byte where the image has one, the registers are those of the
dump, the session's memory holds every block of the image and refuses writes to it, and it holds at every address the byte of the
last block of the dump that has that address. Blocks of the dump may overlap each other, and the aliases may be any. -/
theorem C105_success_means_loaded {args : List Str} {os : List Opt} {p q : Prog} {n d bytes text : Str} {blks : List (U32 × List U8)}
    {df : DumpFile} (hs : Spelled args os) (hn : imageFile os = some n) (hd : lastDump os = some d)
    (hi : OnDisk p.host n bytes) (ht : OnDisk p.host d text) (hb : ImageBlocks os bytes blks) (hdj : Spec.Disjoint blks)
    (hf : ∀ r ∈ blks ++ df.mem, Fits r) (hdt : DumpText text df) (hwf : df.WF) (hp : PlentyOfMemory p.host.mem)
    (h : startUp args p = .ok () q) :
    (∀ r ∈ df.mem, ¬ Clashes blks r) ∧ q.host.ctx = loadedRegs df {} ∧ HoldsBlocks q.host.mem blks ∧
      RefusesWrites q.host.mem blks ∧
      ∀ a b, lastByte df.mem a = some b → ∃ s', IMemory.read .w8 a q.host.mem = .ok b s' := by
  have hno := C93_success_no_clash hs hn hd hi ht hb hdj hf hdt hwf hp h
  refine ⟨hno, ?_⟩
  obtain ⟨s, e, w, hlt, hr⟩ := image_ready hn hi hb (fun r hr => hf r (List.mem_append_left _ hr)) hdj hp
  have key := startUp_image_ok hs hn hd e
  rw [ht] at key
  simp only at key
  have hfree : Free (peeked (atMem (withMemory (chosen os p)) s).host).mem df.mem :=
    fun q hq => ⟨hf q (List.mem_append_right _ hq), fun x hx hmap => hno q hq ((clashes_iff w hlt).2 ⟨x, hx, hmap⟩)⟩
  obtain ⟨h', he, hctx, hl⟩ := text_loads (name := d) hdt hr ⟨_, ht _, rfl⟩ hwf hfree
  rw [show (File.of text).bytes = text from rfl, he] at key
  simp only at key
  cases ha : createAliases (aliases os) h'.mem with
  | ub r => rw [ha, h] at key; cases key
  | throw x s2 => rw [ha] at key; obtain ⟨q', hq⟩ := key; rw [h] at hq; cases hq
  | ok u s2 =>
    rw [ha] at key
    obtain ⟨q', hq, hq2⟩ := key
    rw [h] at hq
    injection hq with _ hq
    subst hq
    rw [hq2]
    have hso := Dump.sound_append hl.split
    have hmap : ∀ {w : Width} {a : U32} {v : BitVec w.bits} {t : Sim}, IMemory.read w a h'.mem = .ok v t → Mapped h'.mem a w.bytes := by
      intro w a v t hrd
      by_cases hm : Mapped h'.mem a w.bytes
      · exact hm
      · rw [read_eq, readN_unmapped hm] at hrd; cases hrd
    have hread : ∀ {w : Width} {a : U32} {v : BitVec w.bits} {t : Sim}, IMemory.read w a h'.mem = .ok v t →
        ∃ t', IMemory.read w a s2 = .ok v t' := by
      intro w a v t hrd
      obtain ⟨i, r, off, htg⟩ := target_of_mapped hso (hmap hrd)
      obtain ⟨f, -, k1, -⟩ := aliases_keep (htg.hit hso) ha
      rw [hrd] at k1
      exact ⟨_, k1⟩
    obtain ⟨m1, m2⟩ := Elf.rom_access_more hso hl.split.hits (hl.split.regions.trans (congrArg (· ++ _) w)) hdj hlt
    refine ⟨hctx, ?_, ?_, ?_⟩
    · intro r hr w a g1 g2
      obtain ⟨v, t, g3, g4⟩ := m1 r hr w a g1 g2
      obtain ⟨t', g5⟩ := hread g3
      exact ⟨v, t', g5, g4⟩
    · intro r hr w a v g1 g2
      obtain ⟨v', t, g3, -⟩ := m1 r hr w a g1 g2
      obtain ⟨i, r', off, htg⟩ := target_of_mapped hso (hmap g3)
      obtain ⟨f, k0, -, k2⟩ := aliases_keep (htg.hit hso) ha
      rw [k2, m2 r hr w a v g1 g2]
      simp only [mapState, k0]
    · intro a b hb
      obtain ⟨t, g⟩ := Dump.last_byte hl hfree hwf.mem hb
      exact hread g

def optsChain : List Opt :=
  [.alias (asc "0x50000000") (asc "4") (asc "0x20000000"), .alias (asc "0x60000000") (asc "4") (asc "0x50000000")] ++ optsElf
theorem spelledChain : Spelled argsChain optsChain :=
  .cons (o := .alias _ _ _) (spells .alias (by decide +kernel)) (.cons (o := .alias _ _ _) (spells .alias (by decide +kernel)) spelledElf)

/-- With an alias that leads into an alias, start-up of `progExample` succeeds, its files are complete, and its memory holds them. -/
example : ∃ q, startUp argsChain progExample = .ok () q ∧
    (∃ n d image text, imageFile optsChain = some n ∧ lastDump optsChain = some d ∧
      diskExample.lookup n = some image ∧ diskExample.lookup d = some text ∧
      (∃ blocks, ImageBlocks optsChain image blocks) ∧ CompleteDump text q.host.ctx) ∧
    HoldsBlocks q.host.mem [(0x30000000, [1, 2, 3, 4, 5]), (0x30000100, [6, 7])] ∧
    ∃ s', IMemory.read .w8 0x20000004 q.host.mem = .ok 5 s' := by
  obtain ⟨q, h, -⟩ := undefinedRead_iff (o := startUp argsChain progExample) (a := 0x60000000) (by decide +kernel)
  refine ⟨q, h, ?_, ?_⟩
  · obtain ⟨os, n, d, image, text, h1, h2, h3, h4, h5, h6, h7⟩ :=
      C105_success_means_complete (disk := fun n => diskExample.lookup n) (fun _ _ => rfl) h
    obtain rfl := spelled_unique h1 spelledChain
    obtain rfl : [0x65] = n := Option.some.inj h2
    obtain rfl : elfExample = image := Option.some.inj h4
    obtain ⟨b, hb, -⟩ := h6 (by decide +kernel)
    exact ⟨_, d, _, text, h2, h3, h4, h5, ⟨b, hb⟩, h7⟩
  · obtain ⟨-, -, h1, -, h2⟩ := C105_success_means_loaded (p := progExample) (n := [0x65]) (d := [0x64]) (bytes := elfExample)
      (text := encode startDump) (df := startDump) (blks := [(0x30000000, [1, 2, 3, 4, 5]), (0x30000100, [6, 7])])
      spelledChain rfl rfl (fun _ => rfl) (fun _ => rfl)
      ⟨by decide +kernel, by decide +kernel, by decide +kernel, by rw [elfExample_blocks]; simp, elfExample_blocks.symm⟩
      (disjoint_ranges (by decide)) (by unfold Fits; decide) (.inl rfl) startDump_wf (fun _ => rfl) h
    exact ⟨h1, h2 _ _ (by decide)⟩

end Verif.Props
