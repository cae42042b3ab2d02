import Verif.Lemmas.DumpComplaint
import Verif.Lemmas.DumpOnce
import Verif.Props.Clash
/-
C106: a dump that is refused is refused with a message that says what is wrong with it.
-/
namespace Verif.Props
open Verif MemSim Spec CommandLine

/-- C106. Whatever the bytes of a dump: there is something wrong before the memory blocks, or complete blocks follow, and then
the file ends or there is something wrong with the rest. -/
theorem C106_every_dump (t : Str) : (headComplaint t).isSome ∨
    ∃ (df : DumpFile) (u : Str), df.WF ∧ t = encode df ++ u ∧ (u = [] ∨ (restComplaint u).isSome) := by
  cases h : headComplaint t with
  | some m => exact .inl rfl
  | none =>
    obtain ⟨df, h1, h2, u, h3⟩ := Dump.head_right h
    obtain ⟨mem, v, h4, h5, h6⟩ := Dump.rest_right u
    refine .inr ⟨{ df with mem := mem }, v, ⟨h1.regs, h1.fpr, h4⟩, ?_, h6⟩
    rw [h3, h5]
    unfold encode
    simp only [List.append_assoc]
    rfl

/-- C106. It is only one of these, in only one way. -/
theorem C106_one_way {df df' : DumpFile} {u u' : Str} (hw : df.WF) (hw' : df'.WF) (hu : u = [] ∨ (restComplaint u).isSome)
    (hu' : u' = [] ∨ (restComplaint u').isSome) :
    headComplaint (encode df ++ u) = none ∧ (encode df ++ u = encode df' ++ u' → df = df' ∧ u = u') := by
  refine ⟨?_, Dump.encode_inj hw hw' hu hu'⟩
  unfold encode
  rw [List.append_assoc]
  exact Dump.head_none hw

/-- A dump that the binary reader refuses, in binary or in hexadecimal. -/
theorem reader_refuses {h : Host} {name text bytes : Str} {e : Exn} {d : Dump.D} (hb : DumpBytes text bytes) (hn : NextFile h name text)
    (hd : Dump.readDump Dump.binaryRead (Dump.start h bytes) = .throw e d) : ∃ h', readerFor text name h = .throw e h' := by
  unfold readerFor
  rcases hb with ⟨h1, rfl⟩ | ⟨h1, h2⟩
  · rw [if_pos h1]
    unfold Dump.readBinary
    rw [Dump.readFile_eq hn, hd]
    exact ⟨_, rfl⟩
  · have hne : ¬ [0x63, 0x43] <+: text := by
      rintro ⟨t, rfl⟩
      obtain ⟨u, hu⟩ := h1
      rw [show asc "6343" = [0x36, 0x33, 0x34, 0x33] by decide] at hu
      simp at hu
    rw [if_neg hne, if_pos h1]
    unfold Dump.readHex
    rw [Dump.readFile_eq hn]
    have := Dump.rel_dump Dump.rel_hex Dump.hex_consumes Dump.binary_consumes (d1 := Dump.start h text) (d2 := Dump.start h bytes) ⟨rfl, rfl, h2⟩
    rw [hd] at this
    cases e1 : Dump.readDump Dump.hexRead (Dump.start h text) with
    | ok a d1 => rw [e1] at this; exact this.elim
    | ub r => rw [e1] at this; exact this.elim
    | throw e' d1 =>
      rw [e1] at this
      rcases this with ⟨rfl, -⟩ | ⟨hf, -⟩
      · exact ⟨_, rfl⟩
      · exact hf.elim

/-- C106. A dump with something wrong before its memory blocks is refused, and the message says what. -/
theorem C106_head_refused {args : List Str} {os : List Opt} {p : Prog} {n d image text bytes m : Str} {blks : List (U32 × List U8)}
    (hs : Spelled args os) (hn : imageFile os = some n) (hd : lastDump os = some d)
    (hi : OnDisk p.host n image) (ht : OnDisk p.host d text) (hb : ImageBlocks os image blks) (hdj : Spec.Disjoint blks)
    (hf : ∀ r ∈ blks, Fits r) (hp : PlentyOfMemory p.host.mem) (hdb : DumpBytes text bytes) (hm : headComplaint bytes = some m) :
    ∃ q, startUp args p = .throw ⟨.fileFormat, m⟩ q := by
  obtain ⟨s, e, w, hlt, hr⟩ := image_ready hn hi hb hf hdj hp
  have key := startUp_image_ok hs hn hd e
  rw [ht] at key
  simp only at key
  obtain ⟨d', he, -⟩ := Dump.head_wrong (d := Dump.start (peeked (atMem (withMemory (chosen os p)) s).host) bytes) hr.regs rfl hm
  obtain ⟨h', hq⟩ := reader_refuses (name := d) (h := peeked (atMem (withMemory (chosen os p)) s).host) hdb ⟨_, ht _, rfl⟩ he
  rw [show (File.of text).bytes = text from rfl, hq] at key
  exact key

/-- C106. A dump with complete blocks after which it neither ends nor has another complete block is refused, and the error says
what is there. The blocks, and what there is of the last one, fit into the address space and are not where the image is (that is
what C93 is about). -/
theorem C106_rest_refused {args : List Str} {os : List Opt} {p : Prog} {n d image text bytes u : Str} {blks : List (U32 × List U8)}
    {df : DumpFile} {x : Exn}
    (hs : Spelled args os) (hn : imageFile os = some n) (hd : lastDump os = some d)
    (hi : OnDisk p.host n image) (ht : OnDisk p.host d text) (hb : ImageBlocks os image blks) (hdj : Spec.Disjoint blks)
    (hf : ∀ r ∈ blks ++ df.mem ++ [lastPart u], Fits r) (hp : PlentyOfMemory p.host.mem) (hdb : DumpBytes text bytes)
    (hwf : df.WF) (hby : bytes = encode df ++ u) (hno : ∀ r ∈ df.mem ++ [lastPart u], ¬ Clashes blks r)
    (hm : restComplaint u = some x) : ∃ q, startUp args p = .throw x q := by
  obtain ⟨s, e, w, hlt, hr⟩ := image_ready hn hi hb (fun r hr => hf r (by simp [hr])) hdj hp
  have key := startUp_image_ok hs hn hd e
  rw [ht] at key
  simp only at key
  generalize hh : (peeked (atMem (withMemory (chosen os p)) s).host) = h0 at *
  have hmem : h0.mem.regions = s.regions := by rw [← hh]; rfl
  have hfree : Free h0.mem df.mem :=
    fun q hq => ⟨hf q (by simp [hq]), fun x hx hmap => hno q (by simp [hq]) ((clashes_iff (hmem.trans w) hlt).2 ⟨x, hx, hmap⟩)⟩
  subst hby
  obtain ⟨f, d1, -, k2, k3, -, k5⟩ := Dump.dump_at (t := u) hr hwf hfree
  obtain ⟨d', he⟩ := Dump.rest_wrong (f := f) (d := d1) k5.split (k5.heap hr.heap) (k3 ▸ hf _ (by simp))
    (fun x hx q hq hc => hno _ (by simp) ((clashes_iff (hmem.trans w) hlt).2 ⟨x, k3 ▸ hx, q, hq, hc⟩)) (k3 ▸ hm)
  obtain ⟨h', hq⟩ := reader_refuses (name := d) (h := h0) hdb ⟨_, by rw [← hh]; exact ht _, rfl⟩ (k2.trans he)
  rw [show (File.of text).bytes = text from rfl, hq] at key
  exact key

/-- A dump that is cut off in the registers, with an image "b". -/
example : ∃ q, startUp argsOver (progOver ((encode (dumpExample false true)).take 80)) =
    .throw ⟨.fileFormat, asc "The dump file was too short to contain the integer registers."⟩ q :=
  C106_head_refused (p := progOver ((encode (dumpExample false true)).take 80)) (n := [0x62]) (d := [0x64]) (image := [1, 2, 3, 4, 5, 6])
    (blks := [(0x30000004, [1, 2, 3, 4, 5, 6])]) spelledOver rfl rfl (fun _ => rfl) (fun _ => rfl)
    ⟨by simp, by decide, by decide +kernel⟩ (List.pairwise_singleton _ _) (by unfold Fits; decide) (fun _ => rfl)
    (.inl ⟨by decide +kernel, rfl⟩) (by decide +kernel)

/-- The same in hexadecimal: the version is not one that is known. -/
example : ∃ q, startUp argsOver (progOver (asc "63430400")) =
    .throw ⟨.fileFormat, asc "The dump file didn't start with the expected 4-byte signature."⟩ q :=
  C106_head_refused (p := progOver (asc "63430400")) (n := [0x62]) (d := [0x64]) (image := [1, 2, 3, 4, 5, 6])
    (bytes := [0x63, 0x43, 4, 0])
    (blks := [(0x30000004, [1, 2, 3, 4, 5, 6])]) spelledOver rfl rfl (fun _ => rfl) (fun _ => rfl)
    ⟨by simp, by decide, by decide +kernel⟩ (List.pairwise_singleton _ _) (by unfold Fits; decide) (fun _ => rfl)
    (.inr ⟨by decide +kernel, .byte (nl := []) (x := 6) (y := 3) rfl rfl (by simp) rfl (.byte (nl := []) (x := 4) (y := 3) rfl rfl (by simp) rfl
      (.byte (nl := []) (x := 0) (y := 4) rfl rfl (by simp) rfl (.byte (nl := []) (x := 0) (y := 0) rfl rfl (by simp) rfl .nil)))⟩)
    (by decide +kernel)

/-- One block, and then another of which only three of eight bytes are there; or four bytes that say that the stack overflowed. -/
def dumpOne : DumpFile := { dumpExample false true with mem := [(0x20000000, [1, 2, 3, 4])] }
theorem dumpOne_wf : dumpOne.WF := ⟨(dumpExample_wf false true).regs, (dumpExample_wf false true).fpr, by decide⟩

example : headComplaint (encode dumpOne ++ [1, 2, 3]) = none ∧
    ∀ df u, df.WF → u = [] ∨ (restComplaint u).isSome → encode dumpOne ++ [1, 2, 3] = encode df ++ u → dumpOne = df ∧ [1, 2, 3] = u :=
  ⟨(C106_one_way (u := [1, 2, 3]) (u' := []) dumpOne_wf dumpOne_wf (.inr (by decide +kernel)) (.inl rfl)).1,
    fun _ _ hw hu => (C106_one_way dumpOne_wf hw (.inr (by decide +kernel)) hu).2⟩

example : (∃ q, startUp argsOver (progOver (encode dumpOne ++ (le32 0x20000100 ++ le32 0x20000108 ++ [1, 2, 3]))) =
      .throw ⟨.fileFormat, asc "The dump file failed to load RAM memory region at 0x20000100 - 0x20000108."⟩ q) ∧
    ∃ q, startUp argsOver (progOver (encode dumpOne ++ le32 0xACCE55ED)) =
      .throw ⟨.stackOverflow, asc "The dump file ended with an indication that CrashCatcher detected a stack overflow."⟩ q := by
  have hno : ∀ t : U32 × List U8, t.2.length = 0 ∨ t.1.toNat + t.2.length ≤ 0x30000004 → ¬ Clashes [(0x30000004, [1, 2, 3, 4, 5, 6])] t := by
    rintro t ht ⟨x, h1, b, h2, h3⟩
    rw [Dump.byteIn_iff] at h1 
    rw [List.mem_singleton] at h2
    subst h2
    rw [Dump.byteIn_iff] at h3
    have := h3.1
    simp at this
    omega
  constructor
  · exact C106_rest_refused (p := progOver (encode dumpOne ++ (le32 0x20000100 ++ le32 0x20000108 ++ [1, 2, 3]))) (n := [0x62]) (d := [0x64])
      (image := [1, 2, 3, 4, 5, 6]) (blks := [(0x30000004, [1, 2, 3, 4, 5, 6])]) (df := dumpOne)
      (u := le32 0x20000100 ++ le32 0x20000108 ++ [1, 2, 3]) spelledOver rfl rfl (fun _ => rfl) (fun _ => rfl)
      ⟨by simp, by decide, by decide +kernel⟩ (List.pairwise_singleton _ _) (by unfold Fits; decide +kernel) (fun _ => rfl)
      (.inl ⟨by decide +kernel, rfl⟩) dumpOne_wf rfl
      (fun r hr => hno r (by revert r; decide +kernel)) (by decide +kernel)
  · exact C106_rest_refused (p := progOver (encode dumpOne ++ le32 0xACCE55ED)) (n := [0x62]) (d := [0x64])
      (image := [1, 2, 3, 4, 5, 6]) (blks := [(0x30000004, [1, 2, 3, 4, 5, 6])]) (df := dumpOne)
      (u := le32 0xACCE55ED) spelledOver rfl rfl (fun _ => rfl) (fun _ => rfl)
      ⟨by simp, by decide, by decide +kernel⟩ (List.pairwise_singleton _ _) (by unfold Fits; decide +kernel) (fun _ => rfl)
      (.inl ⟨by decide +kernel, rfl⟩) dumpOne_wf rfl
      (fun r hr => hno r (by revert r; decide +kernel)) (by decide +kernel)

end Verif.Props
