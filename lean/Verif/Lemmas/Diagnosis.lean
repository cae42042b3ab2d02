import Verif.Spec.Diagnosis
import Verif.Lemmas.DumpComplaint
import Verif.Lemmas.BadHex
import Verif.Lemmas.Session
import Verif.Props.ElfCut
import Verif.Props.Elf
import Verif.Props.DumpComplaint
/- C107: the stages of start-up, one after the other. -/
namespace Verif.Props
open Verif MemSim Spec CommandLine Elf

/-! ### The image -/

theorem headers_eq (b : Str) : progHeaders b = (List.range (phnum b)).map fun i => progHeaderAt b (entryAt b i) := rfl

theorem entry_none {b : Str} {i : Nat} (h : entryComplaint b i = none) : entryAt b i + 32 ≤ b.length ∧
    ((progHeaderAt b (entryAt b i)).loadable = true →
      (progHeaderAt b (entryAt b i)).offset + (progHeaderAt b (entryAt b i)).filesz ≤ b.length) := by
  unfold entryComplaint at h
  by_cases h1 : b.length < entryAt b i + 32
  · rw [if_pos h1] at h; cases h
  rw [if_neg h1] at h
  by_cases h2 : (progHeaderAt b (entryAt b i)).loadable = true ∧
    b.length < (progHeaderAt b (entryAt b i)).offset + (progHeaderAt b (entryAt b i)).filesz
  · simp only at h
    rw [if_pos h2] at h; cases h
  refine ⟨by omega, fun hl => ?_⟩
  rcases Nat.lt_or_ge b.length ((progHeaderAt b (entryAt b i)).offset + (progHeaderAt b (entryAt b i)).filesz) with g | g
  · exact absurd ⟨hl, g⟩ h2
  · exact g

theorem elf_fine {b : Str} (h : elfComplaint b = none) :
    headerComplaint b = none ∧ TableInside b ∧ ContentsInside b ∧ elfBlocks b ≠ [] := by
  unfold elfComplaint at h
  rw [Option.or_eq_none_iff, Option.or_eq_none_iff, List.findSome?_eq_none_iff] at h
  obtain ⟨h1, h2, h3⟩ := h
  refine ⟨h1, fun i hi => (entry_none (h2 i (List.mem_range.2 hi))).1, ?_, ?_⟩
  · intro g hg hl
    rw [headers_eq, List.mem_map] at hg
    obtain ⟨i, hi, rfl⟩ := hg
    exact (entry_none (h2 i hi)).2 hl
  · intro he
    rw [if_pos he] at h3; cases h3

theorem upTo_sub {b : Str} {i : Nat} : (blocksUpTo b i).Sublist (elfBlocks b) :=
  ((List.take_sublist _ _).filter _).map _

theorem disjoint_sub {xs ys : List (U32 × List U8)} (h : xs.Sublist ys) (hd : Spec.Disjoint ys) : Spec.Disjoint xs :=
  List.Pairwise.sublist h hd

theorem elf_wrong {b : Str} {s : Sim} {m : Str} (hs : s.regions = []) (hp : PlentyOfMemory s) (hw : NoWraps b)
    (hd : Spec.Disjoint (elfBlocks b)) (hf : ∀ r ∈ elfBlocks b, Fits r) (h : elfComplaint b = some m) :
    ∃ s', fromMemory b b.length s = .throw ⟨.elfFormat, m⟩ s' := by
  have hso : Sound s := by intro r hr; rw [hs] at hr; cases hr
  have hfree : ∀ i, Free s (blocksUpTo b i) := fun i r hr =>
    ⟨hf r (upTo_sub.subset hr), fun x _ => by rintro ⟨q, hq, -⟩; rw [hs] at hq; cases hq⟩
  have hdis : ∀ i, Spec.Disjoint (blocksUpTo b i) := fun i => disjoint_sub upTo_sub hd
  unfold elfComplaint at h
  cases hc : headerComplaint b with
  | some m' =>
    rw [hc] at h
    cases h
    exact ⟨s, by rw [fromMemory_eq, hc]⟩
  | none =>
    rw [hc, Option.none_or] at h
    cases he : (List.range (phnum b)).findSome? (entryComplaint b) with
    | some m' =>
      rw [he] at h
      cases h
      obtain ⟨l1, i, l2, e1, e2, e3⟩ := List.findSome?_eq_some_iff.1 he
      have hlen : l1.length < (List.range (phnum b)).length := by rw [e1]; simp
      have hi : l1.length = i := by
        have g : (List.range (phnum b))[l1.length]? = some i := by rw [e1]; simp
        rw [List.getElem?_range (by simpa using hlen)] at g
        exact Option.some.inj g
      have hin : i < phnum b := by rw [← hi]; simpa using hlen
      have ht : (List.range (phnum b)).take i = l1 := by rw [e1, ← hi]; simp
      have hg : GoodUpTo b i := by
        constructor
        · intro j hj
          have : j ∈ l1 := by rw [← ht, List.take_range]; simp; omega
          exact (entry_none (e3 j this)).1
        · intro g hg hl
          rw [headers_eq, ← List.map_take, ht, List.mem_map] at hg
          obtain ⟨j, hj, rfl⟩ := hg
          exact (entry_none (e3 j hj)).2 hl
      unfold entryComplaint at e2
      by_cases h1 : b.length < entryAt b i + 32
      · rw [if_pos h1] at e2
        cases e2
        obtain ⟨s', k, -⟩ := C77_cut_in_the_table hso hp hc hin hg (hfree i) (hdis i) h1 (hw.1 i hin)
        exact ⟨s', k⟩
      · rw [if_neg h1] at e2
        have hat : (progHeaders b)[i]? = some (progHeaderAt b (entryAt b i)) := by
          rw [headers_eq, List.getElem?_map, List.getElem?_range hin]; rfl
        by_cases h2 : (progHeaderAt b (entryAt b i)).loadable = true ∧
          b.length < (progHeaderAt b (entryAt b i)).offset + (progHeaderAt b (entryAt b i)).filesz
        · simp only at e2
          rw [if_pos h2] at e2
          cases e2
          obtain ⟨s', k, -⟩ := C77_cut_in_the_contents hso hp hc hat hg (hfree i) (hdis i) (by omega) h2.1 h2.2
            (hw.2 _ (List.mem_of_getElem? hat) h2.1)
          exact ⟨s', k⟩
        · simp only at e2
          rw [if_neg h2] at e2; cases e2
    | none =>
      rw [he, Option.none_or] at h
      by_cases hn : elfBlocks b = []
      · rw [if_pos hn] at h
        cases h
        rw [List.findSome?_eq_none_iff] at he
        refine ⟨s, C47_nothing_to_load_refused hc (fun i hi => (entry_none (he i (List.mem_range.2 hi))).1) ?_⟩
        intro g hg
        cases hl : g.loadable with
        | false => rfl
        | true =>
          unfold elfBlocks at hn
          have : g ∈ (progHeaders b).filter ProgHeader.loadable := List.mem_filter.2 ⟨hg, hl⟩
          rw [List.map_eq_nil_iff] at hn
          rw [hn] at this; cases this
      · rw [if_neg hn] at h; cases h

theorem image_fine {os : List Opt} {n b : Str} (hn : imageFile os = some n) (ho : OrdinaryImage os b)
    (h : imageComplaint os b = none) : ImageBlocks os b (imageBlocks os b) ∧ (∀ r ∈ imageBlocks os b, Fits r) ∧
      Spec.Disjoint (imageBlocks os b) := by
  unfold imageComplaint at h
  unfold ImageBlocks imageBlocks
  cases he : lastElf os with
  | some f =>
    rw [he] at h
    obtain ⟨h1, h2, h3, h4⟩ := elf_fine (Option.map_eq_none_iff.1 h)
    obtain ⟨-, k2, k3⟩ := ho.2 (by rw [he]; simp)
    exact ⟨⟨h1, h2, h3, h4, rfl⟩, k3, k2⟩
  | none =>
    rw [he] at h
    cases hb : lastBin os with
    | none => unfold imageFile at hn; rw [he, hb] at hn; cases hn
    | some x =>
      rw [hb] at h
      simp only at h
      split at h
      · cases h
      · rename_i h0
        rw [not_or] at h0
        refine ⟨⟨h0.1, ho.1, rfl⟩, ?_, List.pairwise_singleton _ _⟩
        intro r hr
        rw [List.mem_singleton] at hr
        subst hr
        unfold Fits
        simp only
        omega

theorem image_wrong {args : List Str} {os : List Opt} {p : Prog} {n d b : Str} {e : Exn} (hs : Spelled args os)
    (hn : imageFile os = some n) (hd : lastDump os = some d) (hi : OnDisk p.host n b) (ho : OrdinaryImage os b)
    (hp : PlentyOfMemory p.host.mem) (h : imageComplaint os b = some e) : ∃ q, startUp args p = .throw e q := by
  unfold imageComplaint at h
  cases he : lastElf os with
  | some f =>
    rw [he, Option.map_eq_some_iff] at h
    obtain ⟨m, h, rfl⟩ := h
    obtain ⟨k1, k2, k3⟩ := ho.2 (by rw [he]; simp)
    have : f = n := by
      unfold imageFile at hn
      rw [he] at hn
      exact Option.some.inj hn
    subst this
    exact C78_refused_elf hs he hd (hi _) (hp _) fun s g1 g2 => elf_wrong g1 (fun k => by rw [g2]; exact hp k) k1 k2 k3 h
  | none =>
    rw [he] at h
    cases hb : lastBin os with
    | none => rw [hb] at h; cases h
    | some x =>
      obtain ⟨f, base⟩ := x
      rw [hb] at h
      simp only at h
      split at h
      · rename_i h0
        cases h
        have : f = n := by
          unfold imageFile at hn
          rw [he, hb] at hn
          exact Option.some.inj hn
        subst this
        exact C78_refused_raw_image hs he hb hd (hi _) ho.1 h0 hp
      · cases h

/-! ### The dump -/

theorem reader_is {h : Host} {name text bytes : Str} (hb : DumpReads text bytes) (hn : NextFile h name text) :
    match Dump.readDump Dump.binaryRead (Dump.start h bytes) with
    | .ok _ d => readerFor text name h = .ok () (Dump.closed d.host)
    | .throw e _ => ∃ h', readerFor text name h = .throw e h'
    | .ub r => readerFor text name h = .ub r := by
  unfold readerFor
  rcases hb with ⟨h1, rfl⟩ | ⟨h1, h2⟩
  · rw [if_pos h1]
    unfold Dump.readBinary
    rw [Dump.readFile_eq hn]
    cases Dump.readDump Dump.binaryRead (Dump.start h text) with
    | ok a d => rfl
    | throw e d => exact ⟨_, rfl⟩
    | ub r => rfl
  · have hne : ¬ [0x63, 0x43] <+: text := by
      rintro ⟨t, rfl⟩
      obtain ⟨u, hu⟩ := h1
      rw [show asc "6343" = [0x36, 0x33, 0x34, 0x33] by decide] at hu
      simp at hu
    rw [if_neg hne, if_pos h1]
    have key : ∀ {T : Str → Str → Prop}, Dump.RelR T False Dump.hexRead Dump.binaryRead → T text bytes →
        match Dump.readDump Dump.binaryRead (Dump.start h bytes) with
        | .ok _ d => Dump.readHex name h = .ok () (Dump.closed d.host)
        | .throw e _ => ∃ h', Dump.readHex name h = .throw e h'
        | .ub r => Dump.readHex name h = .ub r := by
      intro T hR ht
      unfold Dump.readHex
      rw [Dump.readFile_eq hn]
      have := Dump.rel_dump hR Dump.hex_consumes Dump.binary_consumes (d1 := Dump.start h text) (d2 := Dump.start h bytes) ⟨rfl, rfl, ht⟩
      cases e2 : Dump.readDump Dump.binaryRead (Dump.start h bytes) with
      | ok a d =>
        cases e1 : Dump.readDump Dump.hexRead (Dump.start h text) with
        | ok a' d' => rw [e1, e2] at this; simp only; rw [this.2.1]
        | throw e d' => rw [e1, e2] at this; exact this.1.elim
        | ub r => rw [e1, e2] at this; exact this.elim
      | throw e d =>
        cases e1 : Dump.readDump Dump.hexRead (Dump.start h text) with
        | ok a' d' => rw [e1, e2] at this; exact this.elim
        | throw e' d' =>
          rw [e1, e2] at this
          rcases this with ⟨rfl, -⟩ | ⟨hf, -⟩
          · exact ⟨_, rfl⟩
          · exact hf.elim
        | ub r => rw [e1, e2] at this; exact this.elim
      | ub r =>
        cases e1 : Dump.readDump Dump.hexRead (Dump.start h text) with
        | ok a' d' => rw [e1, e2] at this; exact this.elim
        | throw e' d' => rw [e1, e2] at this; exact this.1.elim
        | ub r' =>
          rw [e1, e2] at this
          have : r' = r := this
          rw [this]
    rcases h2 with h2 | ⟨t, c, nl, rfl, h3, h4, h5⟩
    · exact key Dump.rel_hex h2
    · exact key (Dump.rel_lone h4 h5) (.inl ⟨t, rfl, h3⟩)

theorem reader_throws {h : Host} {name text bytes : Str} {e : Exn} {d : Dump.D} (hb : DumpReads text bytes) (hn : NextFile h name text)
    (hd : Dump.readDump Dump.binaryRead (Dump.start h bytes) = .throw e d) : ∃ h', readerFor text name h = .throw e h' := by
  have := reader_is hb hn
  rw [hd] at this
  exact this

/-- The reader, when the text is spoiled after some bytes. -/
theorem reader_spoiled {h : Host} {name text bytes : Str} (hb : DumpSpoiled text bytes) (hn : NextFile h name text) :
    match Dump.readDump Dump.binaryRead (Dump.start h bytes) with
    | .ok _ _ => ∃ h', readerFor text name h = .throw ⟨.fileFormat, []⟩ h'
    | .throw e _ => ∃ h', readerFor text name h = .throw (Dump.spoil e) h'
    | .ub r => readerFor text name h = .ub r := by
  obtain ⟨h1, t, hi, nl, lo, rest, rfl, h2, h3, h4, h5, h6⟩ := hb
  have hne : ¬ [0x63, 0x43] <+: t ++ hi :: (nl ++ lo :: rest) := by
    rintro ⟨u, hu⟩
    obtain ⟨v, hv⟩ := h1
    rw [← hu, show asc "6343" = [0x36, 0x33, 0x34, 0x33] by decide] at hv
    simp at hv
  unfold readerFor
  rw [if_neg hne, if_pos h1]
  unfold Dump.readHex
  rw [Dump.readFile_eq hn]
  have := Dump.sp_dump (bad := hi :: (nl ++ lo :: rest)) ⟨hi, nl, lo, rest, rfl, h3, h4, h5, h6⟩
    (d1 := Dump.start h (t ++ hi :: (nl ++ lo :: rest))) (d2 := Dump.start h bytes) ⟨rfl, rfl, t, rfl, h2⟩
  cases e2 : Dump.readDump Dump.binaryRead (Dump.start h bytes) with
  | ok a d =>
    cases e1 : Dump.readDump Dump.hexRead (Dump.start h (t ++ hi :: (nl ++ lo :: rest))) with
    | ok a' d' => rw [e1, e2] at this; exact absurd trivial this.2.1
    | throw e d' => rw [e1, e2] at this; rw [this.2]; exact ⟨_, rfl⟩
    | ub r => rw [e1, e2] at this; exact this.elim
  | throw e d =>
    cases e1 : Dump.readDump Dump.hexRead (Dump.start h (t ++ hi :: (nl ++ lo :: rest))) with
    | ok a' d' => rw [e1, e2] at this; exact this.elim
    | throw e' d' =>
      rw [e1, e2] at this
      have : e' = Dump.spoil e := this
      rw [this]
      exact ⟨_, rfl⟩
    | ub r => rw [e1, e2] at this; exact this.elim
  | ub r =>
    cases e1 : Dump.readDump Dump.hexRead (Dump.start h (t ++ hi :: (nl ++ lo :: rest))) with
    | ok a' d' => rw [e1, e2] at this; exact this.elim
    | throw e' d' => rw [e1, e2] at this; exact this.elim
    | ub r' =>
      rw [e1, e2] at this
      have : r' = r := this
      rw [this]

/-- A failure that does not depend on how the file goes on. -/
theorem reader_either {h : Host} {name text bytes : Str} {e : Exn} {d : Dump.D} (hb : DumpReads text bytes ∨ DumpSpoiled text bytes)
    (hn : NextFile h name text) (hd : Dump.readDump Dump.binaryRead (Dump.start h bytes) = .throw e d) (he : e ∉ Dump.shortages) :
    ∃ h', readerFor text name h = .throw e h' := by
  rcases hb with hb | hb
  · exact reader_throws hb hn hd
  · have := reader_spoiled hb hn
    rw [hd] at this
    simp only [Dump.spoil_other he] at this
    exact this

end Verif.Props

namespace Verif.Dump
open Verif MemSim Spec

/-- A block that is not complete, of which there is something where the image is. -/
theorem part_clash {d : D} {f : Nat} {e : Exn} {old news : List Region} (hsp : Split d.host.mem old news)
    (hro : ∀ q ∈ old, q.isAlias = false ∧ q.isReadOnly = true)
    (hheap : PlentyOfMemory d.host.mem) (hfit : Fits (lastPart d.rest))
    (hx : ∃ x, (byteIn (lastPart d.rest) x).isSome ∧ CoveredBy old x) (h : restComplaint d.rest = some e) :
    ∃ d', readMemoryRegions binaryRead (f + 1) d = .throw ⟨.busError, regionComplaint (wordOf d.rest 0) (wordOf d.rest 4)⟩ d' := by
  have h9 : 9 ≤ d.rest.length := by
    obtain ⟨x, h1, -⟩ := hx
    rw [byteIn_iff] at h1
    unfold lastPart at h1
    simp only [List.length_drop] at h1
    omega
  unfold restComplaint at h
  rw [if_neg (by intro h0; rw [h0] at h9; simp at h9), if_neg (by intro h0; rw [h0] at h9; simp at h9), if_neg (by omega)] at h
  by_cases hl : d.rest.length < 8 + (wordOf d.rest 4 - wordOf d.rest 0).toNat
  case neg => rw [if_neg hl] at h; cases h
  simp only [readMemoryRegions, M.bind_apply]
  unfold readNextMemoryRegion readBytes
  simp only [M.bind_apply]
  have hw := words_head (t := d.rest) (by omega)
  unfold lastPart at hfit hx
  clear h
  generalize wordOf d.rest 0 = a at *
  generalize wordOf d.rest 4 = b at *
  generalize hbs : d.rest.drop 8 = bs at *
  have hlb : bs.length = d.rest.length - 8 := by rw [← hbs]; simp
  rw [readInto_app (a := le32 a ++ le32 b) (t := bs) hw (by simp)]
  simp only [List.length_append, le32_length]
  rw [if_neg (by simp), if_neg (by simp), if_neg (by simp), (leVal_take _ _).1, (leVal_take _ _).2]
  simp only [M.bind_apply, M.tryCatch_apply, createAndLoadMemoryRegion]
  rw [onMem_ok (d := { d with rest := bs }) (createRegion_ok hheap _ _)]
  simp only
  have hlt : bs.length < (b - a).toNat := by omega
  obtain ⟨d', he⟩ := loadBytes_clash (d := D.put { d with rest := bs } { bumpHeap d.host.mem 2 2 with
      regions := d.host.mem.regions ++ [newRegion a (b - a)] } bs) (a := a) (bs := bs) (t := [])
    (split_create hsp a (b - a)) hro hfit (fun x hx => ⟨newRegion a (b - a), by simp, by
      rw [byteIn_iff] at hx
      refine ⟨hx.1, ?_⟩
      simp only [newRegion]
      have := hx.2
      simp only at this
      omega⟩) (by simp [D.put]) hx (n := (b - a).toNat) (by omega)
  rw [he]
  rw [fmt08X_eq]; exact ⟨_, rfl⟩

/-- A complete block where the image is, whatever follows. -/
theorem block_stops {h : Host} {df : DumpFile} {u : Str} {pre post : List (U32 × List U8)} {r : U32 × List U8}
    (hr : Ready h) (hwf : df.WF) (hro : ∀ q ∈ h.mem.regions, q.isAlias = false ∧ q.isReadOnly = true)
    (hm : df.mem = pre ++ r :: post) (hpre : Free h.mem pre) (hfit : Fits r)
    (hx : ∃ x, (byteIn r x).isSome ∧ Mapped h.mem x 1) :
    ∃ d, readDump binaryRead (start h (encode df ++ u)) =
      .throw ⟨.busError, regionComplaint r.1 (r.1 + BitVec.ofNat 32 r.2.length)⟩ d := by
  have hl : ∀ q ∈ pre ++ r :: post, q.2.length < 2 ^ 32 := by rw [← hm]; exact hwf.mem
  have e : encode df ++ u = encode { df with mem := pre } ++ (encodeBlock r ++ (post.flatMap encodeBlock ++ u)) := by
    unfold encode
    rw [hm]
    simp only [List.flatMap_append, List.flatMap_cons, List.append_assoc]
    rfl
  rw [e]
  obtain ⟨f, d, -, k2, k3, -, k5⟩ := dump_at (df := { df with mem := pre }) (t := encodeBlock r ++ (post.flatMap encodeBlock ++ u)) hr
    ⟨hwf.regs, hwf.fpr, fun q hq => hl q (by simp [hq])⟩ hpre
  rw [k2]
  obtain ⟨d', h3⟩ := block_clash (d := d) (r := r) (t := post.flatMap encodeBlock ++ u) k5.split hro
    (k5.heap hr.heap) (hl r (by simp)) hfit hx k3
  exact ⟨d', by simp only [readMemoryRegions, M.bind_apply]; rw [h3]; rfl⟩

end Verif.Dump

namespace Verif.CommandLine
open Verif MemSim Spec

/-! ### The aliases -/

/-- The memory that is not reached through an alias. -/
def PlainAt (s : Sim) (blks : List (U32 × List U8)) : Prop :=
  ∀ a, (∃ r ∈ s.regions, r.isAlias = false ∧ Covers r a 1) ↔ Inside blks a

theorem createAlias_plain {s : Sim} {blks : List (U32 × List U8)} {x : U32 × U32 × U32} (hp : PlentyOfMemory s) (hb : PlainAt s blks)
    (hcare : ∀ k q, FirstCover s.regions x.2.2 1 k q → q.isAlias = false) :
    (Inside blks x.2.2 ∧ ∃ j t, createAlias x.1 x.2.2 x.2.1 s =
      .ok () { bumpHeap s 2 2 with regions := s.regions ++ [newAlias x.1 x.2.2 x.2.1 j t] }) ∨
    (¬ Inside blks x.2.2 ∧ ∃ s', createAlias x.1 x.2.2 x.2.1 s = .throw ⟨.busError, []⟩ s') := by
  have hp1 := hp s.heap.next
  simp only [createAlias, M.bind_apply, throwingZeroedMalloc_eq, M.tryCatch_apply]
  simp only [hp1, Bool.false_eq_true, if_false, find_bump]
  by_cases hc : ∃ r ∈ s.regions, Covers r x.2.2 1
  · obtain ⟨r, hr, hc⟩ := hc
    obtain ⟨k, q, hf⟩ := FirstCover.exists_of_mem hr hc
    have hq := hcare k q hf
    have e : findMatchingRegion x.2.2 1 s = .ok (k, x.2.2) s := by
      unfold findMatchingRegion
      rw [findFrom_zero.2 hf]
      simp [hq]
    refine .inl ⟨(hb _).1 ⟨q, hf.mem, hq, hf.2.1⟩, k, q, ?_⟩
    rw [e]
    have hk : s.regions[k]? = some q := hf.1
    have h2 := hp (s.heap.next + 1)
    simp [regionAt, bumpHeap, hk, addRegionToTail, newAlias, h2]
    omega
  · have e : findMatchingRegion x.2.2 1 s = .throw ⟨.busError, []⟩ s := by
      unfold findMatchingRegion
      rw [findFrom_none.2 fun r hr hcv => hc ⟨r, hr, hcv⟩]
    refine .inr ⟨fun hi => ?_, ?_⟩
    · obtain ⟨r, hr, -, hcv⟩ := (hb _).2 hi
      exact hc ⟨r, hr, hcv⟩
    · rw [e]
      simp only [free]
      exact ⟨_, rfl⟩

/-- The aliases are created, up to the first that leads to an address without memory. -/
theorem aliases_either {blks : List (U32 × List U8)} {todo : List (U32 × U32 × U32)} :
    ∀ {done : List (U32 × U32 × U32)} {s : Sim}, PlentyOfMemory s → PlainAt s blks → Stem done s → NoAliasChain (done ++ todo) →
    Sat (fun _ _ => ∀ y ∈ todo, Inside blks y.2.2)
      (fun e _ => ∃ pre x post, todo = pre ++ x :: post ∧ (∀ y ∈ pre, Inside blks y.2.2) ∧ ¬ Inside blks x.2.2 ∧
        e = ⟨.busError, aliasComplaint x⟩) (createAliases todo s) := by
  induction todo with
  | nil => intro done s _ _ _ _; exact fun y hy => by cases hy
  | cons x xs ih =>
    intro done s hp hb hst hch
    change Sat _ _ (((M.tryCatch (createAlias x.1 x.2.2 x.2.1) _ : M Sim Unit) >>= fun _ => createAliases xs) s)
    rw [M.bind_apply, M.tryCatch_apply]
    have hcare : ∀ k q, FirstCover s.regions x.2.2 1 k q → q.isAlias = false := by
      intro k q hf
      cases ha : q.isAlias with
      | false => rfl
      | true =>
        exfalso
        obtain ⟨y, hy, h1, h2⟩ := hst q (List.mem_of_getElem? hf.1) ha
        have hcov : Covers q x.2.2 1 := hf.2.1
        have := List.pairwise_append.1 hch |>.2.2 y hy x (by simp)
        apply this
        unfold Covers at hcov
        rw [h1] at hcov
        omega
    rcases createAlias_plain hp hb hcare with ⟨hin, j, t, e⟩ | ⟨hin, s', e⟩
    · rw [e]
      simp only
      refine Sat.mono (ih (done := done ++ [x]) (s := { bumpHeap s 2 2 with regions := s.regions ++ [newAlias x.1 x.2.2 x.2.1 j t] })
        hp ?_ ?_ (by simpa using hch)) ?_ ?_
      · intro a
        rw [← hb a]
        constructor
        · rintro ⟨r, hr, h1, h2⟩
          rcases List.mem_append.1 hr with hr | hr
          · exact ⟨r, hr, h1, h2⟩
          · rw [List.mem_singleton] at hr; rw [hr] at h1; cases h1
        · rintro ⟨r, hr, h1, h2⟩
          exact ⟨r, List.mem_append_left _ hr, h1, h2⟩
      · intro q hq ha
        rcases List.mem_append.1 hq with hq | hq
        · obtain ⟨y, hy, h⟩ := hst q hq ha
          exact ⟨y, by simp [hy], h⟩
        · simp at hq
          refine ⟨x, by simp, by rw [hq]; rfl, ?_⟩
          rw [hq]
          simp only [newAlias]
          split <;> omega
      · intro _ _ h y hy
        rcases List.mem_cons.1 hy with rfl | hy
        · exact hin
        · exact h y hy
      · rintro e _ ⟨pre, z, post, h1, h2, h3, h4⟩
        refine ⟨x :: pre, z, post, by rw [h1]; rfl, ?_, h3, h4⟩
        intro y hy
        rcases List.mem_cons.1 hy with rfl | hy
        · exact hin
        · exact h2 y hy
    · rw [e]
      exact ⟨[], x, xs, rfl, by simp, hin, rfl⟩

/-- There is only one first. -/
theorem first_unique {α : Type} {P : α → Prop} {pre pre' post post' : List α} {x x' : α} (h : pre ++ x :: post = pre' ++ x' :: post')
    (h1 : ∀ y ∈ pre, P y) (h2 : ¬ P x) (h1' : ∀ y ∈ pre', P y) (h2' : ¬ P x') : x = x' := by
  induction pre generalizing pre' with
  | nil =>
    cases pre' with
    | nil => exact (List.cons.inj h).1
    | cons y ys =>
      have := (List.cons.inj h).1
      exact absurd (h1' x (by rw [this]; simp)) h2
  | cons y ys ih =>
    cases pre' with
    | nil =>
      have := (List.cons.inj h).1
      exact absurd (h1 x' (by rw [← this]; simp)) h2'
    | cons z zs =>
      exact ih (List.cons.inj h).2 (fun y hy => h1 y (by simp [hy])) (fun y hy => h1' y (by simp [hy]))

/-- The first of a list that has a property. -/
theorem exists_first {α : Type} (P : α → Prop) (xs : List α) :
    (∀ x ∈ xs, P x) ∨ ∃ pre x post, xs = pre ++ x :: post ∧ (∀ y ∈ pre, P y) ∧ ¬ P x := by
  classical
  induction xs with
  | nil => exact .inl (by simp)
  | cons x xs ih =>
    by_cases hx : P x
    · rcases ih with h | ⟨pre, z, post, h1, h2, h3⟩
      · exact .inl fun y hy => by
          rcases List.mem_cons.1 hy with rfl | hy
          · exact hx
          · exact h y hy
      · refine .inr ⟨x :: pre, z, post, by rw [h1]; rfl, ?_, h3⟩
        intro y hy
        rcases List.mem_cons.1 hy with rfl | hy
        · exact hx
        · exact h2 y hy
    · exact .inr ⟨[], x, xs, rfl, by simp, hx⟩

end Verif.CommandLine

namespace Verif.Props
open Verif MemSim Spec CommandLine

/-! ### The reader -/

theorem dump_problem {os : List Opt} {p : Prog} {d text : Str} {blks : List (U32 × List U8)} {s : Sim} {e : Exn}
    (hr : Ready (peeked (atMem (withMemory (chosen os p)) s).host)) (w : s.regions = blks.map Elf.romRegion)
    (hlt : ∀ r ∈ blks, r.2.length < 2 ^ 32) (ht : OnDisk p.host d text) (ho : OrdinaryDump text) (h : DumpProblem blks text e) :
    ∃ h', readerFor text d (peeked (atMem (withMemory (chosen os p)) s).host) = .throw e h' := by
  have hfree : ∀ mem, (∀ r ∈ mem, Fits r) → (∀ r ∈ mem, ¬ Clashes blks r) →
      Free (peeked (atMem (withMemory (chosen os p)) s).host).mem mem := fun mem h1 h2 q hq =>
    ⟨h1 q hq, fun x hx hmap => h2 q hq ((clashes_iff w hlt).2 ⟨x, hx, hmap⟩)⟩
  have hn : NextFile (peeked (atMem (withMemory (chosen os p)) s).host) d text := ⟨_, ht _, rfl⟩
  cases h with
  | @head bytes m h1 h2 =>
    obtain ⟨d', he, -⟩ := Dump.head_wrong (d := Dump.start (peeked (atMem (withMemory (chosen os p)) s).host) bytes) hr.regs rfl h2
    exact reader_throws h1 hn he
  | @spoiledHead bytes m h1 h2 =>
    obtain ⟨d', he, -⟩ := Dump.head_wrong (d := Dump.start (peeked (atMem (withMemory (chosen os p)) s).host) bytes) hr.regs rfl h2
    have key := reader_spoiled h1 hn
    rw [he] at key
    simp only [Dump.head_spoiled h2] at key
    exact key
  | @block bytes u df pre post r h1 hw hb hu hm hpre hc =>
    subst hb
    have hf := ho.dumpFits _ df u h1 hw rfl hu
    obtain ⟨d', he⟩ := Dump.block_stops (u := u) hr hw (rom_plain w) hm
      (hfree pre (fun q hq => hf q (by rw [hm]; simp [hq])) hpre) (hf r (by rw [hm]; simp)) ((clashes_iff w hlt).1 hc)
    exact reader_either h1 hn he Dump.region_other
  | @part bytes u df e0 h1 hw hb hu hno hc =>
    subst hb
    have hf := ho.dumpFits _ df u h1 hw rfl (.inr (by rw [hu]; rfl))
    obtain ⟨f, d1, -, k2, k3, -, k5⟩ := Dump.dump_at (t := u) hr hw (hfree df.mem (fun q hq => hf q (by simp [hq])) hno)
    obtain ⟨d', he⟩ := Dump.part_clash (f := f) (d := d1) k5.split (rom_plain w) (k5.heap hr.heap) (k3 ▸ hf _ (by simp))
      (k3 ▸ (clashes_iff w hlt).1 hc) (k3 ▸ hu)
    rw [k3] at he
    exact reader_either h1 hn (k2.trans he) Dump.region_other
  | @rest bytes u df e0 h1 hw hb hu hno =>
    subst hb
    have hf := ho.dumpFits _ df u (.inl h1) hw rfl (.inr (by rw [hu]; rfl))
    obtain ⟨f, d1, -, k2, k3, -, k5⟩ := Dump.dump_at (t := u) hr hw
      (hfree df.mem (fun q hq => hf q (by simp [hq])) (fun q hq => hno q (by simp [hq])))
    obtain ⟨d', he⟩ := Dump.rest_wrong (f := f) (d := d1) k5.split (k5.heap hr.heap) (k3 ▸ hf _ (by simp))
      (fun x hx q hq hc => hno _ (by simp) ((clashes_iff w hlt).2 ⟨x, k3 ▸ hx, q, hq, hc⟩)) (k3 ▸ hu)
    exact reader_throws h1 hn (k2.trans he)
  | @spoiledRest bytes u df h1 hw hb hu hno =>
    subst hb
    have hf := ho.dumpFits _ df u (.inr h1) hw rfl hu
    obtain ⟨f, d1, -, k2, k3, -, k5⟩ := Dump.dump_at (t := u) hr hw
      (hfree df.mem (fun q hq => hf q (by simp [hq])) (fun q hq => hno q (by simp [hq])))
    have key := reader_spoiled h1 hn
    rcases hu with rfl | hu
    · rw [k2, Dump.regions_eof k3] at key
      exact key
    · obtain ⟨e, hu⟩ := Option.isSome_iff_exists.1 hu
      obtain ⟨d', he⟩ := Dump.rest_wrong (f := f) (d := d1) k5.split (k5.heap hr.heap) (k3 ▸ hf _ (by simp))
        (fun x hx q hq hc => hno _ (by simp) ((clashes_iff w hlt).2 ⟨x, k3 ▸ hx, q, hq, hc⟩)) (k3 ▸ hu)
      rw [k2, he] at key
      simp only [Dump.rest_spoiled hu] at key
      exact key
  | @log ms hl hw =>
    obtain ⟨hf, hlen⟩ := ho.logFits ms hl
    obtain ⟨g1, g2, g4⟩ := hl
    have key := log_either (d := d) hr w hlt ht g4 g1 g2 hf hlen
    cases he : readerFor text d (peeked (atMem (withMemory (chosen os p)) s).host) with
    | ub r => rw [he] at key; exact key.elim
    | throw x h' => rw [he] at key; rw [key.1]; exact ⟨_, rfl⟩
    | ok u h' =>
      rw [he] at key
      obtain ⟨m, hm, i, hi, hw⟩ := hw
      exact (key.1 m hm i hi hw).elim

theorem dump_fine {os : List Opt} {p : Prog} {d text : Str} {blks mem : List (U32 × List U8)} {s : Sim}
    (hr : Ready (peeked (atMem (withMemory (chosen os p)) s).host)) (w : s.regions = blks.map Elf.romRegion)
    (hlt : ∀ r ∈ blks, r.2.length < 2 ^ 32) (ht : OnDisk p.host d text) (ho : OrdinaryDump text) (h : DumpFine blks text mem) :
    ∃ h', readerFor text d (peeked (atMem (withMemory (chosen os p)) s).host) = .ok () h' ∧ PlentyOfMemory h'.mem ∧
      (∀ r ∈ h'.mem.regions, r.isAlias = false) ∧ PlainAt h'.mem (blks ++ mem) := by
  have hn : NextFile (peeked (atMem (withMemory (chosen os p)) s).host) d text := ⟨_, ht _, rfl⟩
  have hplain : ∀ (s' : Sim) (news : List Region), Dump.Split s' s.regions news →
      (∀ a, (∃ r ∈ news, Covers r a 1) ↔ Inside mem a) → (∀ r ∈ s'.regions, r.isAlias = false) ∧ PlainAt s' (blks ++ mem) := by
    intro s' news hsp hc
    have hal : ∀ r ∈ s'.regions, r.isAlias = false := by
      intro r hr'
      rw [hsp.regions] at hr'
      rcases List.mem_append.1 hr' with hr' | hr'
      · exact (rom_plain w r hr').1
      · exact (hsp.fresh r hr').plain
    refine ⟨hal, fun a => ?_⟩
    have e1 : (∃ r ∈ s'.regions, r.isAlias = false ∧ Covers r a 1) ↔ (∃ r ∈ s.regions, Covers r a 1) ∨ ∃ r ∈ news, Covers r a 1 := by
      constructor
      · rintro ⟨r, h1, -, h2⟩
        rw [hsp.regions] at h1
        rcases List.mem_append.1 h1 with h1 | h1
        · exact .inl ⟨r, h1, h2⟩
        · exact .inr ⟨r, h1, h2⟩
      · rintro (⟨r, h1, h2⟩ | ⟨r, h1, h2⟩)
        · have : r ∈ s'.regions := by rw [hsp.regions]; simp [h1]
          exact ⟨r, this, hal r this, h2⟩
        · have : r ∈ s'.regions := by rw [hsp.regions]; simp [h1]
          exact ⟨r, this, hal r this, h2⟩
    rw [e1, hc, rom_mapped w hlt]
    unfold Inside
    constructor
    · rintro (⟨b, h1, h2⟩ | ⟨b, h1, h2⟩)
      · exact ⟨b, by simp [h1], by rw [Dump.byteIn_iff]; omega⟩
      · exact ⟨b, by simp [h1], h2⟩
    · rintro ⟨b, h1, h2⟩
      rcases List.mem_append.1 h1 with h1 | h1
      · rw [Dump.byteIn_iff] at h2
        exact .inl ⟨b, h1, by omega⟩
      · exact .inr ⟨b, h1, h2⟩
  cases h with
  | @dump df h1 hw hno =>
    have hf := ho.dumpFits _ df [] (.inl h1) hw (by simp) (.inl rfl)
    obtain ⟨f, d1, -, k2, k3, -, k5⟩ := Dump.dump_at (t := []) hr hw
      (fun q hq => ⟨hf q (by simp [hq]), fun x hx hmap => hno q hq ((clashes_iff w hlt).2 ⟨x, hx, hmap⟩)⟩)
    rw [List.append_nil, Dump.regions_eof k3] at k2
    have key := reader_is h1 hn
    rw [k2] at key
    refine ⟨_, key, k5.heap hr.heap, hplain _ _ k5.split ?_⟩
    intro a
    have hsh := Dump.loadMem_shape (mem := df.mem) (rs := [])
    rw [List.map_nil, List.nil_append] at hsh
    constructor
    · rintro ⟨r, g1, g2⟩
      have : shape r ∈ (Dump.loadMem [] df.mem).map shape := List.mem_map_of_mem g1
      rw [hsh, List.mem_map] at this
      obtain ⟨b, g3, g4⟩ := this
      refine ⟨b, g3, ?_⟩
      have g5 := (covers_shape g4).2 g2
      have hl := hw.mem b g3
      rw [Dump.byteIn_iff]
      unfold Covers newRegion at g5
      simp only [BitVec.toNat_ofNat] at g5
      rw [Nat.mod_eq_of_lt hl] at g5
      omega
    · rintro ⟨b, g1, g2⟩
      have : shape (newRegion b.1 (BitVec.ofNat 32 b.2.length)) ∈ (Dump.loadMem [] df.mem).map shape := by
        rw [hsh]
        exact List.mem_map.2 ⟨b, g1, rfl⟩
      obtain ⟨r, g3, g4⟩ := List.mem_map.1 this
      exact ⟨r, g3, (covers_shape g4).2 (Dump.covered_new (hw.mem b g1) g2)⟩
  | @log ms hl hw =>
    obtain ⟨hf, hlen⟩ := ho.logFits ms hl
    obtain ⟨g1, g2, g4⟩ := hl
    have key := log_either (d := d) hr w hlt ht g4 g1 g2 hf hlen
    cases he : readerFor text d (peeked (atMem (withMemory (chosen os p)) s).host) with
    | ub r => rw [he] at key; exact key.elim
    | throw x h' =>
      rw [he] at key
      obtain ⟨-, m, hm, i, hi, hww⟩ := key
      exact (hw m hm i hi hww).elim
    | ok u h' =>
      rw [he] at key
      obtain ⟨-, k2, news, k3, k4⟩ := key
      refine ⟨_, rfl, fun k => ?_, hplain _ news k3 ?_⟩
      · rw [k2]; exact hr.heap k
      · intro a
        constructor
        · rintro ⟨r, h1, h2⟩
          have : shape r ∈ news.map shape := List.mem_map_of_mem h1
          rw [k4, List.map_map, List.mem_map] at this
          obtain ⟨q, h3, h4⟩ := this
          refine ⟨GdbLog.blk q, List.mem_map_of_mem h3, (GdbLog.reg_covers1 (hlen q h3)).1 ((covers_shape h4).2 h2)⟩
        · rintro ⟨b, h1, h2⟩
          obtain ⟨q, h3, rfl⟩ := List.mem_map.1 h1
          have : shape (GdbLog.reg q) ∈ news.map shape := by
            rw [k4]
            exact List.mem_map_of_mem (List.mem_map_of_mem h3)
          obtain ⟨r, h5, h6⟩ := List.mem_map.1 this
          exact ⟨r, h5, (covers_shape h6).2 ((GdbLog.reg_covers1 (hlen q h3)).2 h2)⟩

end Verif.Props
