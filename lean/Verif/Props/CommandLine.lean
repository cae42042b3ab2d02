import Verif.Lemmas.CmdEnd
import Verif.Props.Elf
/-
C48-C56, C70-C72: the command line and start-up.
-/
namespace Verif.Props
open Verif MemSim Spec CommandLine

/-! ### Concrete command lines and files -/

/-- Blocks in separate address ranges are disjoint. -/
theorem disjoint_ranges {mem : List (U32 × List U8)}
    (h : mem.Pairwise fun p q => p.1.toNat + p.2.length ≤ q.1.toNat ∨ q.1.toNat + q.2.length ≤ p.1.toNat) : Spec.Disjoint mem := by
  refine h.imp ?_
  intro p q hpq a
  by_cases h1 : (byteIn p a).isSome
  · right
    cases h2 : byteIn q a with
    | none => rfl
    | some b =>
      have k1 := byteIn_range h1
      have k2 := byteIn_range (r := q) (a := a) (by rw [h2]; rfl)
      omega
  · left; simpa using h1

/-- A dump beside the segments of `elfExample`. -/
def startDump : DumpFile := { dumpExample false true with mem := [(0x20000000, [1, 2, 3, 4, 5]), (0x20000010, [6, 7])] }

theorem startDump_wf : startDump.WF := ⟨by decide, by decide, by decide⟩

/-- Files: an ELF file "e", a raw image "b" of six bytes, a dump "d". -/
def diskExample : List (Str × Str) := [([0x65], elfExample), ([0x62], [1, 2, 3, 4, 5, 6]), ([0x64], encode startDump)]

/-- A program about to start, with these files and this many heap blocks in use. -/
def progExample : Prog :=
  { host := { mem := MemSim.init goodHeap, files := { opens := fun _ n => (diskExample.lookup n).map File.of } } }

theorem spells (k : Kind) {w : Str} (h : strcasecmpEq w (asc k.name) = true) : Spells w (asc k.name) := (case_kind k w).1 h

/-- `--ELF e --dump d` -/
def argsElf : List Str := [asc "--ELF", [0x65], asc "--dump", [0x64]]
def optsElf : List Opt := [.elf [0x65], .dump [0x64]]
theorem spelledElf : Spelled argsElf optsElf :=
  .cons (o := .elf _) (spells .elf (by decide +kernel)) (.cons (o := .dump _) (spells .dump (by decide +kernel)) .nil)

/-- `--dump d --bin b 0x100` -/
def argsBin : List Str := [asc "--dump", [0x64], asc "--bin", [0x62], asc "0x100"]
def optsBin : List Opt := [.dump [0x64], .bin [0x62] (asc "0x100")]
theorem spelledBin : Spelled argsBin optsBin :=
  .cons (o := .dump _) (spells .dump (by decide +kernel)) (.cons (o := .bin _ _) (spells .bin (by decide +kernel)) .nil)

/-! ### C72 -/

/-- C72. Start-up with a valid image (ELF or raw) and a valid dump (binary or hexadecimal) succeeds. Afterwards every
access inside the image and inside the dumped memory gives the bytes of the files, no write changes the image, and the
registers are those of the dump. -/
theorem C72_start_up_loads {args : List Str} {os : List Opt} {p : Prog} {n d bytes text : Str} {blocks : List (U32 × List U8)} {df : DumpFile}
    (hs : Spelled args os) (ha : aliases os = []) (hn : imageFile os = some n) (hd : lastDump os = some d)
    (hi : OnDisk p.host n bytes) (ht : OnDisk p.host d text)
    (hb : ImageBlocks os bytes blocks) (hdt : DumpText text df) (hwf : df.WF) (hdj : Spec.Disjoint (blocks ++ df.mem))
    (hf : ∀ r ∈ blocks ++ df.mem, Fits r) (hp : PlentyOfMemory p.host.mem) :
    ∃ q, startUp args p = .ok () q ∧ q.memory = true ∧ HoldsBlocks q.host.mem (blocks ++ df.mem) ∧
      RefusesWrites q.host.mem blocks ∧ q.host.ctx = loadedRegs df {} := by
  obtain ⟨q, h1, h2, h3, h4, h5⟩ := start_loads hs hn hd hi ht hb hdt hwf hdj hf hp
  refine ⟨q, ?_, h5, h2, h3, h4⟩
  rw [startUp_full hs hn hd, ha, h1]
  rfl

theorem startElf : ∃ q, startUp argsElf progExample = .ok () q ∧ q.memory = true ∧
    HoldsBlocks q.host.mem ([(0x30000000, [1, 2, 3, 4, 5]), (0x30000100, [6, 7])] ++ startDump.mem) ∧
    RefusesWrites q.host.mem [(0x30000000, [1, 2, 3, 4, 5]), (0x30000100, [6, 7])] ∧ q.host.ctx = loadedRegs startDump {} :=
  C72_start_up_loads (n := [0x65]) (d := [0x64]) (bytes := elfExample) (text := encode startDump) spelledElf rfl rfl rfl (fun _ => rfl) (fun _ => rfl)
    ⟨by decide +kernel, by decide +kernel, by decide +kernel, by rw [elfExample_blocks]; simp, elfExample_blocks.symm⟩
    (.inl rfl) startDump_wf (disjoint_ranges (by decide)) (by unfold Fits; decide) (fun _ => rfl)

theorem startBin : ∃ q, startUp argsBin progExample = .ok () q ∧ q.memory = true ∧
    HoldsBlocks q.host.mem ([(0x100, [1, 2, 3, 4, 5, 6])] ++ startDump.mem) ∧
    RefusesWrites q.host.mem [(0x100, [1, 2, 3, 4, 5, 6])] ∧ q.host.ctx = loadedRegs startDump {} :=
  C72_start_up_loads (n := [0x62]) (d := [0x64]) (bytes := [1, 2, 3, 4, 5, 6]) (text := encode startDump) spelledBin rfl rfl rfl (fun _ => rfl) (fun _ => rfl)
    ⟨by simp, by decide, by decide +kernel⟩
    (.inl rfl) startDump_wf (disjoint_ranges (by decide)) (by unfold Fits; decide) (fun _ => rfl)

/-! ### C48 -/

/-- C48. Start-up depends only on the last `--elf`, `--bin` and `--dump` and on the aliases in their order. -/
theorem C48_last_of_each_kind {args args' : List Str} {os os' : List Opt} (h : Spelled args os) (h' : Spelled args' os')
    (he : lastElf os = lastElf os') (hb : lastBin os = lastBin os') (hd : lastDump os = lastDump os') (ha : aliases os = aliases os') :
    startUp args = startUp args' := by
  funext p
  rw [startUp_spelled h, startUp_spelled h']
  unfold selected
  rw [he, hb, hd, ha]

/-- `--dump x --ELF e --dump d --elf e` does the same as `--ELF e --dump d`. -/
example : ∃ args, args ≠ argsElf ∧ startUp args = startUp argsElf := by
  refine ⟨[asc "--dump", [0x78]] ++ argsElf ++ [asc "--elf", [0x65]], by decide +kernel, C48_last_of_each_kind
    (os := [.dump [0x78], .elf [0x65], .dump [0x64], .elf [0x65]]) ?_ spelledElf rfl rfl rfl rfl⟩
  exact .cons (o := .dump _) (spells .dump (by decide +kernel)) <| .cons (o := .elf _) (spells .elf (by decide +kernel)) <|
    .cons (o := .dump _) (spells .dump (by decide +kernel)) <| .cons (o := .elf _) (spells .elf (by decide +kernel)) .nil

/-- C48. What is selected, whether start-up succeeds or fails. -/
theorem C48_selection {args : List Str} {os : List Opt} {p q : Prog} (h : Spelled args os) (hq : Ends (startUp args p) q) :
    q.elf = lastElf os ∧ q.dump = lastDump os ∧ q.bin = (lastBin os).map Prod.fst ∧
      q.baseAddress = ((lastBin os).map fun x => Libc.strtoul32 x.2).getD 0 := by
  have key : ∀ q' : Prog, { q' with host := p.host } = { chosen os p with memory := true, host := p.host } →
      q'.elf = lastElf os ∧ q'.dump = lastDump os ∧ q'.bin = (lastBin os).map Prod.fst ∧
      q'.baseAddress = ((lastBin os).map fun x => Libc.strtoul32 x.2).getD 0 := by
    intro q' hk
    refine ⟨?_, ?_, ?_, ?_⟩
    · have := congrArg Prog.elf hk; exact Eq.trans this (chosen_elf os p)
    · have := congrArg Prog.dump hk; exact Eq.trans this (chosen_dump os p)
    · have := congrArg Prog.bin hk; exact Eq.trans this (chosen_bin os p)
    · have := congrArg Prog.baseAddress hk; exact Eq.trans this (chosen_base os p)
  have own : ∀ e, (afterFailure e (chosen os p)).elf = lastElf os ∧ (afterFailure e (chosen os p)).dump = lastDump os ∧
      (afterFailure e (chosen os p)).bin = (lastBin os).map Prod.fst ∧
      (afterFailure e (chosen os p)).baseAddress = ((lastBin os).map fun x => Libc.strtoul32 x.2).getD 0 :=
    fun e => ⟨chosen_elf os p, chosen_dump os p, chosen_bin os p, chosen_base os p⟩
  cases hn : imageFile os with
  | none =>
    rw [startUp_noImage h hn] at hq
    rcases hq with ⟨a, h1⟩ | ⟨e, h1⟩ <;> cases h1
    exact own _
  | some n =>
    cases hd : lastDump os with
    | none =>
      rw [startUp_noDump h hn hd] at hq
      rcases hq with ⟨a, h1⟩ | ⟨e, h1⟩ <;> cases h1
      rw [← hd]; exact own _
    | some d =>
      rw [startUp_full h hn hd] at hq
      have hp := memStages_pst (p := chosen os p) (n := n) (d := d) (by rw [chosen_image]; exact hn) (by rw [chosen_dump]; exact hd) (aliases os)
      cases e : memStages (aliases os) (withMemory (chosen os p)) with
      | ub r => rw [e] at hq; rcases hq with ⟨a, h1⟩ | ⟨e, h1⟩ <;> cases h1
      | ok u q' =>
        rw [e] at hq hp
        rcases hq with ⟨a, h1⟩ | ⟨e, h1⟩ <;> cases h1
        obtain ⟨f, s1, s2, -, -, -, k4, -⟩ := hp
        rw [← hd]
        exact key _ (by have := congrArg (fun r : Prog => { r with host := p.host }) k4.rest; exact this)
      | throw x q' =>
        rw [e] at hq hp
        rcases hq with ⟨a, h1⟩ | ⟨e, h1⟩ <;> cases h1
        rw [← hd]
        exact key q' (by have := congrArg (fun r : Prog => { r with host := p.host }) hp.1; exact this)

example : ∃ q, Ends (startUp argsBin progExample) q ∧ lastBin optsBin = some ([0x62], asc "0x100") := by
  obtain ⟨q, h, -⟩ := startBin; exact ⟨q, .inl ⟨_, h⟩, rfl⟩

/-! ### C49 -/

/-- C49. An option name may be spelled with any letters in upper case, whatever follows it. -/
theorem C49_case_insensitive {pre post : List Str} {os : List Opt} {w w' : Str} {k : Kind} (h : Spelled pre os)
    (hw : Spells w (asc k.name)) (hw' : Spells w' (asc k.name)) : startUp (pre ++ w :: post) = startUp (pre ++ w' :: post) :=
  startUp_case h hw hw'

example : Spelled argsElf optsElf ∧ Spells (asc "--aLIaS") (asc Kind.alias.name) ∧ Spells (asc "--alias") (asc Kind.alias.name) :=
  ⟨spelledElf, spells .alias (by decide +kernel), spells .alias (by decide +kernel)⟩

/-! ### C50 -/

/-- C50. A failed start-up leaves no memory behind, no file open, and has reported the error. -/
theorem C50_failed_start_up {args : List Str} {p q : Prog} {e : Exn} (h : startUp args p = .throw e q) :
    q.memory = false ∧ q.err = p.err ++ (asc "ERROR: " ++ e.msg.take 1023 ++ asc "\n" ++ copyrightNotice ++ usage) ∧
      q.host.files.live = p.host.files.live ∧ (q.host.mem = p.host.mem ∨ q.host.mem.regions = [] ∧ q.host.mem.xml = none) := by
  rcases startUp_throw h with ⟨os, -, rfl⟩ | ⟨os, n, d, q', -, -, -, rfl, hk, hl, -, -⟩
  · exact ⟨rfl, rfl, rfl, .inl rfl⟩
  · have := afterFailure_spec (e := e) (p := { chosen os p with host := p.host }) (q := q') hk
    exact ⟨this.1, this.2.1, by rw [this.2.2.1]; exact hl, .inr ⟨this.2.2.2.1, this.2.2.2.2.1⟩⟩

/-- C50. All heap blocks are released too, unless segments of an ELF file start inside others (then a region is made
read-only twice, and the first counters are lost: see the witness below). -/
theorem C50_heap_released_partial {args : List Str} {p q : Prog} {e : Exn} (h : startUp args p = .throw e q)
    (he : ∀ os name, Spelled args os → lastElf os = some name → StartsApart (nextContents p.host name)) :
    q.host.mem.heap.live = p.host.mem.heap.live := by
  rcases startUp_throw h with ⟨os, -, rfl⟩ | ⟨os, n, d, q', hs, hn, -, rfl, hk, hl, ho, -⟩
  · rfl
  · have := afterFailure_spec (e := e) (p := { chosen os p with host := p.host }) (q := q') hk
    rw [this.2.2.2.2.2]
    refine Int.sub_eq_zero.1 (ho (· = 0) ?_ rfl)
    cases hle : lastElf os with
    | none => exact image_owed_bin n (by rw [chosen_elf]; exact hle)
    | some m =>
      have hm : m = n := by simpa [imageFile, hle] using hn
      subst hm
      exact image_owed_elf (p := chosen os p) (by rw [chosen_elf]; exact hle) (he os m hs hle)

/-- C50. For any ELF file, what a failed start-up leaves on the heap is what the segments loaded until then account for: one block
for each whose start is in a segment that had been marked read-only before. -/
theorem C50_left_by_segments {args : List Str} {os : List Opt} {name : Str} {p q : Prog} {e : Exn} (h : startUp args p = .throw e q)
    (hs : Spelled args os) (hl : lastElf os = some name) :
    ∃ pre, pre <+: segmentsOf (nextContents p.host name) ∧ q.host.mem.heap.live = p.host.mem.heap.live + sharedStarts pre := by
  rcases startUp_throw h with ⟨os', -, rfl⟩ | ⟨os', n, d, q', hs', hn, -, rfl, hk, hl', ho, -⟩
  · exact ⟨[], List.nil_prefix, (Int.add_zero _).symm⟩
  · cases spelled_unique hs hs'
    have := afterFailure_spec (e := e) (p := { chosen os p with host := p.host }) (q := q') hk
    rw [this.2.2.2.2.2]
    have hm : name = n := by simpa [imageFile, hl] using hn
    subst hm
    obtain ⟨pre, h1, h2⟩ := ho _ (image_loses_elf (p := chosen os p) (by rw [chosen_elf]; exact hl)) ⟨[], List.nil_prefix, rfl⟩
    exact ⟨pre, h1, by omega⟩

/-- Like `progExample`, but the dump is missing. -/
def progNoDump : Prog := { progExample with host := { progExample.host with files := { opens := fun _ n => if n = [0x64] then none else (diskExample.lookup n).map File.of } } }

/-- For evaluating in the kernel: the code raised an exception, in a state with this many heap blocks. -/
def failsWithLive (o : Out Prog Unit) (n : Int) : Bool := match o with | .throw _ q => q.host.mem.heap.live == n | _ => false

theorem failsWithLive_iff {o : Out Prog Unit} {n : Int} (h : failsWithLive o n = true) : ∃ e q, o = .throw e q ∧ q.host.mem.heap.live = n := by
  cases o with
  | throw e s => exact ⟨e, s, rfl, by simpa [failsWithLive] using h⟩
  | ok a s => cases h
  | ub r => cases h

theorem progNoDump_fails : ∃ e q, startUp argsElf progNoDump = .throw e q ∧ q.host.mem.heap.live = 0 := failsWithLive_iff (by decide +kernel)

/-- Start-up that fails after the ELF file has been loaded meets the hypotheses. -/
example : (∃ e q, startUp argsElf progNoDump = .throw e q) ∧ ∀ os name, Spelled argsElf os → lastElf os = some name →
      StartsApart (nextContents progNoDump.host name) := by
  refine ⟨let ⟨e, q, h, _⟩ := progNoDump_fails; ⟨e, q, h⟩, ?_⟩
  intro os name h hl
  cases spelled_unique h spelledElf
  cases hl
  decide +kernel


/-- An ELF file whose second segment starts inside the first. -/
def elfOverlap : Str := elfHead 2 ++ elfEntry 1 0 0x100 8 8 ++ elfEntry 1 4 0x104 4 4

/-- The file "e" overlaps itself, and the dump is missing. -/
def progOverlap : Prog := { host := { mem := MemSim.init goodHeap, files := { opens := fun _ n => if n = [0x65] then some (File.of elfOverlap) else none } } }

/-- C50 is false of the code without the exception: with overlapping segments one heap block is not released. -/
theorem C50_leak_witness : ∃ e q, startUp argsElf progOverlap = .throw e q ∧
    progOverlap.host.mem.heap.live = 0 ∧ q.host.mem.heap.live = 1 := by
  obtain ⟨e, q, h1, h2⟩ := failsWithLive_iff (o := startUp argsElf progOverlap) (n := 1) (by decide +kernel)
  exact ⟨e, q, h1, rfl, h2⟩

/-! ### C51 -/

theorem filterMap_without {β : Type} (os : List Opt) (f : Opt → Option β) (hf : ∀ b s r, f (.alias b s r) = none) :
    (withoutAliases os).filterMap f = os.filterMap f := by
  induction os with
  | nil => rfl
  | cons o os ih =>
    unfold withoutAliases at ih ⊢
    cases o with
    | «alias» b s r => rw [List.filter_cons_of_neg (by simp [Opt.kind]), ih, List.filterMap_cons_none (hf b s r)]
    | _ => rw [List.filter_cons_of_pos (by simp [Opt.kind]), List.filterMap_cons, List.filterMap_cons, ih]

theorem aliases_without (os : List Opt) : aliases (withoutAliases os) = [] := by
  induction os with
  | nil => rfl
  | cons o os ih =>
    unfold withoutAliases at ih ⊢
    cases o with
    | «alias» b s r => rw [List.filter_cons_of_neg (by simp [Opt.kind]), ih]
    | _ => rw [List.filter_cons_of_pos (by simp [Opt.kind])]; exact ih

/-- C51. Wherever the aliases are on the command line, the outcome is that of the command line without them, followed by
creating the aliases in their order in the memory with image and dump. -/
theorem C51_aliases_last {args args' : List Str} {os : List Opt} (h : Spelled args os) (h' : Spelled args' (withoutAliases os)) (p : Prog) :
    match startUp args' p with
    | .ok _ q =>
      match createAliases (aliases os) q.host.mem with
      | .ok _ s => startUp args p = .ok () { q with host := { q.host with mem := s } }
      | .throw e _ => ∃ q', startUp args p = .throw e q'
      | .ub r => startUp args p = .ub r
    | o => startUp args p = o := by
  have hsel : selected (withoutAliases os) (cleared p) = selected os (cleared p) := by
    unfold selected lastElf lastBin lastDump
    rw [filterMap_without os _ (fun _ _ _ => rfl), filterMap_without os _ (fun _ _ _ => rfl), filterMap_without os _ (fun _ _ _ => rfl)]
  rw [startUp_spelled h, startUp_spelled h', aliases_without, hsel, stages_nil (aliases os), M.bind_apply]
  cases e : stages [] (selected os (cleared p)) with
  | ub r => rfl
  | throw x q => rfl
  | ok u q =>
    have hm : q.memory = true := by
      have hok : startUp args' p = .ok () q := by rw [startUp_spelled h', aliases_without, hsel, e]; rfl
      obtain ⟨os', n, d, f, s1, s2, -, -, -, -, -, -, k, -⟩ := startUp_ok hok
      have := congrArg Prog.memory k.rest; exact this
    simp only [finish]
    rw [addAliases_eq hm]
    cases createAliases (aliases os) q.host.mem with
    | ok u s => rfl
    | throw x s => exact ⟨_, rfl⟩
    | ub r => rfl

/-- `--alias 0x50 4 0x20000000 --ELF e --dump d`: an alias of dumped memory, given first. -/
def argsAlias : List Str := [asc "--alias", asc "0x50", asc "4", asc "0x20000000"] ++ argsElf
theorem spelledAlias : Spelled argsAlias (.alias (asc "0x50") (asc "4") (asc "0x20000000") :: optsElf) :=
  .cons (o := .alias _ _ _) (spells .alias (by decide +kernel)) spelledElf

/-- For evaluating in the kernel: the code succeeded, and the word at the address is now this. -/
def okReads (o : Out Prog Unit) (a v : U32) : Bool :=
  match o with
  | .ok _ q => match IMemory.read .w32 a q.host.mem with
    | .ok x _ => x.toNat == v.toNat
    | _ => false
  | _ => false

example : withoutAliases (.alias (asc "0x50") (asc "4") (asc "0x20000000") :: optsElf) = optsElf ∧
    okReads (startUp argsElf progExample) 0x20000000 0x04030201 = true ∧
    okReads (startUp argsAlias progExample) 0x50 0x04030201 = true := by
  refine ⟨rfl, by decide +kernel, by decide +kernel⟩

/-! ### C52 -/

/-- C52. With `--elf`, the `--bin` options make no difference: the outcome is that of any command line with the same
options otherwise, except for the file name and base address they select. -/
theorem C52_elf_wins {args args' : List Str} {os os' : List Opt} {name : Str} (h : Spelled args os) (h' : Spelled args' os')
    (he : lastElf os = some name) (he' : lastElf os' = some name) (hb : lastBin os' = none) (hd : lastDump os' = lastDump os)
    (ha : aliases os' = aliases os) (p : Prog) : startUp args' p = seenThrough withoutBin (startUp args p) := by
  have hn : imageFile os = some name := by simp [imageFile, he]
  have hn' : imageFile os' = some name := by simp [imageFile, he']
  have hc : chosen os' p = withoutBin (chosen os p) := by
    simp only [chosen, selected, cleared, withoutBin, he, he', hb, hd]; rfl
  cases hdo : lastDump os with
  | none =>
    rw [startUp_noDump h hn hdo, startUp_noDump h' hn' (by rw [hd, hdo]), hc]
    rfl
  | some d =>
    rw [startUp_full h hn hdo, startUp_full h' hn' (by rw [hd, hdo]), ha, hc, ← finish_withoutBin]
    congr 1
    exact memStages_withoutBin (p := withMemory (chosen os p)) (by exact (chosen_elf os p).trans he) (aliases os)

/-- `--bin b 0x100 --ELF e --dump d` against `--ELF e --dump d`. -/
example : Spelled ([asc "--bin", [0x62], asc "0x100"] ++ argsElf) (.bin [0x62] (asc "0x100") :: optsElf) ∧ Spelled argsElf optsElf ∧
    lastElf (.bin [0x62] (asc "0x100") :: optsElf) = some [0x65] ∧ lastElf optsElf = some [0x65] ∧ lastBin optsElf = none ∧
    lastBin (.bin [0x62] (asc "0x100") :: optsElf) ≠ none :=
  ⟨.cons (o := .bin _ _) (spells .bin (by decide +kernel)) spelledElf, spelledElf, rfl, rfl, rfl, by simp [lastBin]⟩

/-! ### C53 -/

/-- C53. At the first word that does not begin a complete option the command line is refused, with the fitting message.
Nothing but the registers has been touched: no file was opened, no memory created. -/
theorem C53_refused {pre rest : List Str} {os : List Opt} {m : Str} (h : Spelled pre os) (hs : Stuck rest m) (p : Prog) :
    ∃ q, startUp (pre ++ rest) p = .throw ⟨.invalidArgument, m⟩ q ∧ q.memory = false ∧ q.host = { p.host with ctx := {} } :=
  ⟨_, startUp_stuck h hs p, rfl, rfl⟩

example : Spelled argsElf optsElf ∧ Stuck [asc "--Bin", [0x62]] (asc "The --bin command line option requires filename and base address.") ∧
    (∃ m, Stuck [asc "--bins", [0x62], [0x30]] m) ∧ ∃ m, Stuck [asc "-bin", [0x62], [0x30]] m := by
  refine ⟨spelledElf, ?_, ⟨_, .unknown ⟨asc "bins", by decide +kernel⟩ ?_⟩, ⟨_, .noDashes (by decide +kernel)⟩⟩
  · have := Stuck.tooFew (w := asc "--Bin") (ws := [[0x62]]) .bin (spells .bin (by decide +kernel)) (by decide)
    exact this
  · intro k hk
    have := (case_kind k _).2 hk
    revert this
    cases k <;> decide +kernel

/-- C53. A command line without an image or a dump option is refused in the same way. -/
theorem C53_option_missing {args : List Str} {os : List Opt} (h : Spelled args os) (p : Prog) :
    (imageFile os = none → ∃ q, startUp args p = .throw ⟨.invalidArgument, asc "Must provide --bin or --elf command line option."⟩ q ∧
      q.memory = false ∧ q.host = { p.host with ctx := {} }) ∧
    (imageFile os ≠ none → lastDump os = none → ∃ q,
      startUp args p = .throw ⟨.invalidArgument, asc "Must provide --dump command line option."⟩ q ∧
      q.memory = false ∧ q.host = { p.host with ctx := {} }) := by
  refine ⟨fun hn => ⟨_, startUp_noImage h hn p, rfl, rfl⟩, fun hn hd => ?_⟩
  obtain ⟨n, hn⟩ := Option.ne_none_iff_exists'.1 hn
  exact ⟨_, startUp_noDump h hn hd p, rfl, rfl⟩

example : Spelled [asc "--elf", [0x65]] [.elf [0x65]] ∧ imageFile [.elf [0x65]] ≠ none ∧ lastDump [.elf [0x65]] = none :=
  ⟨.cons (o := .elf _) (spells .elf (by decide +kernel)) .nil, by simp [imageFile, lastElf], rfl⟩

/-- C53. These are all: every argument vector is either refused before anything is touched, or it consists of complete
options with an image and a dump among them, and then start-up never raises `invalidArgumentException`. -/
theorem C53_refused_iff (args : List Str) (p : Prog) :
    (¬ (∃ os, Spelled args os ∧ imageFile os ≠ none ∧ lastDump os ≠ none) →
      ∃ m q, startUp args p = .throw ⟨.invalidArgument, m⟩ q ∧ q.memory = false ∧ q.host = { p.host with ctx := {} }) ∧
    ((∃ os, Spelled args os ∧ imageFile os ≠ none ∧ lastDump os ≠ none) →
      ∀ e q, startUp args p = .throw e q → e.code ≠ .invalidArgument) := by
  constructor
  · intro hno
    rcases startUp_split args p with ⟨os, m, h⟩ | ⟨os, n, d, h, hn, hd, -⟩
    · exact ⟨m, _, h, rfl, rfl⟩
    · exact (hno ⟨os, h, by simp [hn], by simp [hd]⟩).elim
  · rintro ⟨os, h, hn, hd⟩ e q he
    obtain ⟨n, hn⟩ := Option.ne_none_iff_exists'.1 hn
    obtain ⟨d, hd⟩ := Option.ne_none_iff_exists'.1 hd
    rw [startUp_full h hn hd] at he
    have hp := memStages_pst (p := chosen os p) (n := n) (d := d) (by rw [chosen_image]; exact hn) (by rw [chosen_dump]; exact hd) (aliases os)
    cases e' : memStages (aliases os) (withMemory (chosen os p)) with
    | ub r => rw [e'] at he; cases he
    | ok u q => rw [e'] at he; cases he
    | throw x q' =>
      rw [e'] at he hp
      cases he
      have := hp.2.2.2
      intro hc
      rw [hc] at this
      exact absurd this (by decide)

example : (∃ os, Spelled argsElf os ∧ imageFile os ≠ none ∧ lastDump os ≠ none) ∧
    ¬ ∃ os, Spelled [asc "--elf", [0x65]] os ∧ imageFile os ≠ none ∧ lastDump os ≠ none := by
  refine ⟨⟨_, spelledElf, by simp [imageFile, optsElf, lastElf], by simp [optsElf, lastDump]⟩, ?_⟩
  rintro ⟨os, h, -, hd⟩
  cases spelled_unique h (.cons (o := .elf _) (spells .elf (by decide +kernel)) .nil : Spelled [asc "--elf", [0x65]] [.elf [0x65]])
  exact hd rfl

/-! ### C54 -/

/-- C54. The dump is given to the reader for its first bytes, by the name on the command line and with cleared registers,
after the image has been loaded (which took one `fopen`; another one was made to look at the first bytes). The outcome
of start-up is that of the reader and, if that was successful, of the aliases. -/
theorem C54_format_from_first_bytes {args : List Str} {os : List Opt} {p q : Prog} {name : Str} (h : Spelled args os)
    (hd : lastDump os = some name) (hq : startUp args p = .ok () q) :
    ∃ f h1 h2, p.host.files.opens (p.host.files.next + 1) name = some f ∧
      h1.ctx = {} ∧ h1.files = { p.host.files with next := p.host.files.next + 2 } ∧
      readerFor f.bytes name h1 = .ok () h2 ∧ q.host.ctx = h2.ctx ∧ createAliases (aliases os) h2.mem = .ok () q.host.mem := by
  obtain ⟨os', n, d, f0, s1, s2, g1, g2, g3, g4, g5, g6, -⟩ := startUp_ok hq
  cases spelled_unique h g1
  have hnd : d = name := Option.some.inj (g3.symm.trans hd)
  subst hnd
  rw [startUp_full h g2 hd] at hq
  have him : loadImageFile (withMemory (chosen os p)) = .ok () (atMem (withMemory (chosen os p)) (bumpHeap s1 0 (-1))) := by
    have hin : imageName (withMemory (chosen os p)) = some n := (chosen_image os p).trans g2
    rcases loadImageFile_cases (p := withMemory (chosen os p)) rfl (imageName_split hin) with ⟨e, k, h1, h2, h3⟩ | ⟨f, h1, h2, h3⟩
    · unfold memStages at hq
      rw [M.bind_throw h1] at hq
      cases hq
    · have : f = f0 := Option.some.inj (h1.symm.trans g4)
      subst this
      have he : imageWork (withMemory (chosen os p)) f (bumpHeap (withMemory (chosen os p)).host.mem 1 1) = .ok () s1 := g6
      rw [h3, he]
  unfold memStages at hq
  rw [M.bind_ok him] at hq
  have hdump : (atMem (withMemory (chosen os p)) (bumpHeap s1 0 (-1))).dump = some d := (chosen_dump os p).trans hd
  cases ho : p.host.files.opens (p.host.files.next + 1) d with
  | none =>
    rw [M.bind_throw (loadDumpFile_none hdump ho)] at hq
    cases hq
  | some f =>
    have e1 := loadDumpFile_some hdump ho
    rw [onMemory_apply rfl] at e1
    refine ⟨f, peeked (atMem (withMemory (chosen os p)) (bumpHeap s1 0 (-1))).host, ?_⟩
    have e2 : (if [0x63, 0x43] <+: f.bytes then Dump.readBinary d else if asc "6343" <+: f.bytes then Dump.readHex d else GdbLog.parse d) =
        readerFor f.bytes d := by
      unfold readerFor
      by_cases c1 : [0x63, 0x43] <+: f.bytes
      · rw [if_pos c1, if_pos c1]
      · rw [if_neg c1, if_neg c1]
        by_cases c2 : asc "6343" <+: f.bytes
        · rw [if_pos c2, if_pos c2]
        · rw [if_neg c2, if_neg c2]
    rw [e2] at e1
    cases e3 : readerFor f.bytes d (peeked (atMem (withMemory (chosen os p)) (bumpHeap s1 0 (-1))).host) with
    | ub r => rw [e3] at e1; rw [M.bind_ub e1] at hq; cases hq
    | throw x h' => rw [e3] at e1; rw [M.bind_throw e1] at hq; cases hq
    | ok u h' =>
      rw [e3] at e1
      rw [M.bind_ok e1, addAliases_eq rfl] at hq
      refine ⟨h', rfl, rfl, rfl, rfl, ?_⟩
      simp only at hq
      cases e4 : createAliases (aliases os) h'.mem with
      | ub r => rw [e4] at hq; cases hq
      | throw x s => rw [e4] at hq; cases hq
      | ok u s => rw [e4] at hq; cases hq; exact ⟨rfl, e4.symm ▸ rfl⟩

example : ∃ q, lastDump optsElf = some [0x64] ∧ startUp argsElf progExample = .ok () q := by
  obtain ⟨q, h, -⟩ := startElf; exact ⟨q, rfl, h⟩

/-! ### C55 -/

/-- C55, for files of any size: what becomes readable is the file up to its size modulo 2^32. -/
theorem C55_raw_image_general {args : List Str} {os : List Opt} {p q : Prog} {name base bytes : Str} (h : Spelled args os)
    (he : lastElf os = none) (hb : lastBin os = some (name, base)) (hf : OrdinaryFile p.host name bytes)
    (hq : startUp args p = .ok () q) :
    HoldsBlocks q.host.mem [(Libc.strtoul32 base, bytes.take (bytes.length % 2 ^ 32))] ∧
      RefusesWrites q.host.mem [(Libc.strtoul32 base, bytes.take (bytes.length % 2 ^ 32))] ∧
      bytes.length % 2 ^ 32 ≠ 0 ∧ (Libc.strtoul32 base).toNat + bytes.length % 2 ^ 32 ≤ 2 ^ 32 := by
  obtain ⟨os', n, d, f, s1, s2, g1, g2, g3, g4, g5, g6, g7, g8, g9⟩ := startUp_ok hq
  cases spelled_unique h g1
  have hn : n = name := by simpa [imageFile, he, hb] using g2.symm
  subst hn
  have : f = File.of bytes := Option.some.inj (g4.symm.trans hf)
  subst this
  have hlen : (File.of bytes).tell.toNat = bytes.length := by simp [File.of]
  have htake : (File.of bytes).bytes.take (File.of bytes).tell.toNat = bytes := by rw [hlen]; simp [File.of]
  unfold imageWork at g6
  rw [chosen_elf, chosen_base, htake, he, hb] at g6
  simp only [Option.map_some, Option.getD_some, binWork, M.tryCatch_apply] at g6
  have hn : (BitVec.ofInt 32 (File.of bytes).tell).toNat = bytes.length % 2 ^ 32 := by
    rw [BitVec.toNat_ofInt]
    show ((bytes.length : Int) % (2 ^ 32 : Nat)).toNat = _
    omega
  have hle := Nat.mod_le bytes.length (2 ^ 32)
  have hml := Nat.mod_lt bytes.length (show 0 < 2 ^ 32 by decide)
  by_cases hbad : bytes.length % 2 ^ 32 = 0 ∨ 2 ^ 32 < (Libc.strtoul32 base).toNat + bytes.length % 2 ^ 32
  · obtain ⟨e, s', k, -⟩ := loadSegment_refused (s := emptySim p) (a := Libc.strtoul32 base) (n := BitVec.ofInt 32 (File.of bytes).tell)
      (data := bytes) rfl (by omega) (by rw [hn]; exact hbad)
    rw [k] at g6
    cases g6
  · rcases loadSegment_empty (s := emptySim p) (a := Libc.strtoul32 base) (n := BitVec.ofInt 32 (File.of bytes).tell)
      (data := bytes) rfl (by omega) (by omega) (by omega) with ⟨s', k⟩ | k
    · rw [k] at g6; cases g6
    · rw [k, hn] at g6
      cases g6
      have hi := ((imageFirst_rom (a := Libc.strtoul32 base) (data := bytes.take (bytes.length % 2 ^ 32)) (by rw [List.length_take]; omega)
        (s := bumpHeap _ 0 (-1)) rfl (by show 0 < 2 ^ 31; decide)).kept g7.dump).aliased g9
      exact ⟨hi.access.1, hi.access.2, by omega, by omega⟩

/-- C55. After a successful start-up with `--bin`, the whole file is readable at the base address, whatever was loaded
from the dump and whatever aliases there are, and writes to it are refused. The file was not empty and fits. -/
theorem C55_raw_image_loaded {args : List Str} {os : List Opt} {p q : Prog} {name base bytes : Str} (h : Spelled args os)
    (he : lastElf os = none) (hb : lastBin os = some (name, base)) (hf : OrdinaryFile p.host name bytes) (hl : bytes.length < 2 ^ 32)
    (hq : startUp args p = .ok () q) :
    HoldsBlocks q.host.mem [(Libc.strtoul32 base, bytes)] ∧ RefusesWrites q.host.mem [(Libc.strtoul32 base, bytes)] ∧
      bytes ≠ [] ∧ (Libc.strtoul32 base).toNat + bytes.length ≤ 2 ^ 32 := by
  have := C55_raw_image_general h he hb hf hq
  rw [Nat.mod_eq_of_lt hl, List.take_length] at this
  exact ⟨this.1, this.2.1, fun e => this.2.2.1 (by rw [e]; rfl), this.2.2.2⟩

example : ∃ q, lastElf optsBin = none ∧ lastBin optsBin = some ([0x62], asc "0x100") ∧
    OrdinaryFile progExample.host [0x62] [1, 2, 3, 4, 5, 6] ∧ startUp argsBin progExample = .ok () q := by
  obtain ⟨q, h, -⟩ := startBin; exact ⟨q, rfl, rfl, rfl, h⟩

/-- C55. An empty file and one that runs past the end of the address space are refused. -/
theorem C55_raw_image_refused {args : List Str} {os : List Opt} {p : Prog} {name base bytes : Str} (h : Spelled args os)
    (he : lastElf os = none) (hb : lastBin os = some (name, base)) (hf : OrdinaryFile p.host name bytes) (hl : bytes.length < 2 ^ 32)
    (hbad : bytes = [] ∨ 2 ^ 32 < (Libc.strtoul32 base).toNat + bytes.length) :
    ∃ e q, startUp args p = .throw e q := by
  cases o : startUp args p with
  | throw e q => exact ⟨e, q, rfl⟩
  | ok u q =>
    have := C55_raw_image_loaded h he hb hf hl o
    rcases hbad with hbad | hbad
    · exact absurd hbad this.2.2.1
    · omega
  | ub r =>
    exfalso
    rcases startUp_split args p with ⟨os', m, h1⟩ | ⟨os', n, d, h1, hn, hd, h2⟩
    · rw [h1] at o; cases o
    · cases spelled_unique h h1
      rw [h2] at o
      have : memStages (aliases os) (withMemory (chosen os p)) = .ub r := by
        cases e : memStages (aliases os) (withMemory (chosen os p)) <;> rw [e] at o <;> first | cases o | rfl
        rfl
      obtain ⟨f, -, hw, hu⟩ := memStages_ub (by rw [chosen_image]; exact hn) (by rw [chosen_dump]; exact hd) this
      exact bin_defined (by rw [chosen_elf]; exact he) hw hu

/-- The last byte of the address space is at 0xFFFFFFFF: six bytes do not fit at 0xFFFFFFFB. -/
example : 2 ^ 32 < (Libc.strtoul32 (asc "0xFFFFFFFB")).toNat + [1, 2, 3, 4, 5, 6].length ∧
    ¬ 2 ^ 32 < (Libc.strtoul32 (asc "0xFFFFFFFA")).toNat + [1, 2, 3, 4, 5, 6].length := by decide +kernel

/-- Like `progExample`, but the file "b" has these contents. -/
def progRaw (bytes : Str) : Prog := { progExample with host := { progExample.host with files :=
  { opens := fun _ n => if n = [0x62] then some (File.of bytes) else if n = [0x64] then some (File.of (encode startDump)) else none } } }

theorem huge_image {bytes : Str} (hlen : bytes.length = 2 ^ 32 + 3) (h3 : bytes.take 3 = [7, 7, 7]) :
    ∃ q, startUp argsBin (progRaw bytes) = .ok () q ∧
      HoldsBlocks q.host.mem [(0x100, [7, 7, 7])] ∧ IMemory.read .w8 0x103 q.host.mem = .throw ⟨.busError, []⟩ q.host.mem := by
  have htake : (File.of bytes).bytes.take (File.of bytes).tell.toNat = bytes := by simp [File.of]
  have hm : bytes.length % 2 ^ 32 = 3 := by rw [hlen]
  have w1 : imageWork (chosen optsBin (progRaw bytes)) (File.of bytes) (emptySim (progRaw bytes)) =
      .ok () { bumpHeap (emptySim (progRaw bytes)) 3 3 with regions := [(0x100, [7, 7, 7])].map Elf.romRegion } := by
    unfold imageWork
    rw [chosen_elf, chosen_base, htake]
    have := binWork_any (s := emptySim (progRaw bytes)) (base := 0x100) (bytes := bytes) (sound_init _) (fun _ => rfl) rfl
      (by rw [hm]; decide) (by rw [hm]; decide)
    rw [hm, h3] at this
    simp only [optsBin, lastElf, lastBin]
    exact this
  obtain ⟨q, k1, k2, -, -, -, k6, -⟩ := start_loads_of (p := progRaw bytes) (os := optsBin) (n := [0x62]) (d := [0x64]) (bytes := bytes)
    (text := encode startDump) (df := startDump) rfl rfl (fun _ => rfl) (fun _ => rfl) (blocks := [(0x100, [7, 7, 7])]) (by decide) w1 rfl rfl
    (fun _ => rfl) (.inl rfl) startDump_wf (disjoint_ranges (by decide)) (by unfold Fits; decide) (fun _ => rfl)
  refine ⟨q, by rw [startUp_full spelledBin rfl rfl]; exact k1.symm ▸ rfl, fun r hr => k2 r (List.mem_append_left _ hr), ?_⟩
  have hu : ¬ Mapped q.host.mem 0x103 Width.w8.bytes := by
    unfold Mapped
    rw [k6]
    decide +kernel
  rw [read_eq, readN_unmapped hu]

/-- C55 does not extend to files of more than 4 GiB: their size is cut to 32 bits. This file of 4 GiB and three bytes is
accepted although it runs past the end of the address space, and just its first three bytes are readable: the read of
the fourth one fails. -/
theorem C55_huge_image_witness : ∃ bytes q, bytes.length = 2 ^ 32 + 3 ∧ startUp argsBin (progRaw bytes) = .ok () q ∧
    HoldsBlocks q.host.mem [(0x100, [7, 7, 7])] ∧ IMemory.read .w8 0x103 q.host.mem = .throw ⟨.busError, []⟩ q.host.mem := by
  have hlen : (List.replicate (2 ^ 32 + 3) (7 : U8)).length = 2 ^ 32 + 3 := List.length_replicate
  obtain ⟨q, h⟩ := huge_image hlen (by rw [List.take_replicate]; rfl)
  exact ⟨_, q, hlen, h⟩

/-! ### C56 -/

/-- C56. However start-up ends, no file it opened is still open. -/
theorem C56_files_closed {args : List Str} {p q : Prog} (h : Ends (startUp args p) q) : q.host.files.live = p.host.files.live := by
  rcases h with ⟨a, h⟩ | ⟨e, h⟩
  · obtain ⟨os, n, d, f, s1, s2, -, -, -, -, -, -, k, -⟩ := startUp_ok h
    exact k.live
  · exact (C50_failed_start_up h).2.2.1

example : (∃ q, Ends (startUp argsElf progExample) q) ∧ ∃ q, Ends (startUp argsElf progNoDump) q := by
  obtain ⟨q, h, -⟩ := startElf
  obtain ⟨e, q', h', -⟩ := progNoDump_fails
  exact ⟨⟨q, .inl ⟨_, h⟩⟩, ⟨q', .inr ⟨_, h'⟩⟩⟩

/-! ### C70 -/

/-- C70. `GetFileSize` returns what `ftell` reports at the end of the file and leaves the position at the start. If any
of the three calls fails (`ftell` by a negative result), it raises `fileException`. -/
theorem C70_file_size (h : Handle) :
    (h.file.seekEndFails = false ∧ 0 ≤ h.file.tell ∧ h.file.seekSetFails = false → getFileSize h = .ok h.file.tell { h with pos := 0 }) ∧
    (h.file.seekEndFails = true ∨ h.file.tell < 0 ∨ h.file.seekSetFails = true → ∃ h', getFileSize h = .throw ⟨.file, []⟩ h') := by
  rw [getFileSize_eq]
  constructor
  · rintro ⟨h1, h2, h3⟩
    rw [h1, h3]
    simp only [Bool.false_eq_true, if_false]
    rw [if_neg (by omega)]
  · intro h1
    by_cases c1 : h.file.seekEndFails = true
    · exact ⟨_, by rw [if_pos c1]⟩
    · rw [if_neg c1]
      by_cases c2 : h.file.tell < 0
      · exact ⟨_, by rw [if_pos c2]⟩
      · rw [if_neg c2]
        by_cases c3 : h.file.seekSetFails = true
        · exact ⟨_, by rw [if_pos c3]⟩
        · rcases h1 with h1 | h1 | h1 <;> contradiction

/-- C70. For an ordinary file that is its length, wherever the position was. -/
theorem C70_length (bytes : Str) (k : Int) :
    getFileSize { file := File.of bytes, pos := k } = .ok bytes.length { file := File.of bytes, pos := 0 } :=
  (C70_file_size { file := File.of bytes, pos := k }).1 ⟨rfl, by simp [File.of], rfl⟩

example : ∃ h : Handle, h.file.tell < 0 ∧ h.file.seekEndFails = false := ⟨{ file := { bytes := [], tell := -1 } }, by decide⟩

/-! ### C71 -/

/-- C71. Start-up has a defined outcome for all argument vectors, contents of files, failures of the file system and of the
heap. The exception: an ELF file in which something wraps around, see `NoWraps`. -/
theorem C71_defined_partial (args : List Str) (p : Prog)
    (he : ∀ os name, Spelled args os → lastElf os = some name → NoWraps (nextContents p.host name)) :
    Defined (startUp args p) startUpCodes := by
  cases o : startUp args p with
  | ok u q => exact .inl ⟨u, q, rfl⟩
  | throw e q =>
    refine .inr ⟨e, q, rfl, ?_⟩
    rcases startUp_throw o with ⟨os, h, -⟩ | ⟨os, n, d, q', -, -, -, -, -, -, -, h⟩
    · rw [h]; decide
    · exact List.mem_cons_of_mem _ h
  | ub r =>
    exfalso
    rcases startUp_split args p with ⟨os', m, h1⟩ | ⟨os, n, d, h, hn, hd, h2⟩
    · rw [h1] at o; cases o
    · rw [h2] at o
      have : memStages (aliases os) (withMemory (chosen os p)) = .ub r := by
        cases e : memStages (aliases os) (withMemory (chosen os p)) <;> rw [e] at o <;> first | cases o | rfl
        rfl
      obtain ⟨f, hf, hw, hu⟩ := memStages_ub (by rw [chosen_image]; exact hn) (by rw [chosen_dump]; exact hd) this
      cases hle : lastElf os with
      | none => exact bin_defined (by rw [chosen_elf]; exact hle) hw hu
      | some m =>
        have hm : m = n := by simpa [imageFile, hle] using hn
        subst hm
        exact elf_defined (p := chosen os p) (by rw [chosen_elf]; exact hle) hf hw (he os m h hle) hu

/-- C71. With `--bin` there is no exception. -/
theorem C71_defined_without_elf {args : List Str} (p : Prog) (h : ∀ os, Spelled args os → lastElf os = none) :
    Defined (startUp args p) startUpCodes :=
  C71_defined_partial args p fun os _ hs he => absurd he (by rw [h os hs]; simp)

example : (∀ os, Spelled argsBin os → lastElf os = none) ∧
    ∀ os name, Spelled argsElf os → lastElf os = some name → NoWraps (nextContents progExample.host name) := by
  constructor
  · intro os h
    cases spelled_unique h spelledBin
    rfl
  · intro os name h hl
    cases spelled_unique h spelledElf
    cases hl
    exact ⟨by decide +kernel, by decide +kernel⟩

/-- The file "e" is `elfWrap`. -/
def progWrap : Prog := { host := { mem := MemSim.init goodHeap, files := { opens := fun _ _ => some (File.of elfWrap) } } }

/-- C71 is false of the code without the exception. -/
theorem C71_wraparound_witness : startUp argsElf progWrap = .ub .outOfBounds := by
  rw [startUp_full spelledElf (n := [0x65]) (d := [0x64]) rfl rfl]
  have : loadImageFile (withMemory (chosen optsElf progWrap)) = .ub .outOfBounds := by
    rcases loadImageFile_cases (p := withMemory (chosen optsElf progWrap)) (name := [0x65]) rfl (.inl rfl) with ⟨e, k, h1, h2, h3⟩ | ⟨f, h1, h2, h3⟩
    · exact (h3 (File.of elfWrap) rfl (whole_of _) (fun _ => rfl)).elim
    · cases h1
      rw [h3]
      have : imageWork (withMemory (chosen optsElf progWrap)) (File.of elfWrap) (bumpHeap (withMemory (chosen optsElf progWrap)).host.mem 1 1) =
          .ub .outOfBounds := by
        have := elfWrap_ub (s := bumpHeap (withMemory (chosen optsElf progWrap)).host.mem 1 1) rfl (fun _ => rfl)
        unfold imageWork
        simp only [File.of, Int.toNat_natCast, List.take_length]
        exact this
      rw [this]
  unfold memStages
  rw [M.bind_ub this]
  rfl

end Verif.Props
