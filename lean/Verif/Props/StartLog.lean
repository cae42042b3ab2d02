import Verif.Props.CommandLine
import Verif.Props.AnyLog
import Verif.Lemmas.GdbDump
/-
C86: start-up with a GDB log as the dump. C88: a log and a dump of the same crash give the same state.
-/
namespace Verif.Props
open Verif MemSim Spec CommandLine Elf

/-- The image stage of start-up with a valid image. -/
theorem image_stage {os : List Opt} {p : Prog} {n bytes : Str} {blks : List (U32 × List U8)}
    (hn : imageFile os = some n) (hi : OnDisk p.host n bytes) (hb : ImageBlocks os bytes blks) (hf : ∀ r ∈ blks, Fits r)
    (hdj : Spec.Disjoint blks) (hp : PlentyOfMemory p.host.mem) :
    (∀ r ∈ blks, r.2.length < 2 ^ 32) ∧
    ∃ s1, loadImageFile (withMemory (chosen os p)) = .ok () (atMem (withMemory (chosen os p)) (bumpHeap s1 0 (-1))) ∧
      s1.regions = blks.map romRegion ∧ s1.hits = 0 ∧ PlentyOfMemory s1 ∧ Sound s1 := by
  obtain ⟨hlt, s1, w1, w2, w3, w4⟩ := image_loads (os := os) (p := p) hp hb hf hdj
  refine ⟨hlt, s1, ?_, w2, w3, w4, ?_⟩
  · have hin : imageName (withMemory (chosen os p)) = some n := (chosen_image os p).trans hn
    rcases loadImageFile_cases (p := withMemory (chosen os p)) rfl (imageName_split hin) with ⟨e, k, h1, h2, h3⟩ | ⟨f, h1, h2, h3⟩
    · exact (h3 (File.of bytes) (hi _) (whole_of bytes) hp).elim
    · have : f = File.of bytes := Option.some.inj (h1.symm.trans (hi _))
      subst this
      have he : imageWork (withMemory (chosen os p)) (File.of bytes) (bumpHeap (withMemory (chosen os p)).host.mem 1 1) = .ok () s1 := w1
      rw [h3, he]
  · intro r hr
    rw [w2] at hr
    obtain ⟨b, hb', rfl⟩ := List.mem_map.1 hr
    exact rom_ok (hlt b hb')

theorem flags_eq {f g : U32} {b : Bool} (h0 : g = 0) (k1 : f.getLsbD 0 = true ↔ g.getLsbD 0 = true ∨ b = true)
    (k2 : ∀ i, 0 < i → f.getLsbD i = g.getLsbD i) : f = if b then 1 else 0 := by
  subst h0
  apply BitVec.eq_of_getLsbD_eq
  intro i hi
  cases i with
  | zero =>
    cases b with
    | true => rw [k1.2 (.inr rfl)]; rfl
    | false =>
      cases hx : f.getLsbD 0 with
      | false => rfl
      | true => rcases k1.1 hx with h | h <;> simp at h
  | succ i =>
    rw [k2 (i + 1) (by omega)]
    cases b <;> simp

/-- The stages of start-up with a valid image and any log. -/
theorem start_any_log {os : List Opt} {p : Prog} {n d bytes text : Str} {blks : List (U32 × List U8)} {ms : List Meaning}
    (hn : imageFile os = some n) (hd : lastDump os = some d)
    (hi : OnDisk p.host n bytes) (ht : OnDisk p.host d text) (hb : ImageBlocks os bytes blks)
    (hm : LogTakenFor text ms) (h1 : ¬ [0x63, 0x43] <+: text) (h2 : ¬ asc "6343" <+: text)
    (hf : ∀ r ∈ blks ++ blocks (runs (memoryIn ms)), Fits r) (hdj : Spec.Disjoint (blks ++ blocks (runs (memoryIn ms))))
    (hl : ∀ r ∈ runs (memoryIn ms), 4 * r.2.length < 2 ^ 32) (hp : PlentyOfMemory p.host.mem) :
    ∃ q, (memStages [] (withMemory (chosen os p)) = .ok () q ∧
        q.host.mem.regions = blks.map romRegion ++ Dump.loadMem [] (blocks (runs (memoryIn ms))) ∧ Sound q.host.mem ∧ PlentyOfMemory q.host.mem ∧
        (∀ r ∈ blks, r.2.length < 2 ^ 32) ∧ (∀ r ∈ blocks (runs (memoryIn ms)), r.2.length < 2 ^ 32) ∧ q.host.mem.hits < 2 ^ 31 ∧
        RegsWF q.host.ctx) ∧
      q.memory = true ∧ HoldsBlocks q.host.mem (blks ++ blocks (runs (memoryIn ms))) ∧
      RefusesWrites q.host.mem blks ∧ HoldsWords q.host.mem (memoryIn ms) ∧ HoldsBytes q.host.mem (blocks (memoryIn ms)) ∧
      (∀ r : Reg, r.get q.host.ctx = some ((registerIn ms r).getD (if r = .core 17 ∨ r = .core 18 then 0xBAADBAAD else 0))) ∧
      q.host.ctx.flags = (if floatIn ms then 1 else 0) ∧ q.host.ctx.psr = 0 := by
  obtain ⟨hlt, s1, e1, w2, w3, w4, hso1⟩ := image_stage (os := os) (p := p) hn hi hb (fun r hr => hf r (List.mem_append_left _ hr)) (disjoint_left hdj) hp
  have hfree : Free s1 (blocks (runs (memoryIn ms))) := free_beside hdj hf w2 hlt
  let p1 := atMem (withMemory (chosen os p)) (bumpHeap s1 0 (-1))
  have hr1 : Ready (peeked p1.host) := ⟨Spec.Sound.congr hso1 rfl, w4, ⟨rfl, rfl⟩, by show s1.hits < 2 ^ 31; rw [w3]; decide⟩
  have hn1 : NextLog (peeked p1.host) d text := ⟨_, ht _, rfl, rfl⟩
  have hne : ∀ m ∈ memoryIn ms, m.2 ≠ [] := GdbLog.memoryIn_ne hm
  have hw : WholeWords (memoryIn ms) := GdbLog.whole_of_disjoint hne (fun r hr => by
    have := hf (GdbLog.blk r) (List.mem_append_right _ (List.mem_map_of_mem hr))
    simpa [Fits, GdbLog.RunFits, GdbLog.blk, GdbLog.wordBytes_length] using this) (disjoint_right hdj)
  have hl' : GdbLog.LoadOK (peeked p1.host).mem (GdbLog.memOf (GdbLog.results text)) := by
    rw [GdbLog.memoryIn_taken hm]
    exact .of_free hne hl hfree hw
  obtain ⟨h', e2, hg⟩ := GdbLog.gdb_loads hr1 hn1 hl'
  have hsp := hg.split
  rw [GdbLog.memoryIn_taken hm] at hl' hsp
  have hdump : loadDumpFile p1 = .ok () { p1 with host := h' } := by
    rw [loadDumpFile_some (p := p1) ((chosen_dump os p).trans hd) (ht _), if_neg (by exact h1), if_neg (by exact h2), onMemory_apply rfl]
    simp only [e2]
  have hun1 : Unwatched (peeked p1.host).mem := by
    refine ⟨fun r hr => ?_, by show s1.hits < 2 ^ 31; rw [w3]; decide⟩
    have hr : r ∈ s1.regions := hr
    rw [w2] at hr
    obtain ⟨b, -, rfl⟩ := List.mem_map.1 hr
    rfl
  have hreg : h'.mem.regions = blks.map romRegion ++ GdbLog.pokeLines ((runs (memoryIn ms)).map GdbLog.reg) (memoryIn ms) := by
    rw [hsp.regions]; exact congrArg (· ++ _) w2
  have hrom := rom_access_more (Dump.sound_append hsp) hsp.hits hreg (disjoint_left hdj) hlt
  have hwf : RegsWF (peeked p1.host).ctx := ⟨rfl, rfl⟩
  have hlen : ∀ r ∈ blocks (runs (memoryIn ms)), r.2.length < 2 ^ 32 := by
    intro r hr
    obtain ⟨m, hm, rfl⟩ := List.mem_map.1 hr
    simpa [GdbLog.blk, GdbLog.wordBytes_length] using hl m hm
  have hram : HoldsBlocks h'.mem (blocks (runs (memoryIn ms))) := by
    have hsp' := hsp
    rw [GdbLog.same_regions hl' (disjoint_right hdj)] at hsp'
    exact Dump.holds_blocks hsp' (disjoint_right hdj) hfree hlen
  refine ⟨{ p1 with host := h' }, ?_, rfl, fun r hr => (List.mem_append.1 hr).elim (hrom.1 r) (hram r), hrom.2, hl'.holds hsp, fun a b hb => hl'.bytes hsp hfree hb, fun r => ?_, ?_, ?_⟩
  · refine ⟨?_, ?_, Dump.sound_append hsp, ?_, hlt, hlen, hsp.hits, ?_⟩
    · unfold memStages
      rw [M.bind_ok e1, M.bind_ok hdump]
      rfl
    · rw [GdbLog.same_regions hl' (disjoint_right hdj)] at hreg
      exact hreg
    · intro k
      show h'.mem.heap.fails k = false
      rw [hg.heap]
      exact w4 k
    · show RegsWF h'.ctx
      rw [hg.ctx]
      exact (GdbLog.ctx_kept GdbLog.results_valid (GdbLog.startCtx_wf hr1.regs)).1
  · have := (C109_registers hr1.sound hun1 hwf (ht _) hm (.inl e2)).1 r
    rw [this]
    cases registerIn ms r with
    | some v => rfl
    | none =>
      simp only [Option.getD_none]
      by_cases hr : r = .core 17 ∨ r = .core 18
      · rw [if_pos hr, if_pos hr]
      · rw [if_neg hr, if_neg hr]
        cases r with
        | core i => show (List.replicate 19 (0 : U32))[i.val]? = _; rw [List.getElem?_replicate, if_pos i.isLt]
        | float i => show (List.replicate 33 (0 : U32))[i.val]? = _; rw [List.getElem?_replicate, if_pos i.isLt]
  · rw [show ({ p1 with host := h' } : Prog).host.ctx.flags = _ from (C109_registers hr1.sound hun1 hwf (ht _) hm (.inl e2)).2]
    rw [show (peeked p1.host).ctx.flags = 0 from rfl]
    cases floatIn ms <;> decide
  · show h'.ctx.psr = 0
    rw [hg.ctx]
    exact (GdbLog.ctx_kept GdbLog.results_valid (GdbLog.startCtx_wf hr1.regs)).2.1

/-- The stages of start-up with a valid image and a well-formed log. -/
theorem start_log {os : List Opt} {p : Prog} {n d bytes : Str} {blks : List (U32 × List U8)} {ls : List LogLine}
    (hn : imageFile os = some n) (hd : lastDump os = some d)
    (hi : OnDisk p.host n bytes) (ht : OnDisk p.host d (logText ls)) (hb : ImageBlocks os bytes blks)
    (ho : LogOK ls) (hsh : ∀ l ∈ ls, ¬ Short l) (h1 : ¬ [0x63, 0x43] <+: logText ls) (h2 : ¬ asc "6343" <+: logText ls)
    (hf : ∀ r ∈ blks ++ blocks (runs (shown ls)), Fits r) (hdj : Spec.Disjoint (blks ++ blocks (runs (shown ls))))
    (hl : ∀ r ∈ runs (shown ls), 4 * r.2.length < 2 ^ 32) (hp : PlentyOfMemory p.host.mem) :
    ∃ q, (memStages [] (withMemory (chosen os p)) = .ok () q ∧
        q.host.mem.regions = blks.map romRegion ++ Dump.loadMem [] (blocks (runs (shown ls))) ∧ Sound q.host.mem ∧ PlentyOfMemory q.host.mem ∧
        (∀ r ∈ blks, r.2.length < 2 ^ 32) ∧ (∀ r ∈ blocks (runs (shown ls)), r.2.length < 2 ^ 32) ∧ q.host.mem.hits < 2 ^ 31 ∧
        RegsWF q.host.ctx) ∧
      q.memory = true ∧ HoldsBlocks q.host.mem (blks ++ blocks (runs (shown ls))) ∧
      RefusesWrites q.host.mem blks ∧ HoldsWords q.host.mem (shown ls) ∧ HoldsBytes q.host.mem (blocks (shown ls)) ∧
      (∀ r : Reg, r.get q.host.ctx = some ((lastValue ls r).getD (if r = .core 17 ∨ r = .core 18 then 0xBAADBAAD else 0))) ∧
      q.host.ctx.flags = (if showsFloat ls then 1 else 0) ∧ q.host.ctx.psr = 0 := by
  obtain ⟨ms, hm⟩ := GdbLog.log_exists (logText ls)
  obtain ⟨k1, k2⟩ := C109_well_formed ho hm
  have e := (k1.trans (contributed_eq hsh)).symm
  have hfl := C109_float ho hm
  rw [e] at hf hdj hl ⊢
  obtain ⟨q, h⟩ := start_any_log hn hd hi ht hb hm h1 h2 hf hdj hl hp
  refine ⟨q, ?_⟩
  rw [hfl] at h
  simp only [k2] at h
  exact h

/-- C86. Start-up with a valid image and a well-formed log succeeds. Afterwards the image reads as in its file and no write
changes it, every access inside the memory the log shows gives the words shown, and each register has the value the log shows
last for it; registers the log does not show are 0, MSP and PSP 0xBAADBAAD. The floating point flag is set if and only if
the log shows one of s0 to s31; the PSR of the exception, which logs do not have, is 0. -/
theorem C86_start_up_loads_log {args : List Str} {os : List Opt} {p : Prog} {n d bytes : Str} {blks : List (U32 × List U8)} {ls : List LogLine}
    (hs : Spelled args os) (ha : aliases os = []) (hn : imageFile os = some n) (hd : lastDump os = some d)
    (hi : OnDisk p.host n bytes) (ht : OnDisk p.host d (logText ls)) (hb : ImageBlocks os bytes blks)
    (ho : LogOK ls) (hsh : ∀ l ∈ ls, ¬ Short l) (h1 : ¬ [0x63, 0x43] <+: logText ls) (h2 : ¬ asc "6343" <+: logText ls)
    (hf : ∀ r ∈ blks ++ blocks (runs (shown ls)), Fits r) (hdj : Spec.Disjoint (blks ++ blocks (runs (shown ls))))
    (hl : ∀ r ∈ runs (shown ls), 4 * r.2.length < 2 ^ 32) (hp : PlentyOfMemory p.host.mem) :
    ∃ q, startUp args p = .ok () q ∧ q.memory = true ∧ HoldsBlocks q.host.mem (blks ++ blocks (runs (shown ls))) ∧
      RefusesWrites q.host.mem blks ∧ HoldsWords q.host.mem (shown ls) ∧ HoldsBytes q.host.mem (blocks (shown ls)) ∧
      (∀ r : Reg, r.get q.host.ctx = some ((lastValue ls r).getD (if r = .core 17 ∨ r = .core 18 then 0xBAADBAAD else 0))) ∧
      q.host.ctx.flags = (if showsFloat ls then 1 else 0) ∧ q.host.ctx.psr = 0 := by
  obtain ⟨q, ⟨e, -⟩, h⟩ := start_log hn hd hi ht hb ho hsh h1 h2 hf hdj hl hp
  refine ⟨q, ?_, h⟩
  rw [startUp_full hs hn hd, ha, e]
  rfl

/-- C86. Start-up with a valid image and any log succeeds. Afterwards the image reads as in its file and no write
changes it, every access inside the memory the log shows gives the words shown, and each register has the value the log shows
last for it; registers the log does not show are 0, MSP and PSP 0xBAADBAAD. The floating point flag is set if and only if
the log shows one of s0 to s31; the PSR of the exception, which logs do not have, is 0. -/
theorem C86_any_log {args : List Str} {os : List Opt} {p : Prog} {n d bytes text : Str} {blks : List (U32 × List U8)} {ms : List Meaning}
    (hs : Spelled args os) (ha : aliases os = []) (hn : imageFile os = some n) (hd : lastDump os = some d)
    (hi : OnDisk p.host n bytes) (ht : OnDisk p.host d text) (hb : ImageBlocks os bytes blks)
    (hm : LogTakenFor text ms) (h1 : ¬ [0x63, 0x43] <+: text) (h2 : ¬ asc "6343" <+: text)
    (hf : ∀ r ∈ blks ++ blocks (runs (memoryIn ms)), Fits r) (hdj : Spec.Disjoint (blks ++ blocks (runs (memoryIn ms))))
    (hl : ∀ r ∈ runs (memoryIn ms), 4 * r.2.length < 2 ^ 32) (hp : PlentyOfMemory p.host.mem) :
    ∃ q, startUp args p = .ok () q ∧ q.memory = true ∧ HoldsBlocks q.host.mem (blks ++ blocks (runs (memoryIn ms))) ∧
      RefusesWrites q.host.mem blks ∧ HoldsWords q.host.mem (memoryIn ms) ∧ HoldsBytes q.host.mem (blocks (memoryIn ms)) ∧
      (∀ r : Reg, r.get q.host.ctx = some ((registerIn ms r).getD (if r = .core 17 ∨ r = .core 18 then 0xBAADBAAD else 0))) ∧
      q.host.ctx.flags = (if floatIn ms then 1 else 0) ∧ q.host.ctx.psr = 0 := by
  obtain ⟨q, ⟨e, -⟩, h⟩ := start_any_log hn hd hi ht hb hm h1 h2 hf hdj hl hp
  refine ⟨q, ?_, h⟩
  rw [startUp_full hs hn hd, ha, e]
  rfl

/-- `argsBin` with `gdbExample` as the dump. -/
def progLog : Prog :=
  { progExample with host := { progExample.host with
      files := { opens := fun _ n => ([([0x62], [1, 2, 3, 4, 5, 6]), ([0x64], logText gdbExample)].lookup n).map File.of } } }

example : ∃ q, startUp argsBin progLog = .ok () q ∧ (Reg.core 15).get q.host.ctx = some 0x30000000 ∧ q.host.ctx.flags = 1 ∧
    HoldsBlocks q.host.mem ([(0x100, [1, 2, 3, 4, 5, 6])] ++ blocks (runs (shown gdbExample))) := by
  have hr := gdbExample_runs
  obtain ⟨q, h1, -, h2, -, -, -, h3, h4, -⟩ := C86_start_up_loads_log (p := progLog) (n := [0x62]) (d := [0x64]) (bytes := [1, 2, 3, 4, 5, 6])
    (blks := [(0x100, [1, 2, 3, 4, 5, 6])]) (ls := gdbExample) spelledBin rfl rfl rfl (fun _ => rfl) (fun _ => rfl)
    ⟨by simp, by decide, by decide +kernel⟩ gdbExample_ok gdbExample_notShort (by decide +kernel) (by decide +kernel)
    (by rw [hr]; unfold Fits; decide) (by rw [hr]; exact disjoint_ranges (by decide)) (by rw [hr]; decide) (fun _ => rfl)
  refine ⟨q, h1, ?_, ?_, h2⟩
  · rw [h3]; decide +kernel
  · rw [h4]; decide +kernel

/-- `argsBin` with `oddLog` as the dump. -/
def progOdd : Prog :=
  { progExample with host := { progExample.host with
      files := { opens := fun _ n => ([([0x62], [1, 2, 3, 4, 5, 6]), ([0x64], oddLog)].lookup n).map File.of } } }

example : ∃ q, startUp argsBin progOdd = .ok () q ∧ (Reg.core 5).get q.host.ctx = some 0x12 ∧ q.host.ctx.flags = 1 ∧
    HoldsBlocks q.host.mem ([(0x100, [1, 2, 3, 4, 5, 6])] ++ blocks (runs (memoryIn oddMeanings))) := by
  have hr := oddLog_runs
  obtain ⟨q, h1, -, h2, -, -, -, h3, h4, -⟩ := C86_any_log (p := progOdd) (n := [0x62]) (d := [0x64]) (bytes := [1, 2, 3, 4, 5, 6])
    (blks := [(0x100, [1, 2, 3, 4, 5, 6])]) spelledBin rfl rfl rfl (fun _ => rfl) (fun _ => rfl)
    ⟨by simp, by decide, by decide +kernel⟩ oddLog_taken (by decide +kernel) (by decide +kernel)
    (by rw [hr]; unfold Fits; decide) (by rw [hr]; exact disjoint_ranges (by decide)) (by rw [hr]; decide) (fun _ => rfl)
  refine ⟨q, h1, ?_, ?_, h2⟩
  · rw [h3]; decide +kernel
  · rw [h4]; decide +kernel

/-! ### C88 -/

theorem noFloat_none {ls : List LogLine} {r : Reg} (h : showsFloat ls = false) (hr : r.isFloat = true) : lastValue ls r = none := by
  unfold lastValue
  rw [List.getLast?_eq_none_iff, List.filterMap_eq_nil_iff]
  intro l hl
  have := List.any_eq_false.1 h l hl
  cases hs : l.says with
  | register q v =>
    rw [hs] at this
    simp only
    split
    · rename_i hq; subst hq; exact absurd hr this
    · rfl
  | _ => rfl

/-- C88. A well-formed log and a dump of the same crash leave the same memory and the same registers, apart from the PSR
of the exception, which logs do not have. -/
theorem C88_log_and_dump_agree {h : Host} {name name' : Str} {ls : List LogLine} {df : DumpFile} (hr : Ready h) (hc : h.ctx = {})
    (hn : NextLog h name (logText ls)) (hn' : NextFile h name' (encode df)) (ho : LogOK ls) (hsh : ∀ l ∈ ls, ¬ Short l)
    (hwf : df.WF) (hs : SameCrash ls df) (hf : Free h.mem df.mem) (hdj : Spec.Disjoint df.mem) :
    ∃ h1 h2, GdbLog.parse name h = .ok () h1 ∧ Dump.readBinary name' h = .ok () h2 ∧ h1.mem.regions = h2.mem.regions ∧
      h2.ctx = { h1.ctx with psr := df.psr } := by
  have hm := hs.mem
  obtain ⟨h2, e2, c2, l2⟩ := Dump.dump_loads hr hn' hwf hf
  rw [hm] at hf hdj
  have hne : ∀ m ∈ shown ls, m.2 ≠ [] := contributed_eq hsh ▸ contributed_ne ho
  have hl : ∀ r ∈ runs (shown ls), 4 * r.2.length < 2 ^ 32 := by
    intro r hr
    have := hwf.mem (GdbLog.blk r) (by rw [hm]; exact List.mem_map_of_mem hr)
    simpa [GdbLog.blk, GdbLog.wordBytes_length] using this
  have hw : WholeWords (shown ls) := GdbLog.whole_of_disjoint hne (fun r hr => by
    have := (hf (GdbLog.blk r) (List.mem_map_of_mem hr)).1
    simpa [Fits, GdbLog.RunFits, GdbLog.blk, GdbLog.wordBytes_length] using this) hdj
  have hl' : GdbLog.LoadOK h.mem (GdbLog.memOf (GdbLog.results (logText ls))) := by
    rw [GdbLog.results_log ho, GdbLog.memOf_log, contributed_eq hsh]
    exact .of_free hne hl hf hw
  obtain ⟨h1, e1, hg⟩ := GdbLog.gdb_loads hr hn hl'
  have hsp := hg.split
  rw [GdbLog.results_log ho, GdbLog.memOf_log, contributed_eq hsh] at hl' hsp
  refine ⟨h1, h2, e1, e2, ?_, ?_⟩
  · rw [hsp.regions, l2.split.regions, hm, GdbLog.same_regions hl' hdj]
  · have hregs : ∀ r : Reg, r.get h1.ctx = match lastValue ls r with
        | some v => some v
        | none => if r = .core 17 ∨ r = .core 18 then some 0xBAADBAAD else r.get h.ctx := by
      intro r
      rw [hg.ctx, GdbLog.results_log ho, GdbLog.get_lines (GdbLog.startCtx_wf hr.regs), GdbLog.get_start hr.regs]
      cases lastValue ls r <;> rfl
    have hwf1 : RegsWF h1.ctx := by
      rw [hg.ctx]
      exact (GdbLog.ctx_kept GdbLog.results_valid (GdbLog.startCtx_wf hr.regs)).1
    have hfl : h1.ctx.flags = if showsFloat ls then 1 else 0 := by
      rw [hg.ctx, GdbLog.results_log ho, GdbLog.flags_lines, show (GdbLog.startCtx h.ctx).flags = 0 by rw [hc]; rfl]
      rfl
    have e3 : h1.ctx.r = df.regs := by
      refine List.ext_getElem? fun i => ?_
      by_cases hi : i < 19
      · have := hregs (.core ⟨i, hi⟩)
        rw [hc] at this
        rw [show h1.ctx.r[i]? = (Reg.core ⟨i, hi⟩).get h1.ctx from rfl, this, hs.core ⟨i, hi⟩]
        cases lastValue ls (.core ⟨i, hi⟩) with
        | some v => rfl
        | none =>
          simp only [Option.getD_none, Reg.core.injEq]
          by_cases hk : (⟨i, hi⟩ : Fin 19) = 17 ∨ (⟨i, hi⟩ : Fin 19) = 18
          · rw [if_pos hk, if_pos hk]
          · rw [if_neg hk, if_neg hk]
            show (List.replicate 19 (0 : U32))[i]? = _
            rw [List.getElem?_replicate, if_pos hi]
      · have k1 := hwf1.1
        have k2 := hwf.regs
        rw [hs.v3] at k2
        rw [List.getElem?_eq_none (by omega), List.getElem?_eq_none (by simp at k2; omega)]
    have e4 : h1.ctx.fpr = if hasFloat df.flags then df.fpr else h.ctx.fpr := by
      refine List.ext_getElem? fun i => ?_
      have k1 := hwf1.2
      by_cases hi : i < 33
      · have := hregs (.float ⟨i, hi⟩)
        rw [show h1.ctx.fpr[i]? = (Reg.float ⟨i, hi⟩).get h1.ctx from rfl, this, hs.flags, hc]
        cases hsf : showsFloat ls with
        | true =>
          have := hs.float hsf ⟨i, hi⟩
          rw [show (if hasFloat (if true = true then (1 : U32) else 0) = true then df.fpr else ({} : Regs).fpr) = df.fpr from rfl,
            show df.fpr[i]? = _ from this]
          cases lastValue ls (.float ⟨i, hi⟩) with
          | some v => rfl
          | none =>
            rw [if_neg (by simp)]
            show (List.replicate 33 (0 : U32))[i]? = _
            rw [List.getElem?_replicate, if_pos hi]; rfl
        | false =>
          have hnone : lastValue ls (.float ⟨i, hi⟩) = none := by
            by_cases h32 : i = 32
            · subst h32; exact hs.fpscr hsf
            · exact noFloat_none hsf (by simp [Reg.isFloat]; omega)
          rw [hnone]
          simp
          rfl
      · rw [List.getElem?_eq_none (by omega)]
        have k2 := hwf.fpr
        split
        · rename_i hh; rw [if_pos hh] at k2; rw [List.getElem?_eq_none (by omega)]
        · rw [hc, List.getElem?_eq_none (by simp; omega)]
    rw [c2]
    unfold loadedRegs
    simp only [hs.v3, hfl, e3, e4, hs.flags]
    rfl

/-- The crash of `gdbExample` as a dump. -/
def gdbDump : DumpFile :=
  { v2 := false, flags := 1, regs := List.replicate 15 0 ++ [0x30000000, 0, 0xBAADBAAD, 0xBAADBAAD], psr := 3,
    fpr := 0x3fc00000 :: List.replicate 32 0, mem := blocks (runs (shown gdbExample)) }

theorem gdbDump_same : SameCrash gdbExample gdbDump :=
  ⟨rfl, rfl, by decide +kernel, by decide +kernel, by decide +kernel, by decide +kernel⟩

/-- A simulator without regions, and both files. -/
def hostBoth : Host :=
  { hostWith [] with ctx := {}, files := { opens := fun _ n => if n = [0x67] then some (File.of (logText gdbExample)) else some (File.of (encode gdbDump)) } }

example : ∃ h1 h2, GdbLog.parse [0x67] hostBoth = .ok () h1 ∧ Dump.readBinary [0x64] hostBoth = .ok () h2 ∧
    h1.mem.regions = h2.mem.regions ∧ h2.ctx = { h1.ctx with psr := 3 } := by
  have hr := gdbExample_runs
  refine C88_log_and_dump_agree (ls := gdbExample) (df := gdbDump) ?_ rfl ⟨_, rfl, rfl, rfl⟩ ⟨_, rfl, rfl⟩ gdbExample_ok gdbExample_notShort ?_
    gdbDump_same (gdbExample_free []) ?_
  · exact ⟨(hostWith_ready []).sound, (hostWith_ready []).heap, ⟨rfl, rfl⟩, (hostWith_ready []).hits⟩
  · exact ⟨by decide, by decide, by decide⟩
  · show Spec.Disjoint (blocks (runs (shown gdbExample)))
    rw [hr]; exact disjoint_ranges (by decide)

end Verif.Props
