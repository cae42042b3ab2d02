import Verif.Lemmas.CmdAlias
import Verif.Props.StartLog
import Verif.Props.Cells
/-
C89: aliases given on the command line show the memory they lead to.
-/
namespace Verif.Props
open Verif MemSim Spec CommandLine Platform Main

/-- Start-up that adds aliases to loaded blocks. -/
theorem alias_state {args : List Str} {os : List Opt} {p q0 : Prog} {n d : Str} {blks mem shows : List (U32 × List U8)}
    (hs : Spelled args os) (hn : imageFile os = some n) (hd : lastDump os = some d)
    (e0 : memStages [] (withMemory (chosen os p)) = .ok () q0) (hmem : q0.memory = true)
    (hreg : q0.host.mem.regions = blks.map Elf.romRegion ++ Dump.loadMem [] mem) (hso : Sound q0.host.mem) (hp : PlentyOfMemory q0.host.mem)
    (hl1 : ∀ r ∈ blks, r.2.length < 2 ^ 32) (hl2 : ∀ r ∈ mem, r.2.length < 2 ^ 32) (hh : q0.host.mem.hits < 2 ^ 31)
    (hx : List.Forall₂ (AliasShows (blks ++ mem)) (aliases os) shows) (hdj : Spec.Disjoint (blks ++ mem ++ shows))
    (hf : ∀ r ∈ blks ++ mem ++ shows, Fits r) (hm : HoldsBlocks q0.host.mem (blks ++ mem)) (hw : RefusesWrites q0.host.mem blks) :
    ∃ s, startUp args p = .ok () (withMem q0 s) ∧ Sound s ∧ Unwatched s ∧ Laid s.regions (blks ++ mem ++ shows) ∧
      (∃ zs, s.regions = blks.map Elf.romRegion ++ Dump.loadMem [] mem ++ zs) ∧ HoldsBlocks s (blks ++ mem ++ shows) ∧ RefusesWrites s blks ∧
      (∀ x b, (x, b) ∈ (aliases os).zip shows → AliasShows blks x b → RefusesWrites s [b]) ∧
      ∀ x b, (x, b) ∈ (aliases os).zip shows → Leads s x b := by
  obtain ⟨hlaid, hplain⟩ := laid_loaded hl1 hl2
  rw [← hreg] at hlaid hplain
  obtain ⟨s, h1, ⟨h2, h3, h4, h4'⟩, h5, h6, h7⟩ := aliases_hold hx hso hp hlaid (fun r hr => (hplain r hr).1) hdj
    (fun r hr => hf r (List.mem_append_left _ hr)) hm
  obtain ⟨k1, k2⟩ := h6 blks (fun b hb => List.mem_append_left _ hb) hw
  refine ⟨s, ?_, h2, h3 ⟨fun r hr => (hplain r hr).2, hh⟩, h4, by rw [← hreg]; exact h4', h5, k1, k2, h7⟩
  have : memStages (aliases os) (withMemory (chosen os p)) = .ok () (withMem q0 s) := by
    unfold memStages at e0 ⊢
    rw [M.bind_apply] at e0 ⊢
    cases e1 : loadImageFile (withMemory (chosen os p)) with
    | ub r => rw [e1] at e0; cases e0
    | throw e r => rw [e1] at e0; cases e0
    | ok u q1 =>
      rw [e1] at e0
      simp only at e0 ⊢
      rw [M.bind_apply] at e0 ⊢
      cases e2 : loadDumpFile q1 with
      | ub r => rw [e2] at e0; cases e0
      | throw e r => rw [e2] at e0; cases e0
      | ok u q2 =>
        rw [e2] at e0
        cases e0
        simp only
        rw [addAliases_eq hmem, h1]
  rw [startUp_full hs hn hd, this]
  rfl

/-- What is known of an alias and what it shows. -/
theorem shows_of_zip {xs : List (U32 × U32 × U32)} {mem shows : List (U32 × List U8)} (hx : List.Forall₂ (AliasShows mem) xs shows)
    {x : U32 × U32 × U32} {b : U32 × List U8} (h : (x, b) ∈ xs.zip shows) : b ∈ shows ∧ AliasShows mem x b := by
  obtain ⟨k, hk, e⟩ := List.mem_iff_getElem.1 h
  rw [List.length_zip] at hk
  rw [List.getElem_zip] at e
  obtain ⟨x', ex, hsh⟩ := forall₂_get hx (k := k) (y := b) (by cases e; exact List.getElem?_eq_getElem _)
  have : x' = x := by
    cases e
    rw [List.getElem?_eq_getElem (by omega)] at ex
    exact (Option.some.inj ex).symm
  subst this
  exact ⟨by cases e; exact List.getElem_mem _, hsh⟩

/-- What start-up leaves when aliases are added to loaded blocks, and what a session sees of them. -/
theorem alias_start {args : List Str} {os : List Opt} {p q0 : Prog} {n d : Str} {blks mem shows : List (U32 × List U8)}
    (hs : Spelled args os) (hn : imageFile os = some n) (hd : lastDump os = some d)
    (e0 : memStages [] (withMemory (chosen os p)) = .ok () q0) (hmem : q0.memory = true)
    (hreg : q0.host.mem.regions = blks.map Elf.romRegion ++ Dump.loadMem [] mem) (hso : Sound q0.host.mem) (hp : PlentyOfMemory q0.host.mem)
    (hl1 : ∀ r ∈ blks, r.2.length < 2 ^ 32) (hl2 : ∀ r ∈ mem, r.2.length < 2 ^ 32) (hh : q0.host.mem.hits < 2 ^ 31) (hr : RegsWF q0.host.ctx)
    (hx : List.Forall₂ (AliasShows (blks ++ mem)) (aliases os) shows) (hdj : Spec.Disjoint (blks ++ mem ++ shows))
    (hf : ∀ r ∈ blks ++ mem ++ shows, Fits r) (hm : HoldsBlocks q0.host.mem (blks ++ mem)) (hw : RefusesWrites q0.host.mem blks) :
    ∃ q, startUp args p = .ok () q ∧ q.memory = true ∧ q.host.ctx = q0.host.ctx ∧ HoldsBlocks q.host.mem (blks ++ mem ++ shows) ∧
      RefusesWrites q.host.mem blks ∧
      (∀ x b, (x, b) ∈ (aliases os).zip shows → AliasShows blks x b → RefusesWrites q.host.mem [b]) ∧
      ∀ w cs pl, PHist (platform w q) cs pl → ∀ x b, (x, b) ∈ (aliases os).zip shows → SeesThrough pl x b := by
  obtain ⟨s, h1, h2, h3, h4, -, h5, k1, k2, h7⟩ := alias_state hs hn hd e0 hmem hreg hso hp hl1 hl2 hh hx hdj hf hm hw
  refine ⟨withMem q0 s, h1, hmem, rfl, h5, k1, k2, ?_⟩
  · intro w cs pl hh' x b hxb wd o ho
    have h0 : OK (platform w (withMem q0 s)) := ⟨h2, h3, hr⟩
    have hpl := hist_ok h0 hh'
    obtain ⟨hbm, r, hr', d1, d2, d3⟩ := shows_of_zip hx hxb
    have hfb : Fits b := hf b (List.mem_append_right _ hbm)
    have hfr : Fits r := hf r (List.mem_append_left _ hr')
    have hlb : b.2.length ≤ r.2.length - (x.2.2.toNat - r.1.toNat) := by
      rw [d3]; simp only [List.length_take, List.length_drop]; omega
    have hb1 : b.1 = x.1 := by rw [d3]
    unfold Fits at hfb hfr
    rw [hb1] at hfb
    have hpos := bytes_pos wd
    obtain ⟨i, t, off, t1, t2⟩ := h7 x b hxb o wd.bytes (x.1 + BitVec.ofNat 32 o) (x.2.2 + BitVec.ofNat 32 o) hpos ho
      (by simp only [BitVec.toNat_add, BitVec.toNat_ofNat]; omega) (by simp only [BitVec.toNat_add, BitVec.toNat_ofNat]; omega)
    have hsk : skeleton pl.mem = skeleton s := hist_skeleton h0 hh'
    obtain ⟨t', u1, v1, -⟩ := target_skeleton hsk t1
    obtain ⟨t'', u2, v2, -⟩ := target_skeleton hsk t2
    rw [v1] at v2
    cases v2
    constructor
    · have := same_target_read hpl.sound u1 u2
      cases e : IMemory.read wd (x.2.2 + BitVec.ofNat 32 o) pl.mem <;> rw [e] at this
      · rw [memRead_ok e, memRead_ok this]
      · rw [memRead_fault e, memRead_fault this]
      · rw [memRead_ub e, memRead_ub this]
    · intro v
      have := same_target_write hpl.sound u1 u2 (v := v)
      cases e : IMemory.write wd (x.2.2 + BitVec.ofNat 32 o) v pl.mem <;> rw [e] at this
      · rw [memWrite_ok e, memWrite_ok this]
      · rw [memWrite_fault e, memWrite_fault this]
      · rw [memWrite_ub e, memWrite_ub this]

/-- Loading a well-formed dump sets all registers. -/
theorem loadedRegs_wf {df : DumpFile} (hwf : df.WF) : RegsWF (loadedRegs df {}) := by
  have k1 := hwf.regs
  have k2 := hwf.fpr
  constructor
  · unfold loadedRegs
    cases hv : df.v2 <;> simp [hv] at k1 ⊢ <;> omega
  · unfold loadedRegs
    cases hv : hasFloat df.flags <;> simp [hv] at k2 ⊢
    omega

/-- C89. Start-up with a valid image, a valid dump (binary or hexadecimal) and `--alias` options that lead into the loaded blocks,
nothing overlapping, succeeds. Image, dumped memory and registers are as without the aliases. Each alias shows the bytes
it leads to; no write through an alias of the image changes anything. At every point of every session, whatever GDB has written,
reads and writes through an alias have the outcome of the same reads and writes of the memory it leads to. -/
theorem C89_aliases_of_dump {args : List Str} {os : List Opt} {p : Prog} {n d bytes text : Str} {blks shows : List (U32 × List U8)} {df : DumpFile}
    (hs : Spelled args os) (hn : imageFile os = some n) (hd : lastDump os = some d) (hi : OnDisk p.host n bytes) (ht : OnDisk p.host d text)
    (hb : ImageBlocks os bytes blks) (hdt : DumpText text df) (hwf : df.WF)
    (hx : List.Forall₂ (AliasShows (blks ++ df.mem)) (aliases os) shows) (hdj : Spec.Disjoint (blks ++ df.mem ++ shows))
    (hf : ∀ r ∈ blks ++ df.mem ++ shows, Fits r) (hp : PlentyOfMemory p.host.mem) :
    ∃ q, startUp args p = .ok () q ∧ q.memory = true ∧ q.host.ctx = loadedRegs df {} ∧ HoldsBlocks q.host.mem (blks ++ df.mem ++ shows) ∧
      RefusesWrites q.host.mem blks ∧
      (∀ x b, (x, b) ∈ (aliases os).zip shows → AliasShows blks x b → RefusesWrites q.host.mem [b]) ∧
      ∀ w cs pl, PHist (platform w q) cs pl → ∀ x b, (x, b) ∈ (aliases os).zip shows → SeesThrough pl x b := by
  have hdj0 := disjoint_left hdj
  have hf0 : ∀ r ∈ blks ++ df.mem, Fits r := fun r hr => hf r (List.mem_append_left _ hr)
  obtain ⟨hlt, s1, w1, w2, w3, w4⟩ := image_loads (os := os) (p := p) hp hb (fun r hr => hf0 r (List.mem_append_left _ hr)) (disjoint_left hdj0)
  obtain ⟨q0, h1, h2, h3, h4, h5, h6, h7, h8, h9⟩ := start_loads_of hn hd hi ht hlt w1 w2 w3 w4 hdt hwf hdj0 hf0 hp
  have hr : RegsWF q0.host.ctx := by
    rw [h4]
    exact loadedRegs_wf hwf
  have := alias_start hs hn hd h1 h5 h6 h7 h8 hlt hwf.mem h9 hr hx hdj hf h2 h3
  rw [h4] at this
  exact this

/-- C89, with a GDB log as the dump. -/
theorem C89_aliases_of_log {args : List Str} {os : List Opt} {p : Prog} {n d bytes : Str} {blks shows : List (U32 × List U8)} {ls : List LogLine}
    (hs : Spelled args os) (hn : imageFile os = some n) (hd : lastDump os = some d)
    (hi : OnDisk p.host n bytes) (ht : OnDisk p.host d (logText ls)) (hb : ImageBlocks os bytes blks)
    (ho : LogOK ls) (hsh : ∀ l ∈ ls, ¬ Short l) (h1 : ¬ [0x63, 0x43] <+: logText ls) (h2 : ¬ asc "6343" <+: logText ls)
    (hl : ∀ r ∈ runs (shown ls), 4 * r.2.length < 2 ^ 32)
    (hx : List.Forall₂ (AliasShows (blks ++ blocks (runs (shown ls)))) (aliases os) shows)
    (hdj : Spec.Disjoint (blks ++ blocks (runs (shown ls)) ++ shows))
    (hf : ∀ r ∈ blks ++ blocks (runs (shown ls)) ++ shows, Fits r) (hp : PlentyOfMemory p.host.mem) :
    ∃ q, startUp args p = .ok () q ∧ q.memory = true ∧
      ((∀ r : Reg, r.get q.host.ctx = some ((lastValue ls r).getD (if r = .core 17 ∨ r = .core 18 then 0xBAADBAAD else 0))) ∧
        q.host.ctx.flags = (if showsFloat ls then 1 else 0)) ∧
      HoldsBlocks q.host.mem (blks ++ blocks (runs (shown ls)) ++ shows) ∧ RefusesWrites q.host.mem blks ∧
      (∀ x b, (x, b) ∈ (aliases os).zip shows → AliasShows blks x b → RefusesWrites q.host.mem [b]) ∧
      ∀ w cs pl, PHist (platform w q) cs pl → ∀ x b, (x, b) ∈ (aliases os).zip shows → SeesThrough pl x b := by
  obtain ⟨q0, ⟨e, k1, k2, k3, k4, k5, k6, k7⟩, m1, m2, m3, -, -, m6, m7, -⟩ := start_log hn hd hi ht hb ho hsh h1 h2
    (fun r hr => hf r (List.mem_append_left _ hr)) (disjoint_left hdj) hl hp
  obtain ⟨q, n1, n2, n3, n4⟩ := alias_start hs hn hd e m1 k1 k2 k3 k4 k5 k6 k7 hx hdj hf m2 m3
  exact ⟨q, n1, n2, by rw [n3]; exact ⟨m6, m7⟩, n4⟩

/-- C89, with any file that is taken for a GDB log as the dump. -/
theorem C89_aliases_of_any_log {args : List Str} {os : List Opt} {p : Prog} {n d bytes text : Str} {blks shows : List (U32 × List U8)} {ms : List Meaning}
    (hs : Spelled args os) (hn : imageFile os = some n) (hd : lastDump os = some d)
    (hi : OnDisk p.host n bytes) (ht : OnDisk p.host d text) (hb : ImageBlocks os bytes blks)
    (hm : LogTakenFor text ms) (h1 : ¬ [0x63, 0x43] <+: text) (h2 : ¬ asc "6343" <+: text)
    (hl : ∀ r ∈ runs (memoryIn ms), 4 * r.2.length < 2 ^ 32)
    (hx : List.Forall₂ (AliasShows (blks ++ blocks (runs (memoryIn ms)))) (aliases os) shows)
    (hdj : Spec.Disjoint (blks ++ blocks (runs (memoryIn ms)) ++ shows))
    (hf : ∀ r ∈ blks ++ blocks (runs (memoryIn ms)) ++ shows, Fits r) (hp : PlentyOfMemory p.host.mem) :
    ∃ q, startUp args p = .ok () q ∧ q.memory = true ∧
      ((∀ r : Reg, r.get q.host.ctx = some ((registerIn ms r).getD (if r = .core 17 ∨ r = .core 18 then 0xBAADBAAD else 0))) ∧
        q.host.ctx.flags = (if floatIn ms then 1 else 0)) ∧
      HoldsBlocks q.host.mem (blks ++ blocks (runs (memoryIn ms)) ++ shows) ∧ RefusesWrites q.host.mem blks ∧
      (∀ x b, (x, b) ∈ (aliases os).zip shows → AliasShows blks x b → RefusesWrites q.host.mem [b]) ∧
      ∀ w cs pl, PHist (platform w q) cs pl → ∀ x b, (x, b) ∈ (aliases os).zip shows → SeesThrough pl x b := by
  obtain ⟨q0, ⟨e, k1, k2, k3, k4, k5, k6, k7⟩, m1, m2, m3, -, -, m6, m7, -⟩ := start_any_log hn hd hi ht hb hm h1 h2
    (fun r hr => hf r (List.mem_append_left _ hr)) (disjoint_left hdj) hl hp
  obtain ⟨q, n1, n2, n3, n4⟩ := alias_start hs hn hd e m1 k1 k2 k3 k4 k5 k6 k7 hx hdj hf m2 m3
  exact ⟨q, n1, n2, by rw [n3]; exact ⟨m6, m7⟩, n4⟩

/-! The hypotheses are met: an alias of dumped memory and one, longer than the memory it leads to, of the image. -/

/-- `--alias 0x50 4 0x20000000 --alias 0x1000 0x100 0x102 --dump d --bin b 0x100` -/
def argsTwo : List Str :=
  [asc "--alias", asc "0x50", asc "4", asc "0x20000000"] ++ ([asc "--alias", asc "0x1000", asc "0x100", asc "0x102"] ++ argsBin)
def optsTwo : List Opt := .alias (asc "0x50") (asc "4") (asc "0x20000000") :: .alias (asc "0x1000") (asc "0x100") (asc "0x102") :: optsBin
theorem spelledTwo : Spelled argsTwo optsTwo :=
  .cons (o := .alias _ _ _) (spells .alias (by decide +kernel)) (.cons (o := .alias _ _ _) (spells .alias (by decide +kernel)) spelledBin)

theorem aliasesTwo : aliases optsTwo = [(0x50, 4, 0x20000000), (0x1000, 0x100, 0x102)] := by decide +kernel

example : ∃ q, startUp argsTwo progExample = .ok () q ∧ q.host.ctx = loadedRegs startDump {} ∧
    HoldsBlocks q.host.mem ([(0x100, [1, 2, 3, 4, 5, 6]), (0x20000000, [1, 2, 3, 4, 5]), (0x20000010, [6, 7]),
      (0x50, [1, 2, 3, 4]), (0x1000, [3, 4, 5, 6])]) ∧ RefusesWrites q.host.mem [(0x1000, [3, 4, 5, 6])] ∧
    ∀ w cs pl, PHist (platform w q) cs pl → SeesThrough pl (0x50, 4, 0x20000000) (0x50, [1, 2, 3, 4]) := by
  obtain ⟨q, h1, -, h2, h3, -, h4, h5⟩ := C89_aliases_of_dump (p := progExample) (n := [0x62]) (d := [0x64]) (bytes := [1, 2, 3, 4, 5, 6])
    (text := encode startDump) (blks := [(0x100, [1, 2, 3, 4, 5, 6])]) (df := startDump)
    (shows := [(0x50, [1, 2, 3, 4]), (0x1000, [3, 4, 5, 6])]) spelledTwo rfl rfl (fun _ => rfl) (fun _ => rfl)
    ⟨by simp, by decide, by decide +kernel⟩ (.inl rfl) startDump_wf
    (by
      rw [aliasesTwo]
      refine .cons ?_ (.cons ?_ .nil)
      · exact ⟨(0x20000000, [1, 2, 3, 4, 5]), by simp [startDump], by decide, by decide, by decide⟩
      · exact ⟨(0x100, [1, 2, 3, 4, 5, 6]), by simp, by decide, by decide, by decide⟩)
    (disjoint_ranges (by decide)) (by unfold Fits; decide) (fun _ => rfl)
  rw [aliasesTwo] at h4 h5
  refine ⟨q, h1, h2, h3, ?_, ?_⟩
  · exact h4 (0x1000, 0x100, 0x102) _ (by simp) ⟨(0x100, [1, 2, 3, 4, 5, 6]), by simp, by decide, by decide, by decide⟩
  · exact fun w cs pl h => h5 w cs pl h _ _ (by simp)

/-- `--alias 0x50 4 0x30000004 --dump d --bin b 0x100`, with a log as the dump. -/
def argsOne : List Str := [asc "--alias", asc "0x50", asc "4", asc "0x30000004"] ++ argsBin
def optsOne : List Opt := .alias (asc "0x50") (asc "4") (asc "0x30000004") :: optsBin
theorem spelledOne : Spelled argsOne optsOne := .cons (o := .alias _ _ _) (spells .alias (by decide +kernel)) spelledBin
theorem aliasesOne : aliases optsOne = [(0x50, 4, 0x30000004)] := by decide +kernel

example : ∃ q, startUp argsOne progLog = .ok () q ∧ (Reg.core 15).get q.host.ctx = some 0x30000000 ∧
    HoldsBlocks q.host.mem [(0x50, [0x22, 0x22, 0x22, 0x22])] ∧
    ∀ w cs pl, PHist (platform w q) cs pl → SeesThrough pl (0x50, 4, 0x30000004) (0x50, [0x22, 0x22, 0x22, 0x22]) := by
  have hr := gdbExample_runs
  obtain ⟨q, h1, -, ⟨h2, -⟩, h3, -, -, h5⟩ := C89_aliases_of_log (p := progLog) (n := [0x62]) (d := [0x64]) (bytes := [1, 2, 3, 4, 5, 6])
    (blks := [(0x100, [1, 2, 3, 4, 5, 6])]) (ls := gdbExample) (shows := [(0x50, [0x22, 0x22, 0x22, 0x22])])
    spelledOne rfl rfl (fun _ => rfl) (fun _ => rfl)
    ⟨by simp, by decide, by decide +kernel⟩ gdbExample_ok gdbExample_notShort (by decide +kernel) (by decide +kernel)
    (by rw [hr]; decide)
    (by
      rw [aliasesOne, hr]
      refine .cons ?_ .nil
      exact ⟨_, List.mem_cons_of_mem _ List.mem_cons_self, by decide, by decide, by decide⟩)
    (by rw [hr]; exact disjoint_ranges (by decide)) (by rw [hr]; unfold Fits; decide) (fun _ => rfl)
  rw [aliasesOne] at h5
  refine ⟨q, h1, ?_, fun r hr => h3 r (List.mem_append_right _ hr), fun w cs pl h => h5 w cs pl h _ _ (by simp)⟩
  rw [h2]; decide +kernel

end Verif.Props
