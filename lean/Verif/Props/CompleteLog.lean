import Verif.Props.Complete
import Verif.Props.Crash
/-
C105: what a successful start-up with a GDB log means.
-/
namespace Verif.Props
open Verif MemSim Spec Host Main CommandLine Elf

/-- C105. If start-up with any file taken for a log succeeds, then no word the file shows lies inside the image, the registers are
those of the file, and the session's memory holds every block of the image and refuses writes to it. If moreover the words shown
and the runs of lines do not cut each other, each word shown reads as it was last shown, and so does each byte shown at an address
the image does not have. The file may show memory repeatedly, and the aliases may be any. -/
theorem C105_success_means_loaded_log {args : List Str} {os : List Opt} {p q : Prog} {n d bytes text : Str} {blks : List (U32 × List U8)}
    {ms : List Meaning} (hs : Spelled args os) (hn : imageFile os = some n) (hd : lastDump os = some d)
    (hi : OnDisk p.host n bytes) (ht : OnDisk p.host d text) (hb : ImageBlocks os bytes blks) (hdj : Spec.Disjoint blks)
    (hm : LogTakenFor text ms) (h1 : ¬ [0x63, 0x43] <+: text) (h2 : ¬ asc "6343" <+: text)
    (hf : ∀ r ∈ blks ++ blocks (runs (memoryIn ms)), Fits r) (hl : ∀ r ∈ runs (memoryIn ms), 4 * r.2.length < 2 ^ 32)
    (hp : PlentyOfMemory p.host.mem) (h : startUp args p = .ok () q) :
    (∀ m ∈ memoryIn ms, ∀ i < m.2.length, ¬ WordInside blks (wordAt m i)) ∧ q.host.ctx = regsIn ms ∧
      HoldsBlocks q.host.mem blks ∧ RefusesWrites q.host.mem blks ∧
      (WholeWords (memoryIn ms) → HoldsWords q.host.mem (memoryIn ms) ∧
        ∀ a b, lastByte (blocks (memoryIn ms)) a = some b → (∀ r ∈ blks, byteIn r a = none) →
          ∃ s', IMemory.read .w8 a q.host.mem = .ok b s') := by
  obtain ⟨s, e, w, hlt, hr⟩ := image_ready hn hi hb (fun r hr => hf r (List.mem_append_left _ hr)) hdj hp
  have key := startUp_image_ok hs hn hd e
  rw [ht] at key
  simp only at key
  rw [show (File.of text).bytes = text from rfl] at key
  have hlog := log_either (d := d) hr w hlt ht hm h1 h2 (fun r hr => hf r (List.mem_append_right _ hr)) hl
  have hwhole : WholeWords (memoryIn ms) → (∀ m ∈ memoryIn ms, ∀ i < m.2.length, ¬ WordInside blks (wordAt m i)) →
      ∃ h', readerFor text d (peeked (atMem (withMemory (chosen os p)) s).host) = .ok () h' ∧ HoldsWords h'.mem (memoryIn ms) ∧
        ∀ a b, lastByte (blocks (memoryIn ms)) a = some b → (∀ r ∈ blks, byteIn r a = none) →
          ∃ s', IMemory.read .w8 a h'.mem = .ok b s' := by
    intro hw hno
    have hl' : GdbLog.LoadOK (peeked (atMem (withMemory (chosen os p)) s).host).mem (GdbLog.memOf (GdbLog.results text)) := by
      rw [GdbLog.memoryIn_taken hm]
      refine ⟨GdbLog.memoryIn_ne hm, hl, fun r hr' => ?_, fun m hmm i hi' q hq hc => ?_, hw⟩
      · have := hf (GdbLog.blk r) (List.mem_append_right _ (List.mem_map_of_mem hr'))
        simpa [Fits, GdbLog.RunFits, GdbLog.blk, GdbLog.wordBytes_length] using this
      · exact hno m hmm i hi' ((rom_mapped w hlt).1 ⟨q, hq, hc⟩)
    have hnl : NextLog (peeked (atMem (withMemory (chosen os p)) s).host) d text := ⟨_, ht _, rfl, rfl⟩
    obtain ⟨h', e2, hg⟩ := GdbLog.gdb_loads hr hnl hl'
    have hsp := hg.split
    rw [GdbLog.memoryIn_taken hm] at hl' hsp
    refine ⟨h', ?_, hl'.holds hsp, fun a b hb' hout => hl'.read8 hsp (fun q hq hc => ?_) hb'⟩
    · unfold readerFor
      rw [if_neg h1, if_neg h2]
      exact e2
    · obtain ⟨b', hbb, g⟩ := (rom_mapped w hlt).1 ⟨q, hq, hc⟩
      have : (byteIn b' a).isSome := by rw [Dump.byteIn_iff]; omega
      rw [hout b' hbb] at this
      cases this
  cases he : readerFor text d (peeked (atMem (withMemory (chosen os p)) s).host) with
  | ub r => rw [he] at hlog; exact hlog.elim
  | throw x h' =>
    rw [he] at key
    obtain ⟨q', hq⟩ := key
    rw [h] at hq; cases hq
  | ok u h' =>
    rw [he] at hlog key
    simp only at key
    obtain ⟨hno, -, news, hsp, -⟩ := hlog
    refine ⟨hno, ?_⟩
    have hctx : h'.ctx = regsIn ms := by
      have hun : Unwatched (peeked (atMem (withMemory (chosen os p)) s).host).mem := by
        refine ⟨fun r hr' => ?_, hr.hits⟩
        have hr' : r ∈ s.regions := hr'
        rw [w] at hr'
        obtain ⟨b, -, rfl⟩ := List.mem_map.1 hr'
        rfl
      have hpar : GdbLog.parse d (peeked (atMem (withMemory (chosen os p)) s).host) = .ok () h' := by
        unfold readerFor at he
        rw [if_neg h1, if_neg h2] at he
        exact he
      have hreg := C109_registers hr.sound hun ⟨rfl, rfl⟩ (ht _) hm (.inl hpar)
      have hctx := ctx_of_readAll hr.sound hun (ht _) (.inl hpar)
      have hkept := GdbLog.ctx_kept (GdbLog.results_valid (bytes := text)) (GdbLog.startCtx_wf hr.regs)
      have hwf : RegsWF h'.ctx := by rw [hctx]; exact hkept.1
      have hpsr : h'.ctx.psr = 0 := by rw [hctx]; exact hkept.2.1
      have hfl : h'.ctx.flags = if floatIn ms then 1 else 0 := by
        rw [hreg.2, show (peeked (atMem (withMemory (chosen os p)) s).host).ctx.flags = 0 from rfl]
        cases floatIn ms <;> decide
      have m4 : ∀ r : Reg, r.get h'.ctx = some ((registerIn ms r).getD (if r = .core 17 ∨ r = .core 18 then 0xBAADBAAD else 0)) := by
        intro r
        rw [hreg.1 r]
        cases registerIn ms r with
        | some v => rfl
        | none =>
          simp only [Option.getD_none]
          by_cases hr : r = .core 17 ∨ r = .core 18
          · rw [if_pos hr, if_pos hr]
          · rw [if_neg hr, if_neg hr]
            cases r with
            | core i => show (List.replicate 19 (0 : U32))[i.val]? = _; rw [List.getElem?_replicate, if_pos i.isLt]
            | float i => show (List.replicate 33 (0 : U32))[i.val]? = _; rw [List.getElem?_replicate, if_pos i.isLt]
      have e1 := ofFn_of_get hwf.1 fun i => m4 (.core i)
      have e2 := ofFn_of_get hwf.2 fun i => m4 (.float i)
      simp only [Reg.core.injEq] at e1
      simp only [reduceCtorEq, or_self, if_false] at e2
      unfold regsIn
      rw [← e1, ← e2, ← hfl, ← hpsr]
    cases ha : createAliases (aliases os) h'.mem with
    | ub r => rw [ha, h] at key; cases key
    | throw x s2 => rw [ha] at key; obtain ⟨q', hq⟩ := key; rw [h] at hq; cases hq
    | ok u s2 =>
      rw [ha] at key
      obtain ⟨q', hq, hq2⟩ := key
      rw [h] at hq
      injection hq with _ hq
      subst hq
      rw [hq2]
      have hso := Dump.sound_append hsp
      have hmap : ∀ {w : Width} {a : U32} {v : BitVec w.bits} {t : Sim}, IMemory.read w a h'.mem = .ok v t → Mapped h'.mem a w.bytes := by
        intro w a v t hrd
        by_cases hm : Mapped h'.mem a w.bytes
        · exact hm
        · rw [read_eq, readN_unmapped hm] at hrd; cases hrd
      have hread : ∀ {w : Width} {a : U32} {v : BitVec w.bits} {t : Sim}, IMemory.read w a h'.mem = .ok v t →
          ∃ t', IMemory.read w a s2 = .ok v t' := by
        intro w a v t hrd
        obtain ⟨i, r, off, htg⟩ := target_of_mapped hso (hmap hrd)
        obtain ⟨f, -, k1, -⟩ := aliases_keep (htg.hit hso) ha
        rw [hrd] at k1
        exact ⟨_, k1⟩
      obtain ⟨m1, m2⟩ := Elf.rom_access_more hso hsp.hits (hsp.regions.trans (congrArg (· ++ _) w)) hdj hlt
      refine ⟨hctx, ?_, ?_, ?_⟩
      · intro r hr w a g1 g2
        obtain ⟨v, t, g3, g4⟩ := m1 r hr w a g1 g2
        obtain ⟨t', g5⟩ := hread g3
        exact ⟨v, t', g5, g4⟩
      · intro r hr w a v g1 g2
        obtain ⟨v', t, g3, -⟩ := m1 r hr w a g1 g2
        obtain ⟨i, r', off, htg⟩ := target_of_mapped hso (hmap g3)
        obtain ⟨f, k0, -, k2⟩ := aliases_keep (htg.hit hso) ha
        rw [k2, m2 r hr w a v g1 g2]
        simp only [mapState, k0]
      · intro hw
        obtain ⟨h'', k1, k2, k3⟩ := hwhole hw hno
        rw [he] at k1
        injection k1 with _ k1
        subst k1
        refine ⟨fun m hm i hi' => ?_, fun a b hb' hout => ?_⟩
        · obtain ⟨v, t, g1, g2⟩ := k2 m hm i hi'
          obtain ⟨t', g3⟩ := hread g1
          exact ⟨v, t', g3, g2⟩
        · obtain ⟨t, g⟩ := k3 a b hb' hout
          exact hread g

/-- A log that shows three of its words twice. -/
def againPieces : List Str := [asc "0x30000000:\t1 2 3 4\n", asc "r7             0x77\n", asc "0x30000004:\t5 6 7 8\n"]
def againLog : Str := againPieces.flatten
def againMeanings : List Meaning := [.memory 0x30000000 [1, 2, 3, 4], .register (.core 7) 0x77, .memory 0x30000004 [5, 6, 7, 8]]
theorem againLog_taken : LogTakenFor againLog againMeanings :=
  ⟨againPieces, lines_of (by decide +kernel), .cons (taken_of (by decide +kernel)) (.cons (taken_of (by decide +kernel))
    (.cons (taken_of (by decide +kernel)) .nil))⟩
theorem againLog_runs : runs (memoryIn againMeanings) = [(0x30000000, [1, 2, 3, 4]), (0x30000004, [5, 6, 7, 8])] := by decide +kernel

/-- `--alias 0x50000000 4 0x30000000 --alias 0x60000000 4 0x50000000 --bin b 0x30000012 --dump d` -/
def argsAgain : List Str :=
  [asc "--alias", asc "0x50000000", asc "4", asc "0x30000000", asc "--alias", asc "0x60000000", asc "4", asc "0x50000000",
   asc "--bin", [0x62], asc "0x30000012", asc "--dump", [0x64]]
def optsAgain : List Opt :=
  [.alias (asc "0x50000000") (asc "4") (asc "0x30000000"), .alias (asc "0x60000000") (asc "4") (asc "0x50000000"),
   .bin [0x62] (asc "0x30000012"), .dump [0x64]]
theorem spelledAgain : Spelled argsAgain optsAgain :=
  .cons (o := .alias _ _ _) (spells .alias (by decide +kernel)) (.cons (o := .alias _ _ _) (spells .alias (by decide +kernel))
    (.cons (o := .bin _ _) (spells .bin (by decide +kernel)) (.cons (o := .dump _) (spells .dump (by decide +kernel)) .nil)))

/-- With an alias that leads into an alias, an image that has half of the last word the log shows, and words shown twice, start-up
succeeds, and everything can be read. -/
example : ∃ q, startUp argsAgain (progOver againLog) = .ok () q ∧ q.host.ctx = regsIn againMeanings ∧
    HoldsBlocks q.host.mem [(0x30000012, [1, 2, 3, 4, 5, 6])] ∧ HoldsWords q.host.mem (memoryIn againMeanings) ∧
    (∃ s', IMemory.read .w8 0x30000004 q.host.mem = .ok 5 s') ∧ ∃ s', IMemory.read .w8 0x30000010 q.host.mem = .ok 8 s' := by
  have hr := againLog_runs
  obtain ⟨q, h, -⟩ := undefinedRead_iff (o := startUp argsAgain (progOver againLog)) (a := 0x60000000) (by decide +kernel)
  obtain ⟨-, h1, h2, -, h3⟩ := C105_success_means_loaded_log (p := progOver againLog) (n := [0x62]) (d := [0x64])
    (bytes := [1, 2, 3, 4, 5, 6]) (blks := [(0x30000012, [1, 2, 3, 4, 5, 6])]) spelledAgain rfl rfl (fun _ => rfl) (fun _ => rfl)
    ⟨by simp, by decide, by decide +kernel⟩ (List.pairwise_singleton _ _) againLog_taken (by decide +kernel) (by decide +kernel)
    (by rw [hr]; unfold Fits; decide) (by rw [hr]; decide) (fun _ => rfl) h
  obtain ⟨h4, h5⟩ := h3 (GdbLog.whole_of_aligned (by decide) (by decide))
  exact ⟨q, h, h1, h2, h4, h5 _ _ (by decide) (by decide), h5 _ _ (by decide) (by decide)⟩

end Verif.Props
