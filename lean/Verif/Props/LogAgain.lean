import Verif.Props.Clash
import Verif.Props.CompleteLog
/-
C86 for logs that show memory more than once, and next to or partly across the image.
-/
namespace Verif.Props
open Verif MemSim Spec Host Main CommandLine Elf

/-- C86. The log may show the same memory again and again, as happens when GDB is asked for the stack after every step: if no word
it shows lies inside the image, start-up succeeds, every word and byte reads as it was last shown (bytes of the image read as the
image), the image cannot be written, and the registers are those the log shows last. -/
theorem C86_shown_again {args : List Str} {os : List Opt} {p : Prog} {n d bytes text : Str} {blks : List (U32 × List U8)}
    {ms : List Meaning} (hs : Spelled args os) (ha : aliases os = []) (hn : imageFile os = some n) (hd : lastDump os = some d)
    (hi : OnDisk p.host n bytes) (ht : OnDisk p.host d text) (hb : ImageBlocks os bytes blks) (hdj : Spec.Disjoint blks)
    (hm : LogTakenFor text ms) (h1 : ¬ [0x63, 0x43] <+: text) (h2 : ¬ asc "6343" <+: text)
    (hf : ∀ r ∈ blks ++ blocks (runs (memoryIn ms)), Fits r) (hl : ∀ r ∈ runs (memoryIn ms), 4 * r.2.length < 2 ^ 32)
    (hp : PlentyOfMemory p.host.mem) (hno : ∀ m ∈ memoryIn ms, ∀ i < m.2.length, ¬ WordInside blks (wordAt m i))
    (hw : WholeWords (memoryIn ms)) :
    ∃ q, startUp args p = .ok () q ∧ HoldsBlocks q.host.mem blks ∧ RefusesWrites q.host.mem blks ∧ q.host.ctx = regsIn ms ∧
      HoldsWords q.host.mem (memoryIn ms) ∧
      ∀ a b, lastByte (blocks (memoryIn ms)) a = some b → (∀ r ∈ blks, byteIn r a = none) →
        ∃ s', IMemory.read .w8 a q.host.mem = .ok b s' := by
  obtain ⟨q, hq⟩ := (C93_any_log_accepted_iff hs ha hn hd hi ht hb hdj hm h1 h2 hf hl hp).2 hno
  obtain ⟨_, hc, hh, hr, hx⟩ := C105_success_means_loaded_log hs hn hd hi ht hb hdj hm h1 h2 hf hl hp hq
  exact ⟨q, hq, hh, hr, hc, (hx hw).1, (hx hw).2⟩

/-- `--bin b 0x30000012 --dump d`, with a log that shows three words twice and one word half of which is in the image. -/
example : ∃ q, startUp [asc "--bin", [0x62], asc "0x30000012", asc "--dump", [0x64]] (progOver againLog) = .ok () q ∧
    HoldsBlocks q.host.mem [(0x30000012, [1, 2, 3, 4, 5, 6])] ∧ HoldsWords q.host.mem (memoryIn againMeanings) := by
  have hr := againLog_runs
  have hs : Spelled [asc "--bin", [0x62], asc "0x30000012", asc "--dump", [0x64]] [.bin [0x62] (asc "0x30000012"), .dump [0x64]] :=
    .cons (o := .bin _ _) (spells .bin (by decide +kernel)) (.cons (o := .dump _) (spells .dump (by decide +kernel)) .nil)
  obtain ⟨q, h, h1, -, -, h2, -⟩ := C86_shown_again (p := progOver againLog) (n := [0x62]) (d := [0x64])
    (os := [.bin [0x62] (asc "0x30000012"), .dump [0x64]])
    (bytes := [1, 2, 3, 4, 5, 6]) (blks := [(0x30000012, [1, 2, 3, 4, 5, 6])])
    hs rfl rfl rfl (fun _ => rfl) (fun _ => rfl)
    ⟨by simp, by decide, by decide +kernel⟩ (List.pairwise_singleton _ _) againLog_taken (by decide +kernel) (by decide +kernel)
    (by rw [hr]; unfold Fits; decide) (by rw [hr]; decide) (fun _ => rfl) (by unfold WordInside; decide)
    (GdbLog.whole_of_aligned (by decide) (by decide))
  exact ⟨q, h, h1, h2⟩

end Verif.Props
