import Verif.Lemmas.AgainSession
import Verif.Spec.Diagnosis
import Verif.Props.Session
/- C121: using CrashDebug again in the same process. -/
namespace Verif.Props
open Verif MemSim Spec Host Main Platform CommandLine Elf Again

theorem ahead_used {p q : Prog} {disk : Str → Option Str} (hd : HasDisk p disk) (hp : PlentyOfMemory p.host.mem) (h : Used p q) : SameAhead p q := by
  obtain ⟨h1, h2⟩ := used_world h
  refine ⟨fun k n => ?_, fun k => ?_⟩
  · rw [h1, hd, hd]
  · rw [h2, hp, hp]

/-- C121. Start-up depends on nothing but the command line and what `fopen` and `malloc` are going to answer: from any two
states in which they answer alike (whatever was loaded, selected, counted or printed before), it ends in the same way, with
the same registers and memory, prints the same text and leaves as many files and blocks behind. -/
theorem C121_start_up {p p' : Prog} (h : SameAhead p p') (args : List Str) : SameEnd p p' (startUp args p) (startUp args p') :=
  startUp_again h args

/-- C121. Whatever a process did with CrashDebug before (start-ups that worked or failed, debugging, releasing), start-up does
the same as in a fresh process. -/
theorem C121_after_use {p q : Prog} {disk : Str → Option Str} (hd : HasDisk p disk) (hp : PlentyOfMemory p.host.mem) (h : Used p q)
    (args : List Str) : SameEnd p q (startUp args p) (startUp args q) :=
  startUp_again (ahead_used hd hp h) args

/-- C121. And so does the debug session that follows: every sequence of calls that GDB's commands lead to ends in the same
registers, memory, answers and messages, and reads give the same values. -/
theorem C121_session {p q p1 : Prog} {disk : Str → Option Str} (hd : HasDisk p disk) (hp : PlentyOfMemory p.host.mem) (h : Used p q)
    {args : List Str} (hs : startUp args p = .ok () p1) :
    ∃ q1, startUp args q = .ok () q1 ∧ ∀ w cs pl, PHist (platform w p1) cs pl →
      ∃ pl', PHist (platform w q1) cs pl' ∧ SameSession pl pl' ∧
        ∀ sz a v pl1, memRead sz a pl = .ok v pl1 → ∃ pl1', memRead sz a pl' = .ok v pl1' ∧ SameSession pl1 pl1' := by
  have hx := ahead_used hd hp h
  obtain ⟨q1, h1, hr⟩ := startUp_both hx hs
  refine ⟨q1, h1, fun w cs pl hh => ?_⟩
  obtain ⟨pl', h2, hr2⟩ := hist_rel hx.heap hh (platform_rel hr w)
  refine ⟨pl', h2, session_of hr2, fun sz a v pl1 he => ?_⟩
  rcases (memRead_rel sz a pl pl' hr2).split with ⟨v', t, t', e1, e2, hk⟩ | ⟨e, t, t', e1, e2, hk⟩ | ⟨r, e1, e2⟩
  · rw [e1] at he; cases he; exact ⟨t', e2, session_of hk⟩
  · rw [e1] at he; cases he
  · rw [e1] at he; cases he

/-- C121. Nothing else can happen in the later session: whatever it does, the session of the fresh process does as well. In
particular a call that has no defined outcome in one has none in the other. -/
theorem C121_session_only {p q p1 q1 : Prog} {disk : Str → Option Str} (hd : HasDisk p disk) (hp : PlentyOfMemory p.host.mem) (h : Used p q)
    {args : List Str} (hs : startUp args p = .ok () p1) (hq : startUp args q = .ok () q1) {w : World} {cs : List PCall} {pl' : Plat}
    (hh : PHist (platform w q1) cs pl') : ∃ pl, PHist (platform w p1) cs pl ∧ SameSession pl' pl := by
  have hx := ahead_used hd hp h
  have hy : SameAhead q p := ⟨fun k n => (hx.files k n).symm, fun k => (hx.heap k).symm⟩
  obtain ⟨p2, h1, hr⟩ := startUp_both hy hq
  rw [hs] at h1
  cases h1
  obtain ⟨pl, h2, hr2⟩ := hist_rel hy.heap hh (platform_rel hr w)
  exact ⟨pl, h2, session_of hr2⟩

theorem sameEnd_ok {p p' q : Prog} {o : Out Prog Unit} (h : SameEnd p p' (.ok () q) o) : ∃ q', o = .ok () q' ∧ SameLeft p q p' q' := by
  cases o with
  | ok u q' => exact ⟨q', rfl, h⟩
  | throw e q' => exact h.elim
  | ub r => exact h.elim

theorem again_case {p q1 q : Prog} {disk : Str → Option Str} {w : World} {cs : List PCall} {pl : Plat} {args args' : List Str}
    (hd : HasDisk p disk) (hp : PlentyOfMemory p.host.mem) (h1 : startUp args p = .ok () q1) (h2 : PHist (platform w q1) cs pl)
    (t : ∀ b, PCall.setWait b ∉ cs)
    (e : startUp args' p = .ok () q) (hm : q.memory = true) :
    Used p (back q1 pl) ∧ ∃ q2, startUp args' (back q1 pl) = .ok () q2 ∧ q2.host.ctx = q.host.ctx ∧ q2.host.mem.regions = q.host.mem.regions := by
  have hu : Used p (back q1 pl) := .debugged w (.started args .fresh h1) h2 t
  have hs := C121_after_use hd hp hu args'
  rw [e] at hs
  obtain ⟨q2, e2, hl⟩ := sameEnd_ok hs
  exact ⟨hu, q2, e2, hl.registers, (hl.memory hm).1⟩

theorem sessionCalls_noWait (b : Bool) : PCall.setWait b ∉ sessionCalls := by simp [sessionCalls]
theorem progExample_disk : HasDisk progExample (fun n => diskExample.lookup n) := fun _ _ => rfl
theorem progExample_plenty : PlentyOfMemory progExample.host.mem := fun _ => rfl

/-- Starting up with an alias and debugging (with writes through the alias and refused accesses) is a use after which the raw
image is loaded like the first time: the registers are those of the dump, and the memory is that of a fresh process. -/
theorem again_example : ∃ q1 pl q q2, startUp argsAlias progExample = .ok () q1 ∧ PHist (platform reading q1) sessionCalls pl ∧ pl.faults = 2 ∧
    Used progExample (back q1 pl) ∧ startUp argsBin progExample = .ok () q ∧ startUp argsBin (back q1 pl) = .ok () q2 ∧
      q2.host.ctx = loadedRegs startDump {} ∧ q2.host.mem.regions = q.host.mem.regions := by
  obtain ⟨q1, pl, h1, -, h3, h4, -⟩ := sessionWorks_iff (o := startUp argsAlias progExample) (by decide +kernel)
  obtain ⟨q, e, hm, -, -, hc⟩ := startBin
  obtain ⟨hu, q2, e2, k1, k2⟩ := again_case progExample_disk progExample_plenty h1 h3 sessionCalls_noWait e hm
  rw [hc] at k1
  exact ⟨q1, pl, q, q2, h1, h3, h4, hu, e, e2, k1, k2⟩

/-- And the same session can be held again after it: it counts its own two faults only. -/
example : ∃ q q1 pl, Used progExample q ∧ startUp argsAlias q = .ok () q1 ∧ PHist (platform reading q1) sessionCalls pl ∧ pl.faults = 2 := by
  obtain ⟨q1, pl, h1, -, h3, h4, -⟩ := sessionWorks_iff (o := startUp argsAlias progExample) (by decide +kernel)
  obtain ⟨q2, e2, hh⟩ := C121_session progExample_disk progExample_plenty (.debugged reading (.started argsAlias .fresh h1) h3 sessionCalls_noWait) h1
  obtain ⟨pl', h5, hs, -⟩ := hh reading sessionCalls pl h3
  exact ⟨back q1 pl, q2, pl', .debugged reading (.started argsAlias .fresh h1) h3 sessionCalls_noWait, e2, h5, hs.faults.trans h4⟩

end Verif.Props
