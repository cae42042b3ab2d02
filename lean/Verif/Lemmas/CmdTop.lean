import Verif.Lemmas.CmdWhole
/- What start-up does, by kinds of command lines. -/
namespace Verif.CommandLine
open Verif MemSim Spec Libc Elf

theorem opt_eq {o o' : Opt} (hk : o.kind = o'.kind) (hp : o.params = o'.params) : o = o' := by
  cases o <;> cases o' <;> simp_all [Opt.kind, Opt.params]

theorem params_length (o : Opt) : o.params.length = o.kind.arity := by cases o <;> rfl

/-- Words can be read as options in one way only. -/
theorem spelled_unique {args : List Str} {os os' : List Opt} (h : Spelled args os) (h' : Spelled args os') : os = os' := by
  induction h generalizing os' with
  | nil => cases h'; rfl
  | cons hn _ ih =>
    rename_i w o ws os _
    generalize he : w :: (o.params ++ ws) = a at h'
    cases h' with
    | nil => cases he
    | cons hn' h' =>
      rename_i o' ws' os'
      injection he with he1 he2
      subst he1
      have hk := spells_unique hn hn'
      obtain ⟨k1, k2⟩ := List.append_inj he2 (by rw [params_length, params_length, hk])
      subst k2
      rw [opt_eq hk k1, ih h']

/-- The program after the first pass. -/
def chosen (os : List Opt) (p : Prog) : Prog := selected os (cleared p)

theorem chosen_elf (os : List Opt) (p : Prog) : (chosen os p).elf = lastElf os := Option.or_none
theorem chosen_dump (os : List Opt) (p : Prog) : (chosen os p).dump = lastDump os := Option.or_none
theorem chosen_bin (os : List Opt) (p : Prog) : (chosen os p).bin = (lastBin os).map Prod.fst := Option.or_none
theorem chosen_base (os : List Opt) (p : Prog) : (chosen os p).baseAddress = ((lastBin os).map fun x => strtoul32 x.2).getD 0 := rfl

theorem chosen_image (os : List Opt) (p : Prog) : imageName (chosen os p) = imageFile os := by
  unfold imageName imageFile
  rw [chosen_elf, chosen_bin]

theorem startUp_full {args : List Str} {os : List Opt} {n d : Str} (h : Spelled args os) (hn : imageFile os = some n)
    (hd : lastDump os = some d) (p : Prog) : startUp args p = finish (memStages (aliases os) (withMemory (chosen os p))) := by
  rw [startUp_spelled h]
  show finish (stages (aliases os) (chosen os p)) = _
  rw [stages_eq (p := chosen os p) (by rw [chosen_image]; exact hn) (by rw [chosen_dump]; exact hd)]

theorem startUp_noImage {args : List Str} {os : List Opt} (h : Spelled args os) (hn : imageFile os = none) (p : Prog) :
    startUp args p = .throw ⟨.invalidArgument, asc "Must provide --bin or --elf command line option."⟩
      (afterFailure ⟨.invalidArgument, asc "Must provide --bin or --elf command line option."⟩ (chosen os p)) := by
  rw [startUp_spelled h]
  show finish (stages (aliases os) (chosen os p)) = _
  unfold stages
  rw [M.bind_throw (required_image (by rw [chosen_image]; exact hn))]
  rfl

theorem startUp_noDump {args : List Str} {os : List Opt} {n : Str} (h : Spelled args os) (hn : imageFile os = some n) (hd : lastDump os = none) (p : Prog) :
    startUp args p = .throw ⟨.invalidArgument, asc "Must provide --dump command line option."⟩
      (afterFailure ⟨.invalidArgument, asc "Must provide --dump command line option."⟩ (chosen os p)) := by
  rw [startUp_spelled h]
  show finish (stages (aliases os) (chosen os p)) = _
  unfold stages
  rw [M.bind_throw (required_dump (n := n) (by rw [chosen_image]; exact hn) (by rw [chosen_dump]; exact hd))]
  rfl

/-- Either the command line is refused, or it is complete. -/
theorem startUp_split (args : List Str) (p : Prog) :
    (∃ os m, startUp args p = .throw ⟨.invalidArgument, m⟩ (afterFailure ⟨.invalidArgument, m⟩ (chosen os p))) ∨
    ∃ os n d, Spelled args os ∧ imageFile os = some n ∧ lastDump os = some d ∧
      startUp args p = finish (memStages (aliases os) (withMemory (chosen os p))) := by
  rcases split_args args with ⟨os, h⟩ | ⟨pre, os, rest, m, rfl, h, hs⟩
  · cases hn : imageFile os with
    | none => exact .inl ⟨os, _, startUp_noImage h hn p⟩
    | some n =>
      cases hd : lastDump os with
      | none => exact .inl ⟨os, _, startUp_noDump h hn hd p⟩
      | some d => exact .inr ⟨os, n, d, h, hn, hd, startUp_full h hn hd p⟩
  · exact .inl ⟨os, m, startUp_stuck h hs p⟩

theorem afterFailure_spec {e : Exn} {p q : Prog} (h : { q with host := p.host } = { p with memory := true }) :
    (afterFailure e q).memory = false ∧ (afterFailure e q).err = p.err ++ report e.msg ∧
      (afterFailure e q).host.files = q.host.files ∧ (afterFailure e q).host.mem.regions = [] ∧ (afterFailure e q).host.mem.xml = none ∧
      (afterFailure e q).host.mem.heap.live = owed q.host.mem := by
  have hm : q.memory = true := by have := congrArg Prog.memory h; exact this
  have he : q.err = p.err := by have := congrArg Prog.err h; exact this
  refine ⟨rfl, by simp [afterFailure, he], ?_, ?_, ?_, ?_⟩ <;> simp only [afterFailure, hm, if_true]
  · rfl
  · rfl
  · rfl

theorem withMemory_eq (p : Prog) : withMemory p = { p with memory := true, host := { p.host with mem := MemSim.init p.host.mem.heap } } := rfl

/-- The pieces of a successful start-up. -/
theorem startUp_ok {args : List Str} {p q : Prog} (h : startUp args p = .ok () q) :
    ∃ os n d f s1 s2, Spelled args os ∧ imageFile os = some n ∧ lastDump os = some d ∧
      p.host.files.opens p.host.files.next n = some f ∧ Whole f ∧ imageWork (chosen os p) f (emptySim p) = .ok () s1 ∧
      Loaded (chosen os p) n q s1 s2 ∧ Linked q.host.mem ∧ Aliased s2 q.host.mem := by
  rcases startUp_split args p with ⟨os, m, h1⟩ | ⟨os, n, d, h1, hn, hd, h2⟩
  · rw [h1] at h; cases h
  · rw [h2] at h
    have hp := memStages_pst (p := chosen os p) (n := n) (d := d) (by rw [chosen_image]; exact hn) (by rw [chosen_dump]; exact hd) (aliases os)
    cases e : memStages (aliases os) (withMemory (chosen os p)) with
    | ub r => rw [e] at h; cases h
    | throw x q => rw [e] at h; cases h
    | ok u q' =>
      rw [e] at h hp
      cases h
      obtain ⟨f, s1, s2, k1, k2, k3, k4⟩ := hp
      exact ⟨os, n, d, f, s1, s2, h1, hn, hd, k1, k2, k3, k4⟩

/-- The pieces of a failed one. -/
theorem startUp_throw {args : List Str} {p q : Prog} {e : Exn} (h : startUp args p = .throw e q) :
    (∃ os, e.code = .invalidArgument ∧ q = afterFailure e (chosen os p)) ∨
    ∃ os n d q', Spelled args os ∧ imageFile os = some n ∧ lastDump os = some d ∧ q = afterFailure e q' ∧
      { q' with host := p.host } = { chosen os p with memory := true, host := p.host } ∧ q'.host.files.live = p.host.files.live ∧
      (∀ P, ImageLoses (chosen os p) n P → P 0 → P (owed q'.host.mem - p.host.mem.heap.live)) ∧ e.code ∈ startCodes := by
  rcases startUp_split args p with ⟨os, m, h1⟩ | ⟨os, n, d, h1, hn, hd, h2⟩
  · rw [h1] at h; cases h
    exact .inl ⟨os, rfl, rfl⟩
  · rw [h2] at h
    have hp := memStages_pst (p := chosen os p) (n := n) (d := d) (by rw [chosen_image]; exact hn) (by rw [chosen_dump]; exact hd) (aliases os)
    cases e' : memStages (aliases os) (withMemory (chosen os p)) with
    | ub r => rw [e'] at h; cases h
    | ok u q => rw [e'] at h; cases h
    | throw x q' =>
      rw [e'] at h hp
      cases h
      obtain ⟨k1, k2, k3, k4⟩ := hp
      refine .inr ⟨os, n, d, q', h1, hn, hd, rfl, ?_, k2, k3, k4⟩
      have := congrArg (fun r : Prog => { r with host := p.host }) k1
      exact this

end Verif.CommandLine
