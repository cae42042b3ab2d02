import Verif.Lemmas.CmdStages
/- Start-up as a whole. -/
namespace Verif.CommandLine
open Verif MemSim Spec Libc Elf

/-- What start-up with a well-formed command line may raise. -/
def startCodes : List Exc := [.file, .outOfMemory, .elfFormat, .busError, .fileFormat, .stackOverflow]

/-- The image file that is named. -/
def imageName (p : Prog) : Option Str := p.elf.or p.bin

/-- The program after line 114. -/
def withMemory (p : Prog) : Prog := { p with memory := true, host := { p.host with mem := MemSim.init p.host.mem.heap } }

/-- The simulator as it is when the image is loaded. -/
def emptySim (p : Prog) : Sim := bumpHeap (MemSim.init p.host.mem.heap) 1 1

theorem sound_init (h : Heap) : Sound (MemSim.init h) := by
  intro r hr; cases hr
theorem unwatched_init (h : Heap) : Unwatched (MemSim.init h) := ⟨(by intro r hr; cases hr), (by decide : 0 < 2 ^ 31)⟩
theorem owed_init (h : Heap) : owed (MemSim.init h) = h.live := by simp [owed, MemSim.init, blocksOf, xmlBlocks]

theorem required_ok {p : Prog} {n d : Str} (hn : imageName p = some n) (hd : p.dump = some d) :
    throwIfRequiredArgumentNotSpecified p = .ok () p := by
  unfold throwIfRequiredArgumentNotSpecified
  rw [M.bind_ok (show (M.get : M Prog Prog) p = .ok p p from rfl)]
  have h1 : ¬ (p.bin = none ∧ p.elf = none) := by
    rintro ⟨h1, h2⟩
    simp [imageName, h1, h2] at hn
  rw [if_neg h1, if_neg (by simp [hd])]
  rfl

theorem required_image {p : Prog} (hn : imageName p = none) :
    throwIfRequiredArgumentNotSpecified p = .throw ⟨.invalidArgument, asc "Must provide --bin or --elf command line option."⟩ p := by
  unfold throwIfRequiredArgumentNotSpecified
  rw [M.bind_ok (show (M.get : M Prog Prog) p = .ok p p from rfl)]
  have h1 : p.bin = none ∧ p.elf = none := by
    unfold imageName at hn
    cases h : p.elf <;> rw [h] at hn
    · exact ⟨by simpa using hn, rfl⟩
    · cases hn
  rw [if_pos h1]
  rfl

theorem required_dump {p : Prog} {n : Str} (hn : imageName p = some n) (hd : p.dump = none) :
    throwIfRequiredArgumentNotSpecified p = .throw ⟨.invalidArgument, asc "Must provide --dump command line option."⟩ p := by
  unfold throwIfRequiredArgumentNotSpecified
  rw [M.bind_ok (show (M.get : M Prog Prog) p = .ok p p from rfl)]
  have h1 : ¬ (p.bin = none ∧ p.elf = none) := by
    rintro ⟨h1, h2⟩
    simp [imageName, h1, h2] at hn
  rw [if_neg h1, if_pos hd]
  rfl

/-- The stages that work on memory. -/
def memStages (as : List (U32 × U32 × U32)) : M Prog Unit := do
  loadImageFile
  loadDumpFile
  addAliases as

theorem stages_eq {p : Prog} {n d : Str} (hn : imageName p = some n) (hd : p.dump = some d) (as : List (U32 × U32 × U32)) :
    stages as p = memStages as (withMemory p) := by
  unfold stages
  rw [M.bind_ok (required_ok hn hd), M.bind_ok (show initMemory p = .ok () (withMemory p) from rfl)]
  rfl

theorem imageName_split {p : Prog} {n : Str} (hn : imageName p = some n) : p.elf = some n ∨ p.elf = none ∧ p.bin = some n := by
  unfold imageName at hn
  cases h : p.elf <;> rw [h] at hn
  · exact .inr ⟨rfl, by simpa using hn⟩
  · exact .inl (by simpa using hn)

/-- What the image stage loses. -/
def ImageLoses (p : Prog) (n : Str) (P : Int → Prop) : Prop :=
  ∀ f, p.host.files.opens p.host.files.next n = some f → Whole f →
    Post (imageWork p f (emptySim p)) (fun s => P (owed s - owed (emptySim p)))

/-- How memory came about in the stages up to the dump. -/
structure Loaded (p : Prog) (n : Str) (q : Prog) (s1 s2 : Sim) : Prop where
  img : ImgHist (emptySim p) s1
  dump : MemInv createsOrWrites (bumpHeap s1 0 (-1)) s2
  rest : { q with host := p.host } = { p with memory := true }
  live : q.host.files.live = p.host.files.live
  owed : ∀ P, ImageLoses p n P → P 0 → P (owed s2 - p.host.mem.heap.live)

theorem createsOrWrites_owed {s s' : Sim} (h : ByCalls createsOrWrites s s') : owed s' = owed s := by
  obtain ⟨cs, h1, h2⟩ := h
  induction h2 with
  | nil => rfl
  | cons hc hs _ ih =>
    rename_i s0 s1 s2 c cs _
    have : Fresh c s0 := by
      have := h1 c List.mem_cons_self
      cases c <;> first | trivial | exact this.elim
    rw [ih (fun c hm => h1 c (List.mem_cons_of_mem _ hm)), call_owed hs this]

theorem memStages_pst {p : Prog} {n d : Str} (hn : imageName p = some n) (hd : p.dump = some d) (as : List (U32 × U32 × U32)) :
    Pst (fun _ q => ∃ f s1 s2, p.host.files.opens p.host.files.next n = some f ∧ Whole f ∧
          imageWork p f (emptySim p) = .ok () s1 ∧ Loaded p n q s1 s2 ∧ Linked q.host.mem ∧ Aliased s2 q.host.mem)
      (fun e q => { q with host := p.host } = { p with memory := true } ∧ q.host.files.live = p.host.files.live ∧
          (∀ P, ImageLoses p n P → P 0 → P (owed q.host.mem - p.host.mem.heap.live)) ∧ e.code ∈ startCodes) (memStages as (withMemory p)) := by
  unfold memStages
  rcases loadImageFile_cases (p := withMemory p) rfl (imageName_split hn) with ⟨e, k, h1, h2, -⟩ | ⟨f, h1, h2, h3⟩
  · rw [M.bind_throw h1]
    refine ⟨rfl, rfl, fun P _ h0 => ?_, ?_⟩
    · show P (owed (bumpHeap _ k 0) - _)
      rw [owed_bump]
      show P (owed (MemSim.init _) + 0 - _)
      rw [owed_init]
      have : p.host.mem.heap.live + 0 - p.host.mem.heap.live = 0 := by omega
      rw [this]; exact h0
    · simp only [List.mem_cons, List.not_mem_nil, or_false] at h2
      rcases h2 with h2 | h2 <;> simp [startCodes, h2]
  · have hi := image_img (withMemory p) f (emptySim p)
    have he : imageWork (withMemory p) f (bumpHeap (withMemory p).host.mem 1 1) = imageWork p f (emptySim p) := rfl
    rw [he] at h3
    have hi : Pst _ _ (imageWork p f (emptySim p)) := hi
    have hso : Sound (emptySim p) := sound_init p.host.mem.heap
    have hun : Unwatched (emptySim p) := unwatched_init p.host.mem.heap
    have how : ∀ P, ImageLoses p n P → Post (imageWork p f (emptySim p)) (fun s => P (owed (bumpHeap s 0 (-1)) - p.host.mem.heap.live)) := by
      intro P h
      refine (h f h1 h2).mono fun s hs => ?_
      rw [emptySim, owed_bump, owed_init] at hs
      rw [owed_bump]
      have : owed s + -1 - p.host.mem.heap.live = owed s - (p.host.mem.heap.live + 1) := by omega
      rw [this]; exact hs
    cases hw : imageWork p f (emptySim p) with
    | ub r => rw [hw] at h3; rw [M.bind_apply, h3]; trivial
    | throw e s =>
      rw [hw] at h3 hi how
      rw [M.bind_throw h3]
      refine ⟨rfl, rfl, fun P h _ => how P h, ?_⟩
      · have := hi.2
        simp only [elfCodes, List.mem_cons, List.not_mem_nil, or_false] at this
        rcases this with h2 | h2 | h2 <;> simp [startCodes, h2]
    | ok u s =>
      rw [hw] at h3 hi how
      rw [M.bind_ok h3]
      have hso1 : Sound (bumpHeap s 0 (-1)) := Spec.Sound.congr (hi.sound hso) rfl
      have hun1 : Unwatched (bumpHeap s 0 (-1)) := hi.unwatched hun
      have hds := dump_sat (p := atMem (withMemory p) (bumpHeap s 0 (-1))) rfl (by show p.dump ≠ none; rw [hd]; simp) hso1 hun1
      have ho1 : ∀ P, ImageLoses p n P → P (owed (bumpHeap s 0 (-1)) - p.host.mem.heap.live) := fun P h => how P h
      refine Pst.bind (Q1 := fun _ q => DumpKept (atMem (withMemory p) (bumpHeap s 0 (-1))) q) ?_ ?_
      · cases e : loadDumpFile (atMem (withMemory p) (bumpHeap s 0 (-1))) with
        | ok u q => rw [e] at hds; exact hds
        | ub r => trivial
        | throw e q =>
          rw [e] at hds
          obtain ⟨hk, hc⟩ := hds
          refine ⟨?_, hk.live, fun P h _ => ?_, ?_⟩
          · have := hk.rest
            rw [this]; rfl
          · rw [createsOrWrites_owed hk.mem.2.2]; exact ho1 P h
          · simp only [dumpCodes, List.mem_cons, List.not_mem_nil, or_false] at hc
            rcases hc with h2 | h2 | h2 | h2 | h2 <;> simp [startCodes, h2]
      · intro _ q hk
        have hrest : { q with host := p.host } = { p with memory := true } := by
          have := hk.rest
          rw [this]; rfl
        have hqm : q.memory = true := by
          have := congrArg Prog.memory hrest; exact this
        have hal := addAliases_sat (xs := as) hqm (linked_of_sound hk.mem.1)
        have hld : ∀ s', Loaded p n (withMem q s') s q.host.mem := fun s' =>
          ⟨hi, hk.mem, hrest, hk.live, fun P h _ => by rw [createsOrWrites_owed hk.mem.2.2]; exact ho1 P h⟩
        cases e : addAliases as q with
        | ub r => trivial
        | ok v q' =>
          rw [e] at hal
          obtain ⟨s', rfl, k1, k2⟩ := hal
          exact ⟨f, s, q.host.mem, h1, h2, hw, hld s', k1, k2⟩
        | throw e q' =>
          rw [e] at hal
          obtain ⟨⟨s', rfl, k1, k2⟩, hc⟩ := hal
          refine ⟨hrest, hk.live, fun P h h0 => ?_, ?_⟩
          · rw [show owed (withMem q s').host.mem = owed q.host.mem from k2.1]; exact (hld s').owed P h h0
          · simp only [List.mem_cons, List.not_mem_nil, or_false] at hc
            rcases hc with h2 | h2 <;> simp [startCodes, h2]

/-- Undefined behaviour can only come from loading the image. -/
theorem memStages_ub {p : Prog} {n d : Str} (hn : imageName p = some n) (hd : p.dump = some d) {as : List (U32 × U32 × U32)} {r : UB}
    (h : memStages as (withMemory p) = .ub r) :
    ∃ f, p.host.files.opens p.host.files.next n = some f ∧ Whole f ∧ imageWork p f (emptySim p) = .ub r := by
  unfold memStages at h
  rcases loadImageFile_cases (p := withMemory p) rfl (imageName_split hn) with ⟨e, k, h1, h2, -⟩ | ⟨f, h1, h2, h3⟩
  · rw [M.bind_throw h1] at h; cases h
  · have hi : Pst _ _ (imageWork p f (emptySim p)) := image_img (withMemory p) f (emptySim p)
    have he : imageWork (withMemory p) f (bumpHeap (withMemory p).host.mem 1 1) = imageWork p f (emptySim p) := rfl
    rw [he] at h3
    cases hw : imageWork p f (emptySim p) with
    | ub u =>
      rw [hw] at h3
      rw [M.bind_apply, h3] at h
      cases h
      exact ⟨f, h1, h2, hw⟩
    | throw e s => rw [hw] at h3; rw [M.bind_throw h3] at h; cases h
    | ok u s =>
      exfalso
      rw [hw] at h3 hi
      rw [M.bind_ok h3] at h
      have hso1 : Sound (bumpHeap s 0 (-1)) := Spec.Sound.congr (hi.sound (sound_init p.host.mem.heap)) rfl
      have hun1 : Unwatched (bumpHeap s 0 (-1)) := hi.unwatched (unwatched_init p.host.mem.heap)
      have hds := dump_sat (p := atMem (withMemory p) (bumpHeap s 0 (-1))) rfl (by show p.dump ≠ none; rw [hd]; simp) hso1 hun1
      cases e : loadDumpFile (atMem (withMemory p) (bumpHeap s 0 (-1))) with
      | ub u => rw [e] at hds; exact hds
      | throw x q => rw [M.bind_throw e] at h; cases h
      | ok u q =>
        rw [e] at hds
        rw [M.bind_ok e] at h
        have hqm : q.memory = true := by
          have := congrArg Prog.memory hds.rest; exact this
        have hal := addAliases_sat (xs := as) hqm (linked_of_sound hds.mem.1)
        rw [h] at hal
        exact hal

end Verif.CommandLine
