import Verif.Lemmas.CmdBin
import Verif.Lemmas.ElfLeak
/- Start-up as one equation. -/
namespace Verif.CommandLine
open Verif MemSim Spec Libc Elf

theorem addAliases_eq {xs : List (U32 × U32 × U32)} {p : Prog} (hm : p.memory = true) : addAliases xs p =
    match createAliases xs p.host.mem with
    | .ok _ s => .ok () (withMem p s)
    | .throw e s => .throw e (withMem p s)
    | .ub r => .ub r := by
  induction xs generalizing p with
  | nil => rfl
  | cons x xs ih =>
    unfold addAliases createAliases
    rw [M.bind_apply, addAlias_eq hm, M.bind_apply, M.tryCatch_apply]
    cases createAlias x.1 x.2.2 x.2.1 p.host.mem with
    | ub r => rfl
    | throw e s => rfl
    | ok u s =>
      simp only
      rw [ih (p := withMem p s) hm]
      show (match createAliases xs s with | .ok _ s => _ | .throw e s => _ | .ub r => _) = _
      cases createAliases xs s <;> rfl

theorem stages_nil (as : List (U32 × U32 × U32)) (p : Prog) : stages as p = (do stages []; addAliases as) p := by
  simp only [stages, M.bind_apply]
  cases throwIfRequiredArgumentNotSpecified p with
  | ub r => rfl
  | throw e q => rfl
  | ok u q =>
    simp only
    cases initMemory q with
    | ub r => rfl
    | throw e q => rfl
    | ok u q =>
      simp only
      cases loadImageFile q with
      | ub r => rfl
      | throw e q => rfl
      | ok u q =>
        simp only
        cases loadDumpFile q with
        | ub r => rfl
        | throw e q => rfl
        | ok u q => rfl

/-! ### Code that does not look at part of the state -/

/-- It makes no difference whether `f` is applied before or after. -/
def Comm (f : σ → σ) (m : M σ α) : Prop := ∀ s, m (f s) = seenThrough f (m s)

theorem Comm.bind {f : σ → σ} {m : M σ α} {g : α → M σ β} (hm : Comm f m) (hg : ∀ a, Comm f (g a)) : Comm f (m >>= g) := by
  intro s
  rw [M.bind_apply, M.bind_apply, hm s]
  cases m s with
  | ok a s => exact hg a s
  | throw e s => rfl
  | ub r => rfl

theorem Comm.tryCatch {f : σ → σ} {m : M σ α} {g : Exn → M σ α} (hm : Comm f m) (hg : ∀ a, Comm f (g a)) : Comm f (M.tryCatch m g) := by
  intro s
  rw [M.tryCatch_apply, M.tryCatch_apply, hm s]
  cases m s with
  | ok a s => rfl
  | throw e s => exact hg e s
  | ub r => rfl

theorem Comm.pure {f : σ → σ} (a : α) : Comm f (Pure.pure a : M σ α) := fun _ => rfl
theorem Comm.throw {f : σ → σ} (c : Exc) (m : Str) : Comm f (M.throw c m : M σ α) := fun _ => rfl
theorem Comm.rethrow {f : σ → σ} (e : Exn) : Comm f (M.rethrow e : M σ α) := fun _ => rfl
theorem Comm.ub {f : σ → σ} (u : UB) : Comm f (M.ub u : M σ α) := fun _ => rfl
theorem Comm.modify {f g : σ → σ} (h : ∀ s, g (f s) = f (g s)) : Comm f (M.modify g) := by
  intro s; rw [M.modify_apply, M.modify_apply, h]; rfl

theorem onHost_comm (m : M Host α) : Comm withoutBin (onHost m) := by
  intro p
  simp only [onHost, M.zoom_apply, withoutBin]
  cases m p.host <;> rfl

theorem onMemory_comm (m : M Host α) : Comm withoutBin (onMemory m) := by
  intro p
  unfold onMemory
  by_cases h : p.memory = true
  · rw [if_pos h, if_pos (show (withoutBin p).memory = true from h)]; exact onHost_comm m p
  · rw [if_neg h, if_neg (show ¬ (withoutBin p).memory = true from h)]; rfl

def withoutBinL (s : LoadState) : LoadState := { s with prog := withoutBin s.prog }

theorem onProg_comm {m : M Prog α} (h : Comm withoutBin m) : Comm withoutBinL (onProg m) := by
  intro s
  simp only [onProg, M.zoom_apply]
  rw [show (withoutBinL s).prog = withoutBin s.prog from rfl, h s.prog]
  cases m s.prog <;> rfl

theorem fileSizeOf_comm : Comm withoutBinL fileSizeOf := by
  intro s
  unfold fileSizeOf
  rw [show (withoutBinL s).pFile = s.pFile from rfl]
  cases s.pFile with
  | none => rfl
  | some h =>
    simp only
    cases getFileSize h <;> rfl

theorem freadAll_comm : Comm withoutBinL freadAll := by
  intro s
  unfold freadAll
  rw [show (withoutBinL s).pFile = s.pFile from rfl]
  cases s.pFile <;> rfl

theorem loadFileBody_comm (name : Str) : Comm withoutBinL (loadFileBody name) := by
  unfold loadFileBody
  refine Comm.bind (onProg_comm (onHost_comm _)) fun f => Comm.bind (Comm.modify fun _ => rfl) fun _ => ?_
  split
  · exact Comm.throw _ _
  · refine Comm.bind (Comm.tryCatch fileSizeOf_comm fun _ => Comm.throw _ _) fun n => Comm.bind (Comm.modify fun _ => rfl) fun _ =>
      Comm.bind (onProg_comm (onHost_comm _)) fun b => ?_
    split
    · refine Comm.bind (Comm.modify fun _ => rfl) fun _ => Comm.bind freadAll_comm fun bytes => ?_
      split
      · exact Comm.throw _ _
      · exact onProg_comm (onHost_comm _)
    · exact Comm.throw _ _

theorem loadFileData_comm (name : Str) : Comm withoutBin (loadFileData name) := by
  intro p
  unfold loadFileData
  have h := loadFileBody_comm name { prog := p }
  rw [show ({ prog := withoutBin p } : LoadState) = withoutBinL { prog := p } from rfl, h]
  cases loadFileBody name { prog := p } with
  | ok u s => rfl
  | ub r => rfl
  | throw e s =>
    have : Comm withoutBin (loadFileCatch (α := FileData) s.pBuffer.isSome s.pFile.isSome e) := by
      unfold loadFileCatch
      simp only
      have hr : Comm withoutBin (M.rethrow e : M Prog FileData) := Comm.rethrow e
      have h2 : Comm withoutBin (if s.pFile.isSome = true then onHost Host.fclose >>= fun _ => M.rethrow e else M.rethrow e : M Prog FileData) := by
        split
        · exact Comm.bind (onHost_comm _) fun _ => hr
        · exact hr
      split
      · exact Comm.bind (onHost_comm _) fun _ => h2
      · exact h2
    exact this s.prog

theorem loadDumpFile_comm : Comm withoutBin loadDumpFile := by
  intro p
  unfold loadDumpFile
  rw [M.bind_apply, M.bind_apply, M.get_apply, M.get_apply]
  simp only
  rw [show (withoutBin p).dump = p.dump from rfl]
  cases p.dump with
  | none => rfl
  | some name =>
    have : Comm withoutBin (do
        match ← getFileType name with
        | .gdbLog => onMemory (GdbLog.parse name)
        | .crashCatcherHex => onMemory (Dump.readHex name)
        | .crashCatcherBin => onMemory (Dump.readBinary name) : M Prog Unit) := by
      refine Comm.bind ?_ fun t => ?_
      · unfold getFileType
        refine Comm.bind (onHost_comm _) fun f => ?_
        split
        · exact Comm.throw _ _
        · refine Comm.bind (onHost_comm _) fun _ => ?_
          split
          · exact Comm.pure _
          · split
            · exact Comm.pure _
            · exact Comm.pure _
      · cases t <;> exact onMemory_comm _
    exact this p

theorem loadImage_withoutBin {p : Prog} {name : Str} (he : p.elf = some name) : loadImageFile (withoutBin p) = seenThrough withoutBin (loadImageFile p) := by
  unfold loadImageFile
  rw [M.bind_apply, M.bind_apply, M.get_apply, M.get_apply]
  simp only
  rw [show (withoutBin p).elf = p.elf from rfl, he]
  have : Comm withoutBin (do
      let fd ← loadFileData name
      M.tryCatch (do
        onMemory (Host.onMem (Elf.fromMemory fd.data fd.dataSize.toNat))
        freeP) (fun e => do freeP; M.rethrow e) : M Prog Unit) :=
    Comm.bind (loadFileData_comm name) fun fd => Comm.tryCatch (Comm.bind (onMemory_comm _) fun _ => onHost_comm _) fun e =>
      Comm.bind (onHost_comm _) fun _ => Comm.rethrow e
  exact this p

theorem addAliases_comm (xs : List (U32 × U32 × U32)) : Comm withoutBin (addAliases xs) := by
  induction xs with
  | nil => exact Comm.pure _
  | cons x xs ih =>
    unfold addAliases addAlias
    exact Comm.bind (Comm.tryCatch (onMemory_comm _) fun e => Comm.throw _ _) fun _ => ih

theorem memStages_withoutBin {p : Prog} {name : Str} (he : p.elf = some name) (as : List (U32 × U32 × U32)) :
    memStages as (withoutBin p) = seenThrough withoutBin (memStages as p) := by
  unfold memStages
  rw [M.bind_apply, M.bind_apply, loadImage_withoutBin he]
  cases loadImageFile p with
  | ub r => rfl
  | throw e q => rfl
  | ok u q => exact Comm.bind loadDumpFile_comm (fun _ => addAliases_comm as) q

theorem finish_withoutBin (o : Out Prog Unit) : finish (seenThrough withoutBin o) = seenThrough withoutBin (finish o) := by
  cases o with
  | ok u q => rfl
  | ub r => rfl
  | throw e q => rfl

/-! ### Memory -/

theorem image_owed_bin {p : Prog} (n : Str) (he : p.elf = none) : ImageLoses p n (· = 0) := by
  intro f _ _
  unfold imageWork
  rw [he]
  simp only
  unfold binWork
  rw [M.tryCatch_apply]
  have h := segment_owed (a := p.baseAddress) (n := BitVec.ofInt 32 f.tell) (d := f.bytes.take f.tell.toNat) (s := emptySim p)
    (by intro r hr; cases hr)
  cases e : loadSegment p.baseAddress (BitVec.ofInt 32 f.tell) (f.bytes.take f.tell.toNat) (emptySim p) with
  | ok u s => rw [e] at h; exact Int.sub_eq_zero.2 h
  | throw x s => rw [e] at h; exact Int.sub_eq_zero.2 h
  | ub r => trivial

theorem whole_length {f : File} (h : Whole f) : (f.bytes.take f.tell.toNat).length = f.tell.toNat := by
  have h1 := h.len; have h2 := h.pos
  rw [List.length_take]; omega

/-- Heap blocks lost by loading some of the segments of the file, the first few of them. -/
def SomeShared (b : Str) (k : Int) : Prop := ∃ pre, pre <+: segmentsOf b ∧ k = sharedStarts pre

theorem image_loses_elf {p : Prog} {n : Str} (he : p.elf = some n) : ImageLoses p n (SomeShared (nextContents p.host n)) := by
  intro f h1 h2
  unfold imageWork
  rw [he]
  simp only
  have hc : nextContents p.host n = f.bytes.take f.tell.toNat := by simp only [nextContents, h1]
  rw [hc]
  have h := from_exact (b := f.bytes.take f.tell.toNat) (s := emptySim p) rfl
  rw [whole_length h2] at h
  cases e : fromMemory (f.bytes.take f.tell.toNat) f.tell.toNat (emptySim p) with
  | ub r => trivial
  | ok u s => rw [e] at h; exact ⟨_, List.prefix_refl _, by have : owed s = _ := h; rw [this]; omega⟩
  | throw x s =>
    rw [e] at h
    obtain ⟨pre, h3, h4⟩ := h
    exact ⟨pre, h3, by rw [h4]; omega⟩

theorem shared_prefix {b : Str} {pre : List ProgHeader} (h : pre <+: segmentsOf b) (ha : StartsApart b) : sharedStarts pre = 0 :=
  (shared_zero fun x hx => segments_ok x (h.subset hx)).2 (List.Pairwise.sublist h.sublist ha)

theorem image_owed_elf {p : Prog} {n : Str} (he : p.elf = some n)
    (ha : StartsApart (nextContents p.host n)) : ImageLoses p n (· = 0) := by
  intro f h1 h2
  refine (image_loses_elf he f h1 h2).mono ?_
  rintro s ⟨pre, h3, h4⟩
  rw [h4, shared_prefix h3 ha]; rfl

/-- What a successfully loaded image lost. -/
theorem image_lost_elf {p : Prog} {n : Str} {f : File} {s : Sim} (he : p.elf = some n) (h1 : p.host.files.opens p.host.files.next n = some f)
    (h2 : Whole f) (h : imageWork p f (emptySim p) = .ok () s) :
    owed s = p.host.mem.heap.live + 1 + sharedStarts (segmentsOf (nextContents p.host n)) := by
  unfold imageWork at h
  rw [he] at h
  simp only at h
  have hc : nextContents p.host n = f.bytes.take f.tell.toNat := by simp only [nextContents, h1]
  rw [hc]
  have h3 := from_exact (b := f.bytes.take f.tell.toNat) (s := emptySim p) rfl
  rw [whole_length h2, h] at h3
  have h4 : owed s = _ := h3
  rw [h4, emptySim, owed_bump, owed_init]

theorem ofInt_toNat {f : File} (h : Whole f) (hl : f.tell.toNat < 2 ^ 32) : (BitVec.ofInt 32 f.tell).toNat = f.tell.toNat := by
  have h2 := h.pos
  rw [BitVec.toNat_ofInt]
  omega

theorem ofInt_le {f : File} (h : Whole f) : (BitVec.ofInt 32 f.tell).toNat ≤ (f.bytes.take f.tell.toNat).length := by
  have h2 := h.pos
  rw [whole_length h, BitVec.toNat_ofInt]
  have := Nat.mod_le f.tell.toNat (2 ^ 32)
  omega

/-- Loading a raw image has a defined outcome. -/
theorem bin_defined {p : Prog} {f : File} (he : p.elf = none) (hw : Whole f) {r : UB} : imageWork p f (emptySim p) ≠ .ub r := by
  unfold imageWork
  rw [he]
  simp only
  unfold binWork
  rw [M.tryCatch_apply]
  have : ∀ r, loadSegment p.baseAddress (BitVec.ofInt 32 f.tell) (f.bytes.take f.tell.toNat) (emptySim p) ≠ .ub r := by
    intro r
    have hle := ofInt_le hw
    by_cases h0 : (BitVec.ofInt 32 f.tell).toNat = 0 ∨ 2 ^ 32 < p.baseAddress.toNat + (BitVec.ofInt 32 f.tell).toNat
    · obtain ⟨e, s', h, -⟩ := loadSegment_refused (s := emptySim p) rfl hle h0
      rw [h]; simp
    · rcases loadSegment_empty (s := emptySim p) (a := p.baseAddress) rfl (by omega) hle (by omega) with ⟨s', h⟩ | h <;> rw [h] <;> simp
  cases e : loadSegment p.baseAddress (BitVec.ofInt 32 f.tell) (f.bytes.take f.tell.toNat) (emptySim p) with
  | ok u s => simp
  | throw x s => simp
  | ub u => exact absurd e (this u)

/-- Loading an ELF file has a defined outcome, unless something in it wraps around. -/
theorem elf_defined {p : Prog} {f : File} {n : Str} (he : p.elf = some n) (hf : p.host.files.opens p.host.files.next n = some f)
    (hw : Whole f) (ho : NoWraps (nextContents p.host n)) {r : UB} :
    imageWork p f (emptySim p) ≠ .ub r := by
  unfold imageWork
  rw [he]
  simp only
  have hc : nextContents p.host n = f.bytes.take f.tell.toNat := by simp only [nextContents, hf]
  rw [hc] at ho
  have h := from_sat (s := emptySim p) ho.1 (sound_init _) (unwatched_init _) ho.2
  rw [whole_length hw] at h
  intro e
  rw [e] at h
  exact h

end Verif.CommandLine
