import Verif.Lemmas.CmdParse
import Verif.Lemmas.CmdElf
import Verif.Lemmas.DumpSafe
import Verif.Lemmas.GdbFile
import Verif.Lemmas.GdbSafe
/- The stages of start-up. -/
namespace Verif.CommandLine
open Verif MemSim Spec Libc Elf

/-- The program with another simulator. -/
def withMem (p : Prog) (s : Sim) : Prog := { p with host := { p.host with mem := s } }

theorem onMem_apply {m : M Sim α} {p : Prog} (hm : p.memory = true) : onMemory (Host.onMem m) p =
    match m p.host.mem with
    | .ok a s => .ok a (withMem p s)
    | .throw e s => .throw e (withMem p s)
    | .ub r => .ub r := by
  unfold onMemory
  rw [if_pos hm]
  simp only [onHost, Host.onMem, M.zoom_apply]
  cases m p.host.mem <;> rfl

/-- Line 111. -/
def cleared (p : Prog) : Prog :=
  { p with elf := none, bin := none, dump := none, memory := false, baseAddress := 0, host := { p.host with ctx := {} } }

/-- What comes after the first pass. -/
def stages (as : List (U32 × U32 × U32)) : M Prog Unit := do
  throwIfRequiredArgumentNotSpecified
  initMemory
  loadImageFile
  loadDumpFile
  addAliases as

/-- The simulator after `MemorySim_Uninit`. -/
def released (s : Sim) : Sim :=
  { s with regions := [], xml := none, heap := { s.heap with live := s.heap.live - blocksOf s.regions - (if s.xml.isSome then 1 else 0) } }

theorem released_live (s : Sim) : (released s).heap.live = owed s := rfl

/-- The program after the catch block. -/
def afterFailure (e : Exn) (q : Prog) : Prog :=
  { q with err := q.err ++ report e.msg, memory := false,
           host := if q.memory then { q.host with mem := released q.host.mem } else q.host }

/-- The catch block of start-up. -/
def finish : Out Prog Unit → Out Prog Unit
  | .throw e q => .throw e (afterFailure e q)
  | o => o

theorem init_eq (argc : Int) (argv : List Str) (p : Prog) : init argc argv p = finish (initBody argc argv p) := by
  unfold init
  rw [M.tryCatch_apply]
  cases initBody argc argv p with
  | ok u q => rfl
  | ub r => rfl
  | throw e q =>
    simp only [finish, displayExceptionMessage, print, M.bind_apply, M.modify_apply, uninitMemory, M.get_apply]
    by_cases hm : q.memory = true
    · simp only [hm, if_true, onHost, Host.onMem, M.zoom_apply, uninit, M.rethrow_apply, afterFailure, report, List.append_assoc]
      rfl
    · simp only [hm, Bool.false_eq_true, if_false, M.pure_apply, M.rethrow_apply, afterFailure, report, List.append_assoc]

theorem startUp_spelled {args : List Str} {os : List Opt} (h : Spelled args os) (p : Prog) :
    startUp args p = finish (stages (aliases os) (selected os (cleared p))) := by
  unfold startUp
  rw [init_eq]
  congr 1
  unfold initBody
  rw [M.bind_ok (show clear p = .ok () (cleared p) from rfl), pass_complete h, M.bind_ok (first_pass os (cleared p)), pass_complete h, second_pass]
  rfl

theorem startUp_stuck {pre rest : List Str} {os : List Opt} {m : Str} (h : Spelled pre os) (hs : Stuck rest m) (p : Prog) :
    startUp (pre ++ rest) p =
      .throw ⟨.invalidArgument, m⟩ (afterFailure ⟨.invalidArgument, m⟩ (selected os (cleared p))) := by
  unfold startUp
  rw [init_eq]
  unfold initBody
  rw [M.bind_ok (show clear p = .ok () (cleared p) from rfl), pass_stuck h hs]
  rw [M.bind_throw (show (do runOpts .first os; M.throw .invalidArgument m : M Prog Unit) (cleared p) = .throw ⟨.invalidArgument, m⟩ (selected os (cleared p)) by
    rw [M.bind_ok (first_pass os (cleared p))]; rfl)]
  rfl

theorem startUp_case {pre post : List Str} {os : List Opt} {w w' : Str} {k : Kind} (h : Spelled pre os) (hw : Spells w (asc k.name))
    (hw' : Spells w' (asc k.name)) : startUp (pre ++ w :: post) = startUp (pre ++ w' :: post) := by
  funext p
  unfold startUp
  rw [init_eq, init_eq]
  unfold initBody
  rw [pass_case h hw hw' .first, pass_case h hw hw' .second]

/-! ### Reading the image file -/

/-- The program after one more `fopen`, with the file closed again; the heap was used. -/
def fileRead (p : Prog) (k : Nat) (l : Int) : Prog :=
  { p with host := { p.host with mem := bumpHeap p.host.mem k l, files := { p.host.files with next := p.host.files.next + 1 } } }

/-- The file can be read in full. -/
structure Whole (f : File) : Prop where
  seekEnd : f.seekEndFails = false
  seekSet : f.seekSetFails = false
  pos : 0 ≤ f.tell
  len : f.tell ≤ f.bytes.length

theorem getFileSize_eq (h : Handle) : getFileSize h =
    if h.file.seekEndFails then .throw ⟨.file, []⟩ h
    else if h.file.tell < 0 then .throw ⟨.file, []⟩ { h with pos := h.file.tell }
    else if h.file.seekSetFails then .throw ⟨.file, []⟩ { h with pos := h.file.tell }
    else .ok h.file.tell { h with pos := 0 } := by
  unfold getFileSize
  simp only [M.bind_apply, Handle.seekEnd]
  cases h.file.seekEndFails with
  | true => rfl
  | false =>
    simp only [Bool.false_eq_true, if_false, M.bind_apply, Handle.tell]
    by_cases h1 : h.file.tell < 0
    · rw [if_pos h1, if_pos h1]; rfl
    · rw [if_neg h1, if_neg h1]
      simp only [M.bind_apply, Handle.seekSet]
      cases h.file.seekSetFails <;> rfl

theorem catch_eq (b : Bool) (e : Exn) (q : Prog) : loadFileCatch (α := FileData) b true e q =
    .throw e { q with host := { q.host with mem := bumpHeap q.host.mem 0 (if b then -1 else 0),
                                            files := { q.host.files with live := q.host.files.live - 1 } } } := by
  cases b
  · simp [loadFileCatch, bumpHeap, onHost, Host.fclose]
  · simp only [loadFileCatch, bumpHeap, onHost, Host.fclose, freeP, Host.onMem, free, M.bind_apply, M.zoom_apply, M.modify_apply,
      M.rethrow_apply, if_true]
    rfl

theorem loadFileData_cases (name : Str) (p : Prog) :
    (∃ e k, loadFileData name p = .throw e (fileRead p k 0) ∧ e.code ∈ [Exc.file, .outOfMemory] ∧
      (∀ f, p.host.files.opens p.host.files.next name = some f → Whole f → PlentyOfMemory p.host.mem → False)) ∨
    ∃ f, p.host.files.opens p.host.files.next name = some f ∧ Whole f ∧
      loadFileData name p = .ok ⟨f.bytes.take f.tell.toNat, f.tell⟩ (fileRead p 1 1) := by
  unfold loadFileData loadFileBody
  simp only [M.bind_apply, onProg, onHost, M.zoom_apply, Host.fopen]
  cases ho : p.host.files.opens p.host.files.next name with
  | none =>
    left
    refine ⟨⟨.file, (asc "Failed to open \"" ++ name ++ asc "\".").take 1023⟩, 0, ?_, by simp, by simp⟩
    simp [loadFileCatch, fileRead, bumpHeap]
  | some f =>
    simp only [M.modify_apply, Option.map_some, Option.isNone_some, Bool.false_eq_true, if_false, M.bind_apply, M.tryCatch_apply, fileSizeOf, getFileSize_eq]
    have fin : ∀ (e : Exn), (loadFileCatch (α := FileData) false true e { p with host := { p.host with files := { p.host.files with next := p.host.files.next + 1, live := p.host.files.live + 1 } } }) = .throw e (fileRead p 0 0) := by
      intro e
      simp [loadFileCatch, fileRead, bumpHeap, onHost, Host.fclose]
    by_cases h1 : f.seekEndFails = true
    · simp only [h1, if_true, M.throw_apply, Option.isSome_none, Option.isSome_some]
      exact .inl ⟨_, 0, fin _, by simp, fun g hg hw _ => by cases hg; rw [hw.seekEnd] at h1; cases h1⟩
    · simp only [h1, Bool.false_eq_true, if_false]
      by_cases h2 : f.tell < 0
      · simp only [h2, if_true, M.throw_apply, Option.isSome_none, Option.isSome_some]
        exact .inl ⟨_, 0, fin _, by simp, fun g hg hw _ => by cases hg; have := hw.pos; omega⟩
      · simp only [h2, if_false]
        by_cases h3 : f.seekSetFails = true
        · simp only [h3, if_true, M.throw_apply, Option.isSome_none, Option.isSome_some]
          exact .inl ⟨_, 0, fin _, by simp, fun g hg hw _ => by cases hg; rw [hw.seekSet] at h3; cases h3⟩
        · simp only [h3, Bool.false_eq_true, if_false, M.modify_apply, mallocP, onHost, Host.onMem, M.zoom_apply, malloc]
          by_cases h4 : p.host.mem.heap.fails p.host.mem.heap.next = true
          · left
            simp only [h4, if_true, Bool.false_eq_true, if_false, M.throw_apply, Option.isSome_none, Option.isSome_some]
            exact ⟨_, 1, (catch_eq _ _ _).trans (congrArg (Out.throw _) (by simp [fileRead, bumpHeap])), by simp,
              fun g hg hw hp => by rw [hp] at h4; cases h4⟩
          · simp only [h4, Bool.false_eq_true, if_false, if_true, M.bind_apply, M.modify_apply, freadAll, Handle.read, Int.toNat_zero, List.drop_zero]
            by_cases h5 : (((f.bytes.take f.tell.toNat).length : Nat) : Int) = f.tell
            · simp only [h5, ne_eq, not_true_eq_false, if_false]
              right
              refine ⟨f, rfl, ⟨by simpa using h1, by simpa using h3, by omega, ?_⟩, ?_⟩
              · rw [List.length_take] at h5; omega
              · simp [fileRead, bumpHeap, Host.fclose, onProg, onHost]
            · simp only [ne_eq, h5, not_false_eq_true, if_true, M.throw_apply, Option.isSome_some]
              left
              refine ⟨_, 1, (catch_eq _ _ _).trans (congrArg (Out.throw _) (by simp [fileRead, bumpHeap]; omega)), by simp, fun g hg hw hp => ?_⟩
              cases hg
              have := hw.len; have := hw.pos
              rw [List.length_take] at h5; omega

/-! ### Loading the image -/

/-- The program with another simulator, after one more `fopen`. -/
def atMem (p : Prog) (s : Sim) : Prog :=
  { p with host := { p.host with mem := s, files := { p.host.files with next := p.host.files.next + 1 } } }

theorem onMem_bind {m : M Sim α} {f : α → M Sim β} {p : Prog} (hm : p.memory = true) :
    (onMemory (Host.onMem m) >>= fun a => onMemory (Host.onMem (f a))) p = onMemory (Host.onMem (m >>= f)) p := by
  rw [M.bind_apply, onMem_apply hm, onMem_apply hm, M.bind_apply]
  cases m p.host.mem with
  | ok a s =>
    simp only
    rw [onMem_apply (p := withMem p s) hm]
    show (match f a s with | .ok a s => _ | .throw e s => _ | .ub r => _) = _
    cases f a s <;> rfl
  | throw e s => rfl
  | ub r => rfl

/-- What loading a raw image amounts to. -/
def binWork (base : U32) (data : Str) (size : Int) : M Sim Unit :=
  M.tryCatch (loadSegment base (BitVec.ofInt 32 size) data)
    (fun e => M.throw e.code (asc "Failed to load read-only code into memory region at address 0x" ++ fmt08X base ++ asc "."))

theorem loadBinFile_eq {fd : FileData} {p : Prog} (hm : p.memory = true) :
    loadBinFile fd p = onMemory (Host.onMem (binWork p.baseAddress fd.data fd.dataSize)) p := by
  unfold loadBinFile binWork
  rw [M.bind_ok (show (M.get : M Prog Prog) p = .ok p p from rfl), onMem_apply hm, M.tryCatch_apply, M.tryCatch_apply]
  have e1 : (do
      onMemory (Host.onMem (createRegion p.baseAddress (BitVec.ofInt 32 fd.dataSize)))
      onMemory (Host.onMem (loadFromFlashImage p.baseAddress fd.data (BitVec.ofInt 32 fd.dataSize)))
      onMemory (Host.onMem (makeRegionReadOnly p.baseAddress)) : M Prog Unit) p =
      onMemory (Host.onMem (loadSegment p.baseAddress (BitVec.ofInt 32 fd.dataSize) fd.data)) p := by
    unfold loadSegment
    rw [← onMem_bind hm, M.bind_apply, M.bind_apply, onMem_apply hm]
    cases createRegion p.baseAddress (BitVec.ofInt 32 fd.dataSize) p.host.mem with
    | ok u s => exact onMem_bind (p := withMem p s) hm
    | throw e s => rfl
    | ub r => rfl
  rw [e1, onMem_apply hm]
  cases loadSegment p.baseAddress (BitVec.ofInt 32 fd.dataSize) fd.data p.host.mem <;> rfl

/-- What loading the image amounts to, once the file is in memory. -/
def imageWork (p : Prog) (f : File) : M Sim Unit :=
  match p.elf with
  | some _ => fromMemory (f.bytes.take f.tell.toNat) f.tell.toNat
  | none => binWork p.baseAddress (f.bytes.take f.tell.toNat) f.tell

theorem withFree {m : M Sim Unit} {p : Prog} (hm : p.memory = true) :
    M.tryCatch (do onMemory (Host.onMem m); freeP) (fun e => do freeP; M.rethrow e) p =
      match m p.host.mem with
      | .ok _ s => .ok () (withMem p (bumpHeap s 0 (-1)))
      | .throw e s => .throw e (withMem p (bumpHeap s 0 (-1)))
      | .ub r => .ub r := by
  rw [M.tryCatch_apply, M.bind_apply, onMem_apply hm]
  cases m p.host.mem with
  | ok u s => simp only [freeP, onHost, Host.onMem, M.zoom_apply, free]; rfl
  | throw e s => simp only [freeP, onHost, Host.onMem, M.zoom_apply, free, M.bind_apply]; rfl
  | ub r => rfl

theorem loadImageFile_cases {p : Prog} (hm : p.memory = true) {name : Str}
    (hn : p.elf = some name ∨ p.elf = none ∧ p.bin = some name) :
    (∃ e k, loadImageFile p = .throw e (fileRead p k 0) ∧ e.code ∈ [Exc.file, .outOfMemory] ∧
      (∀ f, p.host.files.opens p.host.files.next name = some f → Whole f → PlentyOfMemory p.host.mem → False)) ∨
    ∃ f, p.host.files.opens p.host.files.next name = some f ∧ Whole f ∧
      loadImageFile p = match imageWork p f (bumpHeap p.host.mem 1 1) with
        | .ok _ s => .ok () (atMem p (bumpHeap s 0 (-1)))
        | .throw e s => .throw e (atMem p (bumpHeap s 0 (-1)))
        | .ub r => .ub r := by
  rcases hn with hn | ⟨hn, hb⟩
  · have e0 : loadImageFile p = (do
        let fd ← loadFileData name
        M.tryCatch (do
          onMemory (Host.onMem (Elf.fromMemory fd.data fd.dataSize.toNat))
          freeP) (fun e => do freeP; M.rethrow e) : M Prog Unit) p := by
      unfold loadImageFile
      rw [M.bind_ok (show (M.get : M Prog Prog) p = .ok p p from rfl), hn]
    rcases loadFileData_cases name p with ⟨e, k, h1, h2, h3⟩ | ⟨f, h1, h2, h3⟩
    · exact .inl ⟨e, k, by rw [e0, M.bind_throw h1], h2, h3⟩
    · refine .inr ⟨f, h1, h2, ?_⟩
      rw [e0, M.bind_ok h3, withFree (p := fileRead p 1 1) hm]
      simp only [imageWork, hn]
      rfl
  · have e0 : loadImageFile p = (do
        let fd ← loadFileData name
        M.tryCatch (do loadBinFile fd; freeP) (fun e => do freeP; M.rethrow e) : M Prog Unit) p := by
      unfold loadImageFile
      rw [M.bind_ok (show (M.get : M Prog Prog) p = .ok p p from rfl), hn, hb]
    rcases loadFileData_cases name p with ⟨e, k, h1, h2, h3⟩ | ⟨f, h1, h2, h3⟩
    · exact .inl ⟨e, k, by rw [e0, M.bind_throw h1], h2, h3⟩
    · refine .inr ⟨f, h1, h2, ?_⟩
      rw [e0, M.bind_ok h3, M.tryCatch_apply, M.bind_apply, loadBinFile_eq (p := fileRead p 1 1) hm, ← M.bind_apply, ← M.tryCatch_apply, withFree (p := fileRead p 1 1) hm]
      simp only [imageWork, hn]
      rfl

theorem bin_img (b : U32) (d : Str) (n : Int) : Img (binWork b d n) := by
  unfold binWork loadSegment
  exact Img.rename (Img.bind (img_create _ _) fun _ => Img.bind (img_load _ _ _) fun _ => img_mark _)

theorem image_img (p : Prog) (f : File) : Img (imageWork p f) := by
  unfold imageWork
  split
  · exact img_from _ _
  · exact bin_img _ _ _

end Verif.CommandLine
