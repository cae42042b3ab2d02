import Verif.Lemmas.CmdWhole
import Verif.Lemmas.CmdTop
import Verif.Lemmas.GdbFile
/- Start-up does not look at files other than the ones named on the command line. -/
namespace Verif.CommandLine
open Verif MemSim Spec Libc Elf

/-- Another file system for the loaders. -/
def reopenedH (g : Nat → Str → Option File) (h : Host) : Host := { h with files := { h.files with opens := g } }

theorem reopened_host (g : Nat → Str → Option File) (p : Prog) : (reopened g p).host = reopenedH g p.host := rfl

variable {g : Nat → Str → Option File}

theorem zoom_commH (m : M Sim α) : Comm (reopenedH g) (Host.onMem m) := by
  intro h
  simp only [Host.onMem, M.zoom_apply]
  rw [show (reopenedH g h).mem = h.mem from rfl]
  cases m h.mem <;> rfl

theorem onHost_commG {m : M Host α} (hm : Comm (reopenedH g) m) : Comm (reopened g) (onHost m) := by
  intro p
  simp only [onHost, M.zoom_apply]
  rw [reopened_host, hm p.host]
  cases m p.host <;> rfl

theorem onMemory_commG {m : M Host α} (hm : Comm (reopenedH g) m) : Comm (reopened g) (onMemory m) := by
  intro p
  unfold onMemory
  by_cases h : p.memory = true
  · rw [if_pos h, if_pos (show (reopened g p).memory = true from h)]; exact onHost_commG hm p
  · rw [if_neg h, if_neg (show ¬ (reopened g p).memory = true from h)]; rfl

theorem fclose_commH : Comm (reopenedH g) Host.fclose := Comm.modify fun _ => rfl

/-- Opening one file of the same contents. -/
theorem fopen_same {name : Str} {h : Host} (hg : g h.files.next name = h.files.opens h.files.next name) :
    Host.fopen name (reopenedH g h) = seenThrough (reopenedH g) (Host.fopen name h) := by
  unfold Host.fopen
  rw [show (reopenedH g h).files.opens (reopenedH g h).files.next name = g h.files.next name from rfl, hg]
  cases h.files.opens h.files.next name <;> rfl

theorem bind_same {σ α β : Type} {f : σ → σ} {s : σ} {m : M σ α} {k : α → M σ β} (e : m (f s) = seenThrough f (m s)) (hk : ∀ a, Comm f (k a)) :
    (m >>= k) (f s) = seenThrough f ((m >>= k) s) := by
  rw [M.bind_apply, M.bind_apply, e]
  cases m s with
  | ok a s => exact hk a s
  | throw e s => rfl
  | ub r => rfl

/-! ### Reading an image file -/

def reopenedL (g : Nat → Str → Option File) (s : LoadState) : LoadState := { s with prog := reopened g s.prog }

theorem onProg_commG {m : M Prog α} (h : Comm (reopened g) m) : Comm (reopenedL g) (onProg m) := by
  intro s
  simp only [onProg, M.zoom_apply]
  rw [show (reopenedL g s).prog = reopened g s.prog from rfl, h s.prog]
  cases m s.prog <;> rfl

theorem fileSizeOf_commG : Comm (reopenedL g) fileSizeOf := by
  intro s
  unfold fileSizeOf
  rw [show (reopenedL g s).pFile = s.pFile from rfl]
  cases s.pFile with
  | none => rfl
  | some h =>
    simp only
    cases getFileSize h <;> rfl

theorem freadAll_commG : Comm (reopenedL g) freadAll := by
  intro s
  unfold freadAll
  rw [show (reopenedL g s).pFile = s.pFile from rfl]
  cases s.pFile <;> rfl

theorem malloc_commG : Comm (reopened g) (mallocP) := onHost_commG (zoom_commH _)
theorem free_commG : Comm (reopened g) (freeP) := onHost_commG (zoom_commH _)
theorem fclose_commG : Comm (reopened g) (onHost Host.fclose) := onHost_commG fclose_commH

theorem loadFileBody_same {name : Str} {p : Prog} (hg : g p.host.files.next name = p.host.files.opens p.host.files.next name) :
    loadFileBody name (reopenedL g { prog := p }) = seenThrough (reopenedL g) (loadFileBody name { prog := p }) := by
  unfold loadFileBody
  have e1 : onProg (onHost (Host.fopen name)) (reopenedL g { prog := p }) =
      seenThrough (reopenedL g) (onProg (onHost (Host.fopen name)) { prog := p }) := by
    simp only [onProg, onHost, M.zoom_apply, reopenedL]
    rw [reopened_host, fopen_same hg]
    cases Host.fopen name p.host <;> rfl
  refine bind_same e1 fun f => Comm.bind (Comm.modify fun _ => rfl) fun _ => ?_
  split
  · exact Comm.throw _ _
  · refine Comm.bind (Comm.tryCatch fileSizeOf_commG fun _ => Comm.throw _ _) fun n => Comm.bind (Comm.modify fun _ => rfl) fun _ =>
      Comm.bind (onProg_commG malloc_commG) fun b => ?_
    split
    · refine Comm.bind (Comm.modify fun _ => rfl) fun _ => Comm.bind freadAll_commG fun bytes => ?_
      split
      · exact Comm.throw _ _
      · exact onProg_commG fclose_commG
    · exact Comm.throw _ _

theorem loadFileData_same {name : Str} {p : Prog} (hg : g p.host.files.next name = p.host.files.opens p.host.files.next name) :
    loadFileData name (reopened g p) = seenThrough (reopened g) (loadFileData name p) := by
  unfold loadFileData
  have h := loadFileBody_same hg
  rw [show ({ prog := reopened g p } : LoadState) = reopenedL g { prog := p } from rfl, h]
  cases loadFileBody name { prog := p } with
  | ok u s => rfl
  | ub r => rfl
  | throw e s =>
    have : Comm (reopened g) (loadFileCatch (α := FileData) s.pBuffer.isSome s.pFile.isSome e) := by
      unfold loadFileCatch
      simp only
      have hr : Comm (reopened g) (M.rethrow e : M Prog FileData) := Comm.rethrow e
      have h2 : Comm (reopened g) (if s.pFile.isSome = true then onHost Host.fclose >>= fun _ => M.rethrow e else M.rethrow e : M Prog FileData) := by
        split
        · exact Comm.bind fclose_commG fun _ => hr
        · exact hr
      split
      · exact Comm.bind free_commG fun _ => h2
      · exact h2
    exact this s.prog

theorem loadBinFile_commG (fd : FileData) : Comm (reopened g) (loadBinFile fd) := by
  intro p
  unfold loadBinFile
  rw [M.bind_apply, M.bind_apply, M.get_apply, M.get_apply]
  simp only
  rw [show (reopened g p).baseAddress = p.baseAddress from rfl]
  exact (Comm.tryCatch (Comm.bind (onMemory_commG (zoom_commH _)) fun _ => Comm.bind (onMemory_commG (zoom_commH _)) fun _ =>
    onMemory_commG (zoom_commH _)) fun e => Comm.throw _ _ : Comm (reopened g) _) p

theorem loadImageFile_same {n : Str} {p : Prog} (hn : p.elf = some n ∨ p.elf = none ∧ p.bin = some n)
    (hg : g p.host.files.next n = p.host.files.opens p.host.files.next n) :
    loadImageFile (reopened g p) = seenThrough (reopened g) (loadImageFile p) := by
  unfold loadImageFile
  rw [M.bind_apply, M.bind_apply, M.get_apply, M.get_apply]
  simp only
  rw [show (reopened g p).elf = p.elf from rfl, show (reopened g p).bin = p.bin from rfl]
  have fin : ∀ m : FileData → M Prog Unit, (∀ fd, Comm (reopened g) (m fd)) →
      (loadFileData n >>= m) (reopened g p) = seenThrough (reopened g) ((loadFileData n >>= m) p) := by
    intro m hm
    rw [M.bind_apply, M.bind_apply, loadFileData_same hg]
    cases loadFileData n p with
    | ok fd q => exact hm fd q
    | throw e q => rfl
    | ub r => rfl
  rcases hn with hn | ⟨hn, hb⟩
  · rw [hn]
    exact fin _ fun fd => Comm.tryCatch (Comm.bind (onMemory_commG (zoom_commH _)) fun _ => free_commG) fun e =>
      Comm.bind free_commG fun _ => Comm.rethrow e
  · rw [hn, hb]
    exact fin _ fun fd => Comm.tryCatch (Comm.bind (loadBinFile_commG fd) fun _ => free_commG) fun e =>
      Comm.bind free_commG fun _ => Comm.rethrow e

/-! ### Reading a dump -/

def reopenedD (g : Nat → Str → Option File) (d : Dump.D) : Dump.D := { d with host := reopenedH g d.host }

open Dump in
theorem readInto_comm (rd : Reader) (n : Nat) (put : Str → D → D) (h : ∀ bs d, put bs (reopenedD g d) = reopenedD g (put bs d)) :
    Comm (reopenedD g) (readInto rd n put) := by
  intro d
  unfold readInto
  rw [show (reopenedD g d).rest = d.rest from rfl]
  cases rd n d.rest with
  | got bs t => exact congrArg (Out.ok bs) (h bs { d with rest := t })
  | bad bs t => exact congrArg (Out.throw _) (h bs { d with rest := t })

open Dump in
theorem onMemD_comm (m : M Sim α) : Comm (reopenedD g) (Dump.onMem m) := by
  intro d
  simp only [Dump.onMem, M.zoom_apply]
  rw [show (reopenedD g d).host.mem = d.host.mem from rfl]
  cases m d.host.mem <;> rfl

open Dump in
theorem Comm.ite {σ α : Type} {f : σ → σ} {c : Prop} [Decidable c] {m m' : M σ α} (h : Comm f m) (h' : Comm f m') : Comm f (if c then m else m') := by
  split
  · exact h
  · exact h'

open Dump in
theorem loadRegionBytes_comm (rd : Reader) (n : Nat) (a : U32) : Comm (reopenedD g) (loadRegionBytes rd n a) := by
  induction n generalizing a with
  | zero => exact Comm.pure _
  | succ n ih =>
    unfold loadRegionBytes
    refine Comm.bind (readInto_comm _ _ _ fun _ _ => rfl) fun bs => ?_
    split
    · exact Comm.bind (onMemD_comm _) fun _ => ih _
    · exact Comm.throw _ _

open Dump in
theorem readNext_comm (rd : Reader) : Comm (reopenedD g) (readNextMemoryRegion rd) := by
  unfold readNextMemoryRegion
  refine Comm.bind (readInto_comm _ _ _ fun _ _ => rfl) fun bs => Comm.ite (Comm.throw _ _) (Comm.ite (Comm.pure _) (Comm.ite (Comm.throw _ _) ?_))
  exact Comm.bind (Comm.tryCatch (Comm.bind (onMemD_comm _) fun _ => loadRegionBytes_comm _ _ _) fun e => Comm.throw _ _) fun _ => Comm.pure _

open Dump in
theorem readRegions_comm (rd : Reader) (n : Nat) : Comm (reopenedD g) (readMemoryRegions rd n) := by
  induction n with
  | zero => exact Comm.ub _
  | succ n ih =>
    unfold readMemoryRegions
    exact Comm.bind (readNext_comm rd) fun b => Comm.ite (Comm.pure _) ih

/-- Code that starts by looking at the state. -/
theorem Comm.get {σ α : Type} {f : σ → σ} {m : σ → M σ α} (h1 : ∀ s, m (f s) = m s) (h2 : ∀ s, Comm f (m s)) : Comm f (M.get >>= m) := by
  intro s
  rw [M.bind_apply, M.bind_apply, M.get_apply, M.get_apply]
  simp only [h1]
  exact h2 s s

open Dump in
theorem readDump_comm (rd : Reader) : Comm (reopenedD g) (readDump rd) := by
  unfold readDump
  refine Comm.bind ?_ fun _ => Comm.bind ?_ fun _ => Comm.bind ?_ fun _ => Comm.bind ?_ fun _ => ?_
  · unfold validateDumpSignature
    exact Comm.bind (readInto_comm _ _ _ fun _ _ => rfl) fun bs => Comm.ite (Comm.throw _ _) (Comm.ite (Comm.pure _)
      (Comm.ite (Comm.modify fun _ => rfl) (Comm.throw _ _)))
  · unfold readFlags
    exact Comm.bind (readInto_comm _ _ _ fun _ _ => rfl) fun bs => Comm.ite (Comm.throw _ _) (Comm.pure _)
  · unfold readIntegerRegisters
    refine Comm.get (fun _ => rfl) fun d => ?_
    have tail : ∀ n, Comm (reopenedD g) (do
        let bs ← readInto rd n (fun bs d => d.setCtx fun c => { c with r := overlay c.r bs })
        if bs.length ≠ n then M.throw .fileFormat (asc "The dump file was too short to contain the integer registers.")
        else do
          let bs ← readInto rd 4 (fun bs d => d.setCtx fun c => { c with psr := overlayWord c.psr bs })
          if bs.length ≠ 4 then M.throw .fileFormat (asc "The dump file was too short to contain the exception PSR.")
          else pure () : M D Unit) := fun n =>
      Comm.bind (readInto_comm _ _ _ fun _ _ => rfl) fun bs => Comm.ite (Comm.throw _ _)
        (Comm.bind (readInto_comm _ _ _ fun _ _ => rfl) fun bs => Comm.ite (Comm.throw _ _) (Comm.pure _))
    simp only
    exact Comm.ite (Comm.bind (Comm.modify fun _ => rfl) fun _ => tail _) (tail _)
  · unfold readFloatingPointRegisters
    refine Comm.get (fun _ => rfl) fun d => Comm.ite (Comm.pure _) ?_
    exact Comm.bind (readInto_comm _ _ _ fun _ _ => rfl) fun bs => Comm.ite (Comm.throw _ _) (Comm.pure _)
  · exact Comm.get (fun _ => rfl) fun d => readRegions_comm _ _

/-- The same for a function that opens one file. -/
theorem fopen_bind {name : Str} {h : Host} {m : Option File → M Host Unit} (hm : ∀ f, Comm (reopenedH g) (m f))
    (hg : g h.files.next name = h.files.opens h.files.next name) :
    (Host.fopen name >>= m) (reopenedH g h) = seenThrough (reopenedH g) ((Host.fopen name >>= m) h) := by
  rw [M.bind_apply, M.bind_apply, fopen_same hg]
  cases Host.fopen name h with
  | ok f h' => exact hm f h'
  | throw e h' => rfl
  | ub r => rfl

open Dump in
theorem readFile_same (rd : Reader) {name : Str} {h : Host} (hg : g h.files.next name = h.files.opens h.files.next name) :
    readFile rd name (reopenedH g h) = seenThrough (reopenedH g) (readFile rd name h) := by
  unfold readFile
  refine fopen_bind (fun f => ?_) hg
  cases f with
  | none => exact Comm.throw _ _
  | some f =>
    intro h
    simp only
    rw [show ({ host := reopenedH g h, rest := f.bytes } : D) = reopenedD g { host := h, rest := f.bytes } from rfl, readDump_comm]
    cases readDump rd { host := h, rest := f.bytes } <;> rfl

/-! ### Reading a log -/

def reopenedO (g : Nat → Str → Option File) (o : GdbLog.Obj) : GdbLog.Obj := { o with host := reopenedH g o.host }

open GdbLog in
theorem onMemO_comm (m : M Sim α) : Comm (reopenedO g) (GdbLog.onMem m) := by
  intro o
  simp only [GdbLog.onMem, M.zoom_apply]
  rw [show (reopenedO g o).host.mem = o.host.mem from rfl]
  cases m o.host.mem <;> rfl

open GdbLog in
theorem parseLine_comm (l : Str) : Comm (reopenedO g) (parseLine l) := by
  have hv : ∀ n vs l, Comm (reopenedO g) (parseValues n vs l) := by
    intro n
    induction n with
    | zero => intro vs l; exact Comm.ub _
    | succ n ih =>
      intro vs l
      unfold parseValues
      refine Comm.ite (Comm.bind ?_ fun x => ih _ _) (Comm.pure _)
      unfold parseNextValue parseValue
      exact Comm.ite (Comm.pure _) (Comm.ub _)
  unfold parseLine
  refine Comm.ite ?_ ?_
  · unfold parseMemoryLine
    exact Comm.ite (Comm.ub _) (Comm.bind (hv _ _ _) fun _ => Comm.pure _)
  · cases isRegisterLine l with
    | none => exact Comm.pure _
    | some off =>
      simp only [parseRegisterLine]
      exact Comm.ite (Comm.ub _) (Comm.ite (Comm.pure _) (Comm.pure _))

open GdbLog in
theorem storeContext_comm (off : Nat) (v : U32) : Comm (reopenedO g) (storeContext off v) := by
  intro o
  unfold storeContext
  simp only
  split
  · rfl
  · split
    · rfl
    · split
      · rfl
      · split
        · rfl
        · split
          · rfl
          · rfl

open GdbLog in
theorem firstPass_comm (r : Results) : Comm (reopenedO g) (firstPassHandler r) := by
  cases r with
  | other => exact Comm.pure _
  | memory a vs =>
    unfold firstPassHandler firstPassMemoryHandler
    refine Comm.get (fun _ => rfl) fun o => ?_
    simp only
    refine Comm.ite (Comm.ite ?_ ?_) (Comm.modify fun _ => rfl)
    · exact Comm.bind (onMemO_comm _) fun _ => Comm.bind (Comm.modify fun _ => rfl) fun _ => Comm.modify fun _ => rfl
    · exact Comm.bind (Comm.modify fun _ => rfl) fun _ => Comm.modify fun _ => rfl
  | register off v =>
    unfold firstPassHandler firstPassRegisterHandler
    exact Comm.ite (Comm.bind (Comm.modify fun _ => rfl) fun _ => storeContext_comm _ _) (storeContext_comm _ _)

open GdbLog in
theorem secondPass_comm (r : Results) : Comm (reopenedO g) (secondPassHandler r) := by
  cases r with
  | other => exact Comm.pure _
  | register off v => exact Comm.pure _
  | memory a vs =>
    unfold secondPassHandler
    have : ∀ i, Comm (reopenedO g) (writeValues a i vs) := by
      induction vs with
      | nil => intro i; exact Comm.pure _
      | cons v vs ih => intro i; unfold writeValues; exact Comm.bind (onMemO_comm _) fun _ => ih _
    exact this 0

open GdbLog in
theorem parseLines_comm (handler : Results → M Obj Unit) (hh : ∀ r, Comm (reopenedO g) (handler r)) (bytes : Str) :
    Comm (reopenedH g) (GdbLog.parseLines handler bytes) := by
  have hl : ∀ n t, Comm (reopenedO g) (GdbLog.parseLoop handler n t) := by
    intro n
    induction n with
    | zero => intro t; exact Comm.ub _
    | succ n ih =>
      intro t
      unfold GdbLog.parseLoop
      cases fgets (LINE_SIZE - 1) t with
      | none => exact Comm.pure _
      | some x => exact Comm.bind (parseLine_comm _) fun r => Comm.bind (hh r) fun _ => ih _
  intro h
  unfold GdbLog.parseLines
  simp only
  rw [show ({ host := reopenedH g h } : Obj) = reopenedO g { host := h } from rfl]
  rw [(Comm.bind (hl _ _) fun _ => Comm.get (fun _ => rfl) fun o => Comm.ite (onMemO_comm _) (Comm.pure _) :
    Comm (reopenedO g) (do
      GdbLog.parseLoop handler (bytes.length + 1) bytes
      let o ← M.get
      if o.regionSize ≠ 0 then GdbLog.onMem (createRegion o.regionStart o.regionSize) else pure ()))]
  generalize (do
      GdbLog.parseLoop handler (bytes.length + 1) bytes
      let o ← M.get
      if o.regionSize ≠ 0 then GdbLog.onMem (createRegion o.regionStart o.regionSize) else pure () : M Obj Unit) { host := h } = o
  cases o <;> rfl

open GdbLog in
theorem parse_same {name : Str} {h : Host} (hg : g h.files.next name = h.files.opens h.files.next name) :
    parse name (reopenedH g h) = seenThrough (reopenedH g) (parse name h) := by
  unfold parse
  refine fopen_bind (fun f => ?_) hg
  cases f with
  | none => exact Comm.throw _ _
  | some f =>
    refine Comm.tryCatch (Comm.bind (Comm.modify fun _ => rfl) fun _ => Comm.bind (parseLines_comm _ firstPass_comm _) fun _ =>
      Comm.bind ?_ fun _ => Comm.bind (parseLines_comm _ secondPass_comm _) fun _ => fclose_commH) fun e =>
      Comm.bind fclose_commH fun _ => Comm.rethrow e
    unfold rewindLogFile
    exact Comm.ite (Comm.throw _ _) (Comm.pure _)

theorem onMemory_same {m : M Host α} {p : Prog} (h : m (reopenedH g p.host) = seenThrough (reopenedH g) (m p.host)) :
    onMemory m (reopened g p) = seenThrough (reopened g) (onMemory m p) := by
  unfold onMemory
  by_cases hp : p.memory = true
  · rw [if_pos hp, if_pos (show (reopened g p).memory = true from hp)]
    simp only [onHost, M.zoom_apply]
    rw [reopened_host, h]
    cases m p.host <;> rfl
  · rw [if_neg hp, if_neg (show ¬ (reopened g p).memory = true from hp)]; rfl

theorem loadDumpFile_same {d : Str} {p : Prog} (hd : p.dump = some d)
    (h1 : g p.host.files.next d = p.host.files.opens p.host.files.next d)
    (h2 : g (p.host.files.next + 1) d = p.host.files.opens (p.host.files.next + 1) d) :
    loadDumpFile (reopened g p) = seenThrough (reopened g) (loadDumpFile p) := by
  cases ho : p.host.files.opens p.host.files.next d with
  | none =>
    rw [loadDumpFile_none hd ho, loadDumpFile_none (p := reopened g p) hd (h1.trans ho)]
    rfl
  | some f =>
    rw [loadDumpFile_some hd ho, loadDumpFile_some (p := reopened g p) hd (h1.trans ho)]
    refine onMemory_same (p := { p with host := peeked p.host }) ?_
    have h3 : g (peeked p.host).files.next d = (peeked p.host).files.opens (peeked p.host).files.next d := h2
    split
    · exact readFile_same _ h3
    · split
      · exact readFile_same _ h3
      · exact parse_same h3

theorem addAliases_commG (xs : List (U32 × U32 × U32)) : Comm (reopened g) (addAliases xs) := by
  induction xs with
  | nil => exact Comm.pure _
  | cons x xs ih =>
    unfold addAliases addAlias
    exact Comm.bind (Comm.tryCatch (onMemory_commG (zoom_commH _)) fun e => Comm.throw _ _) fun _ => ih

/-- The same image, and a dump that leads to the same. -/
theorem memStages_via {p : Prog} {n d : Str} (hn : imageName p = some n) (hd : p.dump = some d) (as : List (U32 × U32 × U32))
    (h0 : g p.host.files.next n = p.host.files.opens p.host.files.next n)
    (hl : ∀ q : Prog, q.dump = some d → q.host.files.opens = p.host.files.opens → q.host.files.next = p.host.files.next + 1 →
      loadDumpFile (reopened g q) = seenThrough (reopened g) (loadDumpFile q)) :
    memStages as (withMemory (reopened g p)) = seenThrough (reopened g) (memStages as (withMemory p)) := by
  rw [show withMemory (reopened g p) = reopened g (withMemory p) from rfl]
  unfold memStages
  rw [M.bind_apply, M.bind_apply, loadImageFile_same (p := withMemory p) (imageName_split hn) h0]
  have hq : ∀ u q, loadImageFile (withMemory p) = .ok u q → q.dump = some d ∧ q.host.files.opens = p.host.files.opens ∧
      q.host.files.next = p.host.files.next + 1 := by
    intro u q hq
    rcases loadImageFile_cases (p := withMemory p) rfl (imageName_split hn) with ⟨e, k, h1, -, -⟩ | ⟨f, -, -, h3⟩
    · rw [h1] at hq; cases hq
    · rw [h3] at hq
      cases hw : imageWork (withMemory p) f (bumpHeap (withMemory p).host.mem 1 1) with
      | ub r => rw [hw] at hq; cases hq
      | throw e s => rw [hw] at hq; cases hq
      | ok v s => rw [hw] at hq; cases hq; exact ⟨hd, rfl, rfl⟩
  cases e : loadImageFile (withMemory p) with
  | ub r => rfl
  | throw x q => rfl
  | ok u q =>
    obtain ⟨k1, k2, k3⟩ := hq u q e
    show (loadDumpFile >>= fun _ => addAliases as) (reopened g q) = seenThrough (reopened g) ((loadDumpFile >>= fun _ => addAliases as) q)
    rw [M.bind_apply, M.bind_apply, hl q k1 k2 k3]
    cases loadDumpFile q with
    | ub r => rfl
    | throw x q => rfl
    | ok v q => exact addAliases_commG as q

theorem finish_reopened (o : Out Prog Unit) : finish (seenThrough (reopened g) o) = seenThrough (reopened g) (finish o) := by
  cases o with
  | ok u q => rfl
  | ub r => rfl
  | throw e q =>
    simp only [finish, seenThrough, afterFailure]
    rw [show (reopened g q).memory = q.memory from rfl]
    cases q.memory <;> rfl

/-- The same image, and a dump that leads to the same. -/
theorem startUp_via {args : List Str} {p : Prog}
    (h : ∀ os, Spelled args os → (∀ n, imageFile os = some n → g p.host.files.next n = p.host.files.opens p.host.files.next n) ∧
      ∀ d, lastDump os = some d → ∀ q : Prog, q.dump = some d → q.host.files.opens = p.host.files.opens →
        q.host.files.next = p.host.files.next + 1 → loadDumpFile (reopened g q) = seenThrough (reopened g) (loadDumpFile q)) :
    startUp args (reopened g p) = seenThrough (reopened g) (startUp args p) := by
  rcases split_args args with ⟨os, hs⟩ | ⟨pre, os, rest, m, rfl, hs, hst⟩
  · obtain ⟨h1, h2⟩ := h os hs
    cases hn : imageFile os with
    | none => rw [startUp_noImage hs hn, startUp_noImage hs hn]; rfl
    | some n =>
      cases hd : lastDump os with
      | none => rw [startUp_noDump hs hn hd, startUp_noDump hs hn hd]; rfl
      | some d =>
        rw [startUp_full hs hn hd, startUp_full hs hn hd, ← finish_reopened]
        exact congrArg finish (memStages_via (p := chosen os p) (by rw [chosen_image]; exact hn) (by rw [chosen_dump]; exact hd) _ (h1 n hn)
          (h2 d hd))
  · rw [startUp_stuck hs hst, startUp_stuck hs hst]; rfl

theorem startUp_same {args : List Str} {p : Prog} (h : SameNamedFiles args g p) :
    startUp args (reopened g p) = seenThrough (reopened g) (startUp args p) :=
  startUp_via fun os hs => ⟨(h os hs).1, fun d hd q k1 k2 k3 =>
    loadDumpFile_same k1 (by rw [k2, k3]; exact (h os hs).2 d hd _ (.inl rfl)) (by rw [k2, k3]; exact (h os hs).2 d hd _ (.inr rfl))⟩

end Verif.CommandLine
