import Verif.Lemmas.Oom
import Verif.Lemmas.CmdInit
/- The loaders and start-up report failing allocations, and nothing else as one. -/
namespace Verif
open Verif MemSim Spec

theorem Rep.ite {heap : σ → Heap} {c : Prop} [Decidable c] {m n : M σ α} (h1 : Rep heap m) (h2 : Rep heap n) :
    Rep heap (if c then m else n) := by split <;> assumption

theorem Rep.pure (heap : σ → Heap) (a : α) : Rep heap (Pure.pure a : M σ α) := (Neutral.pure ..).rep
theorem Rep.throw (heap : σ → Heap) {c : Exc} {t : Str} (h : c ≠ .outOfMemory) : Rep heap (M.throw c t : M σ α) := (Neutral.throw _ h).rep
theorem Rep.ub (heap : σ → Heap) (r : UB) : Rep heap (M.ub r : M σ α) := (Neutral.ub ..).rep
theorem Rep.get (heap : σ → Heap) : Rep heap (M.get : M σ σ) := (Neutral.get ..).rep
theorem Rep.modify (heap : σ → Heap) {f : σ → σ} (h : ∀ s, (heap (f s)).fails = (heap s).fails ∧ (heap (f s)).next = (heap s).next) :
    Rep heap (M.modify f) := (Neutral.modify _ h).rep

/-! ### ELF -/

namespace Elf

theorem rep_field (p : List U8) (o n : Nat) : Rep hp (field p o n) := by
  unfold field; exact Rep.ite (Rep.pure ..) (Rep.ub ..)

theorem rep_bytesOf (p : List U8) (n : Nat) : Rep hp (bytesOf p n) := by
  unfold bytesOf; exact Rep.ite (Rep.pure ..) (Rep.ub ..)

theorem rep_fetch (b : List U8) (k : Nat) (o n : U32) : Rep hp (fetchSizedByteArray b k o n) := by
  unfold fetchSizedByteArray; exact Rep.ite (Rep.throw _ (by simp)) (Rep.pure ..)

theorem rep_validate (hdr : List U8) : Rep hp (validateElfHeaderContents hdr) := by
  unfold validateElfHeaderContents
  have t : ∀ m, Rep hp (M.throw .elfFormat m : M Sim Unit) := fun m => Rep.throw _ (by simp)
  exact (rep_bytesOf ..).bind fun _ => Rep.ite (t _) <| (rep_field ..).bind fun _ => Rep.ite (t _) <|
    (rep_field ..).bind fun _ => Rep.ite (t _) <| (rep_field ..).bind fun _ => Rep.ite (t _) <|
    (rep_field ..).bind fun _ => Rep.ite (t _) <| (rep_field ..).bind fun _ => Rep.ite (t _) <|
    (rep_field ..).bind fun _ => Rep.ite (t _) (Rep.pure ..)

theorem rep_loadable (p : List U8) : Rep hp (isFlashLoadableEntry p) := by
  unfold isFlashLoadableEntry
  exact (rep_field ..).bind fun _ => Rep.ite ((rep_field ..).bind fun _ => Rep.ite ((rep_field ..).bind fun _ =>
    (rep_field ..).bind fun _ => Rep.pure ..) (Rep.pure ..)) (Rep.pure ..)

theorem rep_entry (b : List U8) (k : Nat) (p : List U8) (c : U32) : Rep hp (loadIfFlashLoadableEntry b k p c) := by
  unfold loadIfFlashLoadableEntry
  exact (rep_loadable _).bind fun _ => Rep.ite ((rep_field ..).bind fun _ => (rep_field ..).bind fun _ =>
    (Rep.catch (rep_fetch ..) (Passes.throw ..)).bind fun _ => (rep_field ..).bind fun _ => (rep_createRegion ..).bind fun _ =>
    (neutral_load ..).rep.bind fun _ => (rep_makeReadOnly _).bind fun _ => Rep.pure ..) (Rep.pure ..)

theorem rep_entries (b : List U8) (k e n : Nat) : ∀ i o c, Rep hp (loadEntries b k e n i o c) := by
  induction n with
  | zero => intro i o c; exact Rep.pure ..
  | succ n ih =>
    intro i o c
    exact (Rep.catch (rep_fetch ..) (Passes.throw ..)).bind fun _ => (rep_entry ..).bind fun _ => ih ..

theorem rep_fromMemory (b : List U8) (n : Nat) : Rep hp (fromMemory b n) := by
  unfold fromMemory loadFlashLoadableEntries initLoadObject
  exact (Rep.catch (rep_fetch ..) (Passes.throw ..)).bind fun _ => (rep_validate _).bind fun _ =>
    ((rep_field ..).bind fun _ => (rep_field ..).bind fun _ => (rep_field ..).bind fun _ => rep_entries ..).bind fun _ =>
    Rep.ite (Rep.throw _ (by simp)) (Rep.pure ..)

end Elf

/-- Where the heap of the host is. -/
abbrev hostHeap : Host → Heap := fun h => h.mem.heap

theorem rep_onMem {m : M Sim α} (h : Rep hp m) : Rep hostHeap (Host.onMem m) := h.zoom (fun _ => rfl) (fun _ _ => rfl)

theorem rep_fopen (name : Str) : Rep hostHeap (Host.fopen name) := by
  refine Neutral.rep ⟨fun s => ?_⟩
  unfold Host.fopen
  cases s.files.opens s.files.next name <;> exact ⟨rfl, rfl⟩

theorem rep_fclose : Rep hostHeap Host.fclose := Rep.modify _ (by exact fun _ => ⟨rfl, rfl⟩)

theorem passes_fclose : Passes hostHeap (fun e => (do Host.fclose; M.rethrow e : M Host α)) := ⟨fun _ _ => ⟨rfl, rfl, rfl⟩⟩

/-! ### Dumps -/

namespace Dump

abbrev dHeap : D → Heap := fun d => d.host.mem.heap

theorem rep_readInto {rd : Reader} {n : Nat} {put : Str → D → D} (h : ∀ bs d, dHeap (put bs d) = dHeap d) : Rep dHeap (readInto rd n put) := by
  refine Neutral.rep ⟨fun s => ?_⟩
  unfold readInto
  cases rd n s.rest with
  | got bs t => exact ⟨by rw [h], by rw [h]⟩
  | bad bs t => exact ⟨by simp, by rw [h], by rw [h]⟩

theorem rep_readBytes (rd : Reader) (n : Nat) : Rep dHeap (readBytes rd n) := rep_readInto (by exact fun _ _ => rfl)

theorem rep_onMemD {m : M Sim α} (h : Rep hp m) : Rep dHeap (onMem m) := h.zoom (fun _ => rfl) (fun _ _ => rfl)

theorem rep_throw (t : Str) : Rep dHeap (M.throw .fileFormat t : M D α) := Rep.throw _ (by simp)

theorem rep_signature (rd : Reader) : Rep dHeap (validateDumpSignature rd) := by
  unfold validateDumpSignature
  exact (rep_readBytes ..).bind fun _ => Rep.ite (rep_throw _) <| Rep.ite (Rep.pure ..) <| Rep.ite (Rep.modify _ (by exact fun _ => ⟨rfl, rfl⟩)) (rep_throw _)

theorem rep_flags (rd : Reader) : Rep dHeap (readFlags rd) := by
  unfold readFlags
  exact (rep_readInto (by exact fun _ _ => rfl)).bind fun _ => Rep.ite (rep_throw _) (Rep.pure ..)

theorem rep_ints (rd : Reader) : Rep dHeap (readIntegerRegisters rd) := by
  unfold readIntegerRegisters
  refine (Rep.get _).bind fun d => ?_
  dsimp only
  refine Rep.ite ((Rep.modify _ (by exact fun _ => ⟨rfl, rfl⟩)).bind fun _ => ?_) ?_ <;>
  exact (rep_readInto (by exact fun _ _ => rfl)).bind fun _ => Rep.ite (rep_throw _) ((rep_readInto (by exact fun _ _ => rfl)).bind fun _ => Rep.ite (rep_throw _) (Rep.pure ..))

theorem rep_floats (rd : Reader) : Rep dHeap (readFloatingPointRegisters rd) := by
  unfold readFloatingPointRegisters
  exact (Rep.get _).bind fun d => Rep.ite (Rep.pure ..) ((rep_readInto (by exact fun _ _ => rfl)).bind fun _ => Rep.ite (rep_throw _) (Rep.pure ..))

theorem rep_regionBytes (rd : Reader) (n : Nat) : ∀ a, Rep dHeap (loadRegionBytes rd n a) := by
  induction n with
  | zero => intro a; exact Rep.pure ..
  | succ n ih =>
    intro a
    refine (rep_readBytes ..).bind fun bs => ?_
    split
    · exact (rep_onMemD (neutral_write ..).rep).bind fun _ => ih _
    · exact rep_throw _

theorem rep_next (rd : Reader) : Rep dHeap (readNextMemoryRegion rd) := by
  unfold readNextMemoryRegion createAndLoadMemoryRegion
  exact (rep_readBytes ..).bind fun bs => Rep.ite (Rep.throw _ (by simp)) <| Rep.ite (Rep.pure ..) <| Rep.ite (rep_throw _) <|
    (Rep.catch ((rep_onMemD (rep_createRegion ..)).bind fun _ => rep_regionBytes ..) (Passes.throw ..)).bind fun _ => Rep.pure ..

theorem rep_regions (rd : Reader) (n : Nat) : Rep dHeap (readMemoryRegions rd n) := by
  induction n with
  | zero => exact Rep.ub ..
  | succ n ih => exact (rep_next _).bind fun _ => Rep.ite (Rep.pure ..) ih

theorem rep_dump (rd : Reader) : Rep dHeap (readDump rd) :=
  (rep_signature _).bind fun _ => (rep_flags _).bind fun _ => (rep_ints _).bind fun _ => (rep_floats _).bind fun _ =>
    (Rep.get _).bind fun _ => rep_regions ..

theorem rep_file (rd : Reader) (name : Str) : Rep hostHeap (readFile rd name) := by
  unfold readFile
  refine (rep_fopen _).bind fun f => ?_
  cases f with
  | none => exact Rep.throw _ (by simp)
  | some f =>
    refine ⟨fun h => ?_⟩
    have := (rep_dump rd).all { host := h, rest := f.bytes }
    dsimp only
    cases hd : readDump rd { host := h, rest := f.bytes } with
    | ub r => trivial
    | ok a d => rw [hd] at this; exact this
    | throw e d => rw [hd] at this; exact this

end Dump

/-! ### GDB logs -/

namespace GdbLog

abbrev oHeap : Obj → Heap := fun o => o.host.mem.heap

theorem rep_onMemO {m : M Sim α} (h : Rep hp m) : Rep oHeap (onMem m) := h.zoom (fun _ => rfl) (fun _ _ => rfl)

theorem rep_values4 (n : Nat) : ∀ vs t, Rep oHeap (parseValues n vs t) := by
  induction n with
  | zero => intro vs t; exact Rep.ub ..
  | succ n ih =>
    intro vs t
    unfold parseValues parseNextValue parseValue
    exact Rep.ite ((Rep.ite (Rep.pure ..) (Rep.ub ..)).bind fun _ => ih ..) (Rep.pure ..)

theorem rep_parseLine (line : Str) : Rep oHeap (parseLine line) := by
  unfold parseLine parseMemoryLine parseRegisterLine
  refine Rep.ite (Rep.ite (Rep.ub ..) ((rep_values4 ..).bind fun _ => Rep.pure ..)) ?_
  split
  · exact Rep.ite (Rep.ub ..) <| Rep.ite (Rep.pure ..) (Rep.pure ..)
  · exact Rep.pure ..

theorem rep_memory (a : U32) (vs : List U32) : Rep oHeap (firstPassMemoryHandler a vs) := by
  unfold firstPassMemoryHandler
  refine (Rep.get _).bind fun o => ?_
  dsimp only
  have h {f : Obj → Obj} (h : ∀ o, oHeap (f o) = oHeap o) : Rep oHeap (M.modify f) := Rep.modify _ fun _ => ⟨by rw [h], by rw [h]⟩
  exact Rep.ite (Rep.ite ((rep_onMemO (rep_createRegion ..)).bind fun _ => (h (by exact fun _ => rfl)).bind fun _ => h (by exact fun _ => rfl))
    ((h (by exact fun _ => rfl)).bind fun _ => h (by exact fun _ => rfl))) (h (by exact fun _ => rfl))

theorem rep_store (o : Nat) (v : U32) : Rep oHeap (storeContext o v) := by
  refine Neutral.rep ⟨fun s => ?_⟩
  unfold storeContext
  dsimp only
  by_cases h0 : o % 4 ≠ 0
  · rw [if_pos h0]; trivial
  · rw [if_neg h0]
    by_cases h1 : o = 0
    · rw [if_pos h1]; exact ⟨rfl, rfl⟩
    · rw [if_neg h1]
      by_cases h2 : o < offsetR 19
      · rw [if_pos h2]; exact ⟨rfl, rfl⟩
      · rw [if_neg h2]
        by_cases h3 : o = offsetR 19
        · rw [if_pos h3]; exact ⟨rfl, rfl⟩
        · rw [if_neg h3]
          by_cases h4 : o < offsetFPR 33
          · rw [if_pos h4]; exact ⟨rfl, rfl⟩
          · rw [if_neg h4]; trivial

theorem rep_first (r : Results) : Rep oHeap (firstPassHandler r) := by
  cases r with
  | other => exact Rep.pure ..
  | memory a vs => exact rep_memory ..
  | register o v =>
    simp only [firstPassHandler, firstPassRegisterHandler]
    exact Rep.ite ((Rep.modify _ (by exact fun _ => ⟨rfl, rfl⟩)).bind fun _ => rep_store ..) (rep_store ..)

theorem rep_values (a : U32) (vs : List U32) : ∀ i, Rep oHeap (writeValues a i vs) := by
  induction vs with
  | nil => intro i; exact Rep.pure ..
  | cons v vs ih => intro i; exact (rep_onMemO (neutral_write ..).rep).bind fun _ => ih _

theorem rep_second (r : Results) : Rep oHeap (secondPassHandler r) := by
  cases r with
  | memory a vs => exact rep_values ..
  | _ => exact Rep.pure ..

theorem rep_loop {handler : Results → M Obj Unit} (h : ∀ r, Rep oHeap (handler r)) (n : Nat) : ∀ t, Rep oHeap (parseLoop handler n t) := by
  induction n with
  | zero => intro t; exact Rep.ub ..
  | succ n ih =>
    intro t
    unfold parseLoop
    split
    · exact Rep.pure ..
    · exact (rep_parseLine _).bind fun _ => (h _).bind fun _ => ih _

theorem rep_lines {handler : Results → M Obj Unit} (h : ∀ r, Rep oHeap (handler r)) (bytes : Str) : Rep hostHeap (parseLines handler bytes) := by
  refine ⟨fun s => ?_⟩
  unfold parseLines
  have : Rep oHeap (do
    parseLoop handler (bytes.length + 1) bytes
    let o ← M.get
    if o.regionSize ≠ 0 then onMem (createRegion o.regionStart o.regionSize) else pure ()) :=
    (rep_loop h ..).bind fun _ => (Rep.get _).bind fun _ => Rep.ite (rep_onMemO (rep_createRegion ..)) (Rep.pure ..)
  have h1 := this.all { host := s }
  dsimp only
  revert h1
  generalize ((do
    parseLoop handler (bytes.length + 1) bytes
    let o ← M.get
    if o.regionSize ≠ 0 then onMem (createRegion o.regionStart o.regionSize) else pure () : M Obj Unit) { host := s }) = r
  cases r <;> exact id

theorem rep_parse (name : Str) : Rep hostHeap (parse name) := by
  unfold parse
  refine (rep_fopen _).bind fun f => ?_
  cases f with
  | none => exact Rep.throw _ (by simp)
  | some f =>
    refine Rep.catch ?_ passes_fclose
    refine (Rep.modify _ (by exact fun _ => ⟨rfl, rfl⟩)).bind fun _ => (rep_lines rep_first _).bind fun _ => Rep.bind ?_ fun _ =>
      (rep_lines rep_second _).bind fun _ => rep_fclose
    unfold rewindLogFile
    exact Rep.ite (Rep.throw _ (by simp)) (Rep.pure ..)

end GdbLog

/-! ### Start-up -/

namespace CommandLine

abbrev pHeap : Prog → Heap := fun p => p.host.mem.heap
abbrev lHeap : LoadState → Heap := fun s => s.prog.host.mem.heap

theorem rep_onHost {m : M Host α} (h : Rep hostHeap m) : Rep pHeap (onHost m) := h.zoom (fun _ => rfl) (fun _ _ => rfl)
theorem rep_onProg {m : M Prog α} (h : Rep pHeap m) : Rep lHeap (onProg m) := h.zoom (fun _ => rfl) (fun _ _ => rfl)

theorem rep_onMemory {m : M Host α} (h : Rep hostHeap m) : Rep pHeap (onMemory m) := by
  refine ⟨fun p => ?_⟩
  unfold onMemory
  by_cases hm : p.memory
  · rw [if_pos hm]; exact (rep_onHost h).all p
  · rw [if_neg hm]; trivial

theorem rep_arg (args : List Str) (i : Nat) : Rep pHeap (arg args i) := by
  unfold arg
  cases args[i]? <;> first | exact Rep.ub .. | exact Rep.pure ..

theorem rep_invalid (t : Str) : Rep pHeap (M.throw .invalidArgument t : M Prog α) := Rep.throw _ (by simp)

theorem rep_flag (n : Int) (args : List Str) (pass : Pass) : Rep pHeap (parseFlagArgument n args pass) := by
  unfold parseFlagArgument parseBinFilenameOption parseElfFilenameOption parseDumpFilenameOption parseAliasOption
  refine (rep_arg ..).bind fun _ => Rep.ite ?_ <| Rep.ite ?_ <| Rep.ite ?_ <| Rep.ite ?_ <| rep_invalid _
  · exact Rep.ite (rep_invalid _) <| Rep.ite ((rep_arg ..).bind fun _ => (rep_arg ..).bind fun _ => (Rep.modify _ (by exact fun _ => ⟨rfl, rfl⟩)).bind fun _ => Rep.pure ..)
      ((Rep.pure ..).bind fun _ => Rep.pure ..)
  · exact Rep.ite (rep_invalid _) <| Rep.ite ((rep_arg ..).bind fun _ => (Rep.modify _ (by exact fun _ => ⟨rfl, rfl⟩)).bind fun _ => Rep.pure ..)
      ((Rep.pure ..).bind fun _ => Rep.pure ..)
  · exact Rep.ite (rep_invalid _) <| Rep.ite ((rep_arg ..).bind fun _ => (Rep.modify _ (by exact fun _ => ⟨rfl, rfl⟩)).bind fun _ => Rep.pure ..)
      ((Rep.pure ..).bind fun _ => Rep.pure ..)
  · exact Rep.ite (rep_invalid _) <| Rep.ite ((rep_arg ..).bind fun _ => (rep_arg ..).bind fun _ => (rep_arg ..).bind fun _ =>
      (Rep.catch (rep_onMemory (rep_onMem (rep_createAlias ..))) (Passes.throw ..)).bind fun _ => Rep.pure ..)
      ((Rep.pure ..).bind fun _ => Rep.pure ..)

theorem rep_parseLoop (pass : Pass) (fuel : Nat) : ∀ n args, Rep pHeap (parseLoop pass fuel n args) := by
  induction fuel with
  | zero => intro n args; exact Rep.ub ..
  | succ fuel ih =>
    intro n args
    unfold parseLoop parseArgument
    exact Rep.ite (Rep.pure ..) (((rep_arg ..).bind fun _ => Rep.ite (rep_flag ..) (rep_invalid _)).bind fun _ => ih ..)

theorem rep_required : Rep pHeap throwIfRequiredArgumentNotSpecified :=
  (Rep.get _).bind fun _ => Rep.ite (rep_invalid _) <| Rep.ite (rep_invalid _) (Rep.pure ..)

theorem malloc_pass {β : Type} {heap : σ → Heap} {m : M σ Bool} {f g : M σ β} 
    (hm : ∀ s, (∃ s', m s = .ok false s' ∧ Later (heap s) (heap s') ∧ SomeFailed (heap s) (heap s')) ∨
      ∃ s', m s = .ok true s' ∧ Later (heap s) (heap s') ∧ ¬ SomeFailed (heap s) (heap s'))
    (hf : Rep heap f) {t : Str} (hg : g = M.throw .outOfMemory t) : Rep heap (do if ← m then f else g) := by
  refine ⟨fun s => ?_⟩
  rw [M.bind_apply]
  rcases hm s with ⟨s', h, l, n⟩ | ⟨s', h, l, n⟩ <;> rw [h]
  · subst hg
    exact ⟨l, ⟨fun _ => n, fun _ => rfl⟩⟩
  · have h2 : Rep heap (m >>= fun _ => f) → Rep1 heap (heap s) ((m >>= fun _ => f) s) := fun h => h.all s
    have h3 := hf.all s'
    simp only [if_true]
    cases h' : f s' with
    | ok a s2 => rw [h'] at h3; exact ⟨later_trans l h3.1, by rw [someFailed_trans l h3.1]; simp [n, h3.2]⟩
    | throw e s2 => rw [h'] at h3; exact ⟨later_trans l h3.1, by rw [h3.2, someFailed_trans l h3.1]; simp [n]⟩
    | ub r => trivial

theorem mallocP_cases (s : LoadState) : (∃ s', onProg mallocP s = .ok false s' ∧ Later (lHeap s) (lHeap s') ∧ SomeFailed (lHeap s) (lHeap s')) ∨
      ∃ s', onProg mallocP s = .ok true s' ∧ Later (lHeap s) (lHeap s') ∧ ¬ SomeFailed (lHeap s) (lHeap s') := by
  have h2 {b : Bool} {t : Sim} (h : malloc s.prog.host.mem = .ok b t) : ∃ s', onProg mallocP s = .ok b s' ∧ lHeap s' = t.heap :=
    ⟨{ s with prog := { s.prog with host := { s.prog.host with mem := t } } },
      by simp only [onProg, mallocP, onHost, Host.onMem, M.zoom_apply, h], rfl⟩
  rcases malloc_cases s.prog.host.mem with ⟨h, hf⟩ | ⟨k, h, hf⟩
  · obtain ⟨s', h1, h3⟩ := h2 h
    exact .inl ⟨s', h1, h3 ▸ ⟨rfl, Nat.le_succ _⟩, h3 ▸ one_failed.2 hf⟩
  · obtain ⟨s', h1, h3⟩ := h2 h
    refine .inr ⟨s', h1, h3 ▸ ⟨rfl, Nat.le_succ _⟩, fun h => ?_⟩
    rw [h3] at h
    rw [one_failed.1 h] at hf
    cases hf

theorem getFileSize_code {h h' : Handle} {e : Exn} (he : getFileSize h = .throw e h') : e.code = .file := by
  rw [getFileSize_eq] at he
  split at he
  · cases he; rfl
  · split at he
    · cases he; rfl
    · split at he <;> cases he
      rfl

theorem rep_fileSize : Rep lHeap fileSizeOf := by
  refine Neutral.rep ⟨fun s => ?_⟩
  unfold fileSizeOf
  cases s.pFile with
  | none => trivial
  | some h =>
    dsimp only
    cases hg : getFileSize h with
    | ok n h' => exact ⟨rfl, rfl⟩
    | throw e h' => exact ⟨by rw [getFileSize_code hg]; simp, rfl, rfl⟩
    | ub r => trivial

theorem rep_freadAll : Rep lHeap freadAll := by
  refine Neutral.rep ⟨fun s => ?_⟩
  unfold freadAll
  cases s.pFile with
  | none => trivial
  | some h => exact ⟨rfl, rfl⟩

theorem rep_loadFileBody (name : Str) : Rep lHeap (loadFileBody name) := by
  unfold loadFileBody
  refine (rep_onProg (rep_onHost (rep_fopen _))).bind fun f => (Rep.modify _ (by exact fun _ => ⟨rfl, rfl⟩)).bind fun _ =>
    Rep.ite (Rep.throw _ (by simp)) <| (Rep.catch rep_fileSize (Passes.throw ..)).bind fun n =>
    (Rep.modify _ (by exact fun _ => ⟨rfl, rfl⟩)).bind fun _ => malloc_pass mallocP_cases ?_ rfl
  exact (Rep.modify _ (by exact fun _ => ⟨rfl, rfl⟩)).bind fun _ => rep_freadAll.bind fun _ => Rep.ite (Rep.throw _ (by simp)) (rep_onProg (rep_onHost rep_fclose))

theorem rep_loadFileData (name : Str) : Rep pHeap (loadFileData name) := by
  refine ⟨fun p => ?_⟩
  have h := (rep_loadFileBody name).all { prog := p }
  unfold loadFileData
  cases hb : loadFileBody name { prog := p } with
  | ok a s => rw [hb] at h; exact h
  | ub r => trivial
  | throw e s =>
    rw [hb] at h
    dsimp only
    have key : ∃ q, loadFileCatch (α := FileData) s.pBuffer.isSome s.pFile.isSome e s.prog = .throw e q ∧ (pHeap q).fails = (lHeap s).fails ∧
        (pHeap q).next = (lHeap s).next := by
      unfold loadFileCatch
      cases s.pBuffer.isSome <;> cases s.pFile.isSome <;> exact ⟨_, rfl, rfl, rfl⟩
    obtain ⟨q, hq, h1, h2⟩ := key
    rw [hq]
    refine ⟨⟨h1.trans h.1.fails, by rw [h2]; exact h.1.next⟩, ?_⟩
    rw [h.2]
    unfold SomeFailed
    rw [h2]

theorem rep_loadBin (fd : FileData) : Rep pHeap (loadBinFile fd) := by
  unfold loadBinFile
  exact (Rep.get _).bind fun _ => Rep.catch ((rep_onMemory (rep_onMem (rep_createRegion ..))).bind fun _ =>
    (rep_onMemory (rep_onMem (neutral_load ..).rep)).bind fun _ => rep_onMemory (rep_onMem (rep_makeReadOnly _))) (Passes.throw ..)

theorem rep_freeP : Rep pHeap freeP := Neutral.rep ⟨fun _ => ⟨rfl, rfl⟩⟩
theorem passes_freeP : Passes pHeap (fun e => (do freeP; M.rethrow e : M Prog α)) := ⟨fun _ _ => ⟨rfl, rfl, rfl⟩⟩

theorem rep_image : Rep pHeap loadImageFile := by
  unfold loadImageFile
  refine (Rep.get _).bind fun p => ?_
  split
  · exact (rep_loadFileData _).bind fun _ => Rep.catch ((rep_onMemory (rep_onMem (Elf.rep_fromMemory ..))).bind fun _ => rep_freeP) passes_freeP
  · split
    · exact (rep_loadFileData _).bind fun _ => Rep.catch ((rep_loadBin _).bind fun _ => rep_freeP) passes_freeP
    · exact Rep.ub ..

theorem rep_fileType (name : Str) : Rep pHeap (getFileType name) := by
  unfold getFileType
  refine (rep_onHost (rep_fopen _)).bind fun f => ?_
  cases f with
  | none => exact Rep.throw _ (by simp)
  | some f => exact (rep_onHost rep_fclose).bind fun _ => Rep.ite (Rep.pure ..) <| Rep.ite (Rep.pure ..) (Rep.pure ..)

theorem rep_loadDump : Rep pHeap loadDumpFile := by
  unfold loadDumpFile
  refine (Rep.get _).bind fun p => ?_
  split
  · exact Rep.ub ..
  · refine (rep_fileType _).bind fun t => ?_
    cases t
    · exact rep_onMemory (GdbLog.rep_parse _)
    · exact rep_onMemory (Dump.rep_file ..)
    · exact rep_onMemory (Dump.rep_file ..)

theorem rep_initBody (n : Int) (args : List Str) : Rep pHeap (initBody n args) := by
  unfold initBody
  exact (Rep.modify _ (by exact fun _ => ⟨rfl, rfl⟩)).bind fun _ => (rep_parseLoop ..).bind fun _ => rep_required.bind fun _ =>
    (Rep.modify _ (by exact fun _ => ⟨rfl, rfl⟩)).bind fun _ => rep_image.bind fun _ => rep_loadDump.bind fun _ => rep_parseLoop ..

theorem rep_init (n : Int) (args : List Str) : Rep pHeap (init n args) := by
  unfold init
  refine Rep.catch (rep_initBody ..) ?_
  refine ⟨fun e p => ?_⟩
  simp only [displayExceptionMessage, print, uninitMemory, M.bind_apply, M.modify_apply, M.get_apply]
  by_cases hm : p.memory
  · simp only [hm, if_true]; exact ⟨rfl, rfl, rfl⟩
  · simp only [hm, if_false]; exact ⟨rfl, rfl, rfl⟩

end CommandLine
end Verif
