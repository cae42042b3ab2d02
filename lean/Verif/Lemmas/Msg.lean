import Verif.Lemmas.OomLoad
/- Exception messages fit the buffer they are kept in. -/
namespace Verif
open Verif MemSim Spec

/-- The exceptions this code raises have messages of at most 1023 characters. -/
structure Brief (m : M σ α) : Prop where
  all : ∀ s e s', m s = .throw e s' → e.msg.length ≤ 1023

theorem Brief.pure (a : α) : Brief (Pure.pure a : M σ α) := ⟨fun _ _ _ h => nomatch h⟩
theorem Brief.ub (r : UB) : Brief (M.ub r : M σ α) := ⟨fun _ _ _ h => nomatch h⟩
theorem Brief.get : Brief (M.get : M σ σ) := ⟨fun _ _ _ h => nomatch h⟩
theorem Brief.modify (f : σ → σ) : Brief (M.modify f) := ⟨fun _ _ _ h => nomatch h⟩
theorem Brief.throw {c : Exc} {t : Str} (h : t.length ≤ 1023) : Brief (M.throw c t : M σ α) := by
  refine ⟨fun s e s' he => ?_⟩; cases he; exact h
theorem Brief.throwMsg (c : Exc) (t : Str) : Brief (M.throwMsg c t : M σ α) := by
  refine ⟨fun s e s' he => ?_⟩; cases he; exact List.length_take_le _ _
theorem Brief.rethrow {e : Exn} (h : e.msg.length ≤ 1023) : Brief (M.rethrow e : M σ α) := by
  refine ⟨fun s e s' he => ?_⟩; cases he; exact h
theorem Brief.bind' {m : M σ α} {f : α → M σ β} (hm : Brief m) (hf : ∀ s a s', m s = .ok a s' → Brief (f a)) : Brief (m >>= f) := by
  refine ⟨fun s e s' h => ?_⟩
  rw [M.bind_apply] at h
  cases hms : m s with
  | ok a s1 => rw [hms] at h; exact (hf _ _ _ hms).all _ _ _ h
  | throw x s1 => rw [hms] at h; cases h; exact hm.all _ _ _ hms
  | ub r => rw [hms] at h; cases h
theorem Brief.bind {m : M σ α} {f : α → M σ β} (hm : Brief m) (hf : ∀ a, Brief (f a)) : Brief (m >>= f) := hm.bind' fun _ a _ _ => hf a
theorem Brief.ite {c : Prop} [Decidable c] {m n : M σ α} (h1 : Brief m) (h2 : Brief n) : Brief (if c then m else n) := by split <;> assumption
theorem Brief.catch {m : M σ α} {hd : Exn → M σ α} (hm : Brief m) (hh : ∀ e, e.msg.length ≤ 1023 → Brief (hd e)) : Brief (M.tryCatch m hd) := by
  refine ⟨fun s e s' h => ?_⟩
  rw [M.tryCatch_apply] at h
  cases hms : m s with
  | ok a s1 => rw [hms] at h; cases h
  | throw x s1 => rw [hms] at h; exact (hh x (hm.all _ _ _ hms)).all _ _ _ h
  | ub r => rw [hms] at h; cases h
theorem Brief.catchThrow {m : M σ α} {t : Exn → Str} (ht : ∀ e, (t e).length ≤ 1023) : Brief (M.tryCatch m fun e => M.throw e.code (t e)) := by
  refine ⟨fun s e s' h => ?_⟩
  rw [M.tryCatch_apply] at h
  cases hms : m s <;> rw [hms] at h <;> cases h
  exact ht _
theorem Brief.zoom {p : τ → σ} {q : σ → τ → τ} {m : M σ α} (h : Brief m) : Brief (M.zoom p q m) := by
  refine ⟨fun s e s' he => ?_⟩
  rw [M.zoom_apply] at he
  cases hms : m (p s) <;> rw [hms] at he <;> cases he
  exact h.all _ _ _ hms

theorem asc_length (s : String) : (asc s).length = s.toList.length := List.length_map ..

theorem hexFixed_length (n v : Nat) : (hexFixed n v).length = n := by
  induction n generalizing v with
  | zero => rfl
  | succ n ih => simp [hexFixed, ih]

theorem fmt08X_length (x : U32) : (fmt08X x).length = 8 := hexFixed_length ..

theorem fmtU_length {n : Nat} (h : n < 2 ^ 32) : (Elf.fmtU n).length ≤ 10 := by
  unfold Elf.fmtU
  rw [asc_length, String.length_toList, Nat.length_repr_le_iff (by omega)]
  omega

theorem fmtD_length (x : U32) : (Elf.fmtD x).length ≤ 11 := by
  unfold Elf.fmtD
  rw [asc_length, String.length_toList]
  have h1 := x.isLt
  have h2 : x.toInt = if 2 * x.toNat < 2 ^ 32 then (x.toNat : Int) else (x.toNat : Int) - 2 ^ 32 := BitVec.toInt_eq_toNat_cond ..
  generalize x.toInt = k at h2
  cases k with
  | ofNat m =>
    have : (toString (Int.ofNat m)).length ≤ 10 := by
      show (Nat.repr m).length ≤ 10
      rw [Nat.length_repr_le_iff (by omega)]
      have : Int.ofNat m = (m : Int) := rfl
      split at h2 <;> omega
    omega
  | negSucc m =>
    show ("-" ++ Nat.repr (m + 1)).length ≤ 11
    rw [String.length_append]
    have : (Nat.repr (m + 1)).length ≤ 10 := by
      rw [Nat.length_repr_le_iff (by omega)]
      split at h2 <;> omega
    have h3 : "-".length = 1 := rfl
    omega

namespace MemSim

theorem brief_of_empty {m : M Sim α} (h : ∀ s e s', m s = .throw e s' → e.msg = []) : Brief m := by
  refine ⟨fun s e s' he => ?_⟩; rw [h _ _ _ he]; simp

theorem brief_find (a : U32) (n : Nat) : Brief (findMatchingRegion a n) := by
  refine ⟨fun s e s' h => ?_⟩
  unfold findMatchingRegion at h
  split at h
  · cases h; simp
  · split at h
    · split at h <;> cases h
    · cases h

theorem brief_regionAt (i : Nat) : Brief (regionAt i) := by
  refine ⟨fun s e s' h => ?_⟩
  unfold regionAt at h
  split at h <;> cases h

theorem brief_setRegion (i : Nat) (r : Region) : Brief (setRegion i r) := Brief.modify _
theorem brief_addRegion (r : Region) : Brief (addRegionToTail r) := Brief.modify _

theorem brief_count (i : Nat) (r : Region) (o n : Nat) (t : U32) : Brief (countRead i r o n t) := by
  unfold countRead
  split
  · cases r.readCounts with
    | none => exact Brief.pure ..
    | some cs =>
      dsimp only
      cases cs[o / 2]? with
      | none => exact Brief.ub ..
      | some c => exact brief_setRegion ..
  · exact Brief.pure ..

theorem brief_check (r : Region) (a : U32) (n : Nat) (t : U32) : Brief (checkForBreakWatchPoint r a n t) := by
  refine ⟨fun s e s' h => ?_⟩
  unfold checkForBreakWatchPoint at h
  revert h
  generalize scanWatch r.watch a (a + BitVec.ofNat 32 n) n t = p
  obtain ⟨k, b⟩ := p
  dsimp only
  by_cases hk : s.hits + k ≥ 2 ^ 31
  · rw [if_pos hk]; intro h; cases h
  · rw [if_neg hk]
    cases b <;> intro h <;> cases h
    simp

theorem brief_pointer (a : U32) (n : Nat) (t : U32) (c : Bool) : Brief (getDataPointer a n t c) := by
  unfold getDataPointer
  refine (brief_find a n).bind fun p => ?_
  refine (brief_regionAt _).bind fun r => ?_
  dsimp only
  split
  · exact Brief.throw (by simp)
  · refine (brief_count ..).bind fun _ => ?_
    split
    · exact (brief_check ..).bind fun _ => Brief.pure ..
    · exact Brief.pure ..

theorem brief_hostRead (p : Nat × Nat) (n : Nat) : Brief (hostRead p n) := by
  unfold hostRead
  exact (brief_regionAt _).bind fun r => Brief.ite (Brief.pure ..) (Brief.ub ..)

theorem brief_hostWrite (p : Nat × Nat) (bs : List U8) : Brief (hostWrite p bs) := by
  unfold hostWrite
  exact (brief_regionAt _).bind fun r => Brief.ite (brief_setRegion ..) (Brief.ub ..)

theorem brief_read (w : Width) (a : U32) : Brief (IMemory.read w a) := by
  cases w <;> exact Brief.bind (Brief.bind (brief_pointer ..) fun _ => Brief.bind (brief_hostRead ..) fun _ => Brief.pure ..)
    fun _ => Brief.pure ..

theorem brief_write (w : Width) (a : U32) (v : BitVec w.bits) : Brief (IMemory.write w a v) := by
  cases w <;> exact Brief.bind (brief_pointer ..) fun _ => brief_hostWrite ..

theorem brief_loadN (a : U32) (bs : List U8) : Brief (loadN a bs) :=
  Brief.bind (brief_pointer ..) fun _ => brief_hostWrite ..

theorem brief_loadBytes (n : Nat) : ∀ (a : U32) (src : List U8), Brief (loadBytes n a src) := by
  induction n with
  | zero => intro a src; cases src <;> exact Brief.pure ..
  | succ n ih =>
    intro a src
    cases src with
    | nil => exact Brief.ub ..
    | cons b t => exact (brief_loadN ..).bind fun _ => ih ..

theorem brief_loadWords (src : List U8) (n : Nat) (a : U32) : Brief (loadWords src n a) := by
  fun_induction loadWords src n a with
  | case1 => exact Brief.bind (brief_loadN ..) fun _ => by assumption
  | case2 => exact brief_loadBytes ..
  | case3 => exact Brief.ub ..
  | case4 => exact brief_loadBytes ..

theorem brief_load (b : U32) (img : List U8) (n : U32) : Brief (loadFromFlashImage b img n) := brief_loadWords ..

theorem brief_freeLast : Brief freeLastRegion := by
  refine ⟨fun s e s' h => ?_⟩
  unfold freeLastRegion at h
  split at h <;> cases h

theorem brief_malloc : Brief malloc := by
  refine ⟨fun s e s' h => ?_⟩
  unfold malloc at h
  split at h <;> cases h

theorem brief_realloc (b : Bool) : Brief (realloc b) := by
  refine ⟨fun s e s' h => ?_⟩
  unfold realloc at h
  split at h <;> cases h

theorem brief_tzm : Brief throwingZeroedMalloc := by
  unfold throwingZeroedMalloc
  exact brief_malloc.bind fun _ => Brief.ite (Brief.pure ..) (Brief.throw (by simp))

theorem brief_free (n : Nat) : Brief (free n) := Brief.modify _

theorem brief_createRegion (b n : U32) : Brief (createRegion b n) :=
  brief_tzm.bind fun _ => (Brief.catch brief_tzm fun _ h => (brief_free _).bind fun _ => Brief.rethrow h).bind fun _ => brief_addRegion _

theorem brief_createAlias (a r n : U32) : Brief (createAlias a r n) :=
  brief_tzm.bind fun _ => Brief.catch
    ((brief_find ..).bind fun _ => (brief_regionAt _).bind fun _ => brief_tzm.bind fun _ => brief_addRegion _)
    fun _ h => (brief_free _).bind fun _ => Brief.rethrow h

theorem brief_makeReadOnly (b : U32) : Brief (makeRegionReadOnly b) :=
  (brief_find ..).bind fun _ => (brief_regionAt _).bind fun _ => (brief_setRegion ..).bind fun _ =>
    brief_tzm.bind fun _ => brief_setRegion ..

theorem brief_flash (img : List U8) (n : U32) : Brief (createRegionsFromFlashImage img n) := by
  unfold createRegionsFromFlashImage
  split
  · exact Brief.throw (by simp)
  · refine (brief_createRegion ..).bind fun _ => (brief_load ..).bind fun _ =>
      Brief.catch ?_ fun _ h => brief_freeLast.bind fun _ => Brief.rethrow h
    refine (brief_makeReadOnly _).bind fun _ => ?_
    split
    · exact Brief.ub ..
    · exact brief_createRegion ..

theorem brief_xml : Brief getMemoryMapXML := by
  refine ⟨fun s e s' h => ?_⟩
  rcases xml_raw s with h1 | h1 | ⟨text, h1⟩ <;> rw [h1] at h <;> cases h
  simp

theorem brief_setWatch (a n t : U32) : Brief (setWatchpoint a n t) := by
  unfold setWatchpoint
  refine (brief_find ..).bind fun p => (brief_regionAt _).bind fun r => ?_
  dsimp only
  split
  · exact Brief.pure ..
  · split
    · exact (brief_realloc _).bind fun _ => Brief.ite (brief_setRegion ..) (Brief.throw (by simp))
    · exact brief_setRegion ..

theorem brief_clearWatch (a n t : U32) : Brief (clearWatchpoint a n t) := by
  unfold clearWatchpoint
  refine (brief_find ..).bind fun p => (brief_regionAt _).bind fun r => ?_
  dsimp only
  split
  · exact brief_setRegion ..
  · exact Brief.pure ..

theorem brief_readCount (a : U32) : Brief (getFlashReadCount a) := by
  unfold getFlashReadCount
  refine (brief_find ..).bind fun p => (brief_regionAt _).bind fun r => ?_
  dsimp only
  split
  · exact Brief.throw (by simp)
  · cases r.readCounts with
    | none => exact Brief.ub ..
    | some cs =>
      dsimp only
      split
      · exact Brief.pure ..
      · exact Brief.ub ..

theorem brief_call (c : Call) : Brief c.run := by
  cases c <;> simp only [Call.run]
  case createRegion => exact brief_createRegion ..
  case createAlias => exact brief_createAlias ..
  case makeReadOnly => exact brief_makeReadOnly ..
  case load => exact brief_load ..
  case flashImage => exact brief_flash ..
  case read => exact (brief_read ..).bind fun _ => Brief.pure ..
  case write => exact brief_write ..
  case memoryMap => exact brief_xml.bind fun _ => Brief.pure ..
  case mapForWrite => exact (brief_pointer ..).bind fun _ => Brief.pure ..
  case mapForRead => exact (brief_pointer ..).bind fun _ => Brief.pure ..
  case readCount => exact (brief_readCount ..).bind fun _ => Brief.pure ..
  case setBreakpoint => exact brief_setWatch ..
  case clearBreakpoint => exact brief_clearWatch ..
  case setWatchpoint => exact brief_setWatch ..
  case clearWatchpoint => exact brief_clearWatch ..
  case wasHit => refine ⟨fun s e s' h => ?_⟩; cases h
  case uninit => refine ⟨fun s e s' h => ?_⟩; cases h

end MemSim

/-- Messages that consist of literals and numbers. -/
macro "fits" : tactic => `(tactic| (
  simp only [List.length_append, asc_length, fmt08X_length]
  simp only [String.toList_ofList, String.reduceToList, List.length_cons, List.length_nil]
  try omega))

/-! ### ELF -/

namespace Elf

theorem brief_field (p : List U8) (o n : Nat) : Brief (field p o n) := by
  unfold field; exact Brief.ite (Brief.pure ..) (Brief.ub ..)

theorem brief_bytesOf (p : List U8) (n : Nat) : Brief (bytesOf p n) := by
  unfold bytesOf; exact Brief.ite (Brief.pure ..) (Brief.ub ..)

theorem brief_fetch (b : List U8) (k : Nat) (o n : U32) : Brief (fetchSizedByteArray b k o n) := by
  unfold fetchSizedByteArray; exact Brief.ite (Brief.throw (by simp)) (Brief.pure ..)

theorem field_lt {p : List U8} {o n v : Nat} {s s' : Sim} (h : field p o n s = .ok v s') : v < 256 ^ n := by
  unfold field at h
  split at h
  · cases h
    refine Nat.lt_of_lt_of_le (leVal_lt _) (Nat.pow_le_pow_right (by omega) ?_)
    simp; omega
  · cases h

theorem brief_validate (hdr : List U8) : Brief (validateElfHeaderContents hdr) := by
  unfold validateElfHeaderContents
  refine (brief_bytesOf ..).bind fun _ => Brief.ite (Brief.throw (by fits)) <| (brief_field ..).bind fun _ => Brief.ite (Brief.throw (by fits)) <|
    (brief_field ..).bind fun _ => Brief.ite (Brief.throw (by fits)) <| (brief_field ..).bind fun _ => Brief.ite (Brief.throw (by fits)) <|
    (brief_field ..).bind fun _ => Brief.ite (Brief.throw (by fits)) <| (brief_field ..).bind fun _ => Brief.ite (Brief.throw (by fits)) <|
    (brief_field ..).bind' fun _ v _ hv => Brief.ite (Brief.throw ?_) (Brief.pure ..)
  have := fmtU_length (n := v) (by have := field_lt hv; omega)
  fits

theorem brief_loadable (p : List U8) : Brief (isFlashLoadableEntry p) := by
  unfold isFlashLoadableEntry
  exact (brief_field ..).bind fun _ => Brief.ite ((brief_field ..).bind fun _ => Brief.ite ((brief_field ..).bind fun _ =>
    (brief_field ..).bind fun _ => Brief.pure ..) (Brief.pure ..)) (Brief.pure ..)

theorem brief_entry (b : List U8) (k : Nat) (p : List U8) (c : U32) : Brief (loadIfFlashLoadableEntry b k p c) := by
  unfold loadIfFlashLoadableEntry
  refine (brief_loadable _).bind fun _ => Brief.ite ((brief_field ..).bind fun o => (brief_field ..).bind fun z =>
    (Brief.catchThrow fun _ => ?_).bind fun _ => (brief_field ..).bind fun _ => (brief_createRegion ..).bind fun _ =>
    (brief_load ..).bind fun _ => (brief_makeReadOnly _).bind fun _ => Brief.pure ..) (Brief.pure ..)
  have h1 := fmtD_length (BitVec.ofNat 32 o)
  have h2 := fmtD_length (BitVec.ofNat 32 o + BitVec.ofNat 32 z - 1)
  fits

theorem brief_entries (b : List U8) (k e n : Nat) : ∀ i o c, i + n ≤ 65536 → Brief (loadEntries b k e n i o c) := by
  induction n with
  | zero => intro i o c _; exact Brief.pure ..
  | succ n ih =>
    intro i o c hi
    refine (Brief.catchThrow fun _ => ?_).bind fun _ => (brief_entry ..).bind fun _ => ih _ _ _ (by omega)
    have h1 := fmtU_length (n := i) (by omega)
    have h2 := fmtU_length o.isLt
    fits

theorem brief_fromMemory (b : List U8) (n : Nat) : Brief (fromMemory b n) := by
  unfold fromMemory loadFlashLoadableEntries initLoadObject
  refine (Brief.catchThrow fun _ => by fits).bind fun _ => (brief_validate _).bind fun _ =>
    ((brief_field ..).bind fun _ => (brief_field ..).bind fun _ => (brief_field ..).bind' fun _ v _ hv => brief_entries _ _ _ _ _ _ _ ?_).bind fun _ =>
    Brief.ite (Brief.throw (by fits)) (Brief.pure ..)
  have := field_lt hv
  omega

end Elf

theorem brief_onMem {m : M Sim α} (h : Brief m) : Brief (Host.onMem m) := h.zoom

theorem brief_fopen (name : Str) : Brief (Host.fopen name) := by
  refine ⟨fun s e s' h => ?_⟩
  unfold Host.fopen at h
  split at h <;> cases h

theorem brief_fclose : Brief Host.fclose := Brief.modify _

/-! ### Dumps -/

namespace Dump

theorem brief_readInto (rd : Reader) (n : Nat) (put : Str → D → D) : Brief (readInto rd n put) := by
  refine ⟨fun s e s' h => ?_⟩
  unfold readInto at h
  split at h <;> cases h
  simp

theorem brief_readBytes (rd : Reader) (n : Nat) : Brief (readBytes rd n) := brief_readInto ..

theorem brief_onMemD {m : M Sim α} (h : Brief m) : Brief (onMem m) := h.zoom

theorem brief_signature (rd : Reader) : Brief (validateDumpSignature rd) := by
  unfold validateDumpSignature
  exact (brief_readBytes ..).bind fun _ => Brief.ite (Brief.throw (by fits)) <| Brief.ite (Brief.pure ..) <| Brief.ite (Brief.modify _) (Brief.throw (by fits))

theorem brief_flags (rd : Reader) : Brief (readFlags rd) := by
  unfold readFlags
  exact (brief_readInto ..).bind fun _ => Brief.ite (Brief.throw (by fits)) (Brief.pure ..)

theorem brief_ints (rd : Reader) : Brief (readIntegerRegisters rd) := by
  unfold readIntegerRegisters
  refine Brief.get.bind fun d => ?_
  dsimp only
  refine Brief.ite ((Brief.modify _).bind fun _ => ?_) ?_ <;>
  exact (brief_readInto ..).bind fun _ => Brief.ite (Brief.throw (by fits)) ((brief_readInto ..).bind fun _ => Brief.ite (Brief.throw (by fits)) (Brief.pure ..))

theorem brief_floats (rd : Reader) : Brief (readFloatingPointRegisters rd) := by
  unfold readFloatingPointRegisters
  exact Brief.get.bind fun d => Brief.ite (Brief.pure ..) ((brief_readInto ..).bind fun _ => Brief.ite (Brief.throw (by fits)) (Brief.pure ..))

theorem brief_regionBytes (rd : Reader) (n : Nat) : ∀ a, Brief (loadRegionBytes rd n a) := by
  induction n with
  | zero => intro a; exact Brief.pure ..
  | succ n ih =>
    intro a
    refine (brief_readBytes ..).bind fun bs => ?_
    split
    · exact (brief_onMemD (brief_write ..)).bind fun _ => ih _
    · exact Brief.throw (by simp)

theorem brief_next (rd : Reader) : Brief (readNextMemoryRegion rd) := by
  unfold readNextMemoryRegion createAndLoadMemoryRegion
  exact (brief_readBytes ..).bind fun bs => Brief.ite (Brief.throw (by fits)) <| Brief.ite (Brief.pure ..) <| Brief.ite (Brief.throw (by fits)) <|
    (Brief.catchThrow fun _ => by fits).bind fun _ => Brief.pure ..

theorem brief_regions (rd : Reader) (n : Nat) : Brief (readMemoryRegions rd n) := by
  induction n with
  | zero => exact Brief.ub ..
  | succ n ih => exact (brief_next _).bind fun _ => Brief.ite (Brief.pure ..) ih

theorem brief_dump (rd : Reader) : Brief (readDump rd) :=
  (brief_signature _).bind fun _ => (brief_flags _).bind fun _ => (brief_ints _).bind fun _ => (brief_floats _).bind fun _ =>
    Brief.get.bind fun _ => brief_regions ..

theorem brief_file (rd : Reader) (name : Str) : Brief (readFile rd name) := by
  unfold readFile
  refine (brief_fopen _).bind fun f => ?_
  cases f with
  | none => exact Brief.throwMsg ..
  | some f =>
    refine ⟨fun h e h' he => ?_⟩
    dsimp only at he
    cases hd : readDump rd { host := h, rest := f.bytes } with
    | ub r => rw [hd] at he; cases he
    | ok a d => rw [hd] at he; cases he
    | throw x d => rw [hd] at he; cases he; exact (brief_dump rd).all _ _ _ hd

end Dump

/-! ### GDB logs -/

namespace GdbLog

theorem brief_onMemO {m : M Sim α} (h : Brief m) : Brief (onMem m) := h.zoom

theorem brief_values4 (n : Nat) : ∀ vs t, Brief (parseValues n vs t) := by
  induction n with
  | zero => intro vs t; exact Brief.ub ..
  | succ n ih =>
    intro vs t
    unfold parseValues parseNextValue parseValue
    exact Brief.ite ((Brief.ite (Brief.pure ..) (Brief.ub ..)).bind fun _ => ih ..) (Brief.pure ..)

theorem brief_parseLine (line : Str) : Brief (parseLine line) := by
  unfold parseLine parseMemoryLine parseRegisterLine
  refine Brief.ite (Brief.ite (Brief.ub ..) ((brief_values4 ..).bind fun _ => Brief.pure ..)) ?_
  split
  · exact Brief.ite (Brief.ub ..) <| Brief.ite (Brief.pure ..) (Brief.pure ..)
  · exact Brief.pure ..

theorem brief_memory (a : U32) (vs : List U32) : Brief (firstPassMemoryHandler a vs) := by
  unfold firstPassMemoryHandler
  refine Brief.get.bind fun o => ?_
  dsimp only
  exact Brief.ite (Brief.ite ((brief_onMemO (brief_createRegion ..)).bind fun _ => (Brief.modify _).bind fun _ => Brief.modify _)
    ((Brief.modify _).bind fun _ => Brief.modify _)) (Brief.modify _)

theorem brief_store (o : Nat) (v : U32) : Brief (storeContext o v) := by
  refine ⟨fun s e s' h => ?_⟩
  unfold storeContext at h
  dsimp only at h
  split at h
  · cases h
  · split at h
    · cases h
    · split at h
      · cases h
      · split at h
        · cases h
        · split at h <;> cases h

theorem brief_first (r : Results) : Brief (firstPassHandler r) := by
  cases r with
  | other => exact Brief.pure ..
  | memory a vs => exact brief_memory ..
  | register o v =>
    simp only [firstPassHandler, firstPassRegisterHandler]
    exact Brief.ite ((Brief.modify _).bind fun _ => brief_store ..) (brief_store ..)

theorem brief_values (a : U32) (vs : List U32) : ∀ i, Brief (writeValues a i vs) := by
  induction vs with
  | nil => intro i; exact Brief.pure ..
  | cons v vs ih => intro i; exact (brief_onMemO (brief_write ..)).bind fun _ => ih _

theorem brief_second (r : Results) : Brief (secondPassHandler r) := by
  cases r with
  | memory a vs => exact brief_values ..
  | _ => exact Brief.pure ..

theorem brief_loop {handler : Results → M Obj Unit} (h : ∀ r, Brief (handler r)) (n : Nat) : ∀ t, Brief (parseLoop handler n t) := by
  induction n with
  | zero => intro t; exact Brief.ub ..
  | succ n ih =>
    intro t
    unfold parseLoop
    split
    · exact Brief.pure ..
    · exact (brief_parseLine _).bind fun _ => (h _).bind fun _ => ih _

theorem brief_lines {handler : Results → M Obj Unit} (h : ∀ r, Brief (handler r)) (bytes : Str) : Brief (parseLines handler bytes) := by
  refine ⟨fun s e s' he => ?_⟩
  unfold parseLines at he
  have : Brief (do
    parseLoop handler (bytes.length + 1) bytes
    let o ← M.get
    if o.regionSize ≠ 0 then onMem (createRegion o.regionStart o.regionSize) else pure ()) :=
    (brief_loop h ..).bind fun _ => Brief.get.bind fun _ => Brief.ite (brief_onMemO (brief_createRegion ..)) (Brief.pure ..)
  have h1 := this.all { host := s }
  dsimp only at he
  revert h1 he
  generalize ((do
    parseLoop handler (bytes.length + 1) bytes
    let o ← M.get
    if o.regionSize ≠ 0 then onMem (createRegion o.regionStart o.regionSize) else pure () : M Obj Unit) { host := s }) = r
  cases r with
  | ok a t => intro h; cases h
  | ub r => intro h; cases h
  | throw x t => intro h h1; cases h; exact h1 _ _ rfl

theorem brief_parse (name : Str) : Brief (parse name) := by
  unfold parse
  refine (brief_fopen _).bind fun f => ?_
  cases f with
  | none => exact Brief.throwMsg ..
  | some f =>
    refine Brief.catch ?_ fun _ h => brief_fclose.bind fun _ => Brief.rethrow h
    refine (Brief.modify _).bind fun _ => (brief_lines brief_first _).bind fun _ => Brief.bind ?_ fun _ =>
      (brief_lines brief_second _).bind fun _ => brief_fclose
    unfold rewindLogFile
    exact Brief.ite (Brief.throw (by fits)) (Brief.pure ..)

end GdbLog

/-! ### Start-up -/

namespace CommandLine

theorem brief_onHost {m : M Host α} (h : Brief m) : Brief (onHost m) := h.zoom
theorem brief_onProg {m : M Prog α} (h : Brief m) : Brief (onProg m) := h.zoom

theorem brief_onMemory {m : M Host α} (h : Brief m) : Brief (onMemory m) := by
  refine ⟨fun p e p' he => ?_⟩
  unfold onMemory at he
  by_cases hm : p.memory
  · rw [if_pos hm] at he; exact (brief_onHost h).all _ _ _ he
  · rw [if_neg hm] at he; cases he

theorem brief_arg (args : List Str) (i : Nat) : Brief (arg args i) := by
  unfold arg
  cases args[i]? <;> first | exact Brief.ub .. | exact Brief.pure ..

theorem brief_flag (n : Int) (args : List Str) (pass : Pass) : Brief (parseFlagArgument n args pass) := by
  unfold parseFlagArgument parseBinFilenameOption parseElfFilenameOption parseDumpFilenameOption parseAliasOption
  refine (brief_arg ..).bind fun _ => Brief.ite ?_ <| Brief.ite ?_ <| Brief.ite ?_ <| Brief.ite ?_ <| Brief.throwMsg ..
  · exact Brief.ite (Brief.throw (by fits)) <| Brief.ite ((brief_arg ..).bind fun _ => (brief_arg ..).bind fun _ => (Brief.modify _).bind fun _ => Brief.pure ..)
      ((Brief.pure ..).bind fun _ => Brief.pure ..)
  · exact Brief.ite (Brief.throw (by fits)) <| Brief.ite ((brief_arg ..).bind fun _ => (Brief.modify _).bind fun _ => Brief.pure ..)
      ((Brief.pure ..).bind fun _ => Brief.pure ..)
  · exact Brief.ite (Brief.throw (by fits)) <| Brief.ite ((brief_arg ..).bind fun _ => (Brief.modify _).bind fun _ => Brief.pure ..)
      ((Brief.pure ..).bind fun _ => Brief.pure ..)
  · exact Brief.ite (Brief.throw (by fits)) <| Brief.ite ((brief_arg ..).bind fun _ => (brief_arg ..).bind fun sz => (brief_arg ..).bind fun _ =>
      (Brief.catchThrow fun _ => by have := fmtD_length (Libc.strtoul32 sz); fits).bind fun _ => Brief.pure ..)
      ((Brief.pure ..).bind fun _ => Brief.pure ..)

theorem brief_parseLoop (pass : Pass) (fuel : Nat) : ∀ n args, Brief (parseLoop pass fuel n args) := by
  induction fuel with
  | zero => intro n args; exact Brief.ub ..
  | succ fuel ih =>
    intro n args
    unfold parseLoop parseArgument
    exact Brief.ite (Brief.pure ..) (((brief_arg ..).bind fun _ => Brief.ite (brief_flag ..) (Brief.throw (by fits))).bind fun _ => ih ..)

theorem brief_required : Brief throwIfRequiredArgumentNotSpecified :=
  Brief.get.bind fun _ => Brief.ite (Brief.throw (by fits)) <| Brief.ite (Brief.throw (by fits)) (Brief.pure ..)

theorem brief_fileSize : Brief fileSizeOf := by
  refine ⟨fun s e s' h => ?_⟩
  unfold fileSizeOf at h
  cases hp : s.pFile with
  | none => rw [hp] at h; cases h
  | some f =>
    rw [hp] at h
    dsimp only at h
    cases hg : getFileSize f with
    | ok n h' => rw [hg] at h; cases h
    | ub r => rw [hg] at h; cases h
    | throw x h' =>
      rw [hg] at h
      cases h
      rw [getFileSize_eq] at hg
      split at hg
      · cases hg; simp
      · split at hg
        · cases hg; simp
        · split at hg <;> cases hg
          simp

theorem brief_freadAll : Brief freadAll := by
  refine ⟨fun s e s' h => ?_⟩
  unfold freadAll at h
  cases hp : s.pFile <;> rw [hp] at h <;> cases h

theorem brief_mallocP : Brief mallocP := brief_onHost (brief_onMem brief_malloc)

theorem brief_loadFileBody (name : Str) : Brief (loadFileBody name) := by
  unfold loadFileBody
  exact (brief_onProg (brief_onHost (brief_fopen _))).bind fun f => (Brief.modify _).bind fun _ =>
    Brief.ite (Brief.throwMsg ..) <| (Brief.catch brief_fileSize fun _ _ => Brief.throwMsg ..).bind fun n =>
    (Brief.modify _).bind fun _ => (brief_onProg brief_mallocP).bind fun _ =>
    Brief.ite ((Brief.modify _).bind fun _ => brief_freadAll.bind fun _ => Brief.ite (Brief.throwMsg ..) (brief_onProg (brief_onHost brief_fclose)))
    (Brief.throwMsg ..)

theorem brief_loadFileData (name : Str) : Brief (loadFileData name) := by
  refine ⟨fun p e q h => ?_⟩
  have hb := (brief_loadFileBody name).all { prog := p }
  unfold loadFileData at h
  cases hm : loadFileBody name { prog := p } with
  | ok a s => rw [hm] at h; cases h
  | ub r => rw [hm] at h; cases h
  | throw x s =>
    rw [hm] at h
    have key : ∃ t, loadFileCatch (α := FileData) s.pBuffer.isSome s.pFile.isSome x s.prog = .throw x t := by
      unfold loadFileCatch
      cases s.pBuffer.isSome <;> cases s.pFile.isSome <;> exact ⟨_, rfl⟩
    obtain ⟨t, ht⟩ := key
    dsimp only at h
    rw [ht] at h
    cases h
    exact hb _ _ hm

theorem brief_loadBin (fd : FileData) : Brief (loadBinFile fd) := by
  unfold loadBinFile
  exact Brief.get.bind fun _ => Brief.catchThrow fun _ => by fits

theorem brief_freeP : Brief freeP := ⟨fun _ _ _ h => nomatch h⟩

theorem brief_image : Brief loadImageFile := by
  unfold loadImageFile
  refine Brief.get.bind fun p => ?_
  split
  · exact (brief_loadFileData _).bind fun _ => Brief.catch ((brief_onMemory (brief_onMem (Elf.brief_fromMemory ..))).bind fun _ => brief_freeP)
      fun _ h => brief_freeP.bind fun _ => Brief.rethrow h
  · split
    · exact (brief_loadFileData _).bind fun _ => Brief.catch ((brief_loadBin _).bind fun _ => brief_freeP) fun _ h => brief_freeP.bind fun _ => Brief.rethrow h
    · exact Brief.ub ..

theorem brief_fileType (name : Str) : Brief (getFileType name) := by
  unfold getFileType
  refine (brief_onHost (brief_fopen _)).bind fun f => ?_
  cases f with
  | none => exact Brief.throwMsg ..
  | some f => exact (brief_onHost brief_fclose).bind fun _ => Brief.ite (Brief.pure ..) <| Brief.ite (Brief.pure ..) (Brief.pure ..)

theorem brief_loadDump : Brief loadDumpFile := by
  unfold loadDumpFile
  refine Brief.get.bind fun p => ?_
  split
  · exact Brief.ub ..
  · refine (brief_fileType _).bind fun t => ?_
    cases t
    · exact brief_onMemory (GdbLog.brief_parse _)
    · exact brief_onMemory (Dump.brief_file ..)
    · exact brief_onMemory (Dump.brief_file ..)

theorem brief_initBody (n : Int) (args : List Str) : Brief (initBody n args) := by
  unfold initBody
  exact (Brief.modify _).bind fun _ => (brief_parseLoop ..).bind fun _ => brief_required.bind fun _ =>
    (Brief.modify _).bind fun _ => brief_image.bind fun _ => brief_loadDump.bind fun _ => brief_parseLoop ..

theorem brief_init (n : Int) (args : List Str) : Brief (init n args) := by
  unfold init
  refine Brief.catch (brief_initBody ..) fun e he => ?_
  refine ⟨fun p x q h => ?_⟩
  simp only [displayExceptionMessage, print, uninitMemory, M.bind_apply, M.modify_apply, M.get_apply] at h
  by_cases hm : p.memory
  · simp only [hm, if_true] at h; cases h; exact he
  · simp only [hm, if_false] at h; cases h; exact he

end CommandLine
end Verif
