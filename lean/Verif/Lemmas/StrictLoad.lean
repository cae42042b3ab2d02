import Verif.Lemmas.Strict
import Verif.Lemmas.AnyLog
import Verif.Lemmas.CmdTop
import Verif.Spec.Strict
/- Start-up on a host that is strict about alignment. -/
namespace Verif.Elf
open Verif MemSim Spec

variable {m : U32 → Prop}

theorem quads_field (b : Str) (k off n : Nat) : Ag (Quads m) (fun v => v = numAt b (k + off) n) (field (b.drop k) off n) (field (b.drop k) off n) := by
  intro s hs
  refine ⟨rfl, ?_⟩
  rcases field_any b k off n s with h | h <;> rw [h]
  · exact ⟨hs, rfl⟩
  · trivial

theorem quads_field0 (b : Str) (off n : Nat) : Ag (Quads m) (fun v => v = numAt b off n) (field b off n) (field b off n) := by
  have := quads_field (m := m) b 0 off n
  simpa using this

theorem quads_loadable (b : Str) (k : Nat) :
    Ag (Quads m) (fun v => v = (progHeaderAt b k).loadable) (isFlashLoadableEntry (b.drop k)) (isFlashLoadableEntry (b.drop k)) := by
  intro s hs
  refine ⟨rfl, ?_⟩
  rcases isLoadable_any b k s with h | h <;> rw [h]
  · exact ⟨hs, rfl⟩
  · trivial

theorem quads_fetch (b : Str) (size : Nat) (off n : U32) :
    Ag (Quads m) (fun d => d = b.drop off.toNat) (fetchSizedByteArray b size off n) (fetchSizedByteArray b size off n) :=
  Ag.ite (fun _ => Ag.throw _ _) fun _ => Ag.pure rfl

theorem num4 (b : Str) (off : Nat) : (BitVec.ofNat 32 (numAt b off 4)).toNat = numAt b off 4 := toNat_num b off

/-- What is needed of an ELF file. -/
def ElfAligned (m : U32 → Prop) (b : Str) : Prop :=
  (∀ i < phnum b, 4 ∣ entryAt b i) ∧ ∀ h ∈ progHeaders b, h.loadable = true →
    4 ∣ h.offset ∧ ∀ j, 4 * j + 4 ≤ h.filesz → m (BitVec.ofNat 32 h.paddr + BitVec.ofNat 32 (4 * j))

theorem quads_entry (hm : NoPartialOverlap m) {b : Str} {size k : Nat} (h : (progHeaderAt b k).loadable = true → 4 ∣ (progHeaderAt b k).offset ∧
      ∀ j, 4 * j + 4 ≤ (progHeaderAt b k).filesz → m (BitVec.ofNat 32 (progHeaderAt b k).paddr + BitVec.ofNat 32 (4 * j)))
    (c : U32) : Ag (Quads m) (fun _ => True) (loadIfFlashLoadableEntryS b size (b.drop k) c) (loadIfFlashLoadableEntry b size (b.drop k) c) := by
  unfold loadIfFlashLoadableEntryS loadIfFlashLoadableEntry
  refine Ag.bind (quads_loadable b k) fun l hl => ?_
  refine Ag.ite (fun hc => ?_) fun _ => Ag.pure trivial
  obtain ⟨h1, h2⟩ := h (hl ▸ hc)
  refine Ag.bind (quads_field b k 4 4) fun o ho => ?_
  refine Ag.bind (quads_field b k 16 4) fun z hz => ?_
  refine Ag.bind (Ag.catch_ (quads_fetch _ _ _ _) fun e => Ag.throw _ _) fun d _ => ?_
  refine Ag.bind (quads_field b k 12 4) fun a ha => ?_
  subst ho hz ha
  have h3 : ∀ j, 4 * j + 4 ≤ (BitVec.ofNat 32 (numAt b (k + 16) 4)).toNat → m (BitVec.ofNat 32 (numAt b (k + 12) 4) + BitVec.ofNat 32 (4 * j)) := by
    rw [num4]; exact h2
  refine Ag.bind (Quads.create h3) fun _ _ => ?_
  refine Ag.bind (Quads.load hm h3 (by rw [num4]; exact h1) _) fun _ _ => ?_
  exact Ag.bind (Quads.mark _) fun _ _ => Ag.pure trivial

theorem quads_entries (hm : NoPartialOverlap m) {b : Str} {size : Nat} (h : ElfAligned m b) (n i : Nat) (hn : i + n ≤ phnum b) (c : U32) :
    Ag (Quads m) (fun _ => True) (loadEntriesS b size (phentsize b) n i (BitVec.ofNat 32 (entryAt b i)) c)
      (loadEntries b size (phentsize b) n i (BitVec.ofNat 32 (entryAt b i)) c) := by
  induction n generalizing i c with
  | zero => exact Ag.pure trivial
  | succ n ih =>
    simp only [loadEntriesS, loadEntries]
    refine Ag.bind (Ag.catch_ (quads_fetch _ _ _ _) fun e => Ag.throw _ _) fun d hd => ?_
    subst hd
    have ha := h.1 i (by omega)
    rw [offset_toNat]
    refine Ag.check ha ?_
    refine Ag.bind (quads_entry hm ?_ c) fun c' _ => ?_
    · exact h.2 _ (List.mem_map.2 ⟨i, List.mem_range.2 (by omega), rfl⟩)
    · rw [offset_add]
      exact ih (i + 1) (by omega) c'

theorem quads_validate (b : Str) : Ag (Quads m) (fun _ => True) (validateElfHeaderContents b) (validateElfHeaderContents b) := by
  unfold validateElfHeaderContents
  have hb : Ag (Quads m) (fun _ => True) (bytesOf b 4) (bytesOf b 4) := Ag.ite (fun _ => Ag.pure trivial) fun _ => Ag.ub _
  refine Ag.bind hb fun _ _ => Ag.ite (fun _ => Ag.throw _ _) fun _ => ?_
  refine Ag.bind (quads_field0 _ _ _) fun _ _ => Ag.ite (fun _ => Ag.throw _ _) fun _ => ?_
  refine Ag.bind (quads_field0 _ _ _) fun _ _ => Ag.ite (fun _ => Ag.throw _ _) fun _ => ?_
  refine Ag.bind (quads_field0 _ _ _) fun _ _ => Ag.ite (fun _ => Ag.throw _ _) fun _ => ?_
  refine Ag.bind (quads_field0 _ _ _) fun _ _ => Ag.ite (fun _ => Ag.throw _ _) fun _ => ?_
  refine Ag.bind (quads_field0 _ _ _) fun _ _ => Ag.ite (fun _ => Ag.throw _ _) fun _ => ?_
  exact Ag.bind (quads_field0 _ _ _) fun _ _ => Ag.ite (fun _ => Ag.throw _ _) fun _ => Ag.pure trivial

theorem quads_from (hm : NoPartialOverlap m) {b : Str} (h : ElfAligned m b) (size : Nat) : Ag (Quads m) (fun _ => True) (fromMemoryS b size) (fromMemory b size) := by
  unfold fromMemoryS fromMemory initLoadObject
  refine Ag.bind (Ag.catch_ (quads_fetch _ _ _ _) fun e => Ag.throw _ _) fun d hd => ?_
  have hd : d = b := by simpa using hd
  subst hd
  refine Ag.bind (quads_validate d) fun _ _ => ?_
  refine Ag.bind (Q1 := fun _ => True) ?_ fun c _ => Ag.ite (fun _ => Ag.throw _ _) fun _ => Ag.pure trivial
  unfold loadFlashLoadableEntriesS loadFlashLoadableEntries
  refine Ag.bind (quads_field0 d 28 4) fun o ho => ?_
  refine Ag.bind (quads_field0 d 42 2) fun e he => ?_
  refine Ag.bind (quads_field0 d 44 2) fun k hk => ?_
  subst ho he hk
  have := quads_entries hm (size := size) h (phnum d) 0 (by omega) 0
  rw [entryAt_zero] at this
  exact this

end Verif.Elf

namespace Verif.GdbLog
open Verif MemSim Spec

variable {k : U32 → Prop}

/-- The invariant of the first pass. -/
def ObjQuads (k : U32 → Prop) (o : Obj) : Prop :=
  Quads k o.host.mem ∧ (∀ j, 4 * j + 4 ≤ o.regionSize.toNat → k (o.regionStart + BitVec.ofNat 32 (4 * j))) ∧ 4 ∣ o.regionSize.toNat ∧
    o.nextExpectedAddress = o.regionStart + o.regionSize

/-- The words of the memory lines are among these. -/
def ResQuad (k : U32 → Prop) : Results → Prop
  | .memory a vs => ∀ j < vs.length, k (a + BitVec.ofNat 32 (4 * j))
  | _ => True

theorem onMem_quads {m' m : M Sim α} (h : Ag (Quads k) (fun _ => True) m' m) : Ag (ObjQuads k) (fun _ => True) (onMem m') (onMem m) :=
  Ag.zoom h (fun _ ho => ho.1) fun _ _ ho hs => ⟨hs, ho.2⟩

theorem store_quads (off : Nat) (v : U32) : Ag (ObjQuads k) (fun _ => True) (storeContext off v) (storeContext off v) := by
  intro o ho
  refine ⟨rfl, ?_⟩
  unfold storeContext
  simp only
  repeat' split
  all_goals first | trivial | exact ⟨ho, trivial⟩

theorem first_quads {r : Results} (h : ResQuad k r) : Ag (ObjQuads k) (fun _ => True) (firstPassHandler r) (firstPassHandler r) := by
  cases r with
  | other => exact Ag.pure trivial
  | register off v =>
    unfold firstPassHandler firstPassRegisterHandler
    by_cases hf : isFloatingPointRegister off = true
    · simp only [hf, if_true]
      exact Ag.bind (Ag.modify fun o ho => ho) fun _ _ => store_quads _ _
    · simp only [hf]
      exact store_quads _ _
  | memory a vs =>
    have ha : ∀ j < vs.length, k (a + BitVec.ofNat 32 (4 * j)) := h
    have hz : ∀ {m : Sim} {o : Obj}, Quads k m → ObjQuads k { o with
        host := { o.host with mem := m }, regionStart := a, regionSize := 0 + BitVec.ofNat 32 (vs.length * 4),
        nextExpectedAddress := a + BitVec.ofNat 32 (vs.length * 4) } := by
      intro m o hm
      refine ⟨hm, fun j hj => ha j ?_, ?_, ?_⟩
      · simp at hj
        omega
      · simp
        omega
      · simp
    intro o ho
    refine ⟨rfl, ?_⟩
    simp only [firstPassHandler, firstPassMemoryHandler, M.bind_apply, M.get_apply]
    by_cases h1 : a ≠ o.nextExpectedAddress
    · simp only [if_pos h1, M.bind_apply]
      by_cases h2 : o.regionStart ≠ 0xFFFFFFFF
      · simp only [if_pos h2]
        have h4 := (onMem_quads (Quads.create ho.2.1) o ho).2
        rw [M.bind_apply]
        cases e : onMem (createRegion o.regionStart o.regionSize) o with
        | ok x o' => rw [e] at h4; exact ⟨hz h4.1.1, trivial⟩
        | throw x o' => rw [e] at h4; exact h4
        | ub r => trivial
      · simp only [if_neg h2]
        exact ⟨hz ho.1, trivial⟩
    · simp only [if_neg h1]
      simp only [ne_eq, Decidable.not_not] at h1
      obtain ⟨g1, g2, g3, g4⟩ := ho
      refine ⟨⟨g1, fun j hj => ?_, ?_, ?_⟩, trivial⟩
      · replace hj : 4 * j + 4 ≤ (o.regionSize + BitVec.ofNat 32 (vs.length * 4)).toNat := hj
        by_cases hlt : 4 * j + 4 ≤ o.regionSize.toNat
        · exact g2 j hlt
        · rw [BitVec.toNat_add, BitVec.toNat_ofNat] at hj
          have := ha (j - o.regionSize.toNat / 4) (by omega)
          rw [h1, g4, show 4 * (j - o.regionSize.toNat / 4) = 4 * j - o.regionSize.toNat by omega] at this
          have he : o.regionStart + o.regionSize + BitVec.ofNat 32 (4 * j - o.regionSize.toNat) = o.regionStart + BitVec.ofNat 32 (4 * j) := by
            rw [BitVec.add_assoc]
            congr 1
            apply BitVec.eq_of_toNat_eq
            simp only [BitVec.toNat_add, BitVec.toNat_ofNat]
            omega
          rw [he] at this
          exact this
      · show 4 ∣ (o.regionSize + BitVec.ofNat 32 (vs.length * 4)).toNat
        rw [BitVec.toNat_add, BitVec.toNat_ofNat]
        omega
      · show a + BitVec.ofNat 32 (vs.length * 4) = o.regionStart + (o.regionSize + BitVec.ofNat 32 (vs.length * 4))
        rw [h1, g4, BitVec.add_assoc]

theorem values_quads (hk : NoPartialOverlap k) {a : U32} (i : Nat) (vs : List U32) (h : ∀ j < vs.length, k (a + BitVec.ofNat 32 (4 * (i + j)))) :
    Ag (ObjQuads k) (fun _ => True) (writeValuesS a i vs) (writeValues a i vs) := by
  induction vs generalizing i with
  | nil => exact Ag.pure trivial
  | cons v vs ih =>
    have h0 : k (a + BitVec.ofNat 32 (i * 4)) := by
      have := h 0 (by simp)
      rwa [Nat.add_zero, Nat.mul_comm] at this
    refine Ag.bind (onMem_quads (Quads.write4 hk h0 v.toNat)) fun _ _ => ih (i + 1) fun j hj => ?_
    have := h (j + 1) (by simpa using hj)
    rwa [show i + (j + 1) = i + 1 + j by omega] at this

theorem second_quads (hk : NoPartialOverlap k) {r : Results} (h : ResQuad k r) : Ag (ObjQuads k) (fun _ => True) (secondPassHandlerS r) (secondPassHandler r) := by
  cases r with
  | other => exact Ag.pure trivial
  | register off v => exact Ag.pure trivial
  | memory a vs => exact values_quads hk 0 vs fun j hj => by rw [Nat.zero_add]; exact h j hj

theorem finish_quads : Ag (ObjQuads k) (fun _ => True) finish finish := by
  refine Ag.bind Ag.get fun o ho => Ag.ite (fun h => ?_) fun _ => Ag.pure trivial
  exact onMem_quads (Quads.create ho.2.1)

theorem all_quads {f' f : Results → M Obj Unit} {rs : List Results} (hr : ∀ r ∈ rs, Ag (ObjQuads k) (fun _ => True) (f' r) (f r)) :
    Ag (ObjQuads k) (fun _ => True) (runAll f' rs) (runAll f rs) := by
  induction rs with
  | nil => exact Ag.pure trivial
  | cons r rs ih => exact Ag.bind (hr r (by simp)) fun _ _ => ih fun q hq => hr q (by simp [hq])

theorem pass_quads {f' f : Results → M Obj Unit} {rs : List Results} (hr : ∀ r ∈ rs, Ag (ObjQuads k) (fun _ => True) (f' r) (f r)) :
    Ag (fun h : Host => Quads k h.mem) (fun _ => True) (pass f' rs) (pass f rs) := by
  intro h hh
  obtain ⟨h1, h2⟩ := (Ag.bind (all_quads hr) fun _ _ => finish_quads) { host := h } ⟨hh, fun j hj => absurd hj (by simp), by simp, by simp⟩
  unfold pass
  rw [h1]
  refine ⟨rfl, ?_⟩
  cases e : (runAll f rs >>= fun _ => finish) { host := h } with
  | ok x o => rw [e] at h2; exact ⟨h2.1.1, trivial⟩
  | throw x o => rw [e] at h2; exact h2.1
  | ub r => trivial

/-- Reading a log. -/
theorem parse_quads (hk : NoPartialOverlap k) {name : Str} {h : Host} (hs : Quads k h.mem)
    (hf : ∀ f, h.files.opens h.files.next name = some f → ∀ r ∈ results f.bytes, ResQuad k r) : parseS name h = parse name h := by
  unfold parseS parse
  rw [M.bind_apply, M.bind_apply]
  unfold Host.fopen
  cases e : h.files.opens h.files.next name with
  | none => rfl
  | some f =>
    simp only [parseLines_eq]
    have hr := hf f e
    have hm : ∀ {g : Host → Host}, (∀ h, (g h).mem = h.mem) → Ag (fun h : Host => Quads k h.mem) (fun _ => True) (M.modify g) (M.modify g) :=
      fun hg => Ag.modify fun h hh => by rw [hg]; exact hh
    have h1 : Ag (fun h : Host => Quads k h.mem) (fun _ => True) initPSPandMSP initPSPandMSP := hm fun _ => rfl
    have h2 : Ag (fun h : Host => Quads k h.mem) (fun _ => True) Host.fclose Host.fclose := hm fun _ => rfl
    have h3 : Ag (fun h : Host => Quads k h.mem) (fun _ => True) (rewindLogFile f) (rewindLogFile f) :=
      Ag.ite (fun _ => Ag.throw _ _) fun _ => Ag.pure trivial
    have h4 := pass_quads (f' := firstPassHandler) (f := firstPassHandler) fun r h => first_quads (hr r h)
    have h5 := pass_quads (f' := secondPassHandlerS) (f := secondPassHandler) fun r h => second_quads hk (hr r h)
    exact (Ag.catch_ (Ag.bind h1 fun _ _ => Ag.bind h4 fun _ _ => Ag.bind h3 fun _ _ => Ag.bind h5 fun _ _ => h2)
      (fun e => Ag.bind h2 fun _ _ => Ag.rethrow e) _ (by exact hs)).1

theorem quads_of_taken {text : Str} (h : ∀ ms, LogTakenFor text ms → ∀ m ∈ memoryIn ms, ∀ j < m.2.length, k (m.1 + BitVec.ofNat 32 (4 * j))) : ∀ r ∈ results text, ResQuad k r := by
  obtain ⟨ms, hm⟩ := log_exists text
  intro r hr
  have he := memoryIn_taken hm
  cases r with
  | other => trivial
  | register off v => trivial
  | memory a vs =>
    refine h ms hm (a, vs) ?_
    rw [← he]
    unfold memOf
    exact List.mem_filterMap.2 ⟨_, hr, rfl⟩

end Verif.GdbLog

namespace Verif.CommandLine
open Verif MemSim Spec Elf

/-- What stays the same until the dump is read. -/
structure Stage (m : U32 → Prop) (op : Nat → Str → Option File) (d : Option Str) (base : U32) (p : Prog) : Prop where
  memory : p.memory = true
  quads : Quads m p.host.mem
  dump : p.dump = d
  opens : p.host.files.opens = op
  base : p.baseAddress = base

variable {m : U32 → Prop} {op : Nat → Str → Option File} {d : Option Str} {base : U32}

theorem stage_mem {f' f : M Sim α} (h : Ag (Quads m) (fun _ => True) f' f) :
    Ag (Stage m op d base) (fun _ => True) (onMemory (Host.onMem f')) (onMemory (Host.onMem f)) := by
  intro p hp
  obtain ⟨h1, h2⟩ := h _ hp.quads
  rw [onMem_apply hp.memory, onMem_apply hp.memory, h1]
  refine ⟨rfl, ?_⟩
  cases e : f p.host.mem with
  | ok a s => rw [e] at h2; exact ⟨⟨hp.1, h2.1, hp.3, hp.4, hp.5⟩, trivial⟩
  | throw x s => rw [e] at h2; exact ⟨hp.1, h2, hp.3, hp.4, hp.5⟩
  | ub r => trivial

theorem stage_free : Ag (Stage m op d base) (fun _ => True) freeP freeP := by
  intro p hp
  exact ⟨rfl, ⟨hp.1, hp.2, hp.3, hp.4, hp.5⟩, trivial⟩

theorem stage_file (name : Str) :
    Ag (Stage m op d base) (fun fd => ∃ k f, op k name = some f ∧ fd.data = f.bytes.take f.tell.toNat ∧ fd.dataSize = f.tell) (loadFileData name) (loadFileData name) := by
  intro p hp
  refine ⟨rfl, ?_⟩
  rcases loadFileData_cases name p with ⟨e, k, h, -⟩ | ⟨f, h1, -, h2⟩
  · rw [h]; exact ⟨hp.1, hp.2, hp.3, hp.4, hp.5⟩
  · rw [h2]; exact ⟨⟨hp.1, hp.2, hp.3, hp.4, hp.5⟩, _, f, hp.4 ▸ h1, rfl, rfl⟩

theorem image_stage (hm : NoPartialOverlap m) {p : Prog} (hp : Stage m op d base p)
    (he : ∀ n, p.elf = some n → ∀ k f, op k n = some f → ElfAligned m (f.bytes.take f.tell.toNat)) 
    (hb : p.elf = none → ∀ n, p.bin = some n → ∀ k f, op k n = some f → ∀ j, 4 * j + 4 ≤ (BitVec.ofInt 32 f.tell).toNat → m (base + BitVec.ofNat 32 (4 * j))) :
    loadImageFileS p = loadImageFile p ∧ Pst (fun _ q => Stage m op d base q) (fun _ _ => True) (loadImageFile p) := by
  unfold loadImageFileS loadImageFile
  rw [M.bind_ok (M.get_apply p), M.bind_ok (M.get_apply p)]
  have key : ∀ {f' f : M Prog Unit}, Ag (Stage m op d base) (fun _ => True) f' f →
      f' p = f p ∧ Pst (fun _ q => Stage m op d base q) (fun _ _ => True) (f p) :=
    fun h => ⟨(h p hp).1, (h p hp).2.mono (fun _ _ h => h.1) fun _ _ _ => trivial⟩
  cases e1 : p.elf with
  | some n =>
    refine key (Ag.bind (stage_file n) ?_)
    rintro fd ⟨k, f, h1, h2, -⟩
    refine Ag.catch_ (Ag.bind (stage_mem (quads_from hm ?_ _)) fun _ _ => stage_free) fun e => Ag.bind stage_free fun _ _ => Ag.rethrow e
    rw [h2]
    exact he n e1 k f h1
  | none =>
    simp only
    cases e2 : p.bin with
    | none => exact ⟨rfl, trivial⟩
    | some n =>
      refine key (Ag.bind (stage_file n) ?_)
      rintro fd ⟨k, f, h1, -, h3⟩
      refine Ag.catch_ (Ag.bind (Q1 := fun _ => True) ?_ fun _ _ => stage_free) fun e => Ag.bind stage_free fun _ _ => Ag.rethrow e
      refine Ag.bind Ag.get fun q hq => ?_
      have h4 : ∀ j, 4 * j + 4 ≤ (BitVec.ofInt 32 fd.dataSize).toNat → m (q.baseAddress + BitVec.ofNat 32 (4 * j)) := by
        rw [hq.base, h3]; exact hb e1 n e2 k f h1
      exact Ag.catch_ (Ag.bind (stage_mem (Quads.create h4)) fun _ _ => Ag.bind (stage_mem (Quads.load hm h4 (by simp) _)) fun _ _ =>
        stage_mem (Quads.mark _)) fun e => Ag.throw _ _

theorem dump_stage (hm : NoPartialOverlap m) {p : Prog} {n text : Str} (hp : Stage m op (some n) base p) (hd : ∀ k, op k n = some (File.of text))
    (ha : IsLog text → ∀ ms, LogTakenFor text ms → ∀ l ∈ memoryIn ms, ∀ j < l.2.length, m (l.1 + BitVec.ofNat 32 (4 * j))) :
    loadDumpFileS p = loadDumpFile p := by
  unfold loadDumpFileS loadDumpFile
  rw [M.bind_ok (M.get_apply p), M.bind_ok (M.get_apply p), hp.dump]
  simp only
  have ho : p.host.files.opens p.host.files.next n = some (File.of text) := by rw [hp.opens]; exact hd _
  rw [M.bind_ok (getFileType_some ho), M.bind_ok (getFileType_some ho)]
  by_cases h1 : [0x63, 0x43] <+: (File.of text).bytes
  · simp only [if_pos h1]
  · by_cases h2 : asc "6343" <+: (File.of text).bytes
    · simp only [if_neg h1, if_pos h2]
    · simp only [if_neg h1, if_neg h2]
      have h3 := ha ⟨h1, h2⟩
      have hq : GdbLog.parseS n (peeked p.host) = GdbLog.parse n (peeked p.host) := ?_
      · rw [onMemory_apply (p := { p with host := peeked p.host }) hp.memory, onMemory_apply (p := { p with host := peeked p.host }) hp.memory, hq]
      refine GdbLog.parse_quads hm (h := peeked p.host) hp.quads ?_
      intro f hf
      have : f = File.of text := by
        have : p.host.files.opens (peeked p.host).files.next n = some f := hf
        rw [hp.opens, hd] at this
        exact (Option.some.inj this).symm
      rw [this]
      exact GdbLog.quads_of_taken h3

/-- The stages on a strict host. -/
def memStagesS (as : List (U32 × U32 × U32)) : M Prog Unit := do
  loadImageFileS
  loadDumpFileS
  addAliases as

theorem initS_eq (argc : Int) (argv : List Str) (p : Prog) : initS argc argv p = finish (initBodyS argc argv p) := by
  unfold initS
  rw [M.tryCatch_apply]
  cases initBodyS argc argv p with
  | ok u q => rfl
  | ub r => rfl
  | throw e q =>
    simp only [finish, displayExceptionMessage, print, M.bind_apply, M.modify_apply, uninitMemory, M.get_apply]
    by_cases hm : q.memory = true
    · simp only [hm, if_true, onHost, Host.onMem, M.zoom_apply, uninit, M.rethrow_apply, afterFailure, report, List.append_assoc]
      rfl
    · simp only [hm, Bool.false_eq_true, if_false, M.pure_apply, M.rethrow_apply, afterFailure, report, List.append_assoc]

theorem startUpStrict_full {args : List Str} {os : List Opt} {n d : Str} (h : Spelled args os) (hn : imageFile os = some n)
    (hd : lastDump os = some d) (p : Prog) : startUpStrict args p = finish (memStagesS (aliases os) (withMemory (chosen os p))) := by
  unfold startUpStrict
  rw [initS_eq]
  unfold initBodyS
  rw [M.bind_ok (show clear p = .ok () (cleared p) from rfl), pass_complete h, M.bind_ok (first_pass os (cleared p)), pass_complete h, second_pass]
  show finish ((throwIfRequiredArgumentNotSpecified >>= fun _ => (do initMemory; loadImageFileS; loadDumpFileS; addAliases (aliases os))) (chosen os p)) = _
  rw [M.bind_ok (required_ok (p := chosen os p) (by rw [chosen_image]; exact hn) (by rw [chosen_dump]; exact hd)),
    M.bind_ok (show initMemory (chosen os p) = .ok () (withMemory (chosen os p)) from rfl)]
  rfl

theorem strict_start {args : List Str} {os : List Opt} {p : Prog} {n d bytes text : Str} (h : Spelled args os) (hn : imageFile os = some n)
    (hd : lastDump os = some d) (hf : OnDisk p.host n bytes) (ht : OnDisk p.host d text) (hi : ImageAligned os bytes)
    (hm : NoPartialOverlap (WordAt os bytes text)) : startUpStrict args p = startUp args p := by
  rw [startUpStrict_full h hn hd, startUp_full h hn hd]
  congr 1
  have hst : Stage (WordAt os bytes text) p.host.files.opens (some d) (((lastBin os).map fun x => Libc.strtoul32 x.2).getD 0) (withMemory (chosen os p)) :=
    ⟨rfl, (by intro r hr; cases hr), (by rw [← hd, ← chosen_dump os p]; rfl), rfl, chosen_base os p⟩
  have hel : (withMemory (chosen os p)).elf = lastElf os := chosen_elf os p
  obtain ⟨h1, h2⟩ := image_stage hm hst (by
    intro n' he k f hk
    rw [hel] at he
    have hn' : n' = n := by
      unfold imageFile at hn
      rw [he] at hn
      exact Option.some.inj hn
    subst hn'
    rw [hf k] at hk
    cases hk
    unfold ImageAligned at hi
    rw [he] at hi
    rw [show (File.of bytes).bytes.take (File.of bytes).tell.toNat = bytes by simp [File.of]]
    refine ⟨hi.1, fun h hh hl => ⟨hi.2 h hh hl, fun j hj => .inl ⟨(BitVec.ofNat 32 h.paddr, h.filesz), ?_, j, hj, rfl⟩⟩⟩
    unfold imagePlaces
    rw [he]
    exact List.mem_map.2 ⟨h, List.mem_filter.2 ⟨hh, hl⟩, rfl⟩) (by
    intro he n' hb k f hk j hj
    rw [hel] at he
    have hn' : (lastBin os).map Prod.fst = some n := by
      unfold imageFile at hn
      rw [he] at hn
      exact hn
    cases hb' : lastBin os with
    | none => simp [hb'] at hn'
    | some x =>
      have hx : n' = x.1 := by
        have : (withMemory (chosen os p)).bin = (lastBin os).map Prod.fst := chosen_bin os p
        rw [this, hb'] at hb
        exact (Option.some.inj hb).symm
      rw [hb'] at hn'
      have : n' = n := hx.trans (Option.some.inj hn')
      subst this
      rw [hf k] at hk
      cases hk
      refine .inl ⟨(Libc.strtoul32 x.2, bytes.length), ?_, j, ?_, rfl⟩
      · unfold imagePlaces
        rw [he, hb']
        exact List.mem_singleton.2 rfl
      · have : (BitVec.ofInt 32 (File.of bytes).tell).toNat = bytes.length % 2 ^ 32 := by
          show (BitVec.ofInt 32 (bytes.length : Int)).toNat = _
          rw [BitVec.ofInt_natCast, BitVec.toNat_ofNat]
        rw [this] at hj
        show 4 * j + 4 ≤ bytes.length
        have := Nat.mod_le bytes.length (2 ^ 32)
        omega)
  unfold memStagesS memStages
  rw [M.bind_apply, M.bind_apply, h1]
  cases e : loadImageFile (withMemory (chosen os p)) with
  | throw x q => rfl
  | ub r => rfl
  | ok u q =>
    rw [e] at h2
    simp only [M.bind_apply]
    rw [dump_stage hm h2 ht fun hl ms hms l hmem j hj => .inr ⟨hl, ms, hms, l, hmem, j, hj, rfl⟩]

end Verif.CommandLine
