import Verif.Lemmas.DumpInv
import Verif.Props.Demo
/-
C26-C35: reading CrashCatcher dump files.
-/
namespace Verif.Props
open Verif MemSim Spec Dump

/-! ### A concrete dump -/

/-- A small dump with two memory blocks. -/
def dumpExample (v2 : Bool) (fp : Bool) : DumpFile :=
  { v2 := v2, flags := if fp then 3 else 2,
    regs := (List.range (if v2 then 17 else 19)).map fun i => BitVec.ofNat 32 (0x100 + i),
    psr := 0x01000003,
    fpr := if fp then (List.range 33).map fun i => BitVec.ofNat 32 (0x200 + i) else [],
    mem := [(0x30000000, [1, 2, 3, 4, 5]), (0x30000010, [6, 7])] }

/-- The host with this file, and the simulator `demo`. -/
def hostWith (bytes : Str) : Host := { mem := demo, files := { opens := fun _ _ => some (File.of bytes) } }

theorem hostWith_next (bytes name : Str) : NextFile (hostWith bytes) name bytes := ⟨_, rfl, rfl⟩

theorem hostWith_ready (bytes : Str) : Ready (hostWith bytes) :=
  ⟨demo_sound, fun _ => rfl, ⟨rfl, rfl⟩, by simp [hostWith]; decide⟩

theorem dumpExample_wf (v2 fp : Bool) : (dumpExample v2 fp).WF := by
  cases v2 <;> cases fp <;> exact ⟨by decide, by decide, by decide⟩

theorem byteIn_range {r : U32 × List U8} {a : U32} (h : (byteIn r a).isSome) :
    r.1.toNat ≤ a.toNat ∧ a.toNat < r.1.toNat + r.2.length := byteIn_iff.1 h

/-- Blocks that start at or after the end of every region are free. -/
theorem free_above {s : Sim} {mem : List (U32 × List U8)} (top : Nat)
    (hs : ∀ r ∈ s.regions, r.baseAddress.toNat + r.size.toNat ≤ top)
    (hm : ∀ r ∈ mem, top ≤ r.1.toNat ∧ r.1.toNat + r.2.length ≤ 2 ^ 32) : Free s mem := by
  intro r hr
  refine ⟨(hm r hr).2, ?_⟩
  rintro a ha ⟨q, hq, h1, h2⟩
  have := (byteIn_range ha).1
  have := hs q hq
  have := (hm r hr).1
  omega

theorem dumpExample_free (v2 fp : Bool) (bytes : Str) : Free (hostWith bytes).mem (dumpExample v2 fp).mem :=
  free_above 0x30000000 (by show ∀ r ∈ demo.regions, _; decide) (by simp [dumpExample])

theorem dumpExample_disjoint (v2 fp : Bool) : Spec.Disjoint (dumpExample v2 fp).mem := by
  unfold Spec.Disjoint dumpExample
  simp only [List.pairwise_cons, List.mem_singleton, forall_eq, List.not_mem_nil, false_implies, implies_true,
    List.Pairwise.nil, and_true]
  intro a
  by_cases h : (byteIn ((0x30000000 : U32), [1, 2, 3, 4, 5]) a).isSome
  · right
    have h1 := byteIn_range h
    cases hb : byteIn ((0x30000010 : U32), [6, 7]) a with
    | none => rfl
    | some b =>
      have h2 := byteIn_range (r := ((0x30000010 : U32), [6, 7])) (a := a) (by rw [hb]; rfl)
      simp at h1 h2; omega
  · left; simpa using h

/-! ### C26 -/

/-- C26. Loading a version 3 dump returns normally, with exactly its flags, registers, exception PSR and (if it has
them) floating point registers; every access within one of its memory blocks yields the dumped bytes; the regions that
existed are as before and one region per block was added behind them. -/
theorem C26_version3_loads {h : Host} {name : Str} {d : DumpFile} (hr : Ready h) (hn : NextFile h name (encode d))
    (hwf : d.WF) (hv : d.v2 = false) (hf : Free h.mem d.mem) (hd : Spec.Disjoint d.mem) :
    ∃ h', readBinary name h = .ok () h' ∧
      h'.ctx.flags = d.flags ∧ h'.ctx.r = d.regs ∧ h'.ctx.psr = d.psr ∧
      (hasFloat d.flags = true → h'.ctx.fpr = d.fpr) ∧
      HoldsBlocks h'.mem d.mem ∧ AddsBlocks h.mem h'.mem d.mem := by
  obtain ⟨h', h1, h2, h3⟩ := dump_loads hr hn hwf hf
  refine ⟨h', h1, ?_, ?_, ?_, ?_, holds_blocks h3.split hd hf hwf.mem, adds_blocks h3.split hwf.mem⟩
  · rw [h2]; rfl
  · rw [h2]; simp [loadedRegs, hv]
  · rw [h2]; rfl
  · intro hfl; rw [h2]; simp [loadedRegs, hfl]

example : ∃ h name, Ready h ∧ NextFile h name (encode (dumpExample false true)) ∧ (dumpExample false true).WF ∧
    (dumpExample false true).v2 = false ∧ Free h.mem (dumpExample false true).mem ∧ Spec.Disjoint (dumpExample false true).mem :=
  ⟨hostWith _, asc "x.dmp", hostWith_ready _, hostWith_next _ _, dumpExample_wf _ _, rfl, dumpExample_free _ _ _,
    dumpExample_disjoint _ _⟩

/-! ### C27 -/

/-- C27. Loading a version 2 dump: 17 registers, then the placeholders for MSP and PSP. -/
theorem C27_version2_loads {h : Host} {name : Str} {d : DumpFile} (hr : Ready h) (hn : NextFile h name (encode d))
    (hwf : d.WF) (hv : d.v2 = true) (hf : Free h.mem d.mem) (hd : Spec.Disjoint d.mem) :
    ∃ h', readBinary name h = .ok () h' ∧
      h'.ctx.flags = d.flags ∧ h'.ctx.r = d.regs ++ [0xBAADBAAD, 0xBAADBAAD] ∧ h'.ctx.psr = d.psr ∧
      (hasFloat d.flags = true → h'.ctx.fpr = d.fpr) ∧
      HoldsBlocks h'.mem d.mem ∧ AddsBlocks h.mem h'.mem d.mem := by
  obtain ⟨h', h1, h2, h3⟩ := dump_loads hr hn hwf hf
  refine ⟨h', h1, ?_, ?_, ?_, ?_, holds_blocks h3.split hd hf hwf.mem, adds_blocks h3.split hwf.mem⟩
  · rw [h2]; rfl
  · rw [h2]; simp [loadedRegs, hv]
  · rw [h2]; rfl
  · intro hfl; rw [h2]; simp [loadedRegs, hfl]

example : ∃ h name, Ready h ∧ NextFile h name (encode (dumpExample true false)) ∧ (dumpExample true false).WF ∧
    (dumpExample true false).v2 = true ∧ Free h.mem (dumpExample true false).mem ∧ Spec.Disjoint (dumpExample true false).mem :=
  ⟨hostWith _, asc "x.dmp", hostWith_ready _, hostWith_next _ _, dumpExample_wf _ _, rfl, dumpExample_free _ _ _,
    dumpExample_disjoint _ _⟩

/-! ### C28 -/

/-- C28. After loading, the floating point registers are the file's 33 words if the flag is set, and what they were
before otherwise; in both cases the memory blocks follow directly. -/
theorem C28_float_iff_flag {h : Host} {name : Str} {d : DumpFile} (hr : Ready h) (hn : NextFile h name (encode d))
    (hwf : d.WF) (hf : Free h.mem d.mem) :
    ∃ h', readBinary name h = .ok () h' ∧ AddsBlocks h.mem h'.mem d.mem ∧
      h'.ctx.fpr = (if d.flags.getLsbD 0 then d.fpr else h.ctx.fpr) ∧ (d.flags.getLsbD 0 = true → h'.ctx.fpr.length = 33) := by
  obtain ⟨h', h1, h2, h3⟩ := dump_loads hr hn hwf hf
  refine ⟨h', h1, adds_blocks h3.split hwf.mem, ?_, ?_⟩
  · rw [h2]; rfl
  · intro hb
    have hl := hwf.fpr
    have hb' : hasFloat d.flags = true := hb
    rw [h2]
    simp only [loadedRegs, hb', if_true] at hl ⊢
    exact hl

example : ∃ h name, Ready h ∧ NextFile h name (encode (dumpExample false false)) ∧ (dumpExample false false).WF ∧
    Free h.mem (dumpExample false false).mem :=
  ⟨hostWith _, asc "x.dmp", hostWith_ready _, hostWith_next _ _, dumpExample_wf _ _, dumpExample_free _ _ _⟩

/-- C28, for any file in either format and any outcome: floating point registers are not touched if the flag is not set. -/
theorem C28_no_flag_no_change {h h' : Host} {name : Str} (hs : Sound h.mem) (hu : Unwatched h.mem)
    (he : Ends (readBinary name h) h' ∨ Ends (readHex name h) h') (hfl : h'.ctx.flags.getLsbD 0 = false) :
    h'.ctx.fpr = h.ctx.fpr := by
  have key : ∀ rd, Consumes rd → Ends (readFile rd name h) h' → h'.ctx.fpr = h.ctx.fpr := fun rd hrd he =>
    ((file_sat hrd (name := name) hs hu).mono (fun _ _ h => h) (fun _ _ h => h.1)).ends he |>.2.2 hfl
  rcases he with he | he
  · exact key _ binary_consumes he
  · exact key _ hex_consumes he

/-- The simulator after marking the flash read-only, with nothing watched. -/
def quiet : Sim := { demo with regions := demo.regions.map fun r => { r with watch := [], watchAlloc := 0 }, hits := 0 }

theorem quiet_sound : Sound quiet := by decide
theorem quiet_unwatched : Unwatched quiet := by decide

example : ∃ (h h' : Host) (name : Str), Sound h.mem ∧ Unwatched h.mem ∧ Ends (readBinary name h) h' ∧
    h'.ctx.flags.getLsbD 0 = false :=
  ⟨{ hostWith [1, 2, 3] with mem := quiet }, _, asc "x.dmp", quiet_sound, quiet_unwatched, .inr ⟨_, rfl⟩, rfl⟩

/-! ### C29 -/

/-- C29. A file that does not start with one of the two signatures is refused and nothing changes. -/
theorem C29_bad_signature {h : Host} {name bytes : Str} (hn : NextFile h name bytes)
    (h3 : bytes.take 4 ≠ [0x63, 0x43, 3, 0]) (h2 : bytes.take 4 ≠ [0x63, 0x43, 2, 0]) :
    ∃ msg h', readBinary name h = .throw ⟨.fileFormat, msg⟩ h' ∧ h'.mem = h.mem ∧ h'.ctx = h.ctx ∧
      h'.files.live = h.files.live := by
  unfold readBinary
  rw [readFile_eq hn]
  have : ∃ msg, readDump binaryRead (start h bytes) = .throw ⟨.fileFormat, msg⟩ { start h bytes with rest := bytes.drop 4 } := by
    have hv : ∃ msg, validateDumpSignature binaryRead (start h bytes) =
        .throw ⟨.fileFormat, msg⟩ { start h bytes with rest := bytes.drop 4 } := by
      simp only [validateDumpSignature, M.bind_apply, readBytes, readInto, binaryRead, start]
      by_cases hl : (bytes.take 4).length ≠ 4
      · simp only [if_pos hl]; exact ⟨_, rfl⟩
      · simp only [if_neg hl]
        have h3' : ¬ bytes.take 4 = [SIGNATURE_BYTE0, SIGNATURE_BYTE1, VERSION_MAJOR, VERSION_MINOR] := h3
        have h2' : ¬ bytes.take 4 = [SIGNATURE_BYTE0, SIGNATURE_BYTE1, 2, 0] := h2
        simp only [if_neg h3', if_neg h2']; exact ⟨_, rfl⟩
    obtain ⟨msg, e⟩ := hv
    exact ⟨msg, M.bind_throw e⟩
  obtain ⟨msg, e⟩ := this
  rw [e]
  exact ⟨msg, _, rfl, rfl, rfl, by simp [closed, start, opened]⟩

example : ∃ h name bytes, NextFile h name bytes ∧ bytes.take 4 ≠ [0x63, 0x43, 3, 0] ∧ bytes.take 4 ≠ [0x63, 0x43, 2, 0] :=
  ⟨hostWith [0x63, 0x43, 4, 0, 1, 2], asc "x.dmp", _, hostWith_next _ _, by decide, by decide⟩

/-! ### C30 -/

/-- The cut leaves exactly four bytes of a block header, and these are the stack overflow sentinel. -/
def LooksLikeSentinel (d : DumpFile) (n : Nat) : Prop :=
  ∃ k r, d.mem[k]? = some r ∧ r.1 = 0xACCE55ED ∧ n = (encode { d with mem := d.mem.take k }).length + 4

/-- C30. A dump cut off at byte `n` is refused, unless the cut is between two blocks. (If the four bytes before the cut
are a start address equal to CrashCatcher's stack overflow sentinel, the complaint is about the stack instead.) -/
theorem C30_truncated {h : Host} {name : Str} {d : DumpFile} {n : Nat} (hr : Ready h) (hn : NextFile h name ((encode d).take n))
    (hwf : d.WF) (hf : Free h.mem d.mem) (hlt : n < (encode d).length)
    (hb : ∀ k, n ≠ (encode { d with mem := d.mem.take k }).length) :
    ∃ msg h', (readBinary name h = .throw ⟨.fileFormat, msg⟩ h' ∧ ¬ LooksLikeSentinel d n) ∨
      (readBinary name h = .throw ⟨.stackOverflow, msg⟩ h' ∧ LooksLikeSentinel d n) := by
  unfold readBinary
  rw [readFile_eq hn]
  have hlen : (encode d).length = (encodeHead d).length + (d.mem.flatMap encodeBlock).length := by
    unfold encode; rw [List.length_append]
  by_cases h1 : n < (encodeHead d).length
  · have e : (encode d).take n = (encodeHead d).take n := by
      unfold encode; rw [List.take_append_of_le_length (by omega)]
    rw [e]
    obtain ⟨m, d', hd⟩ := head_cut (d := start h ((encodeHead d).take n)) hwf hr.regs rfl h1 rfl
    rw [hd]
    refine ⟨m, _, .inl ⟨rfl, ?_⟩⟩
    rintro ⟨k, r, -, -, hk⟩
    have : (encodeHead d).length ≤ (encode { d with mem := d.mem.take k }).length := by
      unfold encode; rw [List.length_append]; exact Nat.le_add_right _ _
    omega
  · obtain ⟨k, r, j, hk, hj, hm, htake⟩ := cut_blocks (mem := d.mem) (m := n - (encodeHead d).length) (by omega)
    have hlk : ∀ k, (encode { d with mem := d.mem.take k }).length =
        (encodeHead d).length + ((d.mem.take k).flatMap encodeBlock).length := by
      intro k; unfold encode; rw [List.length_append]; rfl
    have hj0 : 0 < j := by
      have := hb k
      rw [hlk] at this
      omega
    have e : (encode d).take n = encode { d with mem := d.mem.take k } ++ (encodeBlock r).take j := by
      unfold encode
      rw [List.take_append, List.take_of_length_le (by omega), htake, ← List.append_assoc]
      rfl
    have hsub : ∀ r ∈ d.mem.take k, r ∈ d.mem := fun r hr => List.mem_of_mem_take hr
    have hwf' : DumpFile.WF { d with mem := d.mem.take k } := ⟨hwf.regs, hwf.fpr, fun r hr => hwf.mem r (hsub r hr)⟩
    have hf' : Free h.mem (d.mem.take k) := fun r hr => hf r (hsub r hr)
    obtain ⟨f, d1, hfu, hd1, hrest, hctx, hload⟩ := dump_at (t := (encodeBlock r).take j) hr hwf' hf'
    rw [e, hd1]
    have hrm := List.mem_of_getElem? hk
    have hl1 : d1.rest.length = j := by rw [hrest, List.length_take]; omega
    have hsent : LooksLikeSentinel d n ↔ (j = 4 ∧ r.1 = 0xACCE55ED) := by
      constructor
      · rintro ⟨k', r', hk', hr', hn'⟩
        rw [hlk] at hn'
        rcases Nat.lt_trichotomy k' k with hlt | heq | hgt
        · -- an earlier block: it is at least 8 bytes long
          exfalso
          have hk'' : k' < (d.mem.take k).length := by
            have := (List.getElem?_eq_some_iff.1 hk).1
            rw [List.length_take]; omega
          have : ((d.mem.take k).flatMap encodeBlock).length ≥ ((d.mem.take k').flatMap encodeBlock).length + 8 := by
            have e2 : d.mem.take k = d.mem.take k' ++ (d.mem.take k).drop k' := by
              have := List.take_append_drop k' (d.mem.take k)
              rw [List.take_take, Nat.min_eq_left (by omega)] at this
              exact this.symm
            rw [e2, List.flatMap_append, List.length_append]
            have : 8 ≤ (((d.mem.take k).drop k').flatMap encodeBlock).length := by
              rw [List.drop_eq_getElem_cons hk'']
              simp only [List.flatMap_cons, List.length_append, encodeBlock, le32_length]
              omega
            omega
          omega
        · subst heq
          rw [hk] at hk'
          cases hk'
          exact ⟨by omega, hr'⟩
        · exfalso
          have hk'' : k < (d.mem.take k').length := by
            have := (List.getElem?_eq_some_iff.1 hk).1
            rw [List.length_take]; omega
          have e2 : d.mem.take k' = d.mem.take k ++ (d.mem.take k').drop k := by
            have := List.take_append_drop k (d.mem.take k')
            rw [List.take_take, Nat.min_eq_left (by omega)] at this
            exact this.symm
          have e3 : (d.mem.take k')[k]? = some r := by rw [List.getElem?_take]; rw [if_pos hgt]; exact hk
          have : (encodeBlock r).length ≤ (((d.mem.take k').drop k).flatMap encodeBlock).length := by
            rw [List.drop_eq_getElem_cons hk'']
            rw [List.getElem?_eq_getElem hk''] at e3
            rw [Option.some.inj e3]
            simp only [List.flatMap_cons, List.length_append]
            omega
          have : ((d.mem.take k').flatMap encodeBlock).length = ((d.mem.take k).flatMap encodeBlock).length +
              (((d.mem.take k').drop k).flatMap encodeBlock).length := by
            have := congrArg (fun l => (l.flatMap encodeBlock).length) e2
            simp only [List.flatMap_append] at this
            rw [this, List.length_append]
          omega
      · rintro ⟨rfl, hr'⟩
        exact ⟨k, r, hk, hr', by rw [hlk]; omega⟩
    by_cases h8 : j < 8
    · obtain ⟨m, e1⟩ := regions_short (d := d1) (f := f) (by omega) (by omega)
      rw [e1]
      by_cases hs : d1.rest.length = 4 ∧ BitVec.ofNat 32 (leVal d1.rest) = STACK_SENTINEL
      · rw [if_pos hs]
        refine ⟨m, _, .inr ⟨rfl, hsent.2 ⟨by omega, ?_⟩⟩⟩
        have e4 : d1.rest = le32 r.1 := by
          rw [hrest, show j = 4 by omega]
          unfold encodeBlock
          rw [List.append_assoc, List.take_left' (by simp)]
        rw [e4, leVal_le32] at hs
        exact hs.2
      · rw [if_neg hs]
        refine ⟨m, _, .inl ⟨rfl, fun hx => hs ?_⟩⟩
        obtain ⟨rfl, hr'⟩ := hsent.1 hx
        have e4 : d1.rest = le32 r.1 := by
          rw [hrest]
          unfold encodeBlock
          rw [List.append_assoc, List.take_left' (by simp)]
        refine ⟨hl1, ?_⟩
        rw [e4, leVal_le32]; exact hr'
    · have hbs : (encodeBlock r).take j = le32 r.1 ++ le32 (r.1 + BitVec.ofNat 32 r.2.length) ++ r.2.take (j - 8) := by
        unfold encodeBlock
        rw [List.take_append, List.take_of_length_le (by simp; omega)]
        simp
      have hblen : (encodeBlock r).length = 8 + r.2.length := by
        simp [encodeBlock]; omega
      have hheap : PlentyOfMemory d1.host.mem := by
        exact hload.heap hr.heap
      obtain ⟨m, d', e1⟩ := regions_cut (d := d1) (f := f) (bs := r.2.take (j - 8)) hload.split hheap (hwf.mem r hrm) (hf r hrm).1
        (fun x hx q hq hc => (hf r hrm).2 x hx ⟨q, hq, hc⟩)
        ⟨r.2.drop (j - 8), (List.take_append_drop _ _).symm, by
          intro hx
          have := congrArg List.length hx
          rw [List.length_drop] at this
          simp at this
          omega⟩ (by rw [hrest, hbs])
      rw [e1]
      refine ⟨m, _, .inl ⟨rfl, fun hx => ?_⟩⟩
      have := (hsent.1 hx).1
      omega

example : ∃ h name n, Ready h ∧ NextFile h name ((encode (dumpExample false false)).take n) ∧ (dumpExample false false).WF ∧
    Free h.mem (dumpExample false false).mem ∧ n < (encode (dumpExample false false)).length ∧
    ∀ k, n ≠ (encode { dumpExample false false with mem := (dumpExample false false).mem.take k }).length := by
  refine ⟨hostWith _, asc "x.dmp", 93, hostWith_ready _, hostWith_next _ _, dumpExample_wf _ _, dumpExample_free _ _ _,
    by decide, ?_⟩
  intro k
  match k with
  | 0 => decide
  | 1 => decide
  | k + 2 =>
    have : (dumpExample false false).mem.take (k + 2) = (dumpExample false false).mem :=
      List.take_of_length_le (by simp [dumpExample])
    rw [this]; decide

/-- C30, cuts between blocks: exactly the blocks before the cut are loaded. -/
theorem C30_cut_between_blocks {h : Host} {name : Str} {d : DumpFile} {n k : Nat} (hr : Ready h)
    (hn : NextFile h name ((encode d).take n)) (hwf : d.WF) (hf : Free h.mem d.mem)
    (hk : n = (encode { d with mem := d.mem.take k }).length) :
    ∃ h', readBinary name h = .ok () h' ∧ h'.ctx = loadedRegs d h.ctx ∧ AddsBlocks h.mem h'.mem (d.mem.take k) ∧
      ∀ a b, lastByte (d.mem.take k) a = some b → ∃ s', IMemory.read .w8 a h'.mem = .ok b s' := by
  have e : (encode d).take n = encode { d with mem := d.mem.take k } := by
    have e1 : encode d = encode { d with mem := d.mem.take k } ++ (d.mem.drop k).flatMap encodeBlock := by
      unfold encode
      rw [List.append_assoc, ← List.flatMap_append, List.take_append_drop]
      rfl
    rw [e1, hk, List.take_left' rfl]
  rw [e] at hn
  have hsub : ∀ r ∈ d.mem.take k, r ∈ d.mem := fun r hr => List.mem_of_mem_take hr
  have hwf' : DumpFile.WF { d with mem := d.mem.take k } := ⟨hwf.regs, hwf.fpr, fun r hr => hwf.mem r (hsub r hr)⟩
  have hf' : Free h.mem (d.mem.take k) := fun r hr => hf r (hsub r hr)
  obtain ⟨h', h1, h2, h3⟩ := dump_loads hr hn hwf' hf'
  exact ⟨h', h1, h2, adds_blocks h3.split hwf'.mem, fun a b hb => last_byte h3 hf' hwf'.mem hb⟩

example : ∃ h name, Ready h ∧ NextFile h name ((encode (dumpExample false false)).take 101) ∧
    101 = (encode { dumpExample false false with mem := (dumpExample false false).mem.take 1 }).length :=
  ⟨hostWith _, asc "x.dmp", hostWith_ready _, hostWith_next _ _, by decide⟩

/-- C30, seen from the other side: a file that is accepted is a complete dump. -/
theorem C30_accepted_is_complete {h h' : Host} {name bytes : Str} (hn : NextFile h name bytes)
    (hok : readBinary name h = .ok () h') : ∃ d : DumpFile, d.WF ∧ bytes = encode d := by
  unfold readBinary at hok
  rw [readFile_eq hn] at hok
  cases hd : readDump binaryRead (start h bytes) with
  | ok _ d1 => exact dump_inv (d := start h bytes) rfl hd
  | throw e d1 => rw [hd] at hok; cases hok
  | ub r => rw [hd] at hok; cases hok

example : ∃ h h' name bytes, NextFile h name bytes ∧ readBinary name h = .ok () h' := by
  obtain ⟨h', h1, -⟩ := C26_version3_loads (name := asc "x.dmp") (hostWith_ready _) (hostWith_next (encode (dumpExample false true)) _)
    (dumpExample_wf false true) rfl (dumpExample_free _ _ _) (dumpExample_disjoint _ _)
  exact ⟨_, h', _, _, hostWith_next _ _, h1⟩

/-! ### C31 -/

/-- C31. A dump that ends with the stack overflow sentinel: the exception is raised after everything was loaded. -/
theorem C31_stack_overflow {h : Host} {name : Str} {d : DumpFile} (hr : Ready h)
    (hn : NextFile h name (encode d ++ le32 0xACCE55ED)) (hwf : d.WF) (hf : Free h.mem d.mem) :
    ∃ msg h', readBinary name h = .throw ⟨.stackOverflow, msg⟩ h' ∧ h'.ctx = loadedRegs d h.ctx ∧
      AddsBlocks h.mem h'.mem d.mem ∧ ∀ a b, lastByte d.mem a = some b → ∃ s', IMemory.read .w8 a h'.mem = .ok b s' := by
  obtain ⟨f, d1, hfu, hd1, hrest, hctx, hload⟩ := dump_at (t := le32 0xACCE55ED) hr hwf hf
  obtain ⟨m, e1⟩ := regions_short (d := d1) (f := f) (by rw [hrest]; simp) (by rw [hrest]; simp)
  unfold readBinary
  rw [readFile_eq hn, hd1, e1, if_pos ⟨by rw [hrest]; rfl, by rw [hrest, leVal_le32]; rfl⟩]
  refine ⟨m, _, rfl, hctx, adds_blocks (s := (closed d1.host).mem) hload.split hwf.mem, fun a b hb => ?_⟩
  exact last_byte hload hf hwf.mem hb

example : ∃ h name, Ready h ∧ NextFile h name (encode (dumpExample false true) ++ le32 0xACCE55ED) :=
  ⟨hostWith _, asc "x.dmp", hostWith_ready _, hostWith_next _ _⟩

/-- C31. Any other four bytes at the end are a truncated block. -/
theorem C31_other_words {h : Host} {name : Str} {d : DumpFile} {t : Str} (hr : Ready h)
    (hn : NextFile h name (encode d ++ t)) (hwf : d.WF) (hf : Free h.mem d.mem) (hl : t.length = 4) (ht : t ≠ le32 0xACCE55ED) :
    ∃ msg h', readBinary name h = .throw ⟨.fileFormat, msg⟩ h' := by
  obtain ⟨f, d1, hfu, hd1, hrest, hctx, hload⟩ := dump_at (t := t) hr hwf hf
  obtain ⟨m, e1⟩ := regions_short (d := d1) (f := f) (by rw [hrest]; omega) (by rw [hrest]; omega)
  unfold readBinary
  rw [readFile_eq hn, hd1, e1, if_neg]
  · exact ⟨m, _, rfl⟩
  · rintro ⟨-, hs⟩
    rw [hrest] at hs
    apply ht
    rw [← le32_leVal hl, hs]
    rfl

example : ∃ h name t, Ready h ∧ NextFile h name (encode (dumpExample false true) ++ t) ∧ t.length = 4 ∧ t ≠ le32 0xACCE55ED :=
  ⟨hostWith _, asc "x.dmp", [0xAC, 0xCE, 0x55, 0xED], hostWith_ready _, hostWith_next _ _, rfl, by decide⟩

/-! ### C32 -/

/-- Readers that agree on related files lead to the same outcome. -/
theorem readFile_rel {T : Str → Str → Prop} (hR : RelR T False hexRead binaryRead) {h : Host} {hexName binName text bytes : Str}
    (hh : NextFile h hexName text) (hb : NextFile h binName bytes) (ht : T text bytes) : readHex hexName h = readBinary binName h := by
  unfold readHex readBinary
  rw [readFile_eq hh, readFile_eq hb]
  have := rel_dump hR hex_consumes binary_consumes (d1 := start h text) (d2 := start h bytes) ⟨rfl, rfl, ht⟩
  cases e1 : readDump hexRead (start h text) with
  | ok a d1 =>
    cases e2 : readDump binaryRead (start h bytes) with
    | ok b d2 => rw [e1, e2] at this; simp [this.2.1]
    | throw e d => rw [e1, e2] at this; exact this.elim
    | ub r => rw [e1, e2] at this; exact this.elim
  | throw e d1 =>
    cases e2 : readDump binaryRead (start h bytes) with
    | ok b d2 => rw [e1, e2] at this; exact this.1.elim
    | throw e' d =>
      rw [e1, e2] at this
      rcases this with ⟨h1, h2⟩ | h
      · simp [h1, h2]
      · exact h.1.elim
    | ub r => rw [e1, e2] at this; exact this.1.elim
  | ub r =>
    cases e2 : readDump binaryRead (start h bytes) with
    | ok b d2 => rw [e1, e2] at this; exact this.elim
    | throw e' d => rw [e1, e2] at this; exact this.elim
    | ub r' =>
      rw [e1, e2] at this
      have : r = r' := this
      simp [this]

/-- C32. A hexadecimal file and a binary file with the same bytes lead to the same outcome: the same registers and
memory after normal return, or the same exception and message in the same state. -/
theorem C32_hex_equals_binary {h : Host} {hexName binName text bytes : Str} (hh : NextFile h hexName text)
    (hb : NextFile h binName bytes) (ht : HexText text bytes) : readHex hexName h = readBinary binName h :=
  readFile_rel rel_hex hh hb ht

/-- "6\r\n3" "4a" as text for the bytes 0x63, 0x4A. -/
theorem hexText_example : HexText [0x36, 0x0D, 0x0A, 0x33, 0x0A, 0x34, 0x61, 0x0D] [0x63, 0x4A] :=
  .byte (nl := [0x0D, 0x0A]) (hi := 0x36) (lo := 0x33) (x := 6) (y := 3) (by decide) (by decide) (by decide) (by decide)
    (.newline (by decide)
      (.byte (nl := []) (hi := 0x34) (lo := 0x61) (x := 4) (y := 10) (by decide) (by decide) (by decide) (by decide)
        (.newline (by decide) .nil)))

/-- Files for both formats. -/
def twoFiles (text bytes : Str) : Host :=
  { mem := demo, files := { opens := fun _ n => some (File.of (if n = asc "hex" then text else bytes)) } }

example : ∃ h n1 n2 text bytes, NextFile h n1 text ∧ NextFile h n2 bytes ∧ HexText text bytes :=
  ⟨twoFiles _ _, asc "hex", asc "bin", _, _, ⟨_, rfl, by simp [File.of]; rfl⟩,
    ⟨_, rfl, by simp [File.of]; rw [if_neg (by decide)]⟩, hexText_example⟩

/-! ### C33 -/

/-- A lone character at the end of the text, whatever it is, is not noticed: the outcome is that of the bytes before it.
(Hence "a pair of characters" in C33.) -/
theorem C33_lone_character_ignored {h : Host} {hexName binName text bytes nl : Str} {c : U8}
    (hh : NextFile h hexName (text ++ c :: nl)) (hb : NextFile h binName bytes) (ht : HexText text bytes)
    (hc : isNewline c ≠ true) (hnl : ∀ c ∈ nl, isNewline c = true) : readHex hexName h = readBinary binName h :=
  readFile_rel (rel_lone hc hnl) hh hb (.inl ⟨text, rfl, ht⟩)

example : ∃ h n1 n2 text bytes nl c, NextFile h n1 (text ++ c :: nl) ∧ NextFile h n2 bytes ∧ HexText text bytes ∧
    isNewline c ≠ true ∧ ∀ c ∈ nl, isNewline c = true :=
  ⟨twoFiles ([0x36, 0x0D, 0x0A, 0x33, 0x0A, 0x34, 0x61, 0x0D] ++ 0x3F :: [0x0A]) [0x63, 0x4A], asc "hex", asc "bin", _, _, [0x0A], 0x3F,
    ⟨_, rfl, rfl⟩, ⟨_, rfl, rfl⟩, hexText_example, by decide, by decide⟩

/-! ### C34 -/

/-- C34. Whatever the file contains and whatever allocations fail, reading it has a defined outcome of the expected
kind. -/
theorem C34_defined_outcome {h : Host} {name : Str} (hs : Sound h.mem) (hu : Unwatched h.mem) :
    Defined (readBinary name h) [.file, .fileFormat, .stackOverflow, .outOfMemory, .busError] ∧
    Defined (readHex name h) [.file, .fileFormat, .stackOverflow, .outOfMemory, .busError] :=
  ⟨((file_sat binary_consumes (name := name) hs hu).mono (fun _ _ _ => trivial) (fun _ _ h => h.2)).defined,
   ((file_sat hex_consumes (name := name) hs hu).mono (fun _ _ _ => trivial) (fun _ _ h => h.2)).defined⟩

/-- C34. A file that cannot be opened: the exception says so, and nothing changes. -/
theorem C34_cannot_open {h : Host} {name : Str} (ho : h.files.opens h.files.next name = none) :
    ∃ h', readBinary name h = .throw ⟨.file, (asc "Failed to open the \"" ++ name ++ asc "\" dump file.").take 1023⟩ h' ∧
      readHex name h = .throw ⟨.file, (asc "Failed to open the \"" ++ name ++ asc "\" dump file.").take 1023⟩ h' ∧
      h'.mem = h.mem ∧ h'.ctx = h.ctx ∧ h'.files.live = h.files.live := by
  refine ⟨{ h with files := { h.files with next := h.files.next + 1 } }, ?_, ?_, rfl, rfl, rfl⟩ <;>
    simp [readBinary, readHex, readFile, Host.fopen, ho]

example : ∃ h : Host, h.files.opens h.files.next (asc "x.dmp") = none := ⟨{ mem := demo, files := { opens := fun _ _ => none } }, rfl⟩

/-- C34. Every file that was opened is closed, and the simulator is only changed through its API, by creating regions
and writing bytes: it stays consistent and nothing else about memory changes than these calls can do. -/
theorem C34_files_closed {h h' : Host} {name : Str} (hs : Sound h.mem) (hu : Unwatched h.mem)
    (he : Ends (readBinary name h) h' ∨ Ends (readHex name h) h') :
    h'.files.live = h.files.live ∧ ByCalls createsOrWrites h.mem h'.mem ∧ Sound h'.mem := by
  have key : ∀ rd, Consumes rd → Ends (readFile rd name h) h' →
      h'.files.live = h.files.live ∧ ByCalls createsOrWrites h.mem h'.mem ∧ Sound h'.mem := fun rd hrd he =>
    have hh := ((file_sat hrd (name := name) hs hu).mono (fun _ _ h => h) (fun _ _ h => h.1)).ends he
    ⟨hh.2.1, hh.1.2.2, hh.1.1⟩
  rcases he with he | he
  · exact key _ binary_consumes he
  · exact key _ hex_consumes he

example : ∃ (h h' : Host) (name : Str), Sound h.mem ∧ Unwatched h.mem ∧ Ends (readBinary name h) h' :=
  ⟨{ hostWith (asc "cC\x03\x00rest") with mem := quiet }, _, asc "x.dmp", quiet_sound, quiet_unwatched, .inr ⟨_, rfl⟩⟩

/-! ### C35 -/

/-- C35. With overlapping blocks, a byte read after loading is the one from the last block that contains the address. -/
theorem C35_last_block_wins {h : Host} {name : Str} {d : DumpFile} (hr : Ready h) (hn : NextFile h name (encode d))
    (hwf : d.WF) (hf : Free h.mem d.mem) :
    ∃ h', readBinary name h = .ok () h' ∧
      ∀ a b, lastByte d.mem a = some b → ∃ s', IMemory.read .w8 a h'.mem = .ok b s' := by
  obtain ⟨h', h1, h2, h3⟩ := dump_loads hr hn hwf hf
  exact ⟨h', h1, fun a b hb => last_byte h3 hf hwf.mem hb⟩

/-- Overlapping blocks. -/
def overlapDump : DumpFile :=
  { dumpExample false false with mem := [(0x30000000, [1, 2, 3]), (0x30000001, [7]), (0x30000002, [8, 9])] }

example : ∃ h name, Ready h ∧ NextFile h name (encode overlapDump) ∧ overlapDump.WF ∧ Free h.mem overlapDump.mem ∧
    lastByte overlapDump.mem 0x30000001 = some 7 ∧ lastByte overlapDump.mem 0x30000002 = some 8 :=
  ⟨hostWith _, asc "x.dmp", hostWith_ready _, hostWith_next _ _, ⟨by decide, by decide, by decide⟩,
    free_above 0x30000000 (by show ∀ r ∈ demo.regions, _; decide) (by simp [overlapDump]), by decide, by decide⟩

end Verif.Props
