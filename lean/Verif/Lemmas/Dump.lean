import Verif.Lemmas.DumpMem
import Verif.Model.Dump
/- Evaluating the dump parser on encoded files. -/
namespace Verif.Dump
open Verif MemSim Spec

@[simp] theorem le32_length (w : U32) : (le32 w).length = 4 := rfl

theorem leVal_le32 (w : U32) : BitVec.ofNat 32 (leVal (le32 w)) = w := by
  apply BitVec.eq_of_toNat_eq
  have := w.isLt
  simp only [le32, leVal, byteOf_toNat, BitVec.toNat_ofNat]
  omega

theorem overlayWord_full {w : U32} {bs : Str} (h : bs.length = 4) : overlayWord w bs = BitVec.ofNat 32 (leVal bs) := by
  unfold overlayWord
  rw [h, List.take_of_length_le (by omega), List.drop_of_length_le (by rw [leBytes_length]; omega)]
  simp

theorem overlayWord_nil (w : U32) : overlayWord w [] = w := by
  apply BitVec.eq_of_toNat_eq
  have := w.isLt
  unfold overlayWord
  simp only [List.take_nil, List.nil_append, List.length_nil, List.drop_zero, BitVec.toNat_ofNat]
  rw [leVal_leBytes]
  omega

theorem overlay_nil (ws : List U32) : overlay ws [] = ws := by
  induction ws with
  | nil => rfl
  | cons w ws ih => simp [overlay, overlayWord_nil, ih]

theorem overlay_words {vs ws : List U32} (h : vs.length ≤ ws.length) : overlay ws (vs.flatMap le32) = vs ++ ws.drop vs.length := by
  induction vs generalizing ws with
  | nil => simp [overlay_nil]
  | cons v vs ih =>
    cases ws with
    | nil => simp at h
    | cons w ws =>
      simp only [List.flatMap_cons, overlay, List.length_cons, List.drop_succ_cons, List.cons_append] at h ⊢
      have e1 : overlayWord w (le32 v ++ vs.flatMap le32) = v := by
        unfold overlayWord
        rw [List.take_left' (by simp), List.drop_of_length_le (by rw [leBytes_length]; simp), List.append_nil, leVal_le32]
      have e2 : (le32 v ++ vs.flatMap le32).drop 4 = vs.flatMap le32 := List.drop_left' (by simp)
      rw [e1, e2, ih (by omega)]

theorem flatMap_le32_length (vs : List U32) : (vs.flatMap le32).length = 4 * vs.length := by
  induction vs with
  | nil => rfl
  | cons v vs ih => simp only [List.flatMap_cons, List.length_append, le32_length, ih, List.length_cons]; omega

/-- A read of exactly the bytes that come next. -/
theorem readInto_app {n : Nat} {put : Str → D → D} {d : D} {a t : Str} (h : d.rest = a ++ t) (hn : a.length = n) :
    readInto binaryRead n put d = .ok a (put a { d with rest := t }) := by
  simp [readInto, binaryRead, h, List.take_left' hn, List.drop_left' hn]

/-- A read beyond the end of the file. -/
theorem readInto_short {n : Nat} {put : Str → D → D} {d : D} (h : d.rest.length ≤ n) :
    readInto binaryRead n put d = .ok d.rest (put d.rest { d with rest := [] }) := by
  simp [readInto, binaryRead, List.take_of_length_le h, List.drop_of_length_le h]

theorem validate_v3 {d : D} {t : Str} (h : d.rest = [0x63, 0x43, 3, 0] ++ t) :
    validateDumpSignature binaryRead d = .ok () { d with rest := t } := by
  unfold validateDumpSignature readBytes
  simp only [M.bind_apply]
  rw [readInto_app (n := 4) h rfl]
  rfl

theorem validate_v2 {d : D} {t : Str} (h : d.rest = [0x63, 0x43, 2, 0] ++ t) :
    validateDumpSignature binaryRead d = .ok () { d with rest := t, v2 := true } := by
  unfold validateDumpSignature readBytes
  simp only [M.bind_apply]
  rw [readInto_app (n := 4) h rfl]
  rfl

theorem flags_eq {d : D} {w : U32} {t : Str} (h : d.rest = le32 w ++ t) :
    readFlags binaryRead d = .ok () ({ d with rest := t }.setCtx fun c => { c with flags := w }) := by
  unfold readFlags
  simp only [M.bind_apply]
  rw [readInto_app h (by simp)]
  simp [overlayWord_full (bs := le32 w) (by simp), leVal_le32]

/-- Registers and exception PSR. -/
theorem regs_eq {d : D} {vs : List U32} {w : U32} {t : Str} (hv : vs.length = if d.v2 then 17 else 19)
    (hc : d.host.ctx.r.length = 19) (h : d.rest = vs.flatMap le32 ++ (le32 w ++ t)) :
    readIntegerRegisters binaryRead d = .ok () ({ d with rest := t }.setCtx fun c =>
      { c with r := if d.v2 then vs ++ [0xBAADBAAD, 0xBAADBAAD] else vs, psr := w }) := by
  have hl := flatMap_le32_length vs
  unfold readIntegerRegisters
  cases hd : d.v2 with
  | false =>
    simp only [hd, Bool.false_eq_true, if_false] at hv
    simp only [M.bind_apply, M.get_apply, hd, Bool.false_eq_true, if_false]
    rw [readInto_app h (by omega)]
    simp only []
    have hne : ¬ (vs.flatMap le32).length ≠ 4 * 19 := by omega
    rw [if_neg hne]
    simp only [M.bind_apply]
    rw [readInto_app (a := le32 w) (t := t) rfl (by simp)]
    simp [overlayWord_full (bs := le32 w) (by simp), leVal_le32, D.setCtx, overlay_words (vs := vs) (ws := d.host.ctx.r) (by omega), hd]
    omega
  | true =>
    simp only [hd, if_true] at hv
    simp only [M.bind_apply, M.get_apply, hd, if_true, M.modify_apply]
    rw [readInto_app (d := d.setCtx _) (a := vs.flatMap le32) (t := le32 w ++ t) h (by omega)]
    simp only []
    have hne : ¬ (vs.flatMap le32).length ≠ 4 * 17 := by omega
    rw [if_neg hne]
    simp only [M.bind_apply]
    rw [readInto_app (a := le32 w) (t := t) rfl (by simp)]
    have : List.drop 17 ((d.host.ctx.r.set regMSP DEFAULT_SP_VALUE).set regPSP DEFAULT_SP_VALUE) = [0xBAADBAAD, 0xBAADBAAD] := by
      apply List.ext_getElem?
      intro i
      rw [List.getElem?_drop]
      rcases Nat.lt_or_ge i 2 with hi | hi
      · have : i = 0 ∨ i = 1 := by omega
        rcases this with rfl | rfl <;> simp [regMSP, regPSP, hc, DEFAULT_SP_VALUE]
      · rw [List.getElem?_eq_none (by simp; omega), List.getElem?_eq_none (by simp; omega)]
    simp [overlayWord_full (bs := le32 w) (by simp), leVal_le32, D.setCtx, hv,
      overlay_words (vs := vs) (ws := (d.host.ctx.r.set regMSP DEFAULT_SP_VALUE).set regPSP DEFAULT_SP_VALUE) (by simp; omega),
      this, hd]

theorem hasFloat_iff (w : U32) : (w &&& FLAGS_FLOATING_POINT = 0) ↔ hasFloat w = false := by
  unfold hasFloat FLAGS_FLOATING_POINT
  constructor
  · intro h
    have := congrArg (fun x : U32 => x.getLsbD 0) h
    simpa using this
  · intro h
    apply BitVec.eq_of_getLsbD_eq
    intro i hi
    simp
    intro hb h0
    subst h0
    rw [h] at hb; cases hb

/-- Floating point registers. -/
theorem fpr_eq {d : D} {vs : List U32} {t : Str} (hv : vs.length = if hasFloat d.host.ctx.flags then 33 else 0)
    (hc : d.host.ctx.fpr.length = 33) (h : d.rest = vs.flatMap le32 ++ t) :
    readFloatingPointRegisters binaryRead d = .ok () ({ d with rest := t }.setCtx fun c =>
      { c with fpr := if hasFloat d.host.ctx.flags then vs else c.fpr }) := by
  have hl := flatMap_le32_length vs
  unfold readFloatingPointRegisters
  cases hf : hasFloat d.host.ctx.flags with
  | false =>
    simp only [M.bind_apply, M.get_apply]
    rw [if_pos ((hasFloat_iff _).2 hf)]
    simp only [hf, Bool.false_eq_true, if_false, List.length_eq_zero_iff] at hv
    subst hv
    simp at h
    simp [D.setCtx, ← h]
  | true =>
    simp only [M.bind_apply, M.get_apply]
    rw [if_neg (fun h => by rw [(hasFloat_iff _).1 h] at hf; cases hf)]
    simp only [hf, if_true] at hv
    simp only [M.bind_apply]
    rw [readInto_app h (by omega)]
    simp only []
    have hne : ¬ (vs.flatMap le32).length ≠ 4 * 33 := by omega
    rw [if_neg hne]
    simp [D.setCtx, overlay_words (vs := vs) (ws := d.host.ctx.fpr) (by omega)]
    omega

/-- The simulator and the rest of the file, replaced. -/
def D.put (d : D) (s : Sim) (t : Str) : D := { d with host := { d.host with mem := s }, rest := t }

theorem onMem_ok {m : M Sim α} {d : D} {x : α} {s : Sim} (h : m d.host.mem = .ok x s) :
    onMem m d = .ok x (d.put s d.rest) := by simp [onMem, h, D.put]

theorem onMem_throw {m : M Sim α} {d : D} {e : Exn} {s : Sim} (h : m d.host.mem = .throw e s) :
    onMem m d = .throw e (d.put s d.rest) := by simp [onMem, h, D.put]

/-- The bytes that are there are stored. -/
theorem loadBytes_app {n : Nat} {bs : Str} {a : U32} {t : Str} {d : D} {old news : List Region}
    (hsp : Split d.host.mem old news) (hfit : Fits (a, bs)) (ho : ∀ x, (byteIn (a, bs) x).isSome → ∀ q ∈ old, ¬ Covers q x 1)
    (hc : ∀ x, (byteIn (a, bs) x).isSome → CoveredBy news x) (h : d.rest = bs ++ t) (hn : bs.length ≤ n) :
    loadRegionBytes binaryRead n a d = loadRegionBytes binaryRead (n - bs.length) (a + BitVec.ofNat 32 bs.length)
      (d.put { d.host.mem with regions := old ++ pokes news a bs } t) := by
  induction bs generalizing n a d news with
  | nil =>
    simp at h
    simp [pokes, D.put, ← hsp.regions, ← h]
  | cons b bs ih =>
    cases n with
    | zero => simp at hn
    | succ n =>
      unfold Fits at hfit
      simp only [List.length_cons] at hfit hn
      simp only [loadRegionBytes, M.bind_apply, readBytes]
      rw [readInto_app (n := 1) (a := [b]) (t := bs ++ t) (by simp [h]) rfl]
      simp only [M.bind_apply]
      have hb0 : (byteIn (a, b :: bs) a).isSome := by simp [byteIn]
      have hw := write8_split (b := b) hsp (ho a hb0) (hc a hb0)
      rw [onMem_ok (d := { d with rest := bs ++ t }) hw]
      simp only
      by_cases hb : bs = []
      · subst hb
        simp [pokes, D.put]
      · have : 0 < bs.length := List.length_pos_iff.2 hb
        have e1 : (a + 1).toNat = a.toNat + 1 := by
          simp only [BitVec.toNat_add]; simp; omega
        have mono : ∀ x, (byteIn (a + 1, bs) x).isSome → (byteIn (a, b :: bs) x).isSome := by
          intro x hx
          unfold byteIn at hx ⊢
          simp only [e1] at hx
          split at hx
          · rw [if_pos (by simp only; omega)]
            have : x.toNat - a.toNat = (x.toNat - (a.toNat + 1)) + 1 := by omega
            simp only
            rw [this]
            simpa using hx
          · cases hx
        rw [ih (d := D.put { d with rest := bs ++ t } _ _) (hsp.poke a b) (by unfold Fits; simp only [e1]; omega) (fun x hx => ho x (mono x hx))
          (fun x hx => (coveredBy_shape_iff poke_shape).2 (hc x (mono x hx))) rfl (by omega)]
        have e2 : a + 1 + BitVec.ofNat 32 bs.length = a + BitVec.ofNat 32 (bs.length + 1) := by
          apply BitVec.eq_of_toNat_eq
          simp only [BitVec.toNat_add, BitVec.toNat_ofNat]
          simp
          omega
        have e3 : n + 1 - (b :: bs).length = n - bs.length := by simp
        rw [e3, e2]
        rfl

theorem split_create {s : Sim} {old news : List Region} (h : Split s old news) (b n : U32) :
    Split { bumpHeap s 2 2 with regions := s.regions ++ [newRegion b n] } old (news ++ [newRegion b n]) := by
  refine ⟨by simp [h.regions], h.sound, ?_, h.hits⟩
  intro r hr
  rcases List.mem_append.1 hr with hr | hr
  · exact h.fresh r hr
  · simp at hr; rw [hr]; exact fresh_new _ _

theorem split_pokes {s : Sim} {old news : List Region} (h : Split s old news) (a : U32) (bs : Str) :
    Split { s with regions := old ++ pokes news a bs } old (pokes news a bs) :=
  ⟨rfl, h.sound, pokes_fresh h.fresh, h.hits⟩

theorem leVal_take (a e : U32) : BitVec.ofNat 32 (leVal ((le32 a ++ le32 e).take 4)) = a ∧
    BitVec.ofNat 32 (leVal ((le32 a ++ le32 e).drop 4)) = e := by
  rw [List.take_left' (by simp), List.drop_left' (by simp)]
  exact ⟨leVal_le32 a, leVal_le32 e⟩

theorem sub_len {a : U32} {n : Nat} : a + BitVec.ofNat 32 n - a = BitVec.ofNat 32 n := by
  apply BitVec.eq_of_toNat_eq
  simp only [BitVec.toNat_sub, BitVec.toNat_add, BitVec.toNat_ofNat]
  have := a.isLt
  omega

/-- The simulator after loading one block. -/
def afterBlock (s : Sim) (old news : List Region) (r : U32 × List U8) : Sim :=
  { bumpHeap s 2 2 with regions := old ++ pokes (news ++ [newRegion r.1 (BitVec.ofNat 32 r.2.length)]) r.1 r.2 }

theorem block_eq {d : D} {r : U32 × List U8} {t : Str} {old news : List Region} (hsp : Split d.host.mem old news)
    (hheap : PlentyOfMemory d.host.mem) (hlen : r.2.length < 2 ^ 32) (hfit : Fits r)
    (ho : ∀ x, (byteIn r x).isSome → ∀ q ∈ old, ¬ Covers q x 1) (h : d.rest = encodeBlock r ++ t) :
    readNextMemoryRegion binaryRead d = .ok false (d.put (afterBlock d.host.mem old news r) t) := by
  unfold readNextMemoryRegion readBytes
  simp only [M.bind_apply]
  rw [readInto_app (a := le32 r.1 ++ le32 (r.1 + BitVec.ofNat 32 r.2.length)) (t := r.2 ++ t)
    (by simp [h, encodeBlock]) (by simp)]
  simp only [List.length_append, le32_length]
  rw [if_neg (by simp), if_neg (by simp), if_neg (by simp), (leVal_take _ _).1, (leVal_take _ _).2]
  simp only [M.bind_apply, M.tryCatch_apply, createAndLoadMemoryRegion, sub_len]
  rw [onMem_ok (d := { d with rest := r.2 ++ t }) (createRegion_ok hheap _ _)]
  simp only
  have hl : (BitVec.ofNat 32 r.2.length).toNat = r.2.length := by
    simp only [BitVec.toNat_ofNat]; exact Nat.mod_eq_of_lt hlen
  rw [hl, loadBytes_app (d := D.put { d with rest := r.2 ++ t } _ _) (bs := r.2) (t := t)
    (split_create hsp r.1 (BitVec.ofNat 32 r.2.length)) hfit ho (fun x hx => ⟨_, by simp, covered_new hlen hx⟩) rfl (Nat.le_refl _)]
  simp [loadRegionBytes, D.put, afterBlock]

/-- The simulator after loading blocks. -/
def afterBlocks (s : Sim) (old news : List Region) (mem : List (U32 × List U8)) : Sim :=
  { bumpHeap s (2 * mem.length) (2 * mem.length) with regions := old ++ loadMem news mem }

theorem blocks_eq {mem : List (U32 × List U8)} {d : D} {t : Str} {old news : List Region} {f : Nat}
    (hsp : Split d.host.mem old news) (hheap : PlentyOfMemory d.host.mem)
    (hm : ∀ r ∈ mem, r.2.length < 2 ^ 32 ∧ Fits r ∧ ∀ x, (byteIn r x).isSome → ∀ q ∈ old, ¬ Covers q x 1)
    (h : d.rest = mem.flatMap encodeBlock ++ t) :
    readMemoryRegions binaryRead (mem.length + f) d =
      readMemoryRegions binaryRead f (d.put (afterBlocks d.host.mem old news mem) t) ∧
    Split (afterBlocks d.host.mem old news mem) old (loadMem news mem) := by
  induction mem generalizing d news with
  | nil =>
    simp at h
    have e : afterBlocks d.host.mem old news [] = d.host.mem := by simp [afterBlocks, bumpHeap, loadMem, ← hsp.regions]
    rw [e, ← h]
    exact ⟨by simp [D.put], hsp⟩
  | cons r mem ih =>
    obtain ⟨h1, h2, h3⟩ := hm r (by simp)
    have hb := block_eq (t := mem.flatMap encodeBlock ++ t) hsp hheap h1 h2 h3 (by simp [h])
    have e0 : (r :: mem).length + f = (mem.length + f) + 1 := by simp; omega
    have hsp' : Split (afterBlock d.host.mem old news r) old _ := split_pokes (split_create hsp r.1 (BitVec.ofNat 32 r.2.length)) r.1 r.2
    rw [e0]
    simp only [readMemoryRegions, M.bind_apply, hb, Bool.false_eq_true, if_false]
    have := ih (d := d.put (afterBlock d.host.mem old news r) (mem.flatMap encodeBlock ++ t)) hsp' hheap
      (fun q hq => hm q (by simp [hq])) rfl
    have e1 : afterBlocks (afterBlock d.host.mem old news r) old
        (pokes (news ++ [newRegion r.1 (BitVec.ofNat 32 r.2.length)]) r.1 r.2) mem = afterBlocks d.host.mem old news (r :: mem) := by
      simp [afterBlocks, afterBlock, bumpHeap, loadMem]
      omega
    simp only [D.put] at this ⊢
    rw [e1] at this
    exact this

end Verif.Dump

namespace Verif.Dump
open Verif MemSim Spec

/-- The state before the memory blocks are read. -/
def D.afterHead (d : D) (df : DumpFile) (t : Str) : D :=
  { host := { d.host with ctx := loadedRegs df d.host.ctx }, rest := t, v2 := df.v2 }

theorem head_eq {d : D} {df : DumpFile} {t : Str} (hwf : df.WF) (hc : RegsWF d.host.ctx) (hv : d.v2 = false)
    (h : d.rest = encodeHead df ++ t) :
    readDump binaryRead d = readMemoryRegions binaryRead (t.length + 1) (d.afterHead df t) := by
  have h1 : validateDumpSignature binaryRead d = .ok () { d with
      rest := le32 df.flags ++ (df.regs.flatMap le32 ++ (le32 df.psr ++ (df.fpr.flatMap le32 ++ t))), v2 := df.v2 } := by
    cases hd : df.v2 with
    | false => rw [validate_v3 (by simpa [encodeHead, hd] using h)]; simp [hv]
    | true => rw [validate_v2 (by simpa [encodeHead, hd] using h)]
  unfold readDump
  rw [M.bind_ok h1, M.bind_ok (flags_eq rfl)]
  refine (M.bind_ok (regs_eq (vs := df.regs) (w := df.psr) (t := df.fpr.flatMap le32 ++ t) ?_ ?_ rfl)).trans ?_
  · exact hwf.regs
  · exact hc.1
  refine (M.bind_ok (fpr_eq (vs := df.fpr) (t := t) ?_ ?_ rfl)).trans ?_
  · exact hwf.fpr
  · exact hc.2
  rfl

theorem split_init {s : Sim} (hs : Sound s) (hh : s.hits < 2 ^ 31) : Split s s.regions [] :=
  ⟨by simp, fun _ h => Spec.Sound.congr hs h, by simp, hh⟩

theorem free_old {s : Sim} {mem : List (U32 × List U8)} (hf : Free s mem) (hl : ∀ r ∈ mem, r.2.length < 2 ^ 32) :
    ∀ r ∈ mem, r.2.length < 2 ^ 32 ∧ Fits r ∧ ∀ x, (byteIn r x).isSome → ∀ q ∈ s.regions, ¬ Covers q x 1 :=
  fun r hr => ⟨hl r hr, (hf r hr).1, fun x hx q hq hc => (hf r hr).2 x hx ⟨q, hq, hc⟩⟩

theorem blocks_length (mem : List (U32 × List U8)) : mem.length ≤ (mem.flatMap encodeBlock).length := by
  induction mem with
  | nil => simp
  | cons r mem ih => simp only [List.flatMap_cons, List.length_append, encodeBlock, le32_length, List.length_cons]; omega

/-- Head and blocks, with more text behind them. -/
theorem dump_eq {d : D} {df : DumpFile} {t : Str} (hwf : df.WF) (hc : RegsWF d.host.ctx) (hv : d.v2 = false)
    (hs : Sound d.host.mem) (hh : PlentyOfMemory d.host.mem) (hhits : d.host.mem.hits < 2 ^ 31) (hf : Free d.host.mem df.mem)
    (h : d.rest = encode df ++ t) :
    ∃ f, t.length ≤ f ∧ readDump binaryRead d = readMemoryRegions binaryRead (f + 1)
        ((d.afterHead df t).put (afterBlocks d.host.mem d.host.mem.regions [] df.mem) t) ∧
      Split (afterBlocks d.host.mem d.host.mem.regions [] df.mem) d.host.mem.regions (loadMem [] df.mem) := by
  refine ⟨(df.mem.flatMap encodeBlock).length - df.mem.length + t.length, by omega, ?_⟩
  rw [head_eq (t := df.mem.flatMap encodeBlock ++ t) hwf hc hv (by simpa [encode] using h)]
  have hb := blocks_length df.mem
  have := blocks_eq (mem := df.mem) (d := d.afterHead df (df.mem.flatMap encodeBlock ++ t)) (t := t)
    (f := (df.mem.flatMap encodeBlock).length - df.mem.length + t.length + 1) (split_init hs hhits) hh
    (free_old hf hwf.mem) rfl
  have e : (df.mem.flatMap encodeBlock ++ t).length + 1 =
      df.mem.length + ((df.mem.flatMap encodeBlock).length - df.mem.length + t.length + 1) := by rw [List.length_append]; omega
  rw [e]
  exact this

theorem next_eof {d : D} (h : d.rest = []) : readNextMemoryRegion binaryRead d = .ok true d := by
  unfold readNextMemoryRegion readBytes
  simp only [M.bind_apply]
  rw [readInto_short (by simp [h])]
  simp [h]
  rw [← h]

theorem regions_eof {d : D} {f : Nat} (h : d.rest = []) : readMemoryRegions binaryRead (f + 1) d = .ok () d := by
  simp [readMemoryRegions, next_eof h]

/-- A few bytes that are no block. -/
theorem regions_short {d : D} {f : Nat} (h0 : 0 < d.rest.length) (h8 : d.rest.length < 8) :
    ∃ m, readMemoryRegions binaryRead (f + 1) d =
      .throw ⟨if d.rest.length = 4 ∧ BitVec.ofNat 32 (leVal d.rest) = STACK_SENTINEL then .stackOverflow else .fileFormat, m⟩
        { d with rest := [] } := by
  simp only [readMemoryRegions, M.bind_apply]
  unfold readNextMemoryRegion readBytes
  simp only [M.bind_apply]
  rw [readInto_short (by omega)]
  simp only
  by_cases hs : d.rest.length = 4 ∧ BitVec.ofNat 32 (leVal d.rest) = STACK_SENTINEL
  · rw [if_pos hs, if_pos hs]; exact ⟨_, rfl⟩
  · rw [if_neg hs, if_neg hs, if_neg (by omega), if_pos (by omega)]; exact ⟨_, rfl⟩

/-- A block cut off after its header. -/
theorem regions_cut {d : D} {f : Nat} {r : U32 × List U8} {bs : Str} {old news : List Region} (hsp : Split d.host.mem old news)
    (hheap : PlentyOfMemory d.host.mem) (hlen : r.2.length < 2 ^ 32) (hfit : Fits r)
    (ho : ∀ x, (byteIn r x).isSome → ∀ q ∈ old, ¬ Covers q x 1) (hb : ∃ t, r.2 = bs ++ t ∧ t ≠ [])
    (h : d.rest = le32 r.1 ++ le32 (r.1 + BitVec.ofNat 32 r.2.length) ++ bs) :
    ∃ m d', readMemoryRegions binaryRead (f + 1) d = .throw ⟨.fileFormat, m⟩ d' := by
  obtain ⟨t, hb, ht⟩ := hb
  have htl : 0 < t.length := List.length_pos_iff.2 ht
  have hbl : r.2.length = bs.length + t.length := by rw [hb, List.length_append]
  have sub : ∀ x, (byteIn (r.1, bs) x).isSome → (byteIn r x).isSome := by
    intro x hx
    unfold byteIn at hx ⊢
    simp only at hx
    split at hx
    · rename_i hle
      rw [if_pos hle, hb]
      rw [Option.isSome_iff_exists] at hx
      obtain ⟨y, hy⟩ := hx
      rw [List.getElem?_append_left (List.getElem?_eq_some_iff.1 hy).1, hy]; rfl
    · cases hx
  simp only [readMemoryRegions, M.bind_apply]
  unfold readNextMemoryRegion readBytes
  simp only [M.bind_apply]
  rw [readInto_app (a := le32 r.1 ++ le32 (r.1 + BitVec.ofNat 32 r.2.length)) (t := bs) h (by simp)]
  simp only [List.length_append, le32_length]
  rw [if_neg (by simp), if_neg (by simp), if_neg (by simp), (leVal_take _ _).1, (leVal_take _ _).2]
  simp only [M.bind_apply, M.tryCatch_apply, createAndLoadMemoryRegion, sub_len]
  rw [onMem_ok (d := { d with rest := bs }) (createRegion_ok hheap _ _)]
  simp only
  have hl : (BitVec.ofNat 32 r.2.length).toNat = r.2.length := by
    simp only [BitVec.toNat_ofNat]; exact Nat.mod_eq_of_lt hlen
  rw [hl, loadBytes_app (d := D.put { d with rest := bs } _ _) (bs := bs) (t := [])
    (split_create hsp r.1 (BitVec.ofNat 32 r.2.length)) (by unfold Fits at hfit ⊢; simp only at hfit ⊢; omega)
    (fun x hx => ho x (sub x hx)) (fun x hx => ⟨_, by simp, covered_new hlen (sub x hx)⟩) (by simp [D.put]) (by omega)]
  have e : r.2.length - bs.length = (t.length - 1) + 1 := by omega
  rw [e]
  simp only [loadRegionBytes, M.bind_apply, readBytes]
  rw [readInto_short (by simp [D.put])]
  exact ⟨_, _, rfl⟩

/-- A file that is cut off before the blocks. -/
theorem head_cut {d : D} {df : DumpFile} {n : Nat} (hwf : df.WF) (hc : RegsWF d.host.ctx) (hv : d.v2 = false)
    (hn : n < (encodeHead df).length) (h : d.rest = (encodeHead df).take n) :
    ∃ m d', readDump binaryRead d = .throw ⟨.fileFormat, m⟩ d' := by
  have l1 := flatMap_le32_length df.regs
  have l2 := flatMap_le32_length df.fpr
  have hsiglen : ([0x63, 0x43, if df.v2 then 2 else 3, 0] : Str).length = 4 := rfl
  unfold readDump
  simp only [M.bind_apply]
  by_cases h1 : n < 4
  · -- signature
    have hl : d.rest.length = n := by rw [h, List.length_take]; omega
    unfold validateDumpSignature readBytes
    simp only [M.bind_apply]
    rw [readInto_short (by omega)]
    simp only
    rw [if_pos (by omega)]
    exact ⟨_, _, rfl⟩
  have h' : d.rest = [0x63, 0x43, if df.v2 then 2 else 3, 0] ++
      (le32 df.flags ++ (df.regs.flatMap le32 ++ (le32 df.psr ++ df.fpr.flatMap le32))).take (n - 4) := by
    rw [h]; unfold encodeHead
    simp only [List.append_assoc]
    rw [List.take_append, List.take_of_length_le (by rw [hsiglen]; omega), hsiglen]
  have hn' : n - 4 < (le32 df.flags ++ (df.regs.flatMap le32 ++ (le32 df.psr ++ df.fpr.flatMap le32))).length := by
    unfold encodeHead at hn
    simp only [List.append_assoc] at hn
    rw [List.length_append, hsiglen] at hn
    omega
  generalize n - 4 = n1 at h' hn'
  have e1 : ∀ t, d.rest = [0x63, 0x43, if df.v2 then 2 else 3, 0] ++ t →
      validateDumpSignature binaryRead d = .ok () { d with rest := t, v2 := df.v2 } := by
    intro t h
    cases hd : df.v2 with
    | false => rw [validate_v3 (by simpa [hd] using h)]; simp [hv]
    | true => rw [validate_v2 (by simpa [hd] using h)]
  rw [e1 _ h']
  simp only
  by_cases h2 : n1 < 4
  · -- flags
    unfold readFlags
    simp only [M.bind_apply]
    rw [readInto_short (by simp; omega)]
    simp only
    rw [if_pos (by simp; omega)]
    exact ⟨_, _, rfl⟩
  have e2 : (le32 df.flags ++ (df.regs.flatMap le32 ++ (le32 df.psr ++ df.fpr.flatMap le32))).take n1 =
      le32 df.flags ++ (df.regs.flatMap le32 ++ (le32 df.psr ++ df.fpr.flatMap le32)).take (n1 - 4) := by
    rw [List.take_append, List.take_of_length_le (by simp; omega), le32_length]
  rw [e2, flags_eq (w := df.flags) rfl]
  rw [List.length_append, le32_length] at hn'
  have hn2 : n1 - 4 < (df.regs.flatMap le32 ++ (le32 df.psr ++ df.fpr.flatMap le32)).length := by omega
  generalize n1 - 4 = n2 at hn2 ⊢
  simp only
  have hregs : df.regs.length = if df.v2 then 17 else 19 := hwf.regs
  by_cases h3 : n2 < 4 * df.regs.length
  · -- registers
    unfold readIntegerRegisters
    cases hd : df.v2 with
    | false =>
      simp only [hd, Bool.false_eq_true, if_false] at hregs
      simp only [M.bind_apply, M.get_apply, Bool.false_eq_true, if_false, D.setCtx]
      rw [readInto_short (by simp; omega)]
      simp only
      rw [if_pos (by simp; omega)]
      exact ⟨_, _, rfl⟩
    | true =>
      simp only [hd, if_true] at hregs
      simp only [M.bind_apply, M.get_apply, if_true, D.setCtx, M.modify_apply]
      rw [readInto_short (by simp; omega)]
      simp only
      rw [if_pos (by simp; omega)]
      exact ⟨_, _, rfl⟩
  have e3 : (df.regs.flatMap le32 ++ (le32 df.psr ++ df.fpr.flatMap le32)).take n2 =
      df.regs.flatMap le32 ++ (le32 df.psr ++ df.fpr.flatMap le32).take (n2 - 4 * df.regs.length) := by
    rw [List.take_append, List.take_of_length_le (by omega), l1]
  rw [List.length_append, l1] at hn2
  have hn3 : n2 - 4 * df.regs.length < (le32 df.psr ++ df.fpr.flatMap le32).length := by omega
  rw [e3]
  generalize n2 - 4 * df.regs.length = n3 at hn3 ⊢
  by_cases h4 : n3 < 4
  · -- exception PSR
    unfold readIntegerRegisters
    cases hd : df.v2 with
    | false =>
      simp only [hd, Bool.false_eq_true, if_false] at hregs
      simp only [M.bind_apply, M.get_apply, Bool.false_eq_true, if_false, D.setCtx]
      rw [readInto_app (a := df.regs.flatMap le32) rfl (by omega)]
      simp only
      have hne : ¬ (df.regs.flatMap le32).length ≠ 4 * 19 := by omega
      rw [if_neg hne]
      simp only [M.bind_apply]
      rw [readInto_short (by simp; omega)]
      simp only
      rw [if_pos (by simp; omega)]
      exact ⟨_, _, rfl⟩
    | true =>
      simp only [hd, if_true] at hregs
      simp only [M.bind_apply, M.get_apply, if_true, D.setCtx, M.modify_apply]
      rw [readInto_app (a := df.regs.flatMap le32) rfl (by omega)]
      simp only
      have hne : ¬ (df.regs.flatMap le32).length ≠ 4 * 17 := by omega
      rw [if_neg hne]
      simp only [M.bind_apply]
      rw [readInto_short (by simp; omega)]
      simp only
      rw [if_pos (by simp; omega)]
      exact ⟨_, _, rfl⟩
  have e4 : (le32 df.psr ++ df.fpr.flatMap le32).take n3 = le32 df.psr ++ (df.fpr.flatMap le32).take (n3 - 4) := by
    rw [List.take_append, List.take_of_length_le (by simp; omega), le32_length]
  rw [e4, regs_eq (d := D.setCtx { d with
      rest := df.regs.flatMap le32 ++ (le32 df.psr ++ (df.fpr.flatMap le32).take (n3 - 4)), v2 := df.v2 }
      (fun c => { c with flags := df.flags })) (vs := df.regs) (w := df.psr) hwf.regs hc.1 rfl]
  simp only
  rw [List.length_append, le32_length] at hn3
  -- floating point registers
  have hfpr := hwf.fpr
  cases hf : hasFloat df.flags with
  | false =>
    simp only [hf, Bool.false_eq_true, if_false] at hfpr
    omega
  | true =>
    simp only [hf, if_true] at hfpr
    unfold readFloatingPointRegisters
    simp only [M.bind_apply, M.get_apply]
    rw [if_neg (fun h => by
      have := (hasFloat_iff _).1 h
      simp only [D.setCtx] at this
      rw [hf] at this; cases this)]
    simp only [M.bind_apply]
    rw [readInto_short (by simp [D.setCtx]; omega)]
    simp only
    rw [if_pos (by simp [D.setCtx]; omega)]
    exact ⟨_, _, rfl⟩

/-- Where a cut through the blocks goes. -/
theorem cut_blocks {mem : List (U32 × List U8)} {m : Nat} (h : m < (mem.flatMap encodeBlock).length) :
    ∃ k r j, mem[k]? = some r ∧ j < (encodeBlock r).length ∧ m = ((mem.take k).flatMap encodeBlock).length + j ∧
      (mem.flatMap encodeBlock).take m = (mem.take k).flatMap encodeBlock ++ (encodeBlock r).take j := by
  induction mem generalizing m with
  | nil => simp at h
  | cons q mem ih =>
    simp only [List.flatMap_cons, List.length_append] at h ⊢
    by_cases h1 : m < (encodeBlock q).length
    · refine ⟨0, q, m, rfl, h1, by simp, ?_⟩
      simp [List.take_append_of_le_length (Nat.le_of_lt h1)]
    · obtain ⟨k, r, j, e1, e2, e3, e4⟩ := ih (m := m - (encodeBlock q).length) (by omega)
      refine ⟨k + 1, r, j, by simpa using e1, e2, ?_, ?_⟩
      · simp only [List.take_succ_cons, List.flatMap_cons, List.length_append]; omega
      · rw [List.take_append, List.take_of_length_le (by omega), e4]
        simp

end Verif.Dump
