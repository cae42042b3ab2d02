import Verif.Lemmas.GdbFile
import Verif.Lemmas.DumpFile
/- The two passes over a GDB log. -/
namespace Verif.GdbLog
open Verif MemSim Spec Libc Dump

/-! ### Registers -/

/-- Set a register. -/
def setReg (r : Reg) (v : U32) (c : Regs) : Regs :=
  match r with
  | .core i => { c with r := c.r.set i.val v }
  | .float i => { c with fpr := c.fpr.set i.val v, flags := if i.val < 32 then c.flags ||| 1 else c.flags }

theorem store_r {off i : Nat} (h : off = offsetR i) (hi : i < 19) (v : U32) (o : Obj) :
    storeContext off v o = .ok () { o with host := { o.host with ctx := { o.host.ctx with r := o.host.ctx.r.set i v } } } := by
  unfold offsetR at h
  unfold storeContext
  rw [if_neg (by omega), if_neg (by omega), if_pos (show off < offsetR 19 by unfold offsetR; omega),
    show (off - offsetR 0) / 4 = i by unfold offsetR; omega]

theorem store_fpr {off i : Nat} (h : off = offsetFPR i) (hi : i < 33) (v : U32) (o : Obj) :
    storeContext off v o = .ok () { o with host := { o.host with ctx := { o.host.ctx with fpr := o.host.ctx.fpr.set i v } } } := by
  unfold offsetFPR at h
  unfold storeContext
  rw [if_neg (by omega), if_neg (by omega), if_neg (show ¬ off < offsetR 19 by unfold offsetR; omega),
    if_neg (show ¬ off = offsetR 19 by unfold offsetR; omega), if_pos (show off < offsetFPR 33 by unfold offsetFPR; omega),
    show (off - offsetFPR 0) / 4 = i by unfold offsetFPR; omega]

theorem register_eq (r : Reg) (v : U32) (o : Obj) : firstPassRegisterHandler (offsetOf r) v o =
    .ok () { o with host := { o.host with ctx := setReg r v o.host.ctx } } := by
  unfold firstPassRegisterHandler
  rw [(field_facts r (mem_allRegs r)).2.2]
  cases r with
  | core i =>
    rw [if_neg (by simp [Reg.isFloat])]
    exact store_r rfl i.isLt v o
  | float i =>
    by_cases hf : i.val < 32
    · have e : (Reg.float i).isFloat = true := by simp [Reg.isFloat, hf]
      rw [if_pos e]
      simp only [M.bind_apply, M.modify_apply]
      simp only [setReg, if_pos hf]
      exact store_fpr rfl i.isLt v _
    · have e : ¬ (Reg.float i).isFloat = true := by simp [Reg.isFloat, hf]
      rw [if_neg e]
      simp only [setReg, if_neg hf]
      exact store_fpr rfl i.isLt v o

/-- The context after a line. -/
noncomputable def ctxOf (c : Regs) (x : Results) : Regs :=
  match x with
  | .register off v => by classical exact if h : ∃ r, off = offsetOf r then setReg h.choose v c else c
  | _ => c

theorem offsetOf_inj {r q : Reg} (h : offsetOf r = offsetOf q) : r = q := by
  cases r with
  | core i =>
    have hi := i.isLt
    cases q with
    | core j => simp only [offsetOf, offsetR] at h; congr 1; apply Fin.ext; omega
    | float j => simp only [offsetOf, offsetR, offsetFPR] at h; omega
  | float i =>
    cases q with
    | core j => have hj := j.isLt; simp only [offsetOf, offsetR, offsetFPR] at h; omega
    | float j => simp only [offsetOf, offsetFPR] at h; congr 1; apply Fin.ext; omega

theorem ctxOf_register (c : Regs) (r : Reg) (v : U32) : ctxOf c (.register (offsetOf r) v) = setReg r v c := by
  have h : ∃ q, offsetOf r = offsetOf q := ⟨r, rfl⟩
  simp only [ctxOf, dif_pos h]
  rw [← offsetOf_inj h.choose_spec]

theorem setReg_wf {r : Reg} {v : U32} {c : Regs} (h : RegsWF c) : RegsWF (setReg r v c) := by
  cases r <;> exact ⟨by simp [setReg, h.1], by simp [setReg, h.2]⟩

theorem ctxOf_wf {c : Regs} {x : Results} (hv : Valid x) (h : RegsWF c) : RegsWF (ctxOf c x) := by
  cases x with
  | other => exact h
  | memory => exact h
  | register off v =>
    obtain ⟨r, rfl⟩ := hv
    rw [ctxOf_register]
    exact setReg_wf h

theorem get_setReg {r q : Reg} {v : U32} {c : Regs} (h : RegsWF c) : r.get (setReg q v c) = if q = r then some v else r.get c := by
  cases r with
  | core i =>
    cases q with
    | core j =>
      simp only [Reg.get, setReg, Reg.core.injEq, List.getElem?_set]
      by_cases e : j = i
      · subst e; have := j.isLt; simp [h.1]
      · have : ¬ j.val = i.val := fun h => e (Fin.ext h)
        simp [e, this]
    | float j => simp [Reg.get, setReg]
  | float i =>
    cases q with
    | core j => simp [Reg.get, setReg]
    | float j =>
      simp only [Reg.get, setReg, Reg.float.injEq, List.getElem?_set]
      by_cases e : j = i
      · subst e; have := j.isLt; simp [h.2]
      · have : ¬ j.val = i.val := fun h => e (Fin.ext h)
        simp [e, this]

/-- What a line says about a register. -/
def valueIn (r : Reg) (l : LogLine) : Option U32 :=
  match l.says with
  | .register q v => if q = r then some v else none
  | _ => none

theorem getLast?_cons_or {α : Type} (x : α) (xs : List α) : (x :: xs).getLast? = xs.getLast?.or (some x) := by
  rw [List.getLast?_cons]
  cases xs.getLast? <;> rfl

theorem lastValue_cons (l : LogLine) (ls : List LogLine) (r : Reg) : lastValue (l :: ls) r = (lastValue ls r).or (valueIn r l) := by
  show ((l :: ls).filterMap (valueIn r)).getLast? = ((ls.filterMap (valueIn r)).getLast?).or (valueIn r l)
  rw [List.filterMap_cons]
  cases valueIn r l with
  | none => simp
  | some v => simp only [getLast?_cons_or]

theorem get_lines {ls : List LogLine} {c : Regs} (h : RegsWF c) (r : Reg) :
    r.get ((ls.map resOf).foldl ctxOf c) = (lastValue ls r).or (r.get c) := by
  induction ls generalizing c with
  | nil => rfl
  | cons l ls ih =>
    simp only [List.map_cons, List.foldl_cons]
    rw [lastValue_cons]
    cases hs : l.says with
    | memory a vs =>
      have : resOf l = .memory a (if vs.length < 4 ∧ l.text.getLast?.any isSpace then vs ++ [0] else vs) := by simp [resOf, hs]
      rw [this, show ctxOf c (.memory a _) = c from rfl, ih h]
      simp [valueIn, hs]
    | other =>
      have : resOf l = .other := by simp [resOf, hs]
      rw [this, show ctxOf c .other = c from rfl, ih h]
      simp [valueIn, hs]
    | register q v =>
      have : resOf l = .register (offsetOf q) v := by simp [resOf, hs]
      rw [this, ctxOf_register, ih (setReg_wf h), get_setReg h]
      simp only [valueIn, hs]
      cases lastValue ls r with
      | some x => rfl
      | none => by_cases e : q = r <;> simp [e]

theorem flags_lines (ls : List LogLine) (c : Regs) :
    ((ls.map resOf).foldl ctxOf c).flags = if showsFloat ls then c.flags ||| 1 else c.flags := by
  induction ls generalizing c with
  | nil => rfl
  | cons l ls ih =>
    simp only [List.map_cons, List.foldl_cons]
    rw [ih]
    unfold showsFloat
    rw [List.any_cons]
    cases hs : l.says with
    | memory a vs =>
      have : resOf l = .memory a (if vs.length < 4 ∧ l.text.getLast?.any isSpace then vs ++ [0] else vs) := by simp [resOf, hs]
      rw [this]; rfl
    | other =>
      have : resOf l = .other := by simp [resOf, hs]
      rw [this]; rfl
    | register q v =>
      have : resOf l = .register (offsetOf q) v := by simp [resOf, hs]
      rw [this, ctxOf_register]
      simp only
      cases q with
      | core i => rfl
      | float i =>
        simp only [setReg, Reg.isFloat]
        by_cases hf : i.val < 32
        · simp only [hf, if_true, decide_true, Bool.true_or]
          split
          · rw [BitVec.or_assoc, BitVec.or_self]
          · rfl
        · simp [hf]

theorem psr_lines (ls : List LogLine) (c : Regs) : ((ls.map resOf).foldl ctxOf c).psr = c.psr := by
  induction ls generalizing c with
  | nil => rfl
  | cons l ls ih =>
    simp only [List.map_cons, List.foldl_cons]
    rw [ih]
    cases hs : l.says with
    | memory a vs =>
      have : resOf l = .memory a (if vs.length < 4 ∧ l.text.getLast?.any isSpace then vs ++ [0] else vs) := by simp [resOf, hs]
      rw [this]; rfl
    | other =>
      have : resOf l = .other := by simp [resOf, hs]
      rw [this]; rfl
    | register q v =>
      have : resOf l = .register (offsetOf q) v := by simp [resOf, hs]
      rw [this, ctxOf_register]
      cases q <;> rfl

/-! ### Runs -/

abbrev Run := U32 × List U32

/-- The region for a run. -/
def reg (r : Run) : Region := newRegion r.1 (BitVec.ofNat 32 (4 * r.2.length))

theorem runs_head (m : Run) (ms : List Run) : ∃ x rs, runs (m :: ms) = (m.1, m.2 ++ x) :: rs := by
  simp only [runs]
  cases runs ms with
  | nil => exact ⟨[], [], by simp⟩
  | cons r rs =>
    simp only
    split
    · exact ⟨r.2, rs, rfl⟩
    · exact ⟨[], r :: rs, by simp⟩

theorem runs_join {p m : Run} {ms : List Run} (h : m.1 = p.1 + BitVec.ofNat 32 (4 * p.2.length)) :
    runs (p :: m :: ms) = runs ((p.1, p.2 ++ m.2) :: ms) := by
  have hadd : p.1 + BitVec.ofNat 32 (4 * (p.2 ++ m.2).length) = m.1 + BitVec.ofNat 32 (4 * m.2.length) := by
    rw [h, List.length_append, Nat.mul_add, BitVec.ofNat_add, BitVec.add_assoc]
  simp only [runs]
  cases runs ms with
  | nil => simp only; rw [if_pos h.symm]
  | cons r rs =>
    simp only [hadd]
    by_cases he : m.1 + BitVec.ofNat 32 (4 * m.2.length) = r.1
    · simp only [if_pos he]
      rw [if_pos h.symm, List.append_assoc]
    · simp only [if_neg he]
      rw [if_pos h.symm]

theorem runs_split {p m : Run} {ms : List Run} (h : m.1 ≠ p.1 + BitVec.ofNat 32 (4 * p.2.length)) :
    runs (p :: m :: ms) = p :: runs (m :: ms) := by
  obtain ⟨x, rs, e⟩ := runs_head m ms
  rw [runs, e]
  simp only
  rw [if_neg (fun h' => h h'.symm)]

/-- The state of the first pass: the closed runs have their regions, the last one is being collected. -/
structure Pend (h0 : Host) (c : Regs) (closed : List Run) (p : Option Run) (o : Obj) : Prop where
  regions : o.host.mem.regions = h0.mem.regions ++ closed.map reg
  hits : o.host.mem.hits = h0.mem.hits
  fails : o.host.mem.heap.fails = h0.mem.heap.fails
  files : o.host.files = h0.files
  ctx : o.host.ctx = c
  pend : match p with
    | none => o.regionStart = 0xFFFFFFFF ∧ o.regionSize = 0 ∧ o.nextExpectedAddress = 0xFFFFFFFF
    | some q => o.regionStart = q.1 ∧ o.regionSize = BitVec.ofNat 32 (4 * q.2.length) ∧
        o.nextExpectedAddress = q.1 + BitVec.ofNat 32 (4 * q.2.length) ∧ q.1 ≠ 0xFFFFFFFF ∧ q.2 ≠ []

/-- What is left after an allocation failed. -/
def Failed (h0 : Host) (total : List Run) (e : Exn) (h : Host) : Prop :=
  e = ⟨.outOfMemory, []⟩ ∧ ¬ PlentyOfMemory h0.mem ∧ ∃ k, h.mem.regions = h0.mem.regions ++ (total.take k).map reg

theorem create_sat {h0 : Host} {closed rest : List Run} {q : Run} {o : Obj} {c : Regs}
    (hr : o.host.mem.regions = h0.mem.regions ++ closed.map reg) (hh : o.host.mem.hits = h0.mem.hits)
    (hf : o.host.mem.heap.fails = h0.mem.heap.fails) (hfi : o.host.files = h0.files) (hc : o.host.ctx = c) :
    Sat (fun _ o' => o'.host.mem.regions = h0.mem.regions ++ (closed ++ [q]).map reg ∧ o'.host.mem.hits = h0.mem.hits ∧
        o'.host.mem.heap.fails = h0.mem.heap.fails ∧ o'.host.files = h0.files ∧ o'.host.ctx = c)
      (fun e o' => Failed h0 (closed ++ rest) e o'.host)
      (onMem (createRegion q.1 (BitVec.ofNat 32 (4 * q.2.length))) o) := by
  refine Sat.zoom ?_
  rcases createRegion_cases q.1 (BitVec.ofNat 32 (4 * q.2.length)) o.host.mem with ⟨k, e⟩ | e
  · rw [e]
    refine ⟨rfl, fun hp => ?_, closed.length, ?_⟩
    · rw [createRegion_ok (s := o.host.mem) (fun n => by rw [hf]; exact hp n)] at e
      cases e
    · simp [bumpHeap, hr]
  · rw [e]
    exact ⟨by simp [hr, reg], hh, hf, hfi, hc⟩

theorem first_step {h0 : Host} {c : Regs} {closed : List Run} {p : Option Run} {o : Obj} {a : U32} {vs : List U32} {ms : List Run}
    (hp : Pend h0 c closed p o) (ha : a ≠ 0xFFFFFFFF) (hv : vs ≠ []) :
    Sat (fun _ o' => ∃ closed' p', Pend h0 c closed' p' o' ∧
        closed' ++ runs (p'.toList ++ ms) = closed ++ runs (p.toList ++ (a, vs) :: ms))
      (fun e o' => Failed h0 (closed ++ runs (p.toList ++ (a, vs) :: ms)) e o'.host) (firstPassMemoryHandler a vs o) := by
  unfold firstPassMemoryHandler
  simp only [M.bind_apply, M.get_apply]
  have hpend := hp.pend
  cases p with
  | none =>
    simp only at hpend
    rw [hpend.2.2, if_pos ha, hpend.1, if_neg (by simp)]
    simp only [M.bind_apply, M.modify_apply]
    refine ⟨closed, some (a, vs), ⟨hp.regions, hp.hits, hp.fails, hp.files, hp.ctx, ?_⟩, rfl⟩
    simp only
    refine ⟨trivial, ?_, ?_, ha, hv⟩
    · rw [Nat.mul_comm]; exact BitVec.zero_add _
    · rw [Nat.mul_comm]
  | some q =>
    obtain ⟨h1, h2, h3, h4, h5⟩ := hpend
    by_cases he : a = o.nextExpectedAddress
    · rw [if_neg (by simpa using he)]
      simp only [M.pure_apply, M.modify_apply]
      rw [h3] at he
      refine ⟨closed, some (q.1, q.2 ++ vs), ⟨hp.regions, hp.hits, hp.fails, hp.files, hp.ctx, ?_⟩, ?_⟩
      · refine ⟨h1, ?_, ?_, h4, by simp [hv]⟩
        · simp only [h2]
          rw [List.length_append, Nat.mul_add, BitVec.ofNat_add, Nat.mul_comm vs.length]
        · simp only [he]
          rw [List.length_append, Nat.mul_add, BitVec.ofNat_add, Nat.mul_comm vs.length, BitVec.add_assoc]
      · simp only [Option.toList_some, List.singleton_append]
        rw [runs_join (m := (a, vs)) he]
    · rw [if_pos he, h1, if_pos h4, h2]
      rw [h3] at he
      have key := create_sat (rest := runs (q :: (a, vs) :: ms)) (q := q) hp.regions hp.hits hp.fails hp.files hp.ctx
      simp only [M.bind_apply, M.modify_apply]
      cases hcr : onMem (createRegion q.1 (BitVec.ofNat 32 (4 * q.2.length))) o with
      | ub r => rw [hcr] at key; exact key
      | throw e o' => rw [hcr] at key; exact key
      | ok u o' =>
        rw [hcr] at key
        obtain ⟨k1, k2, k3, k4, k5⟩ := key
        refine ⟨closed ++ [q], some (a, vs), ⟨k1, k2, k3, k4, k5, ?_⟩, ?_⟩
        · refine ⟨rfl, ?_, ?_, ha, hv⟩
          · rw [Nat.mul_comm]; exact BitVec.zero_add _
          · rw [Nat.mul_comm]
        · simp only [Option.toList_some, List.singleton_append]
          rw [runs_split (m := (a, vs)) he]
          simp

theorem first_all {h0 : Host} {total : List Run} {rs : List Results} (hv : ∀ r ∈ rs, Valid r)
    (ha : ∀ m ∈ memOf rs, m.1 ≠ 0xFFFFFFFF) {c : Regs} {closed : List Run} {p : Option Run} {o : Obj}
    (hp : Pend h0 c closed p o) (ht : closed ++ runs (p.toList ++ memOf rs) = total) :
    Sat (fun _ o' => ∃ closed' p', Pend h0 (rs.foldl ctxOf c) closed' p' o' ∧ closed' ++ p'.toList = total)
      (fun e o' => Failed h0 total e o'.host) (runAll firstPassHandler rs o) := by
  induction rs generalizing c closed p o with
  | nil =>
    refine ⟨closed, p, hp, ?_⟩
    rw [← ht]
    cases p with
    | none => rfl
    | some q => rfl
  | cons r rs ih =>
    have ih := fun {c closed p o} => @ih (fun x hx => hv x (by simp [hx])) (fun m hm => ha m (by
      simp only [memOf, List.filterMap_cons]
      cases r with
      | memory a vs => exact List.mem_cons_of_mem _ hm
      | other => exact hm
      | register off v => exact hm)) c closed p o
    simp only [runAll, List.foldl_cons]
    cases r with
    | other => exact Sat.bind (Q1 := fun _ o' => o' = o) rfl (by rintro _ _ rfl; exact ih hp ht)
    | register off v =>
      obtain ⟨q, rfl⟩ := hv _ (by simp : Results.register off v ∈ _)
      simp only [firstPassHandler]
      rw [M.bind_ok (register_eq q v o)]
      refine ih (p := p) (closed := closed) ?_ ht
      refine ⟨hp.regions, hp.hits, hp.fails, hp.files, ?_, hp.pend⟩
      rw [ctxOf_register, hp.ctx]
    | memory a vs =>
      have hvs : vs ≠ [] := by
        have := hv _ (by simp : Results.memory a vs ∈ _)
        rintro rfl
        simp [Valid] at this
      have ha' : a ≠ 0xFFFFFFFF := ha (a, vs) (by simp [memOf])
      have ht' : closed ++ runs (p.toList ++ (a, vs) :: memOf rs) = total := ht
      have key := first_step (ms := memOf rs) hp ha' hvs
      rw [ht'] at key
      refine Sat.bind key ?_
      rintro - o' ⟨closed', p', hp', ht'⟩
      exact ih hp' ht'

/-- The first pass as a whole. -/
theorem first_pass {h : Host} {rs : List Results} (hv : ∀ r ∈ rs, Valid r) (ha : ∀ m ∈ memOf rs, m.1 ≠ 0xFFFFFFFF)
    (hl : ∀ r ∈ runs (memOf rs), 4 * r.2.length < 2 ^ 32) :
    Sat (fun _ h' => h'.mem.regions = h.mem.regions ++ (runs (memOf rs)).map reg ∧ h'.mem.hits = h.mem.hits ∧
        h'.mem.heap.fails = h.mem.heap.fails ∧ h'.files = h.files ∧ h'.ctx = rs.foldl ctxOf h.ctx)
      (fun e h' => Failed h (runs (memOf rs)) e h') (pass firstPassHandler rs h) := by
  have hp : Pend h h.ctx [] none { host := h } := ⟨by simp, rfl, rfl, rfl, rfl, rfl, rfl, rfl⟩
  have hall := first_all hv ha hp (total := runs (memOf rs)) rfl
  have hfin : Sat (fun _ o' => o'.host.mem.regions = h.mem.regions ++ (runs (memOf rs)).map reg ∧ o'.host.mem.hits = h.mem.hits ∧
        o'.host.mem.heap.fails = h.mem.heap.fails ∧ o'.host.files = h.files ∧ o'.host.ctx = rs.foldl ctxOf h.ctx)
      (fun e o' => Failed h (runs (memOf rs)) e o'.host) ((runAll firstPassHandler rs >>= fun _ => finish) { host := h }) := by
    refine Sat.bind hall ?_
    rintro - o' ⟨closed, p, hp, ht⟩
    unfold finish
    simp only [M.bind_apply, M.get_apply]
    have hpend := hp.pend
    cases p with
    | none =>
      rw [hpend.2.1, if_neg (by simp)]
      have : closed = runs (memOf rs) := by simpa using ht
      exact ⟨by rw [hp.regions, this], hp.hits, hp.fails, hp.files, hp.ctx⟩
    | some q =>
      obtain ⟨h1, h2, h3, h4, h5⟩ := hpend
      have ht' : closed ++ [q] = runs (memOf rs) := ht
      have hq := hl q (by rw [← ht']; simp)
      have hz : o'.regionSize ≠ 0 := by
        rw [h2]
        intro h0
        have := congrArg BitVec.toNat h0
        simp only [BitVec.toNat_ofNat, Nat.mod_eq_of_lt hq] at this
        have h5' := List.length_pos_iff.2 h5
        simp at this
        omega
      rw [if_pos hz, h1, h2]
      have := create_sat (rest := [q]) (q := q) hp.regions hp.hits hp.fails hp.files hp.ctx
      rw [ht'] at this
      exact this
  unfold pass
  revert hfin
  cases (runAll firstPassHandler rs >>= fun _ => finish) { host := h } with
  | ok a o => exact id
  | throw e o => exact id
  | ub r => exact id

/-! ### Writing words -/

theorem pokes_append {bs cs : Str} {rs : List Region} {a : U32} :
    pokes rs a (bs ++ cs) = pokes (pokes rs a bs) (a + BitVec.ofNat 32 bs.length) cs := by
  induction bs generalizing rs a with
  | nil => simp [pokes]
  | cons b bs ih =>
    simp only [List.cons_append, pokes, List.length_cons]
    rw [ih, Nat.add_comm bs.length 1, BitVec.ofNat_add, ← BitVec.add_assoc]
    rfl

theorem firstCover_set {rs : List Region} {a : U32} {n k : Nat} {q q' : Region} (h : FirstCover rs a n k q)
    (hs : shape q' = shape q) : FirstCover (rs.set k q') a n k q' := by
  obtain ⟨h1, h2, h3⟩ := h
  refine ⟨?_, (covers_shape hs).2 h2, fun j hj p hp => ?_⟩
  · rw [List.getElem?_set, if_pos rfl, if_pos (List.getElem?_eq_some_iff.1 h1).1]
  · rw [List.getElem?_set, if_neg (by omega)] at hp
    exact h3 j hj p hp

theorem firstCover_set' {rs : List Region} {a : U32} {n k : Nat} {q q0 q' : Region} (h : FirstCover rs a n k q)
    (h0 : rs[k]? = some q0) (hs : shape q' = shape q0) : FirstCover (rs.set k q') a n k q' := by
  have := h.1
  rw [h0] at this
  cases this
  exact firstCover_set h hs

/-- Storing bytes that all belong to the same region. -/
theorem pokes_region {bs : Str} {rs : List Region} {a : U32} {k : Nat} {q : Region} (hq : q.data.length = q.size.toNat)
    (hb : a.toNat + bs.length ≤ 2 ^ 32)
    (h : ∀ j < bs.length, FirstCover rs (a + BitVec.ofNat 32 j) 1 k q) (hne : bs ≠ []) :
    pokes rs a bs = rs.set k { q with
      data := q.data.take (a.toNat - q.baseAddress.toNat) ++ bs ++ q.data.drop (a.toNat - q.baseAddress.toNat + bs.length) } := by
  induction bs generalizing rs a q with
  | nil => exact absurd rfl hne
  | cons b bs ih =>
    have h0 : FirstCover rs a 1 k q := by simpa using h 0 (by simp)
    have hc := h0.2.1
    unfold Covers at hc
    have hoff : a.toNat - q.baseAddress.toNat < q.data.length := by rw [hq]; omega
    simp only [pokes]
    rw [poke_firstCover h0]
    by_cases hbs : bs = []
    · subst hbs
      simp only [pokes]
      congr 2
      rw [List.set_eq_take_append_cons_drop, if_pos hoff]
      simp
    · have hlb : 0 < bs.length := List.length_pos_iff.2 hbs
      simp only [List.length_cons] at hb
      have e1 : (a + 1).toNat = a.toNat + 1 := by
        simp only [BitVec.toNat_add]; simp; omega
      rw [ih (q := { q with data := q.data.set (a.toNat - q.baseAddress.toNat) b }) (by simpa using hq) (by omega) ?_ hbs]
      · rw [List.set_set]
        congr 2
        simp only [e1]
        rw [show a.toNat + 1 - q.baseAddress.toNat = (a.toNat - q.baseAddress.toNat) + 1 by omega]
        apply List.ext_getElem?
        intro i
        simp only [List.getElem?_append, List.length_append, List.length_take, List.length_set, List.getElem?_take, List.getElem?_drop,
          List.getElem?_set, List.length_cons]
        rw [show min (a.toNat - q.baseAddress.toNat + 1) q.data.length = a.toNat - q.baseAddress.toNat + 1 by omega,
          show min (a.toNat - q.baseAddress.toNat) q.data.length = a.toNat - q.baseAddress.toNat by omega]
        generalize a.toNat - q.baseAddress.toNat = off at hoff
        rcases Nat.lt_trichotomy i off with hi | hi | hi
        · rw [if_pos (by omega), if_pos (by omega), if_pos (by omega), if_neg (by omega), if_pos (by omega), if_pos (by omega),
            if_pos (by omega)]
        · subst hi
          rw [if_pos (by omega), if_pos (by omega), if_pos (by omega), if_pos rfl, if_pos hoff, if_pos (by omega), if_neg (by omega)]
          simp
        · by_cases h2 : i < off + 1 + bs.length
          · rw [if_pos (by omega), if_neg (by omega), if_pos (by omega), if_neg (by omega),
              show i - off = (i - (off + 1)) + 1 by omega, List.getElem?_cons_succ]
          · rw [if_neg (by omega), if_neg (by omega), if_neg (by omega)]
            congr 1; omega
      · intro j hj
        have := h (j + 1) (by simpa using hj)
        rw [Nat.add_comm j 1, BitVec.ofNat_add, ← BitVec.add_assoc] at this
        exact firstCover_set this rfl

theorem leBytes_le32 (v : U32) : leBytes 4 v.toNat = le32 v := by
  simp only [leBytes, le32]
  have hv := v.isLt
  have key : ∀ i, BitVec.ofNat 8 (v.toNat / 256 ^ i) = byteOf v i := by
    intro i
    apply BitVec.eq_of_toNat_eq
    simp only [byteOf, BitVec.extractLsb'_toNat, BitVec.toNat_ofNat, Nat.shiftRight_eq_div_pow, Nat.pow_mul]
  have k0 := key 0
  have k1 := key 1
  have k2 := key 2
  have k3 := key 3
  simp only [Nat.pow_zero, Nat.div_one, Nat.pow_one] at k0 k1
  rw [k0, k1, ← k2, ← k3, Nat.div_div_eq_div_mul, Nat.div_div_eq_div_mul]

/-- Every region contains all four bytes of the word or none of them. -/
def WholeIn (rs : List Region) (a : U32) : Prop := ∀ r ∈ rs, Covers r a 4 ∨ ∀ j < 4, ¬ Covers r (a + BitVec.ofNat 32 j) 1

theorem wholeIn_shape {rs rs' : List Region} (h : rs'.map shape = rs.map shape) {a : U32} (hw : WholeIn rs a) : WholeIn rs' a := by
  intro r hr
  have : shape r ∈ rs.map shape := by rw [← h]; exact List.mem_map_of_mem hr
  obtain ⟨r', hr', e⟩ := List.mem_map.1 this
  rcases hw r' hr' with h1 | h1
  · exact .inl ((covers_shape e).1 h1)
  · exact .inr fun j hj hc => h1 j hj ((covers_shape e).2 hc)

theorem firstCover_whole {news : List Region} {a : U32} (hw : WholeIn news a) (ha : a.toNat + 4 ≤ 2 ^ 32) {k : Nat} {q : Region}
    (hf : FirstCover news a 4 k q) {j : Nat} (hj : j < 4) : FirstCover news (a + BitVec.ofNat 32 j) 1 k q := by
  have ej : (a + BitVec.ofNat 32 j).toNat = a.toNat + j := by
    simp only [BitVec.toNat_add, BitVec.toNat_ofNat]; omega
  obtain ⟨h1, h2, h3⟩ := hf
  refine ⟨h1, ⟨by rw [ej]; have := h2.1; omega, by rw [ej]; have := h2.2; omega⟩, fun i hi p hp hc => ?_⟩
  rcases hw p (List.mem_of_getElem? hp) with h | h
  · exact h3 i hi p hp h
  · exact h j hj hc

theorem write32_split {s : Sim} {old news : List Region} (h : Split s old news) {a : U32} {v : U32} (ha : a.toNat + 4 ≤ 2 ^ 32)
    (ho : ∀ q ∈ old, ¬ Covers q a 4) (hc : ∃ r ∈ news, Covers r a 4) (hw : WholeIn news a) :
    IMemory.write .w32 a v s = .ok () { s with regions := old ++ pokes news a (le32 v) } := by
  obtain ⟨r, hr, hc⟩ := hc
  obtain ⟨k, q, hf⟩ := FirstCover.exists_of_mem hr hc
  have hs := sound_append h
  have ht := h.target hf ho
  have hq := h.fresh q hf.mem
  have hi := ht.info hs
  refine (write_eq (w := .w32) (v := v)).trans ?_
  show writeN 4 a v.toNat s = _
  rw [writeN_eq hs ht]
  simp only [hq.ro, Bool.false_eq_true, if_false]
  have h0 : (scanAt q (a.toNat - q.baseAddress.toNat) 4 WRITING).1 = 0 := by simp [scanAt, hq.watch, scanWatch]
  rw [h0, if_neg (by have := h.hits; omega)]
  simp only [Nat.add_zero]
  congr 1
  have hp := pokes_region (bs := le32 v) (rs := news) (a := a) (k := k) (q := q) hq.len (by simpa [le32] using ha)
    (fun j hj => firstCover_whole hw ha hf (by simpa [le32] using hj)) (by simp [le32])
  rw [hp, h.regions, List.set_append_right _ _ (by omega)]
  simp only [Nat.add_sub_cancel_left, leBytes_le32]
  congr 3
  simp [hq.ro, le32]

/-- Store the words of some lines. -/
def pokeLines (news : List Region) (ms : List Run) : List Region := ms.foldl (fun rs m => pokes rs m.1 (wordBytes m.2)) news

theorem pokeLines_shape {ms : List Run} {news : List Region} : (pokeLines news ms).map shape = news.map shape := by
  induction ms generalizing news with
  | nil => rfl
  | cons m ms ih => simp only [pokeLines, List.foldl_cons] at ih ⊢; rw [ih, pokes_shape]

theorem pokeLines_fresh {ms : List Run} {news : List Region} (h : ∀ r ∈ news, Fresh r) : ∀ r ∈ pokeLines news ms, Fresh r := by
  induction ms generalizing news with
  | nil => exact h
  | cons m ms ih => exact ih (pokes_fresh h)

/-- The word at `a` can be stored. -/
structure Place (old news : List Region) (a : U32) : Prop where
  top : a.toNat + 4 ≤ 2 ^ 32
  old : ∀ q ∈ old, ¬ Covers q a 4
  new : ∃ r ∈ news, Covers r a 4
  whole : WholeIn news a

theorem Place.shape {old news news' : List Region} {a : U32} (h : Place old news a) (hs : news'.map shape = news.map shape) :
    Place old news' a := by
  refine ⟨h.top, h.old, ?_, wholeIn_shape hs h.whole⟩
  obtain ⟨r, hr, hc⟩ := h.new
  have : MemSim.shape r ∈ news'.map MemSim.shape := by rw [hs]; exact List.mem_map_of_mem hr
  obtain ⟨r', hr', e⟩ := List.mem_map.1 this
  exact ⟨r', hr', (covers_shape e).2 hc⟩

theorem Split.pokes {s : Sim} {old news : List Region} (h : Split s old news) (a : U32) (bs : Str) :
    Split { s with regions := old ++ pokes news a bs } old (Dump.pokes news a bs) :=
  ⟨rfl, h.sound, pokes_fresh h.fresh, h.hits⟩

theorem writeValues_eq {old : List Region} {a : U32} {vs : List U32} {i : Nat} {news : List Region} {o : Obj}
    (h : Split o.host.mem old news) (hp : ∀ j < vs.length, Place old news (a + BitVec.ofNat 32 ((i + j) * 4))) :
    writeValues a i vs o = .ok () { o with host := { o.host with mem := { o.host.mem with
      regions := old ++ pokes news (a + BitVec.ofNat 32 (i * 4)) (wordBytes vs) } } } := by
  induction vs generalizing i news o with
  | nil =>
    simp only [writeValues, wordBytes, List.flatMap_nil, pokes]
    have : o.host.mem = { o.host.mem with regions := old ++ news } := by
      have := h.regions
      cases hm : o.host.mem; rw [hm] at this; simp only at this ⊢; rw [this]
    rw [← this]; rfl
  | cons v vs ih =>
    have p0 := hp 0 (by simp)
    rw [Nat.add_zero] at p0
    simp only [writeValues]
    have e : onMem (IMemory.write .w32 (a + BitVec.ofNat 32 (i * 4)) v) o = .ok () { o with host := { o.host with mem :=
        { o.host.mem with regions := old ++ pokes news (a + BitVec.ofNat 32 (i * 4)) (le32 v) } } } := by
      unfold onMem
      rw [M.zoom_apply, write32_split h p0.top p0.old p0.new p0.whole]
    rw [M.bind_ok e, ih (i := i + 1) (Split.pokes h _ _)]
    · simp only [wordBytes, List.flatMap_cons]
      rw [pokes_append]
      congr 6
      show _ = a + BitVec.ofNat 32 (i * 4) + BitVec.ofNat 32 4
      rw [Nat.add_mul, BitVec.ofNat_add, BitVec.add_assoc]
    · intro j hj
      have := hp (j + 1) (by simpa using hj)
      rw [show i + (j + 1) = i + 1 + j by omega] at this
      exact this.shape pokes_shape

theorem second_all {old : List Region} {rs : List Results} {news : List Region} {o : Obj} (h : Split o.host.mem old news)
    (hp : ∀ m ∈ memOf rs, ∀ j < m.2.length, Place old news (m.1 + BitVec.ofNat 32 (j * 4))) :
    runAll secondPassHandler rs o = .ok () { o with host := { o.host with mem := { o.host.mem with
      regions := old ++ pokeLines news (memOf rs) } } } := by
  induction rs generalizing news o with
  | nil =>
    simp only [runAll, memOf, List.filterMap_nil, pokeLines, List.foldl_nil]
    have : o.host.mem = { o.host.mem with regions := old ++ news } := by
      have := h.regions
      cases hm : o.host.mem; rw [hm] at this; simp only at this ⊢; rw [this]
    rw [← this]; rfl
  | cons r rs ih =>
    simp only [runAll]
    cases r with
    | other => exact (M.bind_ok (s' := o) (a := ()) rfl).trans (ih h hp)
    | register off v => exact (M.bind_ok (s' := o) (a := ()) rfl).trans (ih h hp)
    | memory a vs =>
      simp only [secondPassHandler]
      have hp0 := hp (a, vs) (by simp [memOf])
      have e := writeValues_eq (i := 0) (a := a) (vs := vs) h (fun j hj => by rw [Nat.zero_add]; exact hp0 j hj)
      rw [Nat.zero_mul, BitVec.add_zero] at e
      rw [M.bind_ok e]
      exact ih (Split.pokes h _ _) (fun m hm j hj => (hp m (List.mem_cons_of_mem _ hm) j hj).shape pokes_shape)

theorem second_pass {h : Host} {old news : List Region} {rs : List Results} (hs : Split h.mem old news)
    (hp : ∀ m ∈ memOf rs, ∀ j < m.2.length, Place old news (m.1 + BitVec.ofNat 32 (j * 4))) :
    pass secondPassHandler rs h = .ok () { h with mem := { h.mem with regions := old ++ pokeLines news (memOf rs) } } := by
  unfold pass
  rw [M.bind_ok (second_all (o := { host := h }) hs hp)]
  unfold finish
  simp

end Verif.GdbLog
