import Verif.Lemmas.GdbLoad
import Verif.Lemmas.Observe
/- The GDB log parser on arbitrary input. -/
namespace Verif.GdbLog
open Verif MemSim Spec Libc Dump

theorem write_shape {s : Sim} (hs : Sound s) {w : Width} {a : U32} {v : BitVec w.bits} :
    Post (IMemory.write w a v s) fun s' => s'.regions.map shape = s.regions.map shape := by
  by_cases hm : Mapped s a w.bytes
  · obtain ⟨i, r, off, ht⟩ := target_of_mapped hs hm
    have hi := ht.info hs
    have e : IMemory.write w a v s = _ := write_eq.trans (writeN_eq hs ht)
    rw [e]
    split
    · exact rfl
    · split
      · trivial
      · exact MemSim.map_set_same hi.get rfl
  · rw [write_eq, writeN_unmapped hm]
    exact rfl

/-- What both passes keep. -/
structure Kept (P : Call → Prop) (h0 h : Host) : Prop where
  mem : MemInv P h0.mem h.mem
  files : h.files = h0.files

theorem create_kept {P : Call → Prop} {h0 : Host} {o : Obj} {b n : U32} (hP : P (.createRegion b n)) (h : Kept P h0 o.host) :
    Sat (fun _ o' => Kept P h0 o'.host ∧ o'.host.ctx = o.host.ctx)
      (fun e o' => Kept P h0 o'.host ∧ o'.host.ctx = o.host.ctx ∧ e.code = .outOfMemory) (onMem (createRegion b n) o) := by
  refine Sat.zoom ((createRegion_inv h.mem hP).mono ?_ ?_)
  · exact fun _ s hs => ⟨⟨hs, h.files⟩, rfl⟩
  · exact fun e s hs => ⟨⟨hs.1, h.files⟩, rfl, hs.2⟩

theorem memory_kept {P : Call → Prop} (hP : ∀ b n, P (.createRegion b n)) {h0 : Host} {o : Obj} {a : U32} {vs : List U32}
    (h : Kept P h0 o.host) :
    Sat (fun _ o' => Kept P h0 o'.host ∧ o'.host.ctx = o.host.ctx)
      (fun e o' => Kept P h0 o'.host ∧ o'.host.ctx = o.host.ctx ∧ e.code = .outOfMemory) (firstPassMemoryHandler a vs o) := by
  unfold firstPassMemoryHandler
  simp only [M.bind_apply, M.get_apply]
  by_cases h1 : a ≠ o.nextExpectedAddress
  · rw [if_pos h1]
    by_cases h2 : o.regionStart ≠ 0xFFFFFFFF
    · rw [if_pos h2]
      have key := create_kept (hP o.regionStart o.regionSize) h
      simp only [M.bind_apply, M.modify_apply]
      cases hcr : onMem (createRegion o.regionStart o.regionSize) o with
      | ub r => rw [hcr] at key; exact key
      | throw e o' => rw [hcr] at key; exact key
      | ok u o' => rw [hcr] at key; exact key
    · rw [if_neg h2]
      exact ⟨h, rfl⟩
  · rw [if_neg h1]
    exact ⟨h, rfl⟩

theorem first_kept {P : Call → Prop} (hP : ∀ b n, P (.createRegion b n)) {h0 : Host} {rs : List Results}
    (hv : ∀ r ∈ rs, Valid r) {o : Obj} {c : Regs} (h : Kept P h0 o.host) (hc : o.host.ctx = c) :
    Sat (fun _ o' => Kept P h0 o'.host ∧ o'.host.ctx = rs.foldl ctxOf c)
      (fun e o' => Kept P h0 o'.host ∧ (∃ k, o'.host.ctx = (rs.take k).foldl ctxOf c) ∧ e.code = .outOfMemory)
      (runAll firstPassHandler rs o) := by
  induction rs generalizing o c with
  | nil => exact ⟨h, hc⟩
  | cons r rs ih =>
    have ih := fun {o c} => @ih (fun x hx => hv x (by simp [hx])) o c
    simp only [runAll, List.foldl_cons]
    refine Sat.bind (Q1 := fun _ o' => Kept P h0 o'.host ∧ o'.host.ctx = ctxOf c r) ?_ ?_
    · cases r with
      | other => exact ⟨h, hc⟩
      | register off v =>
        obtain ⟨q, rfl⟩ := hv _ (by simp : Results.register off v ∈ _)
        simp only [firstPassHandler]
        rw [register_eq q v o, ctxOf_register]
        exact ⟨⟨h.mem, h.files⟩, by rw [hc]⟩
      | memory a vs =>
        exact (memory_kept hP (a := a) (vs := vs) h).mono (fun _ o' h => ⟨h.1, h.2.trans hc⟩)
          fun e o' h => ⟨h.1, ⟨0, h.2.1.trans hc⟩, h.2.2⟩
    · rintro - o' ⟨h1, h2⟩
      refine (ih h1 h2).mono (fun _ _ h => h) ?_
      rintro e o'' ⟨k1, ⟨k, k2⟩, k3⟩
      exact ⟨k1, ⟨k + 1, by rw [k2]; rfl⟩, k3⟩

theorem pass_sat {handler : Results → M Obj Unit} {rs : List Results} {h : Host} {Q : Host → Prop} {E : Exn → Host → Prop}
    (hs : Sat (fun _ o => Q o.host) (fun e o => E e o.host) ((runAll handler rs >>= fun _ => finish) { host := h })) :
    Sat (fun _ => Q) E (pass handler rs h) := by
  unfold pass
  cases hm : (runAll handler rs >>= fun _ => finish) { host := h } <;> rw [hm] at hs <;> exact hs

theorem first_pass_kept {P : Call → Prop} (hP : ∀ b n, P (.createRegion b n)) {h0 : Host} {rs : List Results}
    (hv : ∀ r ∈ rs, Valid r) {h : Host} (hk : Kept P h0 h) :
    Sat (fun _ h' => Kept P h0 h' ∧ h'.ctx = rs.foldl ctxOf h.ctx)
      (fun e h' => Kept P h0 h' ∧ (∃ k, h'.ctx = (rs.take k).foldl ctxOf h.ctx) ∧ e.code = .outOfMemory) (pass firstPassHandler rs h) := by
  refine pass_sat (Sat.bind (first_kept hP hv (o := { host := h }) hk rfl) ?_)
  rintro - o ⟨h1, h2⟩
  unfold finish
  simp only [M.bind_apply, M.get_apply]
  split
  · refine (create_kept (hP _ _) h1).mono (fun _ o' h => ⟨h.1, h.2.trans h2⟩) fun e o' h => ⟨h.1, ⟨rs.length, ?_⟩, h.2.2⟩
    rw [h.2.1, h2, List.take_length]
  · exact ⟨h1, h2⟩

/-- What the second pass keeps besides. -/
structure Kept2 (P : Call → Prop) (h0 h : Host) : Prop where
  kept : Kept P h0 h
  ctx : h.ctx = h0.ctx
  shape : h.mem.regions.map shape = h0.mem.regions.map shape

theorem values_kept {P : Call → Prop} (hP : ∀ w a v, P (.write w a v)) {h0 : Host} {a : U32} {vs : List U32} {i : Nat} {o : Obj}
    (h : Kept2 P h0 o.host) (hz : o.regionSize = 0) :
    Sat (fun _ o' => Kept2 P h0 o'.host ∧ o'.regionSize = 0) (fun e o' => Kept2 P h0 o'.host ∧ e.code = .busError) (writeValues a i vs o) := by
  induction vs generalizing i o with
  | nil => exact ⟨h, hz⟩
  | cons v vs ih =>
    simp only [writeValues]
    refine Sat.bind (Q1 := fun _ o' => Kept2 P h0 o'.host ∧ o'.regionSize = 0) ?_ (fun _ o' h' => ih h'.1 h'.2)
    refine Sat.zoom ?_
    have h1 := write_inv h.kept.mem (w := .w32) (a := a + BitVec.ofNat 32 (i * 4)) (v := v) (hP _ _ _)
    have h2 := write_shape h.kept.mem.1 (w := .w32) (a := a + BitVec.ofNat 32 (i * 4)) (v := v)
    cases hw : IMemory.write .w32 (a + BitVec.ofNat 32 (i * 4)) v o.host.mem with
    | ub r => rw [hw] at h1; exact h1
    | throw e s => rw [hw] at h1; obtain ⟨rfl, rfl⟩ := h1; exact ⟨h, rfl⟩
    | ok u s =>
      rw [hw] at h1 h2
      exact ⟨⟨⟨h1.1, h.kept.files⟩, h.ctx, h2.trans h.shape⟩, hz⟩

theorem second_pass_kept {P : Call → Prop} (hP : ∀ w a v, P (.write w a v)) {h0 : Host} {rs : List Results} {h : Host}
    (hk : Kept2 P h0 h) :
    Sat (fun _ h' => Kept2 P h0 h') (fun e h' => Kept2 P h0 h' ∧ e.code = .busError) (pass secondPassHandler rs h) := by
  have hall : ∀ {rs : List Results} {o : Obj}, Kept2 P h0 o.host → o.regionSize = 0 →
      Sat (fun _ o' => Kept2 P h0 o'.host ∧ o'.regionSize = 0) (fun e o' => Kept2 P h0 o'.host ∧ e.code = .busError)
        (runAll secondPassHandler rs o) := by
    intro rs
    induction rs with
    | nil => exact fun h hz => ⟨h, hz⟩
    | cons r rs ih =>
      intro o h hz
      simp only [runAll]
      refine Sat.bind (Q1 := fun _ o' => Kept2 P h0 o'.host ∧ o'.regionSize = 0) ?_ (fun _ o' h' => ih h'.1 h'.2)
      cases r with
      | other => exact ⟨h, hz⟩
      | register off v => exact ⟨h, hz⟩
      | memory a vs => exact values_kept hP h hz
  refine pass_sat (Sat.bind (hall (o := { host := h }) hk rfl) ?_)
  rintro - o ⟨h1, h2⟩
  unfold finish
  simp only [M.bind_apply, M.get_apply, h2]
  exact h1

/-- Both passes, with the file closed whatever happens. -/
theorem both_sat {rs : List Results} {fails : Bool} {h : Host} {Q1 Q : Host → Prop} {E : Exn → Host → Prop}
    (h1 : Sat (fun _ => Q1) (fun e h' => E e (closed h')) (pass firstPassHandler rs { h with ctx := startCtx h.ctx }))
    (hr : ∀ h', Q1 h' → fails = true → E ⟨.file, asc "Failed to rewind GDB log for second pass."⟩ (closed h'))
    (h2 : ∀ h', Q1 h' → fails = false → Sat (fun _ h'' => Q (closed h'')) (fun e h'' => E e (closed h'')) (pass secondPassHandler rs h')) :
    Sat (fun _ => Q) E (both rs fails h) := by
  unfold both
  refine Sat.catch (E1 := fun e h' => E e (closed h')) ?_ ?_
  · rw [M.bind_ok (show initPSPandMSP h = .ok () { h with ctx := startCtx h.ctx } from rfl)]
    refine Sat.bind h1 ?_
    rintro - h' hq
    refine Sat.bind (Q1 := fun _ h'' => h'' = h' ∧ fails = false) ?_ ?_
    · cases fails with
      | false => exact ⟨rfl, rfl⟩
      | true => exact hr h' hq rfl
    · rintro - h'' ⟨rfl, hf⟩
      refine Sat.bind (h2 h'' hq hf) ?_
      exact fun _ h3 hq => hq
  · exact fun e h' he => he

theorem _root_.Verif.Sat.and {o : Out σ α} {Q Q' : α → σ → Prop} {E E' : Exn → σ → Prop} (h : Sat Q E o) (h' : Sat Q' E' o) :
    Sat (fun a s => Q a s ∧ Q' a s) (fun e s => E e s ∧ E' e s) o := by
  cases o with
  | ok a s => exact ⟨h, h'⟩
  | throw e s => exact ⟨h, h'⟩
  | ub r => exact h

theorem outline_of_shape {s s' : Sim} (h : s'.regions.map shape = s.regions.map shape) : outline s' = outline s := by
  have : ∀ s : Sim, outline s = (s.regions.map shape).map fun x => (x.1, x.2.1.toNat, x.2.2.1) := by
    intro s; simp [outline, shape]
  rw [this, this, h]

theorem outline_runs {s s' : Sim} {rs : List Run} (hl : ∀ r ∈ rs, 4 * r.2.length < 2 ^ 32)
    (h : s'.regions = s.regions ++ rs.map reg) : AddsRuns s s' rs := by
  unfold AddsRuns outline
  rw [h, List.map_append, List.map_map]
  congr 1
  refine List.map_congr_left fun r hr => ?_
  simp [reg, newRegion, Nat.mod_eq_of_lt (hl r hr)]

/-- Without shortage of memory, whatever happens, the regions are those of the runs. -/
theorem both_adds {rs : List Results} {fails : Bool} {h : Host} (hs : Sound h.mem) (hu : Unwatched h.mem)
    (hv : ∀ r ∈ rs, Valid r) (ha : ∀ m ∈ memOf rs, m.1 ≠ 0xFFFFFFFF) (hl : ∀ r ∈ runs (memOf rs), 4 * r.2.length < 2 ^ 32) :
    Sat (fun _ h' => AddsRuns h.mem h'.mem (runs (memOf rs)))
      (fun e h' => ∃ k, AddsRuns h.mem h'.mem ((runs (memOf rs)).take k) ∧ (PlentyOfMemory h.mem → (runs (memOf rs)).length ≤ k))
      (both rs fails h) := by
  have hk : Kept createsOrWrites { h with ctx := startCtx h.ctx } { h with ctx := startCtx h.ctx } := ⟨MemInv.init hs hu, rfl⟩
  have h1 := (first_pass (h := { h with ctx := startCtx h.ctx }) hv ha hl).and
    (first_pass_kept (P := createsOrWrites) (fun _ _ => trivial) hv hk)
  have hfull : ∀ {s' : Sim}, AddsRuns h.mem s' (runs (memOf rs)) →
      ∃ k, AddsRuns h.mem s' ((runs (memOf rs)).take k) ∧ (PlentyOfMemory h.mem → (runs (memOf rs)).length ≤ k) :=
    fun h => ⟨(runs (memOf rs)).length, by rw [List.take_length]; exact h, fun _ => Nat.le_refl _⟩
  refine both_sat (Q1 := fun h' => AddsRuns h.mem h'.mem (runs (memOf rs)) ∧ Sound h'.mem ∧ Unwatched h'.mem) (h1.mono ?_ ?_) ?_ ?_
  · rintro - h' ⟨⟨k1, -⟩, k2, -⟩
    exact ⟨outline_runs hl k1, k2.mem.1, k2.mem.2.1⟩
  · rintro e h' ⟨⟨k1, k2, k, k3⟩, -⟩
    exact ⟨k, outline_runs (fun r hr => hl r (List.mem_of_mem_take hr)) k3, fun hp => absurd hp k2⟩
  · intro h' hq _
    exact hfull hq.1
  · intro h' hq _
    refine (second_pass_kept (P := createsOrWrites) (fun _ _ _ => trivial) (h0 := h') ⟨⟨MemInv.init hq.2.1 hq.2.2, rfl⟩, rfl, rfl⟩).mono ?_ ?_
    · intro _ h'' hk
      exact (outline_of_shape hk.shape).trans hq.1
    · rintro e h'' ⟨hk, -⟩
      exact hfull ((outline_of_shape hk.shape).trans hq.1)

/-- A line that means nothing can be left out. -/
theorem runAll_append (handler : Results → M Obj Unit) (rs ts : List Results) (o : Obj) :
    runAll handler (rs ++ ts) o = (runAll handler rs >>= fun _ => runAll handler ts) o := by
  induction rs generalizing o with
  | nil => rfl
  | cons r rs ih =>
    simp only [List.cons_append, runAll, M.bind_apply]
    cases handler r o with
    | ok a o' => exact ih o'
    | throw e o' => rfl
    | ub r => rfl

theorem runAll_other {handler : Results → M Obj Unit} (hh : ∀ o, handler .other o = .ok () o) (rs ts : List Results) :
    runAll handler (rs ++ .other :: ts) = runAll handler (rs ++ ts) := by
  funext o
  rw [runAll_append, runAll_append]
  simp only [M.bind_apply]
  cases runAll handler rs o with
  | ok a o' => simp only [runAll, M.bind_apply, hh]
  | throw e o' => rfl
  | ub r => rfl

theorem both_other {rs ts : List Results} {f : Bool} : both (rs ++ .other :: ts) f = both (rs ++ ts) f := by
  unfold both pass
  rw [runAll_other (fun o => rfl), runAll_other (fun o => rfl)]

/-- Registers and flags in the context after any lines. -/
theorem ctx_kept {rs : List Results} (hv : ∀ r ∈ rs, Valid r) {c : Regs} (hc : RegsWF c) :
    RegsWF (rs.foldl ctxOf c) ∧ (rs.foldl ctxOf c).psr = c.psr ∧
      ((rs.foldl ctxOf c).flags = c.flags ∨ (rs.foldl ctxOf c).flags = c.flags ||| 1) := by
  induction rs generalizing c with
  | nil => exact ⟨hc, rfl, .inl rfl⟩
  | cons r rs ih =>
    have hr := hv r (by simp)
    obtain ⟨h1, h2, h3⟩ := ih (fun x hx => hv x (by simp [hx])) (ctxOf_wf hr hc)
    simp only [List.foldl_cons]
    have key : (ctxOf c r).psr = c.psr ∧ ((ctxOf c r).flags = c.flags ∨ (ctxOf c r).flags = c.flags ||| 1) := by
      cases r with
      | memory a vs => exact ⟨rfl, .inl rfl⟩
      | other => exact ⟨rfl, .inl rfl⟩
      | register off v =>
        obtain ⟨q, rfl⟩ := hr
        rw [ctxOf_register]
        cases q with
        | core i => exact ⟨rfl, .inl rfl⟩
        | float i =>
          refine ⟨rfl, ?_⟩
          unfold setReg
          simp only [Reg.isFloat]
          split
          · exact .inr rfl
          · exact .inl rfl
    refine ⟨h1, h2.trans key.1, ?_⟩
    rcases h3 with h3 | h3 <;> rcases key.2 with h4 | h4 <;> rw [h3, h4]
    · exact .inl rfl
    · exact .inr rfl
    · exact .inr rfl
    · right; rw [BitVec.or_assoc]; rfl

theorem startCtx_wf {c : Regs} (h : RegsWF c) : RegsWF (startCtx c) := by
  obtain ⟨h1, h2⟩ := h
  exact ⟨by simp [startCtx, h1], h2⟩

/-- Any lines, any outcome. -/
theorem both_safe {rs : List Results} {fails : Bool} {h : Host} (hs : Sound h.mem) (hu : Unwatched h.mem) (hv : ∀ r ∈ rs, Valid r) :
    Sat (fun _ h' => MemInv createsOrWrites h.mem h'.mem ∧ h'.files = { h.files with live := h.files.live - 1 } ∧
        h'.ctx = rs.foldl ctxOf (startCtx h.ctx))
      (fun e h' => MemInv createsOrWrites h.mem h'.mem ∧ h'.files = { h.files with live := h.files.live - 1 } ∧
        (∃ k, h'.ctx = (rs.take k).foldl ctxOf (startCtx h.ctx)) ∧ e.code ∈ [Exc.file, .outOfMemory, .busError] ∧
        (e.code ≠ .outOfMemory → h'.ctx = rs.foldl ctxOf (startCtx h.ctx)))
      (both rs fails h) := by
  have hk : Kept createsOrWrites { h with ctx := startCtx h.ctx } { h with ctx := startCtx h.ctx } := ⟨MemInv.init hs hu, rfl⟩
  refine both_sat (Q1 := fun h' => Kept createsOrWrites { h with ctx := startCtx h.ctx } h' ∧ h'.ctx = rs.foldl ctxOf (startCtx h.ctx))
    ((first_pass_kept (P := createsOrWrites) (fun _ _ => trivial) hv hk).mono ?_ ?_) ?_ ?_
  · exact fun _ h' h => h
  · rintro e h' ⟨k1, k2, k3⟩
    exact ⟨k1.mem, by simp [closed, k1.files], k2, by simp [k3], fun hn => absurd k3 hn⟩
  · rintro h' ⟨k1, k2⟩ -
    exact ⟨k1.mem, by simp [closed, k1.files], ⟨rs.length, by rw [List.take_length]; exact k2⟩, by simp, fun _ => k2⟩
  · rintro h' ⟨k1, k2⟩ -
    have hk2 : Kept2 createsOrWrites h' h' := ⟨⟨MemInv.init k1.mem.1 k1.mem.2.1, rfl⟩, rfl, rfl⟩
    refine (second_pass_kept (P := createsOrWrites) (fun _ _ _ => trivial) hk2).mono ?_ ?_
    · intro _ h'' hk
      refine ⟨⟨hk.kept.mem.1, hk.kept.mem.2.1, k1.mem.2.2.trans hk.kept.mem.2.2⟩, ?_, hk.ctx.trans k2⟩
      simp [closed, hk.kept.files, k1.files]
    · rintro e h'' ⟨hk, he⟩
      refine ⟨⟨hk.kept.mem.1, hk.kept.mem.2.1, k1.mem.2.2.trans hk.kept.mem.2.2⟩, ?_,
        ⟨rs.length, by rw [List.take_length]; exact hk.ctx.trans k2⟩, by simp [he], fun _ => hk.ctx.trans k2⟩
      simp [closed, hk.kept.files, k1.files]

/-! ### Lines of any kind -/

theorem results_any {ts : List Str} (h : AnyLines ts) : results ts.flatten = ts.map resultOf := by
  unfold results
  induction h with
  | nil => rfl
  | @last l h =>
    rw [List.flatten_singleton, chunks_last h]
    simp only [List.map_cons, List.map_nil]
    rw [cstr_line (fun c hc => (h.2.1 c hc).2)]
  | @cons l ls h _ ih =>
    rw [List.flatten_cons, chunks_line h]
    simp only [List.map_cons]
    rw [cstr_line (isLine_nonul h), ih]

theorem resultOf_register {line : Str} {off : Nat} {v : U32} (h : resultOf line = .register off v) :
    ∃ r : Reg, off = offsetOf r ∧ r.field <+: line := by
  have h1 := resultOf_spec line { host := { mem := { heap := { fails := fun _ => false } }, files := { opens := fun _ _ => none } } }
  rw [h] at h1
  by_cases hr : LikeRegister line
  · obtain ⟨r, t, rfl⟩ := hr
    rw [parse_field] at h1
    cases h1
    exact ⟨r, rfl, t, rfl⟩
  · exfalso
    unfold parseLine at h1
    have hn : isRegisterLine line = none := by
      cases e : isRegisterLine line with
      | none => rfl
      | some x => exact absurd (likeRegister_iff.1 (by rw [e]; rfl)) hr
    rw [hn] at h1
    split at h1
    · unfold parseMemoryLine at h1
      split at h1
      · cases h1
      · rw [M.bind_apply] at h1
        split at h1 <;> cases h1
    · cases h1

theorem resultOf_field {line : Str} {r : Reg} (h : r.field <+: line) : ∃ v, resultOf line = .register (offsetOf r) v := by
  obtain ⟨t, rfl⟩ := h
  exact ⟨_, resultOf_eq (parse_field r t)⟩

theorem field_inj {r q : Reg} {line : Str} (h : r.field <+: line) (h' : q.field <+: line) : r = q := by
  obtain ⟨v, e⟩ := resultOf_field h
  obtain ⟨w, e'⟩ := resultOf_field h'
  rw [e] at e'
  exact offsetOf_inj (Results.register.inj e').1

/-- Some line begins with one of s0 to s31. -/
def FloatIn (ts : List Str) : Prop := ∃ t ∈ ts, ∃ r : Reg, r.isFloat = true ∧ r.field <+: t

theorem flags_any (ts : List Str) (c : Regs) :
    (FloatIn ts → ((ts.map resultOf).foldl ctxOf c).flags = c.flags ||| 1) ∧
      (¬ FloatIn ts → ((ts.map resultOf).foldl ctxOf c).flags = c.flags) := by
  induction ts generalizing c with
  | nil =>
    refine ⟨?_, fun _ => rfl⟩
    rintro ⟨t, ht, -⟩
    cases ht
  | cons t ts ih =>
    simp only [List.map_cons, List.foldl_cons]
    obtain ⟨ih1, ih2⟩ := ih (ctxOf c (resultOf t))
    by_cases hf : ∃ r : Reg, r.isFloat = true ∧ r.field <+: t
    · obtain ⟨r, h1, h2⟩ := hf
      obtain ⟨v, e⟩ := resultOf_field h2
      have hfl : (ctxOf c (resultOf t)).flags = c.flags ||| 1 := by
        rw [e, ctxOf_register]
        cases r with
        | core i => cases h1
        | float i =>
          have h1' : i.val < 32 := by simpa [Reg.isFloat] using h1
          unfold setReg
          simp only [if_pos h1']
      refine ⟨fun _ => ?_, fun hn => absurd ⟨t, by simp, r, h1, h2⟩ hn⟩
      by_cases hx : FloatIn ts
      · rw [ih1 hx, hfl, BitVec.or_assoc]; rfl
      · rw [ih2 hx, hfl]
    · have hfl : (ctxOf c (resultOf t)).flags = c.flags := by
        cases e : resultOf t with
        | memory a vs => rfl
        | other => rfl
        | register off v =>
          obtain ⟨r, rfl, h2⟩ := resultOf_register e
          rw [ctxOf_register]
          cases r with
          | core i => rfl
          | float i =>
            have : ¬ i.val < 32 := fun h1 => hf ⟨_, by simpa [Reg.isFloat] using h1, h2⟩
            unfold setReg
            simp only [if_neg this]
      rw [hfl] at ih1 ih2
      refine ⟨?_, fun hn => ih2 fun ⟨x, hx, h⟩ => hn ⟨x, by simp [hx], h⟩⟩
      rintro ⟨x, hx, h⟩
      rcases List.mem_cons.1 hx with rfl | hx
      · exact absurd h hf
      · exact ih1 ⟨x, hx, h⟩

theorem get_any {ts : List Str} {c : Regs} (h : RegsWF c) {r : Reg} (hn : ∀ t ∈ ts, ¬ r.field <+: t) :
    r.get ((ts.map resultOf).foldl ctxOf c) = r.get c := by
  induction ts generalizing c with
  | nil => rfl
  | cons t ts ih =>
    simp only [List.map_cons, List.foldl_cons]
    rw [ih (ctxOf_wf (resultOf_valid t) h) (fun x hx => hn x (by simp [hx]))]
    cases e : resultOf t with
    | memory a vs => rfl
    | other => rfl
    | register off v =>
      obtain ⟨q, rfl, h2⟩ := resultOf_register e
      rw [ctxOf_register, get_setReg h, if_neg]
      rintro rfl
      exact hn t (by simp) h2

theorem get_start {c : Regs} (h : RegsWF c) (r : Reg) : r.get (startCtx c) =
    if r = .core 17 ∨ r = .core 18 then some 0xBAADBAAD else r.get c := by
  obtain ⟨h1, -⟩ := h
  cases r with
  | float i => simp [Reg.get, startCtx]
  | core i =>
    simp only [Reg.get, startCtx, List.getElem?_set, regMSP, regPSP, List.length_set, h1, Reg.core.injEq, Fin.ext_iff]
    by_cases h18 : i.val = 18
    · simp [h18]; rfl
    · by_cases h17 : i.val = 17
      · simp [h17]; rfl
      · rw [if_neg (Ne.symm h18), if_neg (Ne.symm h17), if_neg (fun h => h.elim h17 h18)]

end Verif.GdbLog
