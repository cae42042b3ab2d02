import Verif.Props.Platform
/-
C87: registers over a session.
-/
namespace Verif.Props
open Verif MemSim Spec Platform

theorem ctx_step {c : PCall} {p q : Plat} (hc : c ≠ .copyFrom) (h : PStep c p q) : q.ctx = p.ctx := by
  by_cases hs : c.changesState = false
  · exact (unchanged_step hs h).1
  · cases c with
    | memWrite w a v =>
      have he := step_ends h
      change Ends (memWrite w a v p) q at he
      cases e : IMemory.write w a v p.mem with
      | ok u s => rw [memWrite_ok e] at he; cases ends_ok he; rfl
      | throw x s =>
        rw [memWrite_fault e] at he
        split at he
        · cases ends_ok he; rfl
        · exact (ends_ub he).elim
      | ub r => rw [memWrite_ub e] at he; exact (ends_ub he).elim
    | copyFrom => exact (hc rfl).elim
    | _ => exact (hs rfl).elim

/-- What stays the same in the context, and how many registers there are. -/
structure SameKind (c d : Regs) : Prop where
  flags : d.flags = c.flags
  psr : d.psr = c.psr
  r : d.r.length = c.r.length
  fpr : d.fpr.length = c.fpr.length
  hidden : hasFloat c.flags = false → d.fpr = c.fpr

theorem SameKind.refl (c : Regs) : SameKind c c := ⟨rfl, rfl, rfl, rfl, fun _ => rfl⟩
theorem SameKind.trans {a b c : Regs} (h : SameKind a b) (k : SameKind b c) : SameKind a c :=
  ⟨k.flags.trans h.flags, k.psr.trans h.psr, k.r.trans h.r, k.fpr.trans h.fpr,
    fun hf => (k.hidden (h.flags ▸ hf)).trans (h.hidden hf)⟩

theorem copyFrom_step {p q : Plat} (h : PStep .copyFrom p q) :
    ∃ bs, PacketGives (remaining p.buf) (packetBytes p.ctx).length bs ∧
      packetBytes q.ctx = overwrite (packetBytes p.ctx) bs ∧ SameKind p.ctx q.ctx := by
  have he : Ends (copyContextFromBuffer p) q := step_ends h
  rcases C73_any_packet p with ⟨t, bs, u, r, fpr, h1, h2, h3, h4, h5, h6, h7⟩ | ⟨t, bs, u, c, r, fpr, b, h1, h2, h3, h4, h5, h6, h7, h8, h9, h10⟩
  · rw [h7] at he
    cases ends_ok he
    refine ⟨bs, ⟨t, u, h1, h2, .inl h3⟩, ?_, ⟨rfl, rfl, h5, ?_, ?_⟩⟩
    · unfold overwrite
      rw [h3, List.drop_length, List.append_nil, ← h4]
      cases hf : hasFloat p.ctx.flags <;> simp [packetBytes, hf]
    · show (if _ then fpr else _).length = _
      split <;> simp [h6]
    · intro hf
      show (if _ then fpr else _) = _
      rw [hf]; rfl
  · rw [h5] at he
    rcases he with ⟨a, ha⟩ | ⟨e, ha⟩ <;> cases ha
    exact ⟨bs, ⟨t, u, h1, h2, .inr ⟨h3, c, h4⟩⟩, h10, ⟨rfl, rfl, h7, h8, h9⟩⟩

theorem not_bad {hi lo : U8} {x y : Nat} {t : Str} {c : Exc} (hx : hexDigit hi = some x) (hy : hexDigit lo = some y) :
    ¬ BadPair (hi :: lo :: t) c := by
  rintro (⟨h, -⟩ | ⟨hi', u, h, h1, -⟩ | ⟨hi', x', h, -⟩ | ⟨hi', x', lo', u, h, -, h2, -⟩)
  · cases h
  · cases h; rw [hx] at h1; cases h1
  · cases h
  · cases h; rw [hy] at h2; cases h2

/-- A text gives one sequence of bytes. -/
theorem gives_unique {t bs bs' : Str} {n : Nat} (h : PacketGives t n bs) (h' : PacketGives t n bs') : bs = bs' := by
  obtain ⟨s, u, rfl, h1, h2⟩ := h
  obtain ⟨s', u', e, h1', h2'⟩ := h'
  induction h1 generalizing s' bs' n with
  | nil =>
    cases h1' with
    | nil => rfl
    | cons hx hy hb k =>
      rcases h2 with h2 | ⟨-, c, h2⟩
      · have : n = 0 := h2.symm
        subst this
        rcases h2' with h2' | ⟨h2', -⟩ <;> simp at h2'
      · rw [List.nil_append] at e
        rw [e] at h2
        exact (not_bad hx hy h2).elim
  | @cons hi lo x y t bs b hx hy hb k ih =>
    cases h1' with
    | nil =>
      rcases h2' with h2' | ⟨-, c, h2'⟩
      · have : n = 0 := h2'.symm
        subst this
        rcases h2 with h2 | ⟨h2, -⟩ <;> simp at h2
      · rw [List.nil_append] at e
        rw [← e] at h2'
        exact (not_bad hx hy h2').elim
    | @cons hi' lo' x' y' t' bs' b' hx' hy' hb' k' =>
      simp only [List.cons_append, List.cons.injEq] at e
      obtain ⟨rfl, rfl, e⟩ := e
      rw [hx] at hx'; rw [hy] at hy'
      cases hx'; cases hy'
      have : b = b' := BitVec.eq_of_toNat_eq (hb.trans hb'.symm)
      subst this
      have hpos : n = (n - 1) + 1 := by
        rcases h2 with h2 | ⟨h2, -⟩ <;> simp at h2 <;> omega
      have down : ∀ {m : Nat} {u : Str}, (m + 1 = n ∨ m + 1 < n ∧ ∃ c, BadPair u c) → (m = n - 1 ∨ m < n - 1 ∧ ∃ c, BadPair u c) := by
        rintro m u (h | ⟨h, h'⟩)
        · left; omega
        · right; exact ⟨by omega, h'⟩
      exact congrArg (b :: ·) (ih (down h2) t' e k' (down h2'))

theorem writes_registers {p q : Plat} {cs : List PCall} {ws : List Str} (h : RegisterWrites p cs q ws) :
    packetBytes q.ctx = ws.foldl overwrite (packetBytes p.ctx) ∧ SameKind p.ctx q.ctx := by
  induction h with
  | nil p => exact ⟨rfl, .refl _⟩
  | @write p p1 p2 cs bs ws hs hb _ ih =>
    obtain ⟨bs', k1, k2, k3⟩ := copyFrom_step hs
    cases gives_unique hb k1
    exact ⟨by rw [ih.1, k2]; rfl, k3.trans ih.2⟩
  | other hc hs _ ih =>
    have e := ctx_step hc hs
    exact ⟨by rw [ih.1, e], e ▸ ih.2⟩
  | packet b c _ ih => exact ih

/-- C87. In every session, whatever the packets contain, the register packets give well-defined bytes. -/
theorem C87_packets_give_bytes {p q : Plat} {cs : List PCall} (h : PHist p cs q) : ∃ ws, RegisterWrites p cs q ws := by
  induction h with
  | nil p => exact ⟨[], .nil p⟩
  | @cons p p1 p2 c cs hs _ ih =>
    obtain ⟨ws, h1⟩ := ih
    by_cases hc : c = .copyFrom
    · subst hc
      obtain ⟨bs, k1, -⟩ := copyFrom_step hs
      exact ⟨bs :: ws, .write hs k1 h1⟩
    · exact ⟨ws, .other hc hs h1⟩
  | packet b c _ ih =>
    obtain ⟨ws, h1⟩ := ih
    exact ⟨ws, .packet b c h1⟩

/-- C87. At every point of a session the registers sent to GDB are those of the start of the session, with the bytes of the
register packets GDB has sent since written over them in order. The flags and the PSR of the exception never change, nor do
floating point registers which GDB is not shown. -/
theorem C87_registers_over_session {p q : Plat} {cs : List PCall} {ws : List Str} (h : RegisterWrites p cs q ws) (hp : RegsWF p.ctx)
    (hb : q.buf.pos = 0) (hroom : packetBufferSize ≤ q.buf.data.length) :
    (∃ b, copyContextToBuffer q = .ok () { q with buf := b } ∧ written b = hexOf (ws.foldl overwrite (packetBytes p.ctx))) ∧
      q.ctx.flags = p.ctx.flags ∧ q.ctx.psr = p.ctx.psr ∧ (hasFloat p.ctx.flags = false → q.ctx.fpr = p.ctx.fpr) := by
  obtain ⟨h2, h3⟩ := writes_registers h
  have hw : RegsWF q.ctx := ⟨h3.r.trans hp.1, h3.fpr.trans hp.2⟩
  have := C60_room hw
  obtain ⟨b, e1, e2, -, -⟩ := C60_sent (p := q) (by rw [hb]; omega)
  refine ⟨⟨b, e1, ?_⟩, h3.flags, h3.psr, h3.hidden⟩
  rw [e2, h2, written, hb]
  rfl

theorem copyFrom_some (p : Plat) : ∃ q, PStep .copyFrom p q := by
  rcases C73_any_packet p with ⟨t, bs, u, r, fpr, -, -, -, -, -, -, h⟩ | ⟨t, bs, u, c, r, fpr, b, -, -, -, -, h, -⟩
  · exact ⟨_, .inl h⟩
  · exact ⟨_, .inr ⟨_, h⟩⟩

/-- Two good bytes and a bad character. -/
theorem gives_two {n : Nat} (h : 2 < n) : PacketGives (asc "123Gz") n [0x12] ∧ PacketGives (asc "1234z") n [0x12, 0x34] := by
  have e1 : asc "123Gz" = [0x31, 0x32] ++ [0x33, 0x47, 0x7a] := by decide +kernel
  have e2 : asc "1234z" = [0x31, 0x32, 0x33, 0x34] ++ [0x7a] := by decide +kernel
  refine ⟨⟨_, _, e1, .cons (x := 1) (y := 2) (by decide) (by decide) (by decide) .nil,
    .inr ⟨by simp; omega, .invalidHexDigit, .inr (.inr (.inr ⟨_, 3, _, _, rfl, by decide, by decide, rfl⟩))⟩⟩, ⟨_, _, e2, ?_, .inr ⟨by simp; omega, .invalidHexDigit, .inr (.inl ⟨_, _, rfl, by decide, rfl⟩)⟩⟩⟩
  exact .cons (x := 1) (y := 2) (by decide) (by decide) (by decide) (.cons (x := 3) (y := 4) (by decide) (by decide) (by decide) .nil)

/-- A session: memory is written, GDB sends two bad register packets. -/
example : ∃ q, RegisterWrites platDemo [.memWrite .w32 0xE000ED28 5, .copyFrom, .copyFrom] q [[0x12, 0x34], [0x12]] ∧ RegsWF platDemo.ctx ∧
    q.buf.pos = 0 ∧ packetBufferSize ≤ q.buf.data.length ∧
    ([[0x12, 0x34], [0x12]].foldl overwrite (packetBytes platDemo.ctx)).take 5 = [0x12, 0x34, 0, 0, 1] := by
  obtain ⟨p1, s1⟩ : ∃ p1, PStep (.memWrite .w32 0xE000ED28 5) platDemo p1 := ⟨_, .inl rfl⟩
  have c1 := ctx_step (by simp) s1
  obtain ⟨p2, s2⟩ := copyFrom_some { p1 with buf := { data := asc "1234z" }, code := none }
  obtain ⟨p3, s3⟩ := copyFrom_some { p2 with buf := { data := asc "123Gz" }, code := none }
  have n1 : 2 < (packetBytes p1.ctx).length := by rw [c1]; decide +kernel
  have n2 : 2 < (packetBytes p2.ctx).length := by
    obtain ⟨bs, -, e, -⟩ := copyFrom_step s2
    rw [e]
    unfold overwrite
    have : (packetBytes ({ p1 with buf := { data := asc "1234z" }, code := none } : Plat).ctx).length = (packetBytes p1.ctx).length := rfl
    simp only [List.length_append, List.length_drop]
    omega
  refine ⟨_, .other (by simp) s1 (.packet _ none (.write s2 (gives_two n1).2 (.packet _ none (.write s3 (gives_two n2).1
    (.packet { data := List.replicate packetBufferSize 0 } none (.nil _)))))), ⟨rfl, rfl⟩, rfl, by simp, by decide +kernel⟩

end Verif.Props
