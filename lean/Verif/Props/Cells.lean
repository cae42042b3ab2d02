import Verif.Spec.Cell
import Verif.Props.Session
/-
C84: what GDB reads during a session.
-/
namespace Verif.Props
open Verif MemSim Spec CommandLine Platform Main

theorem skeleton_get {s s' : Sim} (h : skeleton s' = skeleton s) {i : Nat} {r : Region} (hr : s.regions[i]? = some r) :
    ∃ r', s'.regions[i]? = some r' ∧ shape r' = shape r ∧ r'.isReadOnly = r.isReadOnly := by
  have h1 : (skeleton s)[i]? = some (shape r, r.isReadOnly) := by simp [skeleton, hr]
  rw [← h] at h1
  unfold skeleton at h1
  rw [List.getElem?_map] at h1
  cases e : s'.regions[i]? with
  | none => rw [e] at h1; cases h1
  | some r' =>
    rw [e] at h1
    have := Option.some.inj h1
    exact ⟨r', rfl, congrArg Prod.fst this, congrArg Prod.snd this⟩

theorem covers_shape {r r' : Region} (h : shape r' = shape r) {a : U32} {n : Nat} : Covers r' a n ↔ Covers r a n := by
  obtain ⟨h1, h2, -⟩ := shape_eq h
  unfold Covers
  rw [h1, h2]

theorem firstCover_skeleton {s s' : Sim} (h : skeleton s' = skeleton s) {a : U32} {n k : Nat} {q : Region}
    (hf : FirstCover s.regions a n k q) : ∃ q', FirstCover s'.regions a n k q' ∧ shape q' = shape q ∧ q'.isReadOnly = q.isReadOnly := by
  obtain ⟨h1, h2, h3⟩ := hf
  obtain ⟨q', k1, k2, k3⟩ := skeleton_get h h1
  refine ⟨q', ⟨k1, (covers_shape k2).2 h2, ?_⟩, k2, k3⟩
  intro j hj p hp hc
  obtain ⟨p', m1, m2, -⟩ := skeleton_get h.symm hp
  exact h3 j hj p' m1 ((covers_shape m2).2 hc)

theorem target_skeleton {s s' : Sim} (h : skeleton s' = skeleton s) {a : U32} {n i off : Nat} {r : Region} (ht : Target s a n i r off) :
    ∃ r', Target s' a n i r' off ∧ s'.regions[i]? = some r' ∧ shape r' = shape r ∧ r'.isReadOnly = r.isReadOnly := by
  obtain ⟨k, q, hf, hx⟩ := ht
  obtain ⟨q', k1, k2, k3⟩ := firstCover_skeleton h hf
  obtain ⟨e1, e2, e3, e4, e5⟩ := shape_eq k2
  cases ha : q.isAlias with
  | true =>
    simp only [ha, if_true] at hx
    obtain ⟨r', m1, m2, m3⟩ := skeleton_get h hx.2.1
    refine ⟨r', ⟨k, q', k1, ?_⟩, m1, m2, m3⟩
    simp only [e3, ha, if_true]
    exact ⟨e4.trans hx.1, m1, by rw [(shape_eq m2).1, e1, e5]; exact hx.2.2⟩
  | false =>
    simp only [ha, Bool.false_eq_true, if_false] at hx
    obtain ⟨rfl, rfl, rfl⟩ := hx
    refine ⟨q', ⟨k, q', k1, ?_⟩, k1.1, k2, k3⟩
    rw [if_neg (by rw [e3, ha]; simp)]
    exact ⟨rfl, rfl, by rw [e1]⟩

theorem puts_skeleton {s s' : Sim} (h : skeleton s' = skeleton s) {c : PCall} {i off : Nat} {b : U8} (hp : Puts s c i off b) :
    Puts s' c i off b := by
  obtain ⟨w, a, v, r, o, h1, h2, h3, h4⟩ := hp
  obtain ⟨r', k1, -, -, k4⟩ := target_skeleton h h2
  exact ⟨w, a, v, r', o, h1, k1, k4.trans h3, h4⟩

/-- Byte number `off` of region number `i`. -/
def cell (s : Sim) (i off : Nat) : Option U8 := s.regions[i]?.bind fun r => r.data[off]?

theorem cell_contents {s s' : Sim} (h : contents s' = contents s) (i off : Nat) : cell s' i off = cell s i off := by
  have key : ∀ t : Sim, cell t i off = (contents t)[i]?.bind fun r => r.data[off]? := by
    intro t
    unfold cell contents
    rw [List.getElem?_map]
    cases t.regions[i]? <;> rfl
  rw [key, key, h]

/-- The effect of one call on one byte. -/
theorem step_cell {c : PCall} {p q : Plat} (hp : OK p) (h : PStep c p q) (i off : Nat) :
    (∃ b, Puts p.mem c i off b ∧ cell q.mem i off = some b) ∨
    (∀ b, ¬ Puts p.mem c i off b) ∧ cell q.mem i off = cell p.mem i off := by
  cases c with
  | memWrite w a v =>
    have he : Ends (memWrite w a v p) q := step_ends h
    cases e : IMemory.write w a v p.mem with
    | ub r => rw [memWrite_ub e] at he; exact (ends_ub he).elim
    | throw x s =>
      have hf := C04_write_faults_iff (w := w) (a := a) (v := v) hp.sound
      obtain ⟨h1, h2⟩ := hf.2 x s e
      have hno := hf.1.1 ⟨[], s, by rw [e, h1]⟩
      rw [memWrite_fault e] at he
      split at he
      · cases ends_ok he
        right
        refine ⟨?_, by rw [h2]⟩
        rintro b ⟨w', a', v', r, o, hc, ht, hro, -⟩
        cases hc
        rcases hno with hm | ⟨i', r', o', ht', hro'⟩
        · obtain ⟨k, q, hfc, -⟩ := ht
          exact hm ⟨q, List.mem_of_getElem? hfc.1, hfc.2.1⟩
        · obtain ⟨-, rfl, -⟩ := ht.unique ht'
          rw [hro] at hro'; cases hro'
      · exact (ends_ub he).elim
    | ok u s =>
      rw [memWrite_ok e] at he
      cases ends_ok he
      obtain ⟨i', r, o, d, ht, hreg, hin, hout, -⟩ := C03_write_frame hp.sound e
      have hro : r.isReadOnly = false := by
        obtain ⟨i2, r2, o2, ht2, hro2, -⟩ := write_ok hp.sound e
        obtain ⟨-, rfl, -⟩ := ht.unique ht2
        exact hro2
      have hget := (ht.info hp.sound).get
      have hc : cell s i' off = d[off]? := by
        unfold cell
        rw [hreg, List.getElem?_set_self (List.getElem?_eq_some_iff.1 hget).1]
        rfl
      by_cases hi : i' = i
      · subst hi
        by_cases ho : o ≤ off ∧ off < o + w.bytes
        · left
          refine ⟨byteOf v (off - o), ⟨w, a, v, r, o, rfl, ht, hro, ho.1, ho.2, rfl⟩, ?_⟩
          show cell s i' off = _
          rw [hc, ← hin (off - o) (by omega)]
          congr 1
          omega
        · right
          constructor
          · rintro b ⟨w', a', v', r', o', hcc, ht', -, h3, h4, -⟩
            cases hcc
            obtain ⟨-, -, rfl⟩ := ht.unique ht'
            exact ho ⟨h3, h4⟩
          · show cell s i' off = _
            rw [hc, hout off (by omega)]
            unfold cell
            rw [hget]
            rfl
      · right
        constructor
        · rintro b ⟨w', a', v', r', o', hcc, ht', -⟩
          cases hcc
          exact hi (ht.unique ht').1
        · show cell s i off = _
          unfold cell
          rw [hreg, List.getElem?_set_ne hi]
  | copyFrom =>
    right
    refine ⟨fun b ⟨_, _, _, _, _, hc, _⟩ => (by cases hc), ?_⟩
    have : contents q.mem = contents p.mem :=
      copyFrom_ends (R := fun p q => contents q.mem = contents p.mem) (fun _ => rfl) (fun _ _ _ h1 h2 => h2.trans h1) (fun _ _ => rfl)
        (fun _ _ => rfl) (fun _ _ => rfl) p q (step_ends h)
    exact cell_contents this i off
  | _ =>
    right
    exact ⟨fun b ⟨_, _, _, _, _, hc, _⟩ => (by cases hc), cell_contents (unchanged_step rfl h).2 i off⟩

/-- The effect of a history on one byte. -/
theorem hist_cell {cs : List PCall} {p q : Plat} (hp : OK p) (h : PHist p cs q) (i off : Nat) :
    (NeverPut p.mem cs i off ∧ cell q.mem i off = cell p.mem i off) ∨ ∃ b, LastPut p.mem cs i off b ∧ cell q.mem i off = some b := by
  induction h with
  | nil => exact .inl ⟨fun c hc => by simp at hc, rfl⟩
  | packet b c _ ih => exact ih ⟨hp.1, hp.2, hp.3⟩
  | cons hs _ ih =>
    rename_i p p1 p2 c cs _
    have hk := step_skeleton hp hs
    have hto : ∀ {c b}, Puts p.mem c i off b → Puts p1.mem c i off b := fun h => puts_skeleton hk h
    have hfrom : ∀ {c b}, Puts p1.mem c i off b → Puts p.mem c i off b := fun h => puts_skeleton hk.symm h
    rcases ih (step_ok hp hs) with ⟨h1, h2⟩ | ⟨b, ⟨xs, c', ys, h1, h3, h4⟩, h2⟩
    · rcases step_cell hp hs i off with ⟨b, h3, h4⟩ | ⟨h3, h4⟩
      · exact .inr ⟨b, ⟨[], c, cs, rfl, h3, fun c' hc b' hb => h1 c' hc b' (hto hb)⟩, h2.trans h4⟩
      · refine .inl ⟨?_, h2.trans h4⟩
        intro c' hc b hb
        rcases List.mem_cons.1 hc with rfl | hc
        · exact h3 b hb
        · exact h1 c' hc b (hto hb)
    · exact .inr ⟨b, ⟨c :: xs, c', ys, by rw [h1]; rfl, hfrom h3, fun c hc b' hb => h4 c hc b' (hto hb)⟩, h2⟩

/-- A read of mapped memory, in terms of bytes. -/
theorem read_cells {p : Plat} (hp : OK p) {w : Width} {a : U32} {i off : Nat} {r : Region} (ht : Target p.mem a w.bytes i r off) :
    ∃ v p', memRead w a p = .ok v p' ∧ ∀ j < w.bytes, cell p.mem i (off + j) = some (byteOf v j) := by
  have hr := read_sat hp.sound hp.quiet w a
  cases e : IMemory.read w a p.mem with
  | ub u => rw [e] at hr; exact hr.elim
  | throw x s =>
    rw [e] at hr
    obtain ⟨rfl, rfl⟩ := hr
    obtain ⟨k, q, hfc, -⟩ := ht
    exact (((C04_read_faults_iff_unmapped (w := w) (a := a) hp.sound).1.1 ⟨[], _, e⟩)
      ⟨q, List.mem_of_getElem? hfc.1, hfc.2.1⟩).elim
  | ok v s =>
    refine ⟨v, _, memRead_ok e, fun j hj => ?_⟩
    unfold cell
    rw [(ht.info hp.sound).get]
    exact read_bytes hp.sound ht e j hj

/-- C84. What GDB reads at any point of a session, through whatever address: each byte has the value it got from the last write
that went to it, in whatever width and through whatever address that was made, or else the value that it had at the start
of the session. -/
theorem C84_reads_last_write {args : List Str} {os : List Opt} {p q : Prog} {w : World} {cs : List PCall} {pl : Plat}
    (hs : Spelled args os) (hq : startUp args p = .ok () q) (ha : AliasesLoaded (aliases os) q.host.mem)
    (h : PHist (platform w q) cs pl) {wd : Width} {a : U32} {i off : Nat} {r : Region} (ht : Target q.host.mem a wd.bytes i r off) :
    ∃ v0 p0 v p1, memRead wd a (platform w q) = .ok v0 p0 ∧ memRead wd a pl = .ok v p1 ∧
      ∀ j < wd.bytes, (byteOf v j = byteOf v0 j ∧ NeverPut q.host.mem cs i (off + j)) ∨ LastPut q.host.mem cs i (off + j) (byteOf v j) := by
  have h0 : OK (platform w q) := (session_ok hs hq ha (PHist.nil _)).1
  have h1 : OK pl := (session_ok hs hq ha h).1
  obtain ⟨r', ht', -⟩ := target_skeleton (hist_skeleton h0 h) ht
  obtain ⟨v0, p0, e0, b0⟩ := read_cells (p := platform w q) h0 ht
  obtain ⟨v, p1, e1, b1⟩ := read_cells h1 ht'
  refine ⟨v0, p0, v, p1, e0, e1, fun j hj => ?_⟩
  rcases hist_cell h0 h i (off + j) with ⟨k1, k2⟩ | ⟨b, k1, k2⟩
  · left
    rw [b1 j hj, b0 j hj] at k2
    exact ⟨Option.some.inj k2, k1⟩
  · right
    rw [b1 j hj] at k2
    rw [Option.some.inj k2]
    exact k1

/-- For evaluating in the kernel: after the session the word at this address is mapped, and reads as `v0` before and `v` after. -/
def sessionReads (o : Out Prog Unit) (cs : List PCall) (a v0 v : U32) : Bool :=
  match o with
  | .ok _ q =>
    decide (q.host.mem.regions.length ≤ 19522578 ∧ Mapped q.host.mem a 4) &&
    match runCalls cs (platform reading q) with
    | some pl =>
      match memRead .w32 a (platform reading q), memRead .w32 a pl with
      | .ok x _, .ok y _ => decide (x.toNat = v0.toNat ∧ y.toNat = v.toNat)
      | _, _ => false
    | none => false
  | _ => false

/-- The hypotheses of C84 are met: GDB writes the byte at 0x51 through the alias of 0x20000000 (and tries in vain to write
elsewhere), and this shows in the word at 0x20000000. -/
example : ∃ q pl i r off, startUp argsAlias progExample = .ok () q ∧ q.host.mem.regions.length ≤ 19522578 ∧
    PHist (platform reading q) sessionCalls pl ∧ Target q.host.mem 0x20000000 4 i r off := by
  have h : sessionReads (startUp argsAlias progExample) sessionCalls 0x20000000 0x04030201 0x04030701 = true := by decide +kernel
  unfold sessionReads at h
  split at h
  · rename_i q e
    simp only [Bool.and_eq_true, decide_eq_true_eq] at h
    obtain ⟨⟨h1, h2⟩, h3⟩ := h
    split at h3
    · rename_i pl e'
      have hc : NoAliasChain (aliases (.alias (asc "0x50") (asc "4") (asc "0x20000000") :: optsElf)) := by simp [NoAliasChain, aliases, optsElf]
      obtain ⟨i, r, off, ht⟩ := target_of_mapped (started spelledAlias e (noChain_loaded spelledAlias e hc)).1 h2
      exact ⟨q, pl, i, r, off, e, h1, runCalls_hist e', ht⟩
    · cases h3
  · cases h

end Verif.Props
