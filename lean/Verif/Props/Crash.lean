import Verif.Spec.Crash
import Verif.Props.AliasStart
/-
C90: a session shows the memory of the crashed program.
-/
namespace Verif.Props
open Verif MemSim Spec CommandLine Platform Main

/-- The simulator's regions represent the crashed program's memory. -/
structure Rep (s : Sim) (c : Crash) : Prop where
  /-- Each piece has its region, which serves the accesses inside the piece. -/
  piece : ∀ (k : Nat) p, c.pieces[k]? = some p → ∃ r, s.regions[k]? = some r ∧ r.isAlias = false ∧ r.isReadOnly = p.image ∧
    r.baseAddress = p.address ∧ r.data = p.bytes ∧ ∀ a n, 0 < n → p.holds a n = true → FirstCover s.regions a n k r
  /-- An access through an alias goes where the alias leads to, and there is a piece there. -/
  aliased : ∀ x ∈ c.aliases, ∀ a n, 0 < n → x.holds a n = true → (∃ p ∈ c.pieces, p.holds (x.target + (a - x.address)) n = true) ∧
    ∃ i r off, Target s a n i r off ∧ Target s (x.target + (a - x.address)) n i r off
  /-- There is nothing else. -/
  only : ∀ r ∈ s.regions, ∀ a n, 0 < n → Covers r a n → (∃ p ∈ c.pieces, p.holds a n = true) ∨ ∃ x ∈ c.aliases, x.holds a n = true
  /-- No alias hides a piece. -/
  apart : ∀ x ∈ c.aliases, ∀ p ∈ c.pieces, ∀ a n, 0 < n → p.holds a n = true → x.holds a n = false

theorem holds_lt {p : Piece} {a : U32} {n : Nat} (h : p.holds a n = true) :
    p.address.toNat ≤ a.toNat ∧ a.toNat + n ≤ p.address.toNat + p.bytes.length := by simpa [Piece.holds] using h

/-- Where an access goes, in terms of the pieces. -/
theorem Rep.find {s : Sim} {c : Crash} (h : Rep s c) {a : U32} {n : Nat} (hn : 0 < n) :
    (∃ k p r, c.pieces[k]? = some p ∧ p.holds (c.place a n) n = true ∧ Target s a n k r ((c.place a n).toNat - p.address.toNat) ∧
      r.isReadOnly = p.image ∧ r.data = p.bytes ∧ ∀ j p', c.pieces[j]? = some p' → p'.holds (c.place a n) n = true → j = k) ∨
    (¬ Mapped s a n ∧ ∀ p ∈ c.pieces, p.holds (c.place a n) n = false) := by
  have key : ∀ (k : Nat) p a', c.pieces[k]? = some p → p.holds a' n = true → ∃ r, Target s a' n k r (a'.toNat - p.address.toNat) ∧
      r.isReadOnly = p.image ∧ r.data = p.bytes ∧ ∀ j p', c.pieces[j]? = some p' → p'.holds a' n = true → j = k := by
    intro k p a' hk hp
    obtain ⟨r, h1, h2, h3, h4, h5, h6⟩ := h.piece k p hk
    have ht : Target s a' n k r (a'.toNat - p.address.toNat) := ⟨k, r, h6 a' n hn hp, by simp [h2, h4]⟩
    refine ⟨r, ht, h3, h5, ?_⟩
    intro j p' hj hp'
    obtain ⟨r', g1, g2, g3, g4, g5, g6⟩ := h.piece j p' hj
    have ht' : Target s a' n j r' (a'.toNat - p'.address.toNat) := ⟨j, r', g6 a' n hn hp', by simp [g2, g4]⟩
    exact (ht'.unique ht).1
  by_cases hm : ∃ (k : Nat) (p : Piece), c.pieces[k]? = some p ∧ p.holds (c.place a n) n = true
  · obtain ⟨k, p, hk, hp⟩ := hm
    left
    obtain ⟨r, h1, h2, h3, h4⟩ := key k p _ hk hp
    refine ⟨k, p, r, hk, hp, ?_, h2, h3, h4⟩
    unfold Crash.place at h1 ⊢
    cases e : c.aliases.find? fun x => x.holds a n with
    | none => rw [e] at h1; exact h1
    | some x =>
      rw [e] at h1
      obtain ⟨-, i, r', off, t1, t2⟩ := h.aliased x (List.mem_of_find?_eq_some e) a n hn (by simpa using List.find?_some e)
      obtain ⟨e1, e2, e3⟩ := t2.unique h1
      subst e1 e2
      simp only at e3 ⊢
      rw [← e3]
      exact t1
  · right
    have hno : ∀ p ∈ c.pieces, p.holds (c.place a n) n = false := by
      intro p hp
      obtain ⟨k, hk⟩ := List.getElem?_of_mem hp
      cases e : p.holds (c.place a n) n with
      | false => rfl
      | true => exact (hm ⟨k, p, hk, e⟩).elim
    refine ⟨?_, hno⟩
    rintro ⟨r, hr, hc⟩
    cases e : c.aliases.find? fun x => x.holds a n with
    | some x =>
      obtain ⟨⟨p, hp, hh⟩, -⟩ := h.aliased x (List.mem_of_find?_eq_some e) a n hn (by simpa using List.find?_some e)
      have := hno p hp
      unfold Crash.place at this
      rw [e] at this
      simp only at this
      rw [hh] at this
      cases this
    | none =>
      have hpl : c.place a n = a := by unfold Crash.place; rw [e]
      rcases h.only r hr a n hn hc with ⟨p, hp, hh⟩ | ⟨x, hx, hh⟩
      · have := hno p hp
        rw [hpl, hh] at this
        cases this
      · have := List.find?_eq_none.1 e x hx
        exact this hh

theorem numberBytes_length {w : Width} (v : BitVec w.bits) : (numberBytes v).length = w.bytes := by simp [numberBytes]

theorem numberBytes_get {w : Width} (v : BitVec w.bits) {j : Nat} (hj : j < w.bytes) : (numberBytes v)[j]? = some (byteOf v j) := by
  simp [numberBytes, hj]

theorem numberBytes_eq {w : Width} (v : BitVec w.bits) : numberBytes v = leBytes w.bytes v.toNat := by
  apply List.ext_getElem?
  intro j
  by_cases hj : j < w.bytes
  · rw [numberBytes_get v hj, leBytes_byteOf v hj]
  · rw [List.getElem?_eq_none (by rw [numberBytes_length]; omega), List.getElem?_eq_none (by rw [leBytes_length]; omega)]

/-- Reading. -/
theorem Rep.reads {p : Plat} {c : Crash} (hp : OK p) (h : Rep p.mem c) (w : Width) (a : U32) :
    match c.read a w.bytes with
    | some bs => ∃ v p', memRead w a p = .ok v p' ∧ bs = numberBytes v ∧ p'.faults = p.faults
    | none => p.faults + 1 < 2 ^ 31 → ∃ p', memRead w a p = .ok 0 p' ∧ p'.faults = p.faults + 1 := by
  rcases h.find (a := a) (bytes_pos w) with ⟨k, pc, r, h1, h2, h3, h4, h5, h6⟩ | ⟨h1, h2⟩
  · have hfind : c.read a w.bytes = some ((pc.bytes.drop ((c.place a w.bytes).toNat - pc.address.toNat)).take w.bytes) := by
      unfold Crash.read
      cases e : c.pieces.find? fun p => p.holds (c.place a w.bytes) w.bytes with
      | none => exact absurd h2 (by simpa using List.find?_eq_none.1 e pc (List.mem_of_getElem? h1))
      | some p' =>
        obtain ⟨j, hj⟩ := List.getElem?_of_mem (List.mem_of_find?_eq_some e)
        have := h6 j p' hj (by simpa using List.find?_some e)
        subst this
        rw [h1] at hj
        cases hj
        rfl
    rw [hfind]
    have hr := read_sat hp.sound hp.quiet w a
    cases e : IMemory.read w a p.mem with
    | ub u => rw [e] at hr; exact hr.elim
    | throw x s =>
      rw [e] at hr
      obtain ⟨rfl, rfl⟩ := hr
      obtain ⟨k, q, hfc, -⟩ := h3
      exact (((C04_read_faults_iff_unmapped (w := w) (a := a) hp.sound).1.1 ⟨[], _, e⟩)
        ⟨q, List.mem_of_getElem? hfc.1, hfc.2.1⟩).elim
    | ok v s =>
      refine ⟨v, _, memRead_ok e, ?_, rfl⟩
      have hb := read_bytes hp.sound h3 e
      rw [h5] at hb
      have hl := holds_lt h2
      apply List.ext_getElem?
      intro j
      by_cases hj : j < w.bytes
      · rw [numberBytes_get v hj, List.getElem?_take_of_lt hj, List.getElem?_drop, hb j hj]
      · rw [List.getElem?_eq_none (by rw [List.length_take]; omega), List.getElem?_eq_none (by rw [numberBytes_length]; omega)]
  · have hfind : c.read a w.bytes = none := by
      unfold Crash.read
      rw [List.find?_eq_none.2 (by simpa using h2)]
      rfl
    rw [hfind]
    intro hf
    have e : IMemory.read w a p.mem = .throw ⟨.busError, []⟩ p.mem := by rw [read_eq, readN_unmapped h1]
    rw [memRead_fault e, if_pos hf]
    exact ⟨_, rfl, rfl⟩

/-- Writing: whether it is accepted. -/
theorem Rep.accepts {p : Plat} {c : Crash} (hp : OK p) (h : Rep p.mem c) (w : Width) (a : U32) (v : BitVec w.bits) :
    (c.writable a w.bytes = true → ∃ s k pc r, c.pieces[k]? = some pc ∧ pc.holds (c.place a w.bytes) w.bytes = true ∧ pc.image = false ∧
      IMemory.write w a v p.mem = .ok () s ∧ p.mem.regions[k]? = some r ∧ r.data = pc.bytes ∧
      s.regions = p.mem.regions.set k
        { r with
          data := pc.bytes.take ((c.place a w.bytes).toNat - pc.address.toNat) ++ numberBytes v ++
            pc.bytes.drop ((c.place a w.bytes).toNat - pc.address.toNat + w.bytes) } ∧
      ∀ j p', c.pieces[j]? = some p' → p'.holds (c.place a w.bytes) w.bytes = true → j = k) ∧
    (c.writable a w.bytes = false → IMemory.write w a v p.mem = .throw ⟨.busError, []⟩ p.mem) := by
  have hwr : ∀ b, c.writable a w.bytes = b ↔ (c.pieces.any fun p => p.holds (c.place a w.bytes) w.bytes && !p.image) = b := fun b => Iff.rfl
  rcases h.find (a := a) (bytes_pos w) with ⟨k, pc, r, h1, h2, h3, h4, h5, h6⟩ | ⟨h1, h2⟩
  · have hi := h3.info hp.sound
    have hq : r.watch = [] := hp.quiet.1 r (List.mem_of_getElem? hi.get)
    have h0 : scanAt r ((c.place a w.bytes).toNat - pc.address.toNat) w.bytes WRITING = (0, false) := by simp [scanAt, hq, scanWatch]
    have e : IMemory.write w a v p.mem = _ := write_eq.trans (writeN_eq hp.sound h3)
    rw [h0] at e
    constructor
    · intro hw
      obtain ⟨p', hp', hh⟩ := List.any_eq_true.1 hw
      simp only [Bool.and_eq_true, Bool.not_eq_true'] at hh
      obtain ⟨j, hj⟩ := List.getElem?_of_mem hp'
      have := h6 j p' hj hh.1
      subst this
      rw [h1] at hj
      cases hj
      rw [if_neg (by rw [h4, hh.2]; simp), if_neg (by have := hp.quiet.2; simp only; omega), ← numberBytes_eq, h5] at e
      exact ⟨_, j, pc, r, h1, h2, hh.2, e, hi.get, h5, rfl, h6⟩
    · intro hw
      have : pc.image = true := by
        cases hpi : pc.image with
        | true => rfl
        | false =>
          have hw := List.any_eq_false.1 hw pc (List.mem_of_getElem? h1)
          simp only [h2, hpi] at hw
          exact (hw rfl).elim
      rw [h4, this, if_pos rfl] at e
      exact e
  · have hno : c.writable a w.bytes = false := by
      refine List.any_eq_false.2 fun p hp => ?_
      rw [h2 p hp]
      simp
    constructor
    · rw [hno]; intro h; cases h
    · intro _
      rw [write_eq, writeN_unmapped h1]

theorem write_pieces_get {c : Crash} {a : U32} {bs : List U8} (k : Nat) :
    (c.write a bs).pieces[k]? = c.pieces[k]?.map fun p =>
      if p.holds (c.place a bs.length) bs.length && !p.image then
        { p with bytes := p.bytes.take ((c.place a bs.length).toNat - p.address.toNat) ++ bs ++
            p.bytes.drop ((c.place a bs.length).toNat - p.address.toNat + bs.length) }
      else p := by
  unfold Crash.write
  rw [List.getElem?_map]

/-- Only the bytes of the pieces change. -/
structure SameShape (c c' : Crash) : Prop where
  aliases : c'.aliases = c.aliases
  pieces : ∀ k : Nat, (∃ p', c'.pieces[k]? = some p') → ∃ p p', c.pieces[k]? = some p ∧ c'.pieces[k]? = some p' ∧ p'.image = p.image ∧
    p'.address = p.address ∧ p'.bytes.length = p.bytes.length
  length : c'.pieces.length = c.pieces.length

theorem SameShape.of {c c' : Crash} (h : SameShape c c') {p : Piece} (hp : p ∈ c.pieces) {a : U32} {n : Nat} (hh : p.holds a n = true) :
    ∃ p' ∈ c'.pieces, p'.holds a n = true := by
  obtain ⟨k, hk⟩ := List.getElem?_of_mem hp
  have hlt : k < c.pieces.length := (List.getElem?_eq_some_iff.1 hk).1
  obtain ⟨q, p', e1, e2, -, e3, e4⟩ := h.pieces k ⟨_, List.getElem?_eq_getElem (by rw [h.length]; exact hlt)⟩
  rw [hk] at e1
  cases e1
  refine ⟨p', List.mem_of_getElem? e2, ?_⟩
  unfold Piece.holds at hh ⊢
  rw [e3, e4]
  exact hh

theorem write_shape (c : Crash) (a : U32) (bs : List U8) : SameShape c (c.write a bs) := by
  refine ⟨rfl, ?_, by simp [Crash.write]⟩
  rintro k ⟨p', hp'⟩
  have hg := write_pieces_get (c := c) (a := a) (bs := bs) k
  rw [hp'] at hg
  cases hk : c.pieces[k]? with
  | none => rw [hk] at hg; cases hg
  | some p =>
    rw [hk] at hg
    have hg := Option.some.inj hg
    refine ⟨p, p', rfl, hp', ?_⟩
    rw [hg]
    simp only
    split
    · rename_i hc
      simp only [Bool.and_eq_true] at hc
      have := holds_lt hc.1
      refine ⟨rfl, rfl, ?_⟩
      simp only [List.length_append, List.length_take, List.length_drop]
      omega
    · exact ⟨rfl, rfl, rfl⟩

/-- The representation is kept if the regions keep everything but contents, and these are those of the pieces. -/
theorem Rep.keep {s s' : Sim} {c c' : Crash} (h : Rep s c) (hk : skeleton s' = skeleton s) (hc : SameShape c c')
    (hd : ∀ (k : Nat) p' r', c'.pieces[k]? = some p' → s'.regions[k]? = some r' → r'.data = p'.bytes) : Rep s' c' := by
  have hback : ∀ p' ∈ c'.pieces, ∀ a n, p'.holds a n = true → ∃ p ∈ c.pieces, p.holds a n = true := by
    intro p' hp' a n hh
    obtain ⟨k, hk'⟩ := List.getElem?_of_mem hp'
    obtain ⟨p, q', e1, e2, -, e3, e4⟩ := hc.pieces k ⟨_, hk'⟩
    rw [hk'] at e2
    cases e2
    refine ⟨p, List.mem_of_getElem? e1, ?_⟩
    unfold Piece.holds at hh ⊢
    rw [← e3, ← e4]
    exact hh
  refine ⟨?_, ?_, ?_, ?_⟩
  · intro k p' hp'
    obtain ⟨p, q', e1, e2, e3, e4, e5⟩ := hc.pieces k ⟨_, hp'⟩
    rw [hp'] at e2
    cases e2
    obtain ⟨r, g1, g2, g3, g4, g5, g6⟩ := h.piece k p e1
    obtain ⟨r', k1, k2, k3⟩ := skeleton_get hk g1
    obtain ⟨m1, -, m3, -, -⟩ := shape_eq k2
    refine ⟨r', k1, m3.trans g2, k3.trans (g3.trans e3.symm), m1.trans (g4.trans e4.symm), hd k p' r' hp' k1, ?_⟩
    intro a n hn hh
    have hh' : p.holds a n = true := by
      unfold Piece.holds at hh ⊢
      rw [← e4, ← e5]
      exact hh
    obtain ⟨q, f1, f2, -⟩ := firstCover_skeleton hk (g6 a n hn hh')
    have : q = r' := by rw [f1.1] at k1; exact Option.some.inj k1
    subst this
    exact f1
  · intro x hx a n hn hh
    rw [hc.aliases] at hx
    obtain ⟨⟨p, hp, hp'⟩, i, r, off, t1, t2⟩ := h.aliased x hx a n hn hh
    refine ⟨hc.of hp hp', ?_⟩
    obtain ⟨r1, u1, v1, -⟩ := target_skeleton hk t1
    obtain ⟨r2, u2, v2, -⟩ := target_skeleton hk t2
    rw [v1] at v2
    cases v2
    exact ⟨i, r1, off, u1, u2⟩
  · intro r' hr' a n hn hcov
    obtain ⟨k, hk'⟩ := List.getElem?_of_mem hr'
    obtain ⟨r, m1, m2, -⟩ := skeleton_get hk.symm hk'
    rcases h.only r (List.mem_of_getElem? m1) a n hn ((covers_shape m2).2 hcov) with ⟨p, hp, hh⟩ | ⟨x, hx, hh⟩
    · exact .inl (hc.of hp hh)
    · exact .inr ⟨x, by rw [hc.aliases]; exact hx, hh⟩
  · intro x hx p' hp' a n hn hh
    rw [hc.aliases] at hx
    obtain ⟨p, hp, hh'⟩ := hback p' hp' a n hh
    exact h.apart x hx p hp a n hn hh'

theorem SameShape.refl (c : Crash) : SameShape c c := ⟨rfl, fun k ⟨p, hp⟩ => ⟨p, p, hp, hp, rfl, rfl, rfl⟩, rfl⟩

theorem write_refused {c : Crash} {a : U32} {bs : List U8} (h : c.writable a bs.length = false) : c.write a bs = c := by
  unfold Crash.write
  have : (c.pieces.map fun p => if p.holds (c.place a bs.length) bs.length && !p.image then
        { p with bytes := p.bytes.take ((c.place a bs.length).toNat - p.address.toNat) ++ bs ++
            p.bytes.drop ((c.place a bs.length).toNat - p.address.toNat + bs.length) }
      else p) = c.pieces := by
    rw [List.map_congr_left (g := id)]
    · simp
    · intro p hp
      rw [if_neg (List.any_eq_false.1 h p hp)]
      rfl
  rw [this]

/-- One call. -/
def Crash.step (c : Crash) (x : PCall) : Crash := match x with | .memWrite _ a v => c.write a (numberBytes v) | _ => c

theorem Rep.same {s s' : Sim} {c : Crash} (h : Rep s c) (hc : contents s' = contents s) : Rep s' c := by
  refine h.keep (skeleton_contents hc) (SameShape.refl c) ?_
  intro k p r' hp hr'
  obtain ⟨r, h1, -, -, -, h5, -⟩ := h.piece k p hp
  have := congrArg (fun l => (l[k]?).map Region.data) hc
  unfold contents at this
  simp only [List.getElem?_map, hr', h1, Option.map_some, Option.some.injEq] at this
  rw [this, h5]

theorem step_rep {x : PCall} {p q : Plat} {c : Crash} (hp : OK p) (h : Rep p.mem c) (hs : PStep x p q) : Rep q.mem (Crash.step c x) := by
  cases x with
  | memWrite w a v =>
    have he : Ends (memWrite w a v p) q := step_ends hs
    have hk := step_skeleton hp hs
    obtain ⟨h1, h2⟩ := h.accepts hp w a v
    cases e : c.writable a w.bytes with
    | false =>
      have hr := h2 e
      rw [memWrite_fault hr] at he
      have hq : q.mem = p.mem := by
        split at he
        · cases ends_ok he; rfl
        · exact (ends_ub he).elim
      have : Crash.step c (.memWrite w a v) = c := write_refused (by rw [numberBytes_length]; exact e)
      rw [this, hq]
      exact h
    | true =>
      obtain ⟨s, k, pc, r, g1, g2, g3, g4, g5, g6, g7, g8⟩ := h1 e
      rw [memWrite_ok g4] at he
      cases ends_ok he
      refine h.keep hk (write_shape c a _) ?_
      intro j p' r' hp' hr'
      have hp' : (c.write a (numberBytes v)).pieces[j]? = some p' := hp'
      have hg := write_pieces_get (c := c) (a := a) (bs := numberBytes v) j
      rw [hp', numberBytes_length] at hg
      have hr' : s.regions[j]? = some r' := hr'
      rw [g7] at hr'
      cases hj : c.pieces[j]? with
      | none => rw [hj] at hg; cases hg
      | some p0 =>
        rw [hj] at hg
        have hg := Option.some.inj hg
        simp only at hg
        by_cases hjk : j = k
        · subst hjk
          rw [g1] at hj
          cases hj
          rw [List.getElem?_set_self (List.getElem?_eq_some_iff.1 g5).1] at hr'
          cases hr'
          rw [hg, g2, g3]
          rfl
        · rw [List.getElem?_set_ne (Ne.symm hjk)] at hr'
          have : p0.holds (c.place a w.bytes) w.bytes = false := by
            cases hh : p0.holds (c.place a w.bytes) w.bytes with
            | false => rfl
            | true => exact (hjk (g8 j p0 hj hh)).elim
          rw [hg, this]
          simp only [Bool.false_and, Bool.false_eq_true, if_false]
          obtain ⟨r0, m1, -, -, -, m5, -⟩ := h.piece j p0 hj
          rw [m1] at hr'
          cases hr'
          exact m5
  | copyFrom =>
    have : contents q.mem = contents p.mem :=
      copyFrom_ends (R := fun p q => contents q.mem = contents p.mem) (fun _ => rfl) (fun _ _ _ h1 h2 => h2.trans h1) (fun _ _ => rfl)
        (fun _ _ => rfl) (fun _ _ => rfl) p q (step_ends hs)
    exact h.same this
  | _ => exact h.same (unchanged_step rfl hs).2

theorem hist_rep {cs : List PCall} {p q : Plat} {c : Crash} (hp : OK p) (h : Rep p.mem c) (hh : PHist p cs q) : Rep q.mem (c.after cs) := by
  induction hh generalizing c with
  | nil => exact h
  | packet b e _ ih => exact ih ⟨hp.1, hp.2, hp.3⟩ h
  | cons h1 _ ih => exact ih (step_ok hp h1) (step_rep hp h h1)

theorem disjoint_apart {xs ys : List (U32 × List U8)} (h : Spec.Disjoint (xs ++ ys)) {b c : U32 × List U8} (hb : b ∈ xs) (hc : c ∈ ys)
    {a : U32} {n : Nat} (hn : 0 < n) (h1 : b.1.toNat ≤ a.toNat ∧ a.toNat + n ≤ b.1.toNat + b.2.length)
    (h2 : c.1.toNat ≤ a.toNat ∧ a.toNat + n ≤ c.1.toNat + c.2.length) : False := by
  have s1 : (byteIn b a).isSome := Dump.byteIn_iff.2 ⟨h1.1, by omega⟩
  have s2 : (byteIn c a).isSome := Dump.byteIn_iff.2 ⟨h2.1, by omega⟩
  rcases (List.pairwise_append.1 h).2.2 b hb c hc a with h | h
  · rw [h] at s1; cases s1
  · rw [h] at s2; cases s2

/-- After start-up the regions represent the crashed program's memory. -/
theorem rep_start {s : Sim} {xs : List (U32 × U32 × U32)} {blks mem shows : List (U32 × List U8)} (hs : Sound s)
    (hl : Laid s.regions (blks ++ mem ++ shows)) (hreg : ∃ zs, s.regions = blks.map Elf.romRegion ++ Dump.loadMem [] mem ++ zs)
    (hm : HoldsBlocks s (blks ++ mem ++ shows)) (hld : ∀ x b, (x, b) ∈ xs.zip shows → Leads s x b)
    (hx : List.Forall₂ (AliasShows (blks ++ mem)) xs shows) (hd : Spec.Disjoint (blks ++ mem ++ shows))
    (hf : ∀ r ∈ blks ++ mem ++ shows, Fits r) : Rep s (crashOf blks mem xs shows) := by
  obtain ⟨zs, hreg⟩ := hreg
  have hpc : ∀ (k : Nat) p, (crashOf blks mem xs shows).pieces[k]? = some p → ∃ b, (blks ++ mem)[k]? = some b ∧ p.address = b.1 ∧
      p.bytes = b.2 ∧ ∃ r, s.regions[k]? = some r ∧ r.isAlias = false ∧ r.isReadOnly = p.image := by
    intro k p hk
    unfold crashOf at hk
    simp only at hk
    rw [hreg, List.append_assoc]
    by_cases hlt : k < blks.length
    · rw [List.getElem?_append_left (by simpa using hlt), List.getElem?_map, List.getElem?_eq_getElem hlt] at hk
      cases hk
      refine ⟨blks[k], by rw [List.getElem?_append_left hlt, List.getElem?_eq_getElem hlt], rfl, rfl, Elf.romRegion blks[k], ?_, rfl, rfl⟩
      rw [List.getElem?_append_left (by simpa using hlt), List.getElem?_map, List.getElem?_eq_getElem hlt]
      rfl
    · rw [List.getElem?_append_right (by simpa using Nat.le_of_not_lt hlt), List.length_map, List.getElem?_map] at hk
      cases hb : mem[k - blks.length]? with
      | none => rw [hb] at hk; cases hk
      | some b =>
        rw [hb] at hk
        cases hk
        refine ⟨b, by rw [List.getElem?_append_right (Nat.le_of_not_lt hlt), hb], rfl, rfl, ?_⟩
        have hlm : (Dump.loadMem [] mem).length = mem.length := by
          simpa using congrArg List.length (Dump.loadMem_shape (mem := mem) (rs := []))
        have hlt' : k - blks.length < (Dump.loadMem [] mem).length := by rw [hlm]; exact (List.getElem?_eq_some_iff.1 hb).1
        rw [List.getElem?_append_right (by simpa using Nat.le_of_not_lt hlt), List.length_map, List.getElem?_append_left hlt',
          List.getElem?_eq_getElem hlt']
        have := Dump.loadMem_fresh (mem := mem) (rs := []) (by simp) _ (List.getElem_mem hlt')
        exact ⟨_, rfl, this.plain, this.ro⟩
  have hpb : ∀ p ∈ (crashOf blks mem xs shows).pieces, ∃ b ∈ blks ++ mem, p.address = b.1 ∧ p.bytes = b.2 := by
    intro p hp
    obtain ⟨k, hk⟩ := List.getElem?_of_mem hp
    obtain ⟨b, h1, h2, h3, -⟩ := hpc k p hk
    exact ⟨b, List.mem_of_getElem? h1, h2, h3⟩
  have hbp : ∀ b ∈ blks ++ mem, ∃ p ∈ (crashOf blks mem xs shows).pieces, p.address = b.1 ∧ p.bytes = b.2 := by
    intro b hb
    unfold crashOf
    rcases List.mem_append.1 hb with hb | hb
    · exact ⟨⟨true, b.1, b.2⟩, List.mem_append_left _ (List.mem_map.2 ⟨b, hb, rfl⟩), rfl, rfl⟩
    · exact ⟨⟨false, b.1, b.2⟩, List.mem_append_right _ (List.mem_map.2 ⟨b, hb, rfl⟩), rfl, rfl⟩
  have hal : ∀ x ∈ (crashOf blks mem xs shows).aliases, ∃ y b, (y, b) ∈ xs.zip shows ∧ x = ⟨y.1, b.2.length, y.2.2⟩ := by
    intro x hx'
    obtain ⟨⟨y, b⟩, h1, rfl⟩ := List.mem_map.1 hx'
    exact ⟨y, b, h1, rfl⟩
  refine ⟨?_, ?_, ?_, ?_⟩
  · intro k p hk
    obtain ⟨b, h1, h2, h3, r, h4, h5, h6⟩ := hpc k p hk
    have hk' : (blks ++ mem ++ shows)[k]? = some b := by
      rw [List.getElem?_append_left (List.getElem?_eq_some_iff.1 h1).1]; exact h1
    obtain ⟨r', k1, k2, k3⟩ := hl.get hk'
    rw [h4] at k1
    cases k1
    have hfc : ∀ a n, 0 < n → p.holds a n = true → FirstCover s.regions a n k r := by
      intro a n hn hh
      have hh := holds_lt hh
      rw [h2, h3] at hh
      obtain ⟨q, e1, -, -, e4⟩ := hl.first hd hk' hn hh.1 hh.2
      rw [h4] at e1
      cases e1
      exact e4
    refine ⟨r, h4, h5, h6, by rw [k2, h2], ?_, hfc⟩
    have hsz : r.data.length = r.size.toNat := (hs.plain h4 h5).1
    rw [h3]
    apply List.ext_getElem?
    intro j
    by_cases hj : j < b.2.length
    · have hfb := hf b (List.mem_of_getElem? hk')
      unfold Fits at hfb
      have ha : (b.1 + BitVec.ofNat 32 j).toNat = b.1.toNat + j := by simp only [BitVec.toNat_add, BitVec.toNat_ofNat]; omega
      obtain ⟨v, s', e1, e2⟩ := hm b (List.mem_of_getElem? hk') .w8 (b.1 + BitVec.ofNat 32 j) (by omega) (by show _ + 1 ≤ _; omega)
      have hfc' := hfc (b.1 + BitVec.ofNat 32 j) 1 (by omega)
        (by unfold Piece.holds; rw [h2, h3]; simp only [Bool.decide_and, Bool.and_eq_true, decide_eq_true_eq]; omega)
      have ht : Target s (b.1 + BitVec.ofNat 32 j) 1 k r ((b.1 + BitVec.ofNat 32 j).toNat - r.baseAddress.toNat) := ⟨k, r, hfc', by simp [h5]⟩
      have e3 := read_bytes (w := .w8) hs ht e1 0 (by decide)
      have e4 := e2 0 (by decide)
      rw [k2] at e3
      have : (b.1 + BitVec.ofNat 32 j).toNat - b.1.toNat + 0 = j := by omega
      rw [this] at e3 e4
      rw [e3, e4]
    · rw [List.getElem?_eq_none (by omega), List.getElem?_eq_none (by omega)]
  · intro x hx' a n hn hh
    obtain ⟨y, b, h1, rfl⟩ := hal x hx'
    obtain ⟨hbm, r, hr', d1, d2, d3⟩ := shows_of_zip hx h1
    have hfb : Fits b := hf b (List.mem_append_right _ hbm)
    have hfr : Fits r := hf r (List.mem_append_left _ hr')
    have hlb : b.2.length ≤ r.2.length - (y.2.2.toNat - r.1.toNat) := by
      rw [d3]; simp only [List.length_take, List.length_drop]; omega
    have hb1 : b.1 = y.1 := by rw [d3]
    unfold Fits at hfb hfr
    simp only [Alias.holds, Bool.decide_and, Bool.and_eq_true, decide_eq_true_eq] at hh
    have ht : (y.2.2 + (a - y.1)).toNat = y.2.2.toNat + (a.toNat - y.1.toNat) := by
      simp only [BitVec.toNat_add, BitVec.toNat_sub]; omega
    refine ⟨?_, ?_⟩
    · obtain ⟨p, hp, p1, p2⟩ := hbp r hr'
      refine ⟨p, hp, ?_⟩
      unfold Piece.holds
      simp only [Bool.decide_and, Bool.and_eq_true, decide_eq_true_eq]
      rw [p1, p2, ht]
      omega
    · exact hld y b h1 (a.toNat - y.1.toNat) n a _ hn (by omega) (by omega) ht
  · intro q hq a n hn hc
    obtain ⟨k, hk⟩ := List.getElem?_of_mem hq
    obtain ⟨b, h1, h2, h3⟩ := hl.get' hk
    obtain ⟨c1, c2⟩ := hc
    rw [h2] at c1 c2
    rw [h3] at c2
    rcases List.mem_append.1 (List.mem_of_getElem? h1) with hb | hb
    · obtain ⟨p, hp, p1, p2⟩ := hbp b hb
      refine .inl ⟨p, hp, ?_⟩
      unfold Piece.holds
      simp only [Bool.decide_and, Bool.and_eq_true, decide_eq_true_eq]
      rw [p1, p2]
      exact ⟨c1, c2⟩
    · obtain ⟨j, hj⟩ := List.getElem?_of_mem hb
      obtain ⟨y, hy, _, _, _, _, hyb⟩ := forall₂_get hx hj
      refine .inr ⟨⟨y.1, b.2.length, y.2.2⟩, ?_, ?_⟩
      · refine List.mem_map.2 ⟨(y, b), ?_, rfl⟩
        exact List.mem_of_getElem? (i := j) (List.getElem?_zip_eq_some.2 ⟨hy, hj⟩)
      · have hb1 : b.1 = y.1 := by rw [hyb]
        simp only [Alias.holds, Bool.decide_and, Bool.and_eq_true, decide_eq_true_eq]
        rw [← hb1]
        exact ⟨c1, c2⟩
  · intro x hx' p hp a n hn hh
    obtain ⟨y, b, h1, rfl⟩ := hal x hx'
    obtain ⟨hbm, r, -, -, -, d3⟩ := shows_of_zip hx h1
    have hb1 : b.1 = y.1 := by rw [d3]
    obtain ⟨b', hb', p1, p2⟩ := hpb p hp
    have hh := holds_lt hh
    rw [p1, p2] at hh
    cases e : Alias.holds ⟨y.1, b.2.length, y.2.2⟩ a n with
    | false => rfl
    | true =>
      simp only [Alias.holds, Bool.decide_and, Bool.and_eq_true, decide_eq_true_eq] at e
      rw [← hb1] at e
      exact (disjoint_apart hd hb' hbm hn hh e).elim

theorem Rep.finds {p : Plat} {c : Crash} (hp : OK p) (h : Rep p.mem c) : Finds p c := by
  intro w a
  refine ⟨h.reads hp w a, fun v => ?_⟩
  obtain ⟨h1, h2⟩ := h.accepts hp w a v
  cases e : c.writable a w.bytes with
  | true =>
    obtain ⟨s, -, -, -, -, -, -, hw, -⟩ := h1 e
    rw [if_pos rfl]
    exact ⟨_, memWrite_ok hw, rfl⟩
  | false =>
    rw [if_neg (by simp)]
    intro hf
    rw [memWrite_fault (h2 e), if_pos hf]
    exact ⟨_, rfl, rfl⟩

theorem session_rep {args : List Str} {os : List Opt} {p q0 : Prog} {n d : Str} {blks mem shows : List (U32 × List U8)}
    (hs : Spelled args os) (hn : imageFile os = some n) (hd : lastDump os = some d)
    (e0 : memStages [] (withMemory (chosen os p)) = .ok () q0) (hmem : q0.memory = true)
    (hreg : q0.host.mem.regions = blks.map Elf.romRegion ++ Dump.loadMem [] mem) (hso : Sound q0.host.mem) (hp : PlentyOfMemory q0.host.mem)
    (hl1 : ∀ r ∈ blks, r.2.length < 2 ^ 32) (hl2 : ∀ r ∈ mem, r.2.length < 2 ^ 32) (hh : q0.host.mem.hits < 2 ^ 31) (hr : RegsWF q0.host.ctx)
    (hx : List.Forall₂ (AliasShows (blks ++ mem)) (aliases os) shows) (hdj : Spec.Disjoint (blks ++ mem ++ shows))
    (hf : ∀ r ∈ blks ++ mem ++ shows, Fits r) (hm : HoldsBlocks q0.host.mem (blks ++ mem)) (hw : RefusesWrites q0.host.mem blks) :
    ∃ q, startUp args p = .ok () q ∧ q.host.ctx = q0.host.ctx ∧
      ∀ w cs pl, PHist (platform w q) cs pl → OK pl ∧ Rep pl.mem ((crashOf blks mem (aliases os) shows).after cs) := by
  obtain ⟨s, h1, h2, h3, h4, h4', h5, -, -, h7⟩ := alias_state hs hn hd e0 hmem hreg hso hp hl1 hl2 hh hx hdj hf hm hw
  refine ⟨withMem q0 s, h1, rfl, ?_⟩
  intro w cs pl hist
  have h0 : OK (platform w (withMem q0 s)) := ⟨h2, h3, hr⟩
  have hrep : Rep (platform w (withMem q0 s)).mem (crashOf blks mem (aliases os) shows) := rep_start h2 h4 h4' h5 h7 hx hdj hf
  exact ⟨hist_ok h0 hist, hist_rep h0 hrep hist⟩

/-- Start-up with a dump. -/
theorem dump_rep {args : List Str} {os : List Opt} {p : Prog} {n d bytes text : Str} {blks shows : List (U32 × List U8)} {df : DumpFile}
    (hs : Spelled args os) (hn : imageFile os = some n) (hd : lastDump os = some d) (hi : OnDisk p.host n bytes) (ht : OnDisk p.host d text)
    (hb : ImageBlocks os bytes blks) (hdt : DumpText text df) (hwf : df.WF)
    (hx : List.Forall₂ (AliasShows (blks ++ df.mem)) (aliases os) shows) (hdj : Spec.Disjoint (blks ++ df.mem ++ shows))
    (hf : ∀ r ∈ blks ++ df.mem ++ shows, Fits r) (hp : PlentyOfMemory p.host.mem) :
    ∃ q, startUp args p = .ok () q ∧ q.host.ctx = loadedRegs df {} ∧
      ∀ w cs pl, PHist (platform w q) cs pl → OK pl ∧ Rep pl.mem ((crashOf blks df.mem (aliases os) shows).after cs) := by
  have hdj0 := disjoint_left hdj
  have hf0 : ∀ r ∈ blks ++ df.mem, Fits r := fun r hr => hf r (List.mem_append_left _ hr)
  obtain ⟨hlt, s1, w1, w2, w3, w4⟩ := image_loads (os := os) (p := p) hp hb (fun r hr => hf0 r (List.mem_append_left _ hr)) (disjoint_left hdj0)
  obtain ⟨q0, h1, h2, h3, h4, h5, h6, h7, h8, h9⟩ := start_loads_of hn hd hi ht hlt w1 w2 w3 w4 hdt hwf hdj0 hf0 hp
  have hr : RegsWF q0.host.ctx := by
    rw [h4]
    exact loadedRegs_wf hwf
  rw [← h4]
  exact session_rep hs hn hd h1 h5 h6 h7 h8 hlt hwf.mem h9 hr hx hdj hf h2 h3

theorem ofFn_of_get {n : Nat} {xs : List U32} {f : Fin n → U32} (hl : xs.length = n) (h : ∀ i : Fin n, xs[i.val]? = some (f i)) :
    xs = List.ofFn f := by
  apply List.ext_getElem?
  intro k
  by_cases hk : k < n
  · rw [h ⟨k, hk⟩, List.getElem?_ofFn, dif_pos hk]
  · rw [List.getElem?_eq_none (by omega), List.getElem?_eq_none (by rw [List.length_ofFn]; omega)]

/-- Start-up with a log. -/
theorem log_rep {args : List Str} {os : List Opt} {p : Prog} {n d bytes : Str} {blks shows : List (U32 × List U8)} {ls : List LogLine}
    (hs : Spelled args os) (hn : imageFile os = some n) (hd : lastDump os = some d)
    (hi : OnDisk p.host n bytes) (ht : OnDisk p.host d (logText ls)) (hb : ImageBlocks os bytes blks)
    (ho : LogOK ls) (hsh : ∀ l ∈ ls, ¬ Short l) (h1 : ¬ [0x63, 0x43] <+: logText ls) (h2 : ¬ asc "6343" <+: logText ls)
    (hl : ∀ r ∈ runs (shown ls), 4 * r.2.length < 2 ^ 32)
    (hx : List.Forall₂ (AliasShows (blks ++ blocks (runs (shown ls)))) (aliases os) shows)
    (hdj : Spec.Disjoint (blks ++ blocks (runs (shown ls)) ++ shows))
    (hf : ∀ r ∈ blks ++ blocks (runs (shown ls)) ++ shows, Fits r) (hp : PlentyOfMemory p.host.mem) :
    ∃ q, startUp args p = .ok () q ∧ q.host.ctx = logRegs ls ∧
      ∀ w cs pl, PHist (platform w q) cs pl → OK pl ∧ Rep pl.mem ((crashOf blks (blocks (runs (shown ls))) (aliases os) shows).after cs) := by
  obtain ⟨q0, ⟨e, k1, k2, k3, k4, k5, k6, k7⟩, m1, m2, m3, -, -, m4, m5, m6⟩ := start_log hn hd hi ht hb ho hsh h1 h2
    (fun r hr => hf r (List.mem_append_left _ hr)) (disjoint_left hdj) hl hp
  have hc : q0.host.ctx = logRegs ls := by
    have e1 := ofFn_of_get k7.1 fun i => m4 (.core i)
    have e2 := ofFn_of_get k7.2 fun i => m4 (.float i)
    simp only [Reg.core.injEq] at e1
    simp only [reduceCtorEq, or_self, if_false] at e2
    unfold logRegs
    rw [← e1, ← e2, ← m5, ← m6]
  rw [← hc]
  exact session_rep hs hn hd e m1 k1 k2 k3 k4 k5 k6 k7 hx hdj hf m2 m3

/-- Start-up with any log. -/
theorem any_log_rep {args : List Str} {os : List Opt} {p : Prog} {n d bytes text : Str} {blks shows : List (U32 × List U8)} {ms : List Meaning}
    (hs : Spelled args os) (hn : imageFile os = some n) (hd : lastDump os = some d)
    (hi : OnDisk p.host n bytes) (ht : OnDisk p.host d text) (hb : ImageBlocks os bytes blks)
    (hm : LogTakenFor text ms) (h1 : ¬ [0x63, 0x43] <+: text) (h2 : ¬ asc "6343" <+: text)
    (hl : ∀ r ∈ runs (memoryIn ms), 4 * r.2.length < 2 ^ 32)
    (hx : List.Forall₂ (AliasShows (blks ++ blocks (runs (memoryIn ms)))) (aliases os) shows)
    (hdj : Spec.Disjoint (blks ++ blocks (runs (memoryIn ms)) ++ shows))
    (hf : ∀ r ∈ blks ++ blocks (runs (memoryIn ms)) ++ shows, Fits r) (hp : PlentyOfMemory p.host.mem) :
    ∃ q, startUp args p = .ok () q ∧ q.host.ctx = regsIn ms ∧
      ∀ w cs pl, PHist (platform w q) cs pl → OK pl ∧ Rep pl.mem ((crashOf blks (blocks (runs (memoryIn ms))) (aliases os) shows).after cs) := by
  obtain ⟨q0, ⟨e, k1, k2, k3, k4, k5, k6, k7⟩, m1, m2, m3, -, -, m4, m5, m6⟩ := start_any_log hn hd hi ht hb hm h1 h2
    (fun r hr => hf r (List.mem_append_left _ hr)) (disjoint_left hdj) hl hp
  have hc : q0.host.ctx = regsIn ms := by
    have e1 := ofFn_of_get k7.1 fun i => m4 (.core i)
    have e2 := ofFn_of_get k7.2 fun i => m4 (.float i)
    simp only [Reg.core.injEq] at e1
    simp only [reduceCtorEq, or_self, if_false] at e2
    unfold regsIn
    rw [← e1, ← e2, ← m5, ← m6]
  rw [← hc]
  exact session_rep hs hn hd e m1 k1 k2 k3 k4 k5 k6 k7 hx hdj hf m2 m3

/-- C90. Start-up with a valid image, a valid dump (binary or hexadecimal) and any `--alias` options that lead into the loaded
blocks, nothing overlapping, succeeds, and from then on, whatever calls the debug monitor has made, it finds the memory of the
crashed program: image, dumped memory and aliases, with the accepted writes carried out and nothing else changed. -/
theorem C90_session_of_dump {args : List Str} {os : List Opt} {p : Prog} {n d bytes text : Str} {blks shows : List (U32 × List U8)} {df : DumpFile}
    (hs : Spelled args os) (hn : imageFile os = some n) (hd : lastDump os = some d) (hi : OnDisk p.host n bytes) (ht : OnDisk p.host d text)
    (hb : ImageBlocks os bytes blks) (hdt : DumpText text df) (hwf : df.WF)
    (hx : List.Forall₂ (AliasShows (blks ++ df.mem)) (aliases os) shows) (hdj : Spec.Disjoint (blks ++ df.mem ++ shows))
    (hf : ∀ r ∈ blks ++ df.mem ++ shows, Fits r) (hp : PlentyOfMemory p.host.mem) :
    ∃ q, startUp args p = .ok () q ∧ ∀ w cs pl, PHist (platform w q) cs pl → Finds pl ((crashOf blks df.mem (aliases os) shows).after cs) := by
  obtain ⟨q, e, -, h⟩ := dump_rep hs hn hd hi ht hb hdt hwf hx hdj hf hp
  exact ⟨q, e, fun w cs pl hh => (h w cs pl hh).2.finds (h w cs pl hh).1⟩

/-- C90, with a GDB log as the dump. -/
theorem C90_session_of_log {args : List Str} {os : List Opt} {p : Prog} {n d bytes : Str} {blks shows : List (U32 × List U8)} {ls : List LogLine}
    (hs : Spelled args os) (hn : imageFile os = some n) (hd : lastDump os = some d)
    (hi : OnDisk p.host n bytes) (ht : OnDisk p.host d (logText ls)) (hb : ImageBlocks os bytes blks)
    (ho : LogOK ls) (hsh : ∀ l ∈ ls, ¬ Short l) (h1 : ¬ [0x63, 0x43] <+: logText ls) (h2 : ¬ asc "6343" <+: logText ls)
    (hl : ∀ r ∈ runs (shown ls), 4 * r.2.length < 2 ^ 32)
    (hx : List.Forall₂ (AliasShows (blks ++ blocks (runs (shown ls)))) (aliases os) shows)
    (hdj : Spec.Disjoint (blks ++ blocks (runs (shown ls)) ++ shows))
    (hf : ∀ r ∈ blks ++ blocks (runs (shown ls)) ++ shows, Fits r) (hp : PlentyOfMemory p.host.mem) :
    ∃ q, startUp args p = .ok () q ∧
      ∀ w cs pl, PHist (platform w q) cs pl → Finds pl ((crashOf blks (blocks (runs (shown ls))) (aliases os) shows).after cs) := by
  obtain ⟨q, e, -, h⟩ := log_rep hs hn hd hi ht hb ho hsh h1 h2 hl hx hdj hf hp
  exact ⟨q, e, fun w cs pl hh => (h w cs pl hh).2.finds (h w cs pl hh).1⟩

/-- C90, with any file that is taken for a GDB log as the dump. -/
theorem C90_session_of_any_log {args : List Str} {os : List Opt} {p : Prog} {n d bytes text : Str} {blks shows : List (U32 × List U8)} {ms : List Meaning}
    (hs : Spelled args os) (hn : imageFile os = some n) (hd : lastDump os = some d)
    (hi : OnDisk p.host n bytes) (ht : OnDisk p.host d text) (hb : ImageBlocks os bytes blks)
    (hm : LogTakenFor text ms) (h1 : ¬ [0x63, 0x43] <+: text) (h2 : ¬ asc "6343" <+: text)
    (hl : ∀ r ∈ runs (memoryIn ms), 4 * r.2.length < 2 ^ 32)
    (hx : List.Forall₂ (AliasShows (blks ++ blocks (runs (memoryIn ms)))) (aliases os) shows)
    (hdj : Spec.Disjoint (blks ++ blocks (runs (memoryIn ms)) ++ shows))
    (hf : ∀ r ∈ blks ++ blocks (runs (memoryIn ms)) ++ shows, Fits r) (hp : PlentyOfMemory p.host.mem) :
    ∃ q, startUp args p = .ok () q ∧
      ∀ w cs pl, PHist (platform w q) cs pl → Finds pl ((crashOf blks (blocks (runs (memoryIn ms))) (aliases os) shows).after cs) := by
  obtain ⟨q, e, -, h⟩ := any_log_rep hs hn hd hi ht hb hm h1 h2 hl hx hdj hf hp
  exact ⟨q, e, fun w cs pl hh => (h w cs pl hh).2.finds (h w cs pl hh).1⟩

/-! The hypotheses are met. In the first example, after GDB has written 0xAABBCCDD at 0x50, where an alias of the dumped memory at
0x20000000 is, it reads 0xBBCC at 0x20000001 and cannot write the alias of the image at 0x1000. -/

example : ∃ q, startUp argsTwo progExample = .ok () q ∧ ∀ w pl, PHist (platform w q) [.memWrite .w32 0x50 0xAABBCCDD] pl →
    (∃ v pl', memRead .w16 0x20000001 pl = .ok v pl' ∧ numberBytes v = [0xCC, 0xBB]) ∧
    (pl.faults + 1 < 2 ^ 31 → ∃ pl', memWrite .w8 0x1000 (1 : BitVec 8) pl = .ok () pl' ∧ pl'.faults = pl.faults + 1) := by
  obtain ⟨q, h1, h2⟩ := C90_session_of_dump (p := progExample) (n := [0x62]) (d := [0x64]) (bytes := [1, 2, 3, 4, 5, 6])
    (text := encode startDump) (blks := [(0x100, [1, 2, 3, 4, 5, 6])]) (df := startDump)
    (shows := [(0x50, [1, 2, 3, 4]), (0x1000, [3, 4, 5, 6])]) spelledTwo rfl rfl (fun _ => rfl) (fun _ => rfl)
    ⟨by simp, by decide, by decide +kernel⟩ (.inl rfl) startDump_wf
    (by
      rw [aliasesTwo]
      refine .cons ?_ (.cons ?_ .nil)
      · exact ⟨(0x20000000, [1, 2, 3, 4, 5]), by simp [startDump], by decide, by decide, by decide⟩
      · exact ⟨(0x100, [1, 2, 3, 4, 5, 6]), by simp, by decide, by decide, by decide⟩)
    (disjoint_ranges (by decide)) (by unfold Fits; decide) (fun _ => rfl)
  rw [aliasesTwo] at h2
  refine ⟨q, h1, fun w pl hh => ?_⟩
  have h := h2 w _ pl hh
  constructor
  · have hr := (h .w16 0x20000001).1
    rw [show ((crashOf [(0x100, [1, 2, 3, 4, 5, 6])] startDump.mem [(0x50, 4, 0x20000000), (0x1000, 0x100, 0x102)]
      [(0x50, [1, 2, 3, 4]), (0x1000, [3, 4, 5, 6])]).after [.memWrite .w32 0x50 0xAABBCCDD]).read 0x20000001 Width.w16.bytes =
      some [0xCC, 0xBB] by decide +kernel] at hr
    obtain ⟨v, pl', e1, e2, -⟩ := hr
    exact ⟨v, pl', e1, e2.symm⟩
  · have hw := (h .w8 0x1000).2 (1 : BitVec 8)
    rw [show ((crashOf [(0x100, [1, 2, 3, 4, 5, 6])] startDump.mem [(0x50, 4, 0x20000000), (0x1000, 0x100, 0x102)]
      [(0x50, [1, 2, 3, 4]), (0x1000, [3, 4, 5, 6])]).after [.memWrite .w32 0x50 0xAABBCCDD]).writable 0x1000 Width.w8.bytes =
      false by decide +kernel] at hw
    exact hw

example : ∃ q, startUp argsOne progLog = .ok () q ∧ ∀ w cs pl, PHist (platform w q) cs pl →
    Finds pl ((crashOf [(0x100, [1, 2, 3, 4, 5, 6])] (blocks (runs (shown gdbExample))) (aliases optsOne)
      [(0x50, [0x22, 0x22, 0x22, 0x22])]).after cs) := by
  have hr := gdbExample_runs
  exact C90_session_of_log (p := progLog) (n := [0x62]) (d := [0x64]) (bytes := [1, 2, 3, 4, 5, 6])
    (blks := [(0x100, [1, 2, 3, 4, 5, 6])]) (ls := gdbExample) (shows := [(0x50, [0x22, 0x22, 0x22, 0x22])])
    spelledOne rfl rfl (fun _ => rfl) (fun _ => rfl)
    ⟨by simp, by decide, by decide +kernel⟩ gdbExample_ok gdbExample_notShort (by decide +kernel) (by decide +kernel)
    (by rw [hr]; decide)
    (by
      rw [aliasesOne, hr]
      refine .cons ?_ .nil
      exact ⟨_, List.mem_cons_of_mem _ List.mem_cons_self, by decide, by decide, by decide⟩)
    (by rw [hr]; exact disjoint_ranges (by decide)) (by rw [hr]; unfold Fits; decide) (fun _ => rfl)

end Verif.Props
