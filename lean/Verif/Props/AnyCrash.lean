import Verif.Spec.AnyCrash
import Verif.Props.More
/-
C101, C102 and C103 for dumps of whatever format.
-/
namespace Verif.Props
open Verif MemSim Spec CommandLine Platform Main

theorem crash_rep {args : List Str} {os : List Opt} {p : Prog} {image mem shows : List (U32 × List U8)} {regs : Regs}
    (h : CrashGiven args p os image regs mem shows) :
    ∃ q, startUp args p = .ok () q ∧ q.host.ctx = regs ∧
      ∀ w cs pl, PHist (platform w q) cs pl → OK pl ∧ Rep pl.mem ((crashOf image mem (aliases os) shows).after cs) := by
  obtain ⟨n, bytes, i1, i2, i3⟩ := h.image
  obtain ⟨d, text, j1, j2, j3⟩ := h.dump
  have hx := h.aliases
  have hd := h.disjoint
  have hf := h.fits
  cases j3 with
  | dump k1 k2 => exact dump_rep h.spelled i1 j1 i2 j2 i3 k1 k2 hx hd hf h.memory
  | log k1 k2 => exact any_log_rep h.spelled i1 j1 i2 j2 i3 k1.2.2 k1.1 k1.2.1 k2 hx hd hf h.memory

/-- A dump is one of the formats. -/
theorem _root_.Verif.Spec.Given.crash {args : List Str} {os : List Opt} {p : Prog} {image shows : List (U32 × List U8)} {df : DumpFile}
    (h : Given args p os image df shows) : CrashGiven args p os image (loadedRegs df {}) df.mem shows := by
  obtain ⟨d, text, j1, j2, j3⟩ := h.dump
  exact ⟨h.spelled, h.image, ⟨d, text, j1, j2, .dump j3 h.wf⟩, h.aliases, h.disjoint, h.fits, h.memory⟩

/-! ### C90 and C91 -/

/-- C90, for dumps of whatever format. -/
theorem C90_any_format {args : List Str} {os : List Opt} {p : Prog} {image mem shows : List (U32 × List U8)} {regs : Regs}
    (h : CrashGiven args p os image regs mem shows) :
    ∃ q, startUp args p = .ok () q ∧ ∀ w cs pl, PHist (platform w q) cs pl → Finds pl ((crashOf image mem (aliases os) shows).after cs) := by
  obtain ⟨q, e, -, hq⟩ := crash_rep h
  exact ⟨q, e, fun w cs pl hh => (hq w cs pl hh).2.finds (hq w cs pl hh).1⟩

/-- C91, for dumps of whatever format. -/
theorem C91_any_format {args : List Str} {os : List Opt} {p : Prog} {image mem shows : List (U32 × List U8)} {regs : Regs}
    (h : CrashGiven args p os image regs mem shows) :
    ∃ q, startUp args p = .ok () q ∧ ∀ w cs pl ws, RegisterWrites (platform w q) cs pl ws →
      Told pl ((crashOf image mem (aliases os) shows).after cs) regs.psr (ws.foldl overwrite (packetBytes regs)) := by
  obtain ⟨q, e, c, hq⟩ := crash_rep h
  refine ⟨q, e, fun w cs pl ws hw => ?_⟩
  obtain ⟨k1, k2⟩ := hq w cs pl (writes_hist hw)
  have := told hw (hq w [] _ (.nil _)).1.regs k1 k2
  rw [show (platform w q).ctx = _ from c] at this
  exact this

/-! ### C101 -/

/-- C101, for dumps of whatever format: if two start-ups are given the same crash, in whatever order, as ELF file or raw image, as
binary or hexadecimal dump or as log, then both succeed, and after the same calls of the debug monitor and the same register
packets it is told the same in both sessions. -/
theorem C101_any_format {args1 args2 : List Str} {p1 p2 : Prog} {os1 os2 : List Opt}
    {image1 image2 mem1 mem2 shows1 shows2 : List (U32 × List U8)} {regs1 regs2 : Regs}
    (h1 : CrashGiven args1 p1 os1 image1 regs1 mem1 shows1) (h2 : CrashGiven args2 p2 os2 image2 regs2 mem2 shows2)
    (hi : image1.Perm image2) (hm : mem1.Perm mem2) (hr : packetBytes regs1 = packetBytes regs2) (hp : regs1.psr = regs2.psr)
    (ha : ((aliases os1).zip shows1).Perm ((aliases os2).zip shows2)) :
    ∃ q1 q2, startUp args1 p1 = .ok () q1 ∧ startUp args2 p2 = .ok () q2 ∧ ∀ w1 w2 cs pl1 pl2 ws,
      RegisterWrites (platform w1 q1) cs pl1 ws → RegisterWrites (platform w2 q2) cs pl2 ws →
      ∃ c psr regs, Told pl1 c psr regs ∧ Told pl2 c psr regs := by
  obtain ⟨q1, e1, c1, s1⟩ := crash_rep h1
  obtain ⟨q2, e2, c2, s2⟩ := crash_rep h2
  refine ⟨q1, q2, e1, e2, fun w1 w2 cs pl1 pl2 ws r1 r2 => ?_⟩
  obtain ⟨k1, k2⟩ := s1 w1 cs pl1 (writes_hist r1)
  obtain ⟨l1, l2⟩ := s2 w2 cs pl2 (writes_hist r2)
  have t1 := told r1 (s1 w1 [] _ (.nil _)).1.regs k1 k2
  have t2 := told r2 (s2 w2 [] _ (.nil _)).1.regs l1 l2
  rw [show (platform w1 q1).ctx = _ from c1] at t1
  rw [show (platform w2 q2).ctx = _ from c2, ← hr, ← hp] at t2
  have hre : Reordered (crashOf image1 mem1 (aliases os1) shows1) (crashOf image2 mem2 (aliases os2) shows2) :=
    ⟨(hi.map _).append (hm.map _), ha.map _, apart_crashOf h1.aliases h1.disjoint⟩
  exact ⟨_, _, _, t1, hre.after.told t2⟩

/-! ### C102 -/

/-- C102, for dumps of whatever format, as `C102_whole_access_partial`. -/
theorem C102_any_format_partial {args : List Str} {os : List Opt} {p : Prog} {image mem shows : List (U32 × List U8)} {regs : Regs}
    (h : CrashGiven args p os image regs mem shows) (hg : Gaps (image ++ mem ++ shows)) :
    ∃ q, startUp args p = .ok () q ∧ ∀ W cs pl, PHist (platform W q) cs pl → pl.faults + 1 < 2 ^ 31 →
      ∀ (w : Width) (a : U32), a.toNat + w.bytes ≤ 2 ^ 32 → Whole pl w a := by
  obtain ⟨q, e, -, hq⟩ := crash_rep h
  refine ⟨q, e, fun W cs pl hh hlt w a ha => ?_⟩
  obtain ⟨ok, rep⟩ := hq W cs pl hh
  exact (gapped_crashOf h.aliases hg h.fits cs).whole rep (rep.finds ok) hlt ha

/-- C102, for dumps of whatever format, as `C102_aligned_access_partial`. -/
theorem C102_any_format_aligned_partial {args : List Str} {os : List Opt} {p : Prog} {image mem shows : List (U32 × List U8)} {regs : Regs}
    {w : Width} (h : CrashGiven args p os image regs mem shows) (hc : CutAt w.bytes image mem shows (aliases os)) :
    ∃ q, startUp args p = .ok () q ∧ ∀ W cs pl, PHist (platform W q) cs pl → pl.faults + 1 < 2 ^ 31 →
      ∀ a : U32, w.bytes ∣ a.toNat → NotCut pl w a := by
  obtain ⟨q, e, -, hq⟩ := crash_rep h
  refine ⟨q, e, fun W cs pl hh hlt a ha => ?_⟩
  obtain ⟨ok, rep⟩ := hq W cs pl hh
  exact ((cut_crashOf h.aliases hc).after).notCut (rep.finds ok) hlt ha

theorem canRead_iff {p : Plat} {c : Crash} (hf : Finds p c) (hlt : p.faults + 1 < 2 ^ 31) (w : Width) (a : U32) :
    CanRead p w a ↔ (c.read a w.bytes).isSome = true := by
  have h := (hf w a).1
  cases e : c.read a w.bytes with
  | some bs =>
    rw [e] at h
    obtain ⟨v, p', h1, -, h2⟩ := h
    exact ⟨fun _ => rfl, fun _ => ⟨v, p', h1, h2⟩⟩
  | none =>
    rw [e] at h
    obtain ⟨p', h1, h2⟩ := h hlt
    refine ⟨?_, fun h => nomatch h⟩
    rintro ⟨v, p2, k1, k2⟩
    rw [h1] at k1
    cases k1
    omega

theorem canWrite_iff {p : Plat} {c : Crash} (hf : Finds p c) (hlt : p.faults + 1 < 2 ^ 31) (w : Width) (a : U32) :
    CanWrite p w a ↔ c.writable a w.bytes = true := by
  have h := (hf w a).2
  cases e : c.writable a w.bytes with
  | true =>
    simp only [e, if_true] at h
    exact ⟨fun _ => rfl, fun _ v => h v⟩
  | false =>
    refine ⟨fun k => ?_, fun h => nomatch h⟩
    obtain ⟨p1, k1, k2⟩ := k 0
    have := h 0
    rw [e] at this
    obtain ⟨p', h1, h2⟩ := this hlt
    rw [h1] at k1
    cases k1
    omega

theorem writable_shape {c c' : Crash} (hs : SameShape c c') (a : U32) (n : Nat) : c'.writable a n = c.writable a n := by
  have hpl : c'.place a n = c.place a n := by unfold Crash.place; rw [hs.aliases]
  unfold Crash.writable
  rw [hpl, Bool.eq_iff_iff, List.any_eq_true, List.any_eq_true]
  constructor
  · rintro ⟨p', hp', hh⟩
    obtain ⟨k, hk⟩ := List.mem_iff_getElem?.1 hp'
    obtain ⟨p, p2, h1, h2, h3, h4, h5⟩ := hs.pieces k ⟨p', hk⟩
    cases hk.symm.trans h2
    exact ⟨p, List.mem_iff_getElem?.2 ⟨k, h1⟩, by simpa [Piece.holds, h3, h4, h5] using hh⟩
  · rintro ⟨p, hp, hh⟩
    obtain ⟨k, hk⟩ := List.mem_iff_getElem?.1 hp
    have : ∃ p', c'.pieces[k]? = some p' := by
      have : k < c'.pieces.length := by rw [hs.length]; exact (List.getElem?_eq_some_iff.1 hk).1
      exact ⟨_, List.getElem?_eq_getElem this⟩
    obtain ⟨p1, p2, h1, h2, h3, h4, h5⟩ := hs.pieces k this
    cases hk.symm.trans h1
    exact ⟨p2, List.mem_iff_getElem?.2 ⟨k, h2⟩, by simpa [Piece.holds, h3, h4, h5] using hh⟩

theorem after_writable {c : Crash} {cs : List PCall} (a : U32) (n : Nat) : (c.after cs).writable a n = c.writable a n := by
  induction cs generalizing c with
  | nil => rfl
  | cons x cs ih =>
    cases x <;> first | exact ih | exact ih.trans (writable_shape (write_shape ..) a n)

theorem not_both_within {l1 l2 : List (U32 × List U8)} (hd : Spec.Disjoint (l1 ++ l2)) {b c : U32 × List U8} (hb : b ∈ l1) (hc : c ∈ l2)
    {a : U32} {n : Nat} (hn : 0 < n) (h1 : Within b a n) (h2 : Within c a n) : False :=
  (List.pairwise_append.1 (pieces_apart hd)).2.2 b hb c hc a n hn h1 h2

/-- An alias leads into the block it shows part of. -/
theorem leads_within {r s : U32 × List U8} {x : U32 × U32 × U32} {a : U32} {n : Nat} (hf : Fits r) (c1 : r.1.toNat ≤ x.2.2.toNat)
    (hs : s = (x.1, (r.2.drop (x.2.2.toNat - r.1.toNat)).take x.2.1.toNat)) (hn : 0 < n) (h : Within s a n) :
    Within r (x.2.2 + (a - x.1)) n := by
  subst hs
  unfold Within at *
  unfold Fits at hf
  simp only [List.length_take, List.length_drop] at h
  have h1 : (a - x.1).toNat = a.toNat - x.1.toNat := by
    rw [BitVec.toNat_sub]
    have := a.isLt
    have := x.1.isLt
    omega
  have h2 : (x.2.2 + (a - x.1)).toNat = x.2.2.toNat + (a.toNat - x.1.toNat) := by
    rw [BitVec.toNat_add, h1]
    omega
  rw [h2]
  omega

theorem mem_zip {mem : List (U32 × List U8)} {xs : List (U32 × U32 × U32)} {shows : List (U32 × List U8)}
    (h : List.Forall₂ (AliasShows mem) xs shows) : ∀ z ∈ xs.zip shows, AliasShows mem z.1 z.2 := by
  induction h with
  | nil => intro z hz; cases hz
  | cons h1 _ ih =>
    intro z hz
    rw [List.zip_cons_cons, List.mem_cons] at hz
    rcases hz with rfl | hz
    · exact h1
    · exact ih z hz

theorem writable_crashOf {image mem shows : List (U32 × List U8)} {xs : List (U32 × U32 × U32)}
    (hx : List.Forall₂ (AliasShows (image ++ mem)) xs shows) (hd : Spec.Disjoint (image ++ mem ++ shows))
    (hf : ∀ r ∈ image ++ mem ++ shows, Fits r) {a : U32} {n : Nat} (hn : 0 < n) :
    (crashOf image mem xs shows).writable a n = true ↔
      (∃ b ∈ mem, Within b a n) ∨ ∃ z ∈ xs.zip shows, AliasShows mem z.1 z.2 ∧ Within z.2 a n := by
  have hap := apart_crashOf hx hd
  have hal : ∀ y, y ∈ (crashOf image mem xs shows).aliases ↔ ∃ z ∈ xs.zip shows, (⟨z.1.1, z.2.2.length, z.1.2.2⟩ : Alias) = y := by
    intro y; unfold crashOf; exact List.mem_map
  have hh : ∀ z ∈ xs.zip shows, (⟨z.1.1, z.2.2.length, z.1.2.2⟩ : Alias).holds a n = true ↔ Within z.2 a n := by
    intro z hz
    rw [alias_holds]
    unfold Within
    rw [zip_address hx z hz]
    exact Iff.rfl
  have hw : (crashOf image mem xs shows).writable a n = true ↔ ∃ b ∈ mem, Within b ((crashOf image mem xs shows).place a n) n := by
    unfold Crash.writable
    rw [List.any_eq_true]
    constructor
    · rintro ⟨q, hq, h⟩
      rw [Bool.and_eq_true] at h
      rcases List.mem_append.1 hq with hq | hq
      · obtain ⟨b, -, rfl⟩ := List.mem_map.1 hq
        exact absurd h.2 (by simp)
      · obtain ⟨b, hb, rfl⟩ := List.mem_map.1 hq
        exact ⟨b, hb, piece_holds.1 h.1⟩
    · rintro ⟨b, hb, h⟩
      refine ⟨⟨false, b.1, b.2⟩, List.mem_append_right _ (List.mem_map.2 ⟨b, hb, rfl⟩), ?_⟩
      rw [Bool.and_eq_true]
      exact ⟨piece_holds.2 h, rfl⟩
  have hsh : ∀ z ∈ xs.zip shows, z.2 ∈ shows := fun z hz => (List.of_mem_zip hz).2
  rw [hw]
  cases e : (crashOf image mem xs shows).aliases.find? fun x => x.holds a n with
  | none =>
    have hp : (crashOf image mem xs shows).place a n = a := by unfold Crash.place; rw [e]
    rw [hp]
    refine ⟨.inl, ?_⟩
    rintro (h | ⟨z, hz, -, h⟩)
    · exact h
    · exact absurd ((hh z hz).2 h) (List.find?_eq_none.1 e _ ((hal _).2 ⟨z, hz, rfl⟩))
  | some y =>
    have hp : (crashOf image mem xs shows).place a n = y.target + (a - y.address) := by unfold Crash.place; rw [e]
    have hy := List.find?_some (p := fun x : Alias => x.holds a n) e
    have hym := List.mem_of_find?_eq_some e
    obtain ⟨z, hz, rfl⟩ := (hal y).1 hym
    have hwz := (hh z hz).1 hy
    rw [hp]
    constructor
    · rintro ⟨b, hb, h⟩
      refine .inr ⟨z, hz, ?_, hwz⟩
      obtain ⟨r, hr, c1, c2, c3⟩ := mem_zip hx z hz
      rcases List.mem_append.1 hr with hi | hm
      · exact (not_both_within (disjoint_left hd) hi hb hn (leads_within (hf r (List.mem_append_left _ hr)) c1 c3 hn hwz) h).elim
      · exact ⟨r, hm, c1, c2, c3⟩
    · rintro (⟨b, hb, h⟩ | ⟨z', hz', ⟨r, hr, c1, c2, c3⟩, h⟩)
      · exact (not_both_within hd (List.mem_append_right _ hb) (hsh z hz) hn h hwz).elim
      · have := unique_of (f := fun x : Alias => x.holds a n) (hap.aliases.imp fun k => k a n hn) _ hym _ ((hal _).2 ⟨z', hz', rfl⟩) hy ((hh z' hz').2 h)
        injection this with u1 u2 u3
        refine ⟨r, hr, ?_⟩
        have := leads_within (hf r (by simp [hr])) c1 c3 hn h
        rw [← u1, ← u3] at this
        exact this

/-- C102, exactly: after any calls of the debug monitor, with dumps of whatever format, `w` can be read at an address if and only if all
its bytes are in one block of the image, in one block of the dump or in what one alias shows; and it can be written if and only
if all its bytes are in one block of the dump or in what one alias shows of such a block. -/
theorem C102_accessible_iff {args : List Str} {os : List Opt} {p : Prog} {image mem shows : List (U32 × List U8)} {regs : Regs}
    (h : CrashGiven args p os image regs mem shows) :
    ∃ q, startUp args p = .ok () q ∧ ∀ W cs pl, PHist (platform W q) cs pl → pl.faults + 1 < 2 ^ 31 → ∀ (w : Width) (a : U32),
      (CanRead pl w a ↔ ∃ b ∈ image ++ mem ++ shows, Within b a w.bytes) ∧
      (CanWrite pl w a ↔ (∃ b ∈ mem, Within b a w.bytes) ∨
        ∃ z ∈ (aliases os).zip shows, AliasShows mem z.1 z.2 ∧ Within z.2 a w.bytes) := by
  obtain ⟨q, e, -, hq⟩ := crash_rep h
  refine ⟨q, e, fun W cs pl hh hlt w a => ?_⟩
  obtain ⟨ok, rep⟩ := hq W cs pl hh
  constructor
  · rw [canRead_iff (rep.finds ok) hlt, read_some rep (width_pos w), after_ranges, ranges_crashOf h.aliases]
    constructor
    · rintro ⟨r, hr, hi⟩
      obtain ⟨b, hb, rfl⟩ := List.mem_map.1 hr
      exact ⟨b, hb, hi⟩
    · rintro ⟨b, hb, hi⟩
      exact ⟨_, List.mem_map.2 ⟨b, hb, rfl⟩, hi⟩
  · rw [canWrite_iff (rep.finds ok) hlt, after_writable, writable_crashOf h.aliases h.disjoint h.fits (width_pos w)]

/-! ### C103 -/

/-- C103, for dumps of whatever format. -/
theorem C103_any_format {args1 args2 : List Str} {p1 p2 : Prog} {os1 os2 : List Opt} {image1 image2 mem1 mem2 shows : List (U32 × List U8)}
    {regs1 regs2 : Regs} (h1 : CrashGiven args1 p1 os1 image1 regs1 mem1 shows) (h2 : CrashGiven args2 p2 os2 image2 regs2 mem2 shows)
    (hi : ∀ b ∈ image1, b ∈ image2) (hm : ∀ b ∈ mem1, b ∈ mem2) (ha : aliases os1 = aliases os2) :
    ∃ q1 q2, startUp args1 p1 = .ok () q1 ∧ startUp args2 p2 = .ok () q2 ∧ ∀ w1 w2 cs pl1 pl2,
      PHist (platform w1 q1) cs pl1 → PHist (platform w2 q2) cs pl2 → pl1.faults + 1 < 2 ^ 31 → AlsoIn pl1 pl2 := by
  obtain ⟨q1, e1, -, s1⟩ := crash_rep h1
  obtain ⟨q2, e2, -, s2⟩ := crash_rep h2
  refine ⟨q1, q2, e1, e2, fun w1 w2 cs pl1 pl2 r1 r2 hlt => ?_⟩
  have hp : PartOf (crashOf image1 mem1 (aliases os1) shows) (crashOf image2 mem2 (aliases os2) shows) := by
    refine ⟨?_, by unfold crashOf; rw [ha], apart_crashOf h2.aliases h2.disjoint⟩
    intro p hp
    unfold crashOf at hp ⊢
    simp only [List.mem_append, List.mem_map] at hp ⊢
    rcases hp with ⟨b, hb, rfl⟩ | ⟨b, hb, rfl⟩
    · exact .inl ⟨b, hi b hb, rfl⟩
    · exact .inr ⟨b, hm b hb, rfl⟩
  obtain ⟨k1, k2⟩ := s1 w1 cs pl1 r1
  obtain ⟨l1, l2⟩ := s2 w2 cs pl2 r2
  exact hp.after.alsoIn (k2.finds k1) (l2.finds l1) hlt

/-! ### Concrete cases -/

theorem givenOdd : CrashGiven argsBin progOdd optsBin [(0x100, [1, 2, 3, 4, 5, 6])] (regsIn oddMeanings) (blocks (runs (memoryIn oddMeanings))) [] where
  spelled := spelledBin
  image := ⟨[0x62], _, rfl, fun _ => rfl, by simp, by decide, by decide +kernel⟩
  dump := ⟨[0x64], _, rfl, fun _ => rfl, .log ⟨by decide +kernel, by decide +kernel, oddLog_taken⟩ (by rw [oddLog_runs]; decide)⟩
  aliases := .nil
  disjoint := by rw [oddLog_runs]; exact disjoint_ranges (by decide)
  fits := by rw [oddLog_runs]; unfold Fits; decide
  memory := fun _ => rfl

/-- A dump of the same crash. -/
def dumpOdd : DumpFile :=
  { v2 := false, flags := 1, regs := (regsIn oddMeanings).r, psr := 0, fpr := (regsIn oddMeanings).fpr, mem := blocks (runs (memoryIn oddMeanings)) }

/-- It, with the same raw image. -/
def progDumpOdd : Prog :=
  { host := { mem := MemSim.init goodHeap,
              files := { opens := fun _ n => ([([0x62], [1, 2, 3, 4, 5, 6]), ([0x64], encode dumpOdd)].lookup n).map File.of } } }

theorem givenDumpOdd : CrashGiven argsBin progDumpOdd optsBin [(0x100, [1, 2, 3, 4, 5, 6])] (loadedRegs dumpOdd {})
    (blocks (runs (memoryIn oddMeanings))) [] where
  spelled := spelledBin
  image := ⟨[0x62], _, rfl, fun _ => rfl, by simp, by decide, by decide +kernel⟩
  dump := ⟨[0x64], _, rfl, fun _ => rfl, .dump (df := dumpOdd) (.inl rfl) ⟨by decide +kernel, by decide +kernel, by decide +kernel⟩⟩
  aliases := .nil
  disjoint := by rw [oddLog_runs]; exact disjoint_ranges (by decide)
  fits := by rw [oddLog_runs]; unfold Fits; decide
  memory := fun _ => rfl

/-- After GDB has written 7 at 0x30000004, it is told the word there, and the registers the log shows. -/
example : ∃ q, startUp argsBin progOdd = .ok () q ∧ ∀ w pl, RegisterWrites (platform w q) [.memWrite .w32 0x30000004 7] pl [] →
    (∃ v pl', memRead .w32 0x30000004 pl = .ok v pl' ∧ numberBytes v = [7, 0, 0, 0]) ∧
    (pl.buf.pos = 0 → packetBufferSize ≤ pl.buf.data.length →
      ∃ b, copyContextToBuffer pl = .ok () { pl with buf := b } ∧ written b = hexOf (packetBytes (regsIn oddMeanings))) := by
  obtain ⟨q, e, h⟩ := C91_any_format givenOdd
  refine ⟨q, e, fun w pl hw => ?_⟩
  have t := h w _ pl [] hw
  refine ⟨?_, t.registers⟩
  have hr := (t.memory .w32 0x30000004).1
  rw [oddLog_runs, show ((crashOf [(0x100, [1, 2, 3, 4, 5, 6])] (blocks [(0x30000000, [0, 0, 0, 0, 0, 8, 0xFFFFFFFF, 7])]) (aliases optsBin)
    []).after [.memWrite .w32 0x30000004 7]).read 0x30000004 Width.w32.bytes = some [7, 0, 0, 0] by decide +kernel] at hr
  obtain ⟨v, pl', e1, e2, -⟩ := hr
  exact ⟨v, pl', e1, e2.symm⟩

/-- A log and a dump that tell the same. -/
example : ∃ q1 q2, startUp argsBin progOdd = .ok () q1 ∧ startUp argsBin progDumpOdd = .ok () q2 ∧ ∀ w1 w2 cs pl1 pl2 ws,
    RegisterWrites (platform w1 q1) cs pl1 ws → RegisterWrites (platform w2 q2) cs pl2 ws →
    ∃ c psr regs, Told pl1 c psr regs ∧ Told pl2 c psr regs :=
  C101_any_format givenOdd givenDumpOdd (.refl _) (.refl _) (by decide +kernel) rfl (.refl _)

example : ∃ q1 q2, startUp argsBin progOdd = .ok () q1 ∧ startUp argsBin progDumpOdd = .ok () q2 ∧
    ∀ w1 w2 cs pl1 pl2, PHist (platform w1 q1) cs pl1 → PHist (platform w2 q2) cs pl2 → pl1.faults + 1 < 2 ^ 31 → AlsoIn pl1 pl2 :=
  C103_any_format givenOdd givenDumpOdd (fun _ h => h) (fun _ h => h) rfl

/-- What the log shows can be read and written, also across words; the image can only be read; and nothing can be read across the end. -/
example : ∃ q, startUp argsBin progOdd = .ok () q ∧ ∀ W, CanWrite (platform W q) .w32 0x30000006 ∧ CanRead (platform W q) .w16 0x104 ∧
    ¬ CanWrite (platform W q) .w16 0x104 ∧ ¬ CanRead (platform W q) .w32 0x104 := by
  obtain ⟨q, e, h⟩ := C102_accessible_iff givenOdd
  refine ⟨q, e, fun W => ?_⟩
  have hk := h W [] _ (.nil _) (show 0 + 1 < 2 ^ 31 by decide)
  rw [oddLog_runs, show (aliases optsBin).zip ([] : List (U32 × List U8)) = [] by decide +kernel] at hk
  unfold Within at hk
  refine ⟨(hk _ _).2.2 (.inl (by decide)), (hk _ _).1.2 (by decide), fun h => ?_, fun h => ?_⟩
  · rcases (hk _ _).2.1 h with h | ⟨z, hz, -⟩
    · exact absurd h (by decide)
    · cases hz
  · exact absurd ((hk _ _).1.1 h) (by decide)

example : Gaps ([(0x100, [1, 2, 3, 4, 5, 6])] ++ blocks (runs (memoryIn oddMeanings)) ++ []) ∧
    CutAt Width.w16.bytes [(0x100, [1, 2, 3, 4, 5, 6])] (blocks (runs (memoryIn oddMeanings))) [] (aliases optsBin) := by
  rw [oddLog_runs]
  exact ⟨by decide, by decide, by decide +kernel⟩

/-- With an alias: what it shows of the dump can be written. -/
example : ∃ q, startUp argsFour (progWith dumpWords) = .ok () q ∧ ∀ W, CanWrite (platform W q) .w16 0x51 ∧ ¬ CanRead (platform W q) .w32 0x20000002 := by
  obtain ⟨q, e, h⟩ := C102_accessible_iff givenWords.crash
  refine ⟨q, e, fun W => ?_⟩
  have hk := h W [] _ (.nil _) (show 0 + 1 < 2 ^ 31 by decide)
  rw [aliasesFour] at hk
  unfold Within at hk
  refine ⟨(hk _ _).2.2 (.inr ⟨_, List.mem_cons_self, ⟨(0x20000000, [1, 2, 3, 4]), by simp [dumpWords], by decide, by decide, by decide⟩, by decide⟩),
    fun h => ?_⟩
  exact absurd ((hk _ _).1.1 h) (by decide)

end Verif.Props
