import Verif.Spec.Faithful
import Verif.Lemmas.DumpOnce
import Verif.Props.AnyCrash
/-
C117: what GDB is shown tells one crash from another.
-/
namespace Verif.Props
open Verif MemSim Spec CommandLine Platform Main

theorem byteIn_within {b : U32 × List U8} {a : U32} : (byteIn b a).isSome = true ↔ Within b a 1 := by
  rw [Dump.byteIn_iff]
  unfold Within
  omega

theorem byteAmong_isSome {mem : List (U32 × List U8)} {a : U32} : (byteAmong mem a).isSome = true ↔ ∃ b ∈ mem, Within b a 1 := by
  unfold byteAmong
  rw [List.findSome?_isSome_iff]
  simp only [byteIn_within]

/-- Of blocks of which no two contain the same address, each has the byte. -/
theorem byteAmong_of {mem : List (U32 × List U8)} (hd : Spec.Disjoint mem) {b : U32 × List U8} (hb : b ∈ mem) {a : U32} {v : U8}
    (h : byteIn b a = some v) : byteAmong mem a = some v := by
  unfold byteAmong
  induction mem with
  | nil => cases hb
  | cons c cs ih =>
    unfold Spec.Disjoint at hd
    rw [List.pairwise_cons] at hd
    rw [List.findSome?_cons]
    rcases List.mem_cons.1 hb with rfl | hb'
    · rw [h]
    · rcases hd.1 b hb' a with e | e
      · rw [e]; exact ih hd.2 hb'
      · rw [e] at h; cases h

theorem byteIn_bytes {b : U32 × List U8} {a : U32} {v : U8} (h : byteIn b a = some v) :
    Within b a 1 ∧ (b.2.drop (a.toNat - b.1.toNat)).take 1 = [v] := by
  refine ⟨byteIn_within.1 (by rw [h]; rfl), ?_⟩
  unfold byteIn at h
  split at h
  · rw [List.getElem?_eq_some_iff] at h
    obtain ⟨h1, h2⟩ := h
    rw [List.drop_eq_getElem_cons h1, h2]
    rfl
  · cases h

theorem shown_zip {mem : List (U32 × List U8)} {xs : List (U32 × U32 × U32)} {shows : List (U32 × List U8)}
    (h : List.Forall₂ (AliasShows mem) xs shows) {b : U32 × List U8} (hb : b ∈ shows) : ∃ z ∈ xs.zip shows, z.2 = b := by
  induction h with
  | nil => cases hb
  | cons h _ ih =>
    rw [List.zip_cons_cons]
    rcases List.mem_cons.1 hb with rfl | hb'
    · exact ⟨_, List.mem_cons_self, rfl⟩
    · obtain ⟨z, hz, e⟩ := ih hb'
      exact ⟨z, List.mem_cons_of_mem _ hz, e⟩

/-- A byte of the crash is the byte of the block that has it. -/
theorem read_byte {image mem shows : List (U32 × List U8)} {xs : List (U32 × U32 × U32)} {s : Sim}
    (hrep : Rep s (crashOf image mem xs shows))
    (hx : List.Forall₂ (AliasShows (image ++ mem)) xs shows) (hd : Spec.Disjoint (image ++ mem ++ shows))
    (hf : ∀ r ∈ image ++ mem ++ shows, Fits r) (a : U32) :
    (crashOf image mem xs shows).read a 1 = (byteAmong (image ++ mem ++ shows) a).map fun v => [v] := by
  have hap := apart_crashOf hx hd
  have hal : ∀ y, y ∈ (crashOf image mem xs shows).aliases ↔ ∃ z ∈ xs.zip shows, (⟨z.1.1, z.2.2.length, z.1.2.2⟩ : Alias) = y := by
    intro y; unfold crashOf; exact List.mem_map
  have hh : ∀ z ∈ xs.zip shows, (⟨z.1.1, z.2.2.length, z.1.2.2⟩ : Alias).holds a 1 = true ↔ Within z.2 a 1 := by
    intro z hz
    rw [alias_holds]
    unfold Within
    rw [zip_address hx z hz]
    exact Iff.rfl
  -- the piece made of a block
  have hpc : ∀ r ∈ image ++ mem, ∃ i, (⟨i, r.1, r.2⟩ : Piece) ∈ (crashOf image mem xs shows).pieces := by
    intro r hr
    unfold crashOf
    rcases List.mem_append.1 hr with h | h
    · exact ⟨true, List.mem_append_left _ (List.mem_map.2 ⟨r, h, rfl⟩)⟩
    · exact ⟨false, List.mem_append_right _ (List.mem_map.2 ⟨r, h, rfl⟩)⟩
  have hfind : ∀ r ∈ image ++ mem, Within r ((crashOf image mem xs shows).place a 1) 1 →
      (crashOf image mem xs shows).read a 1 = some ((r.2.drop (((crashOf image mem xs shows).place a 1).toNat - r.1.toNat)).take 1) := by
    intro r hr hw
    obtain ⟨i, hi⟩ := hpc r hr
    have hpw : (⟨i, r.1, r.2⟩ : Piece).holds ((crashOf image mem xs shows).place a 1) 1 = true := piece_holds.2 hw
    unfold Crash.read
    cases e : (crashOf image mem xs shows).pieces.find? fun p => p.holds ((crashOf image mem xs shows).place a 1) 1 with
    | none => exact absurd hpw (List.find?_eq_none.1 e _ hi)
    | some q =>
      have hq := List.find?_some (p := fun p : Piece => p.holds ((crashOf image mem xs shows).place a 1) 1) e
      have := unique_of (f := fun p : Piece => p.holds ((crashOf image mem xs shows).place a 1) 1)
        (hap.pieces.imp fun k => k _ 1 (by decide)) _ (List.mem_of_find?_eq_some e) _ hi hq hpw
      subst this
      rfl
  have key : ∀ b ∈ image ++ mem ++ shows, ∀ v, byteIn b a = some v → (crashOf image mem xs shows).read a 1 = some [v] := by
    intro b hb v hv
    obtain ⟨hw, hbytes⟩ := byteIn_bytes hv
    rcases List.mem_append.1 hb with hb' | hb'
    · have hp : (crashOf image mem xs shows).place a 1 = a := by
        unfold Crash.place
        cases e : (crashOf image mem xs shows).aliases.find? fun x => x.holds a 1 with
        | none => rfl
        | some y =>
          have hy := List.find?_some (p := fun x : Alias => x.holds a 1) e
          obtain ⟨z, hz, rfl⟩ := (hal y).1 (List.mem_of_find?_eq_some e)
          exact (not_both_within hd hb' (List.of_mem_zip hz).2 (by decide) hw ((hh z hz).1 hy)).elim
      have := hfind b hb' (by rw [hp]; exact hw)
      rw [this, hp, hbytes]
    · obtain ⟨z, hz, rfl⟩ := shown_zip hx hb'
      have hp : (crashOf image mem xs shows).place a 1 = z.1.2.2 + (a - z.1.1) := by
        unfold Crash.place
        cases e : (crashOf image mem xs shows).aliases.find? fun x => x.holds a 1 with
        | none => exact absurd ((hh z hz).2 hw) (List.find?_eq_none.1 e _ ((hal _).2 ⟨z, hz, rfl⟩))
        | some y =>
          have hy := List.find?_some (p := fun x : Alias => x.holds a 1) e
          have := unique_of (f := fun x : Alias => x.holds a 1) (hap.aliases.imp fun k => k a 1 (by decide)) _ (List.mem_of_find?_eq_some e) _
            ((hal _).2 ⟨z, hz, rfl⟩) hy ((hh z hz).2 hw)
          subst this
          rfl
      obtain ⟨r, hr, c1, c2, c3⟩ := mem_zip hx z hz
      have hfr := hf r (List.mem_append_left _ hr)
      have hin := leads_within hfr c1 c3 (by decide) hw
      have := hfind r hr (by rw [hp]; exact hin)
      rw [this, hp]
      have hto : (z.1.2.2 + (a - z.1.1)).toNat = z.1.2.2.toNat + (a.toNat - z.1.1.toNat) := by
        have hw' := hw
        unfold Within at hw' hin
        rw [c3] at hw'
        simp only [List.length_take, List.length_drop] at hw'
        unfold Fits at hfr
        have h1 : (a - z.1.1).toNat = a.toNat - z.1.1.toNat := by
          rw [BitVec.toNat_sub]
          have := a.isLt
          have := z.1.1.isLt
          omega
        rw [BitVec.toNat_add, h1]
        omega
      have hz1 := zip_address hx z hz
      rw [hz1] at hbytes
      rw [hto, ← hbytes, c3]
      have hw' := hw
      unfold Within at hw'
      rw [c3] at hw'
      simp only [List.length_take, List.length_drop] at hw'
      rw [List.drop_take, List.drop_drop, List.take_take, Nat.min_eq_left (by omega)]
      congr 2
      congr 1
      omega
  cases e : byteAmong (image ++ mem ++ shows) a with
  | some v =>
    obtain ⟨b, hb, hv⟩ : ∃ b ∈ image ++ mem ++ shows, byteIn b a = some v := List.exists_of_findSome?_eq_some e
    exact key b hb v hv
  | none =>
    cases er : (crashOf image mem xs shows).read a 1 with
    | none => rfl
    | some bs =>
      obtain ⟨r, hr, hi⟩ := (read_some hrep (n := 1) (by decide)).1 (by rw [er]; rfl)
      rw [ranges_crashOf hx] at hr
      obtain ⟨b, hb, rfl⟩ := List.mem_map.1 hr
      have : (byteAmong (image ++ mem ++ shows) a).isSome = true := byteAmong_isSome.2 ⟨b, hb, hi⟩
      rw [e] at this
      cases this

theorem hex2_inj : ∀ x y : U8, hex2 x = hex2 y → x = y := by
  intro x y h
  have k : ∀ z : U8, (hex2 z).foldl (fun n c => 16 * n + (hexDigit c).getD 0) 0 = z.toNat := by decide +kernel
  exact BitVec.eq_of_toNat_eq (by rw [← k x, ← k y, h])

theorem hexOf_inj {xs ys : Str} (h : hexOf xs = hexOf ys) : xs = ys := by
  induction xs generalizing ys with
  | nil =>
    cases ys with
    | nil => rfl
    | cons y ys => cases h
  | cons x xs ih =>
    cases ys with
    | nil => cases h
    | cons y ys =>
      have h' : hex2 x ++ hexOf xs = hex2 y ++ hexOf ys := h
      have := List.append_inj h' rfl
      rw [hex2_inj x y this.1, ih this.2]

theorem flat_le32_length (xs : List U32) : (xs.flatMap le32).length = 4 * xs.length := by
  induction xs with
  | nil => rfl
  | cons x xs ih =>
    rw [List.flatMap_cons, List.length_append, ih, List.length_cons]
    show 4 + _ = _
    omega

theorem packetBytes_iff {c d : Regs} (hc : RegsWF c) (hd : RegsWF d) : packetBytes c = packetBytes d ↔ SameRegs c d := by
  unfold packetBytes SameRegs
  constructor
  · intro h
    obtain ⟨h1, h2⟩ := Dump.words_inj (by rw [hc.1, hd.1]) h
    refine ⟨h1, ?_⟩
    by_cases e1 : hasFloat c.flags = true <;> by_cases e2 : hasFloat d.flags = true
    · rw [if_pos e1, if_pos e2] at h2
      refine ⟨by rw [e1, e2], fun _ => ?_⟩
      have := Dump.words_inj (xs := c.fpr) (ys := d.fpr) (s := []) (t := []) (by rw [hc.2, hd.2]) (by rw [List.append_nil, List.append_nil]; exact h2)
      exact this.1
    · rw [if_pos e1, if_neg e2] at h2
      have := congrArg List.length h2
      rw [flat_le32_length, hc.2] at this
      exact absurd this (by decide)
    · rw [if_neg e1, if_pos e2] at h2
      have := congrArg List.length h2
      rw [flat_le32_length, hd.2] at this
      exact absurd this (by decide)
    · exact ⟨by rw [Bool.eq_false_iff.2 e1, Bool.eq_false_iff.2 e2], fun h => absurd h e1⟩
  · rintro ⟨h1, h2, h3⟩
    rw [h1, h2]
    by_cases e : hasFloat d.flags = true
    · rw [if_pos e, if_pos e, h3 (by rw [h2]; exact e)]
    · rw [if_neg e, if_neg e]

theorem byteOf_self : ∀ v : U8, byteOf v 0 = v := by decide +kernel

theorem changeable_iff {mem : List (U32 × List U8)} {xs : List (U32 × U32 × U32)} {shows : List (U32 × List U8)} {a : U32} :
    Changeable mem xs shows a ↔ (∃ b ∈ mem, Within b a 1) ∨ ∃ z ∈ xs.zip shows, AliasShows mem z.1 z.2 ∧ Within z.2 a 1 := by
  unfold Changeable
  simp only [byteAmong_isSome, byteIn_within]

/-- What the debug monitor reads, can write and gets as registers, of a crash given. -/
theorem answers {args : List Str} {os : List Opt} {p : Prog} {image mem shows : List (U32 × List U8)} {regs : Regs}
    (h : CrashGiven args p os image regs mem shows) :
    ∃ q, startUp args p = .ok () q ∧ ∀ W, RegsWF regs ∧
      (∀ a v, ReadsAs (platform W q) a v ↔ byteAmong (image ++ mem ++ shows) a = some v) ∧
      (∀ a, CanWrite (platform W q) .w8 a ↔ Changeable mem (aliases os) shows a) ∧
      ∀ t, Sends (platform W q) t ↔ t = hexOf (packetBytes regs) := by
  obtain ⟨q, e, c, hq⟩ := crash_rep h
  refine ⟨q, e, fun W => ?_⟩
  obtain ⟨ok, rep⟩ := hq W [] _ (.nil _)
  have rep : Rep (platform W q).mem (crashOf image mem (aliases os) shows) := rep
  have hlt : (platform W q).faults + 1 < 2 ^ 31 := show 0 + 1 < 2 ^ 31 by decide
  refine ⟨by rw [← c]; exact ok.regs, fun a v => ?_, fun a => ?_, fun t => ?_⟩
  · have hr := (rep.finds ok .w8 a).1
    rw [show Width.w8.bytes = 1 from rfl, read_byte rep h.aliases h.disjoint h.fits] at hr
    unfold ReadsAs
    cases eb : byteAmong (image ++ mem ++ shows) a with
    | some u =>
      rw [eb] at hr
      obtain ⟨u', p', e1, e2, e3⟩ := hr
      have e2 : u = u' := by
        injection e2 with e2
        rw [e2]
        exact byteOf_self u'
      subst e2
      constructor
      · rintro ⟨p2, k1, -⟩
        rw [e1] at k1
        injection k1 with k1
        rw [k1]
      · intro k
        injection k with k
        subst k
        exact ⟨p', e1, e3⟩
    | none =>
      rw [eb] at hr
      obtain ⟨p', e1, e3⟩ := hr hlt
      constructor
      · rintro ⟨p2, k1, k2⟩
        rw [e1] at k1
        injection k1 with k1 k3
        subst k3
        omega
      · intro k; cases k
  · rw [canWrite_iff (rep.finds ok) hlt, writable_crashOf h.aliases h.disjoint h.fits (width_pos _), changeable_iff]
    exact Iff.rfl
  · have hs : ∀ b : Buf, b.pos = 0 → packetBufferSize ≤ b.data.length →
        ∃ b', copyContextToBuffer { platform W q with buf := b } = .ok () { platform W q with buf := b' } ∧ written b' = hexOf (packetBytes regs) := by
      intro b h1 h2
      obtain ⟨b', k1, k2⟩ := (told (RegisterWrites.packet (p := platform W q) b (platform W q).code (.nil _)) ok.regs
        (hq W [] _ (.packet b _ (.nil _))).1 (hq W [] _ (.packet b _ (.nil _))).2).registers h1 h2
      refine ⟨b', k1, ?_⟩
      rw [k2]
      show hexOf (packetBytes (platform W q).ctx) = _
      rw [show (platform W q).ctx = _ from c]
    constructor
    · intro ht
      have hroom : packetBufferSize ≤ ({ data := List.replicate packetBufferSize 0, pos := 0 } : Buf).data.length := by
        rw [List.length_replicate]; exact Nat.le_refl _
      obtain ⟨b1, k1, k2⟩ := ht { data := List.replicate packetBufferSize 0, pos := 0 } rfl hroom
      obtain ⟨b2, l1, l2⟩ := hs { data := List.replicate packetBufferSize 0, pos := 0 } rfl hroom
      rw [k1] at l1
      injection l1 with _ l1
      rw [← k2, ← l2, show b1 = b2 from congrArg Plat.buf l1]
    · rintro rfl
      exact hs

/-- C117. Two start-ups that are given crashes, in files of whatever format, both succeed, and the debug monitor gets the same answers
in the two sessions if and only if the crashes have the same byte at every address, with the aliases, the same addresses are in
the dump's memory and not the image's, and the registers are the same. So nothing of a crash's memory and registers is lost or made up, and
GDB can tell memory that is not there from memory that is zero. -/
theorem C117_answers_tell_crashes_apart {args1 args2 : List Str} {p1 p2 : Prog} {os1 os2 : List Opt}
    {image1 image2 mem1 mem2 shows1 shows2 : List (U32 × List U8)} {regs1 regs2 : Regs}
    (h1 : CrashGiven args1 p1 os1 image1 regs1 mem1 shows1) (h2 : CrashGiven args2 p2 os2 image2 regs2 mem2 shows2) :
    ∃ q1 q2, startUp args1 p1 = .ok () q1 ∧ startUp args2 p2 = .ok () q2 ∧ ∀ w1 w2,
      (SameAnswers (platform w1 q1) (platform w2 q2) ↔
        (∀ a, byteAmong (image1 ++ mem1 ++ shows1) a = byteAmong (image2 ++ mem2 ++ shows2) a) ∧
        (∀ a, Changeable mem1 (aliases os1) shows1 a ↔ Changeable mem2 (aliases os2) shows2 a) ∧
        SameRegs regs1 regs2) := by
  obtain ⟨q1, e1, a1⟩ := answers h1
  obtain ⟨q2, e2, a2⟩ := answers h2
  refine ⟨q1, q2, e1, e2, fun w1 w2 => ?_⟩
  obtain ⟨r1, x1, x2, x3⟩ := a1 w1
  obtain ⟨r2, y1, y2, y3⟩ := a2 w2
  constructor
  · rintro ⟨s1, s2, s3⟩
    refine ⟨fun a => Option.ext fun v => ?_, fun a => ?_, ?_⟩
    · rw [← x1, ← y1]; exact s1 a v
    · rw [← x2, ← y2]; exact s2 a
    · rw [← packetBytes_iff r1 r2]
      exact hexOf_inj ((y3 _).1 ((s3 _).1 ((x3 _).2 rfl)))
  · rintro ⟨s1, s2, s3⟩
    refine ⟨fun a v => ?_, fun a => ?_, fun t => ?_⟩
    · rw [x1, y1, s1]
    · rw [x2, y2]; exact s2 a
    · rw [x3, y3, (packetBytes_iff r1 r2).2 s3]

theorem byteAmong_append (xs ys : List (U32 × List U8)) (a : U32) : byteAmong (xs ++ ys) a = (byteAmong xs a).or (byteAmong ys a) := by
  unfold byteAmong
  rw [List.findSome?_append]

/-- C117, without aliases: the answers are the same if and only if the image has the same bytes, the dump has the same bytes and the
registers are the same. -/
theorem C117_without_aliases {args1 args2 : List Str} {p1 p2 : Prog} {os1 os2 : List Opt}
    {image1 image2 mem1 mem2 : List (U32 × List U8)} {regs1 regs2 : Regs}
    (h1 : CrashGiven args1 p1 os1 image1 regs1 mem1 []) (h2 : CrashGiven args2 p2 os2 image2 regs2 mem2 []) :
    ∃ q1 q2, startUp args1 p1 = .ok () q1 ∧ startUp args2 p2 = .ok () q2 ∧ ∀ w1 w2,
      (SameAnswers (platform w1 q1) (platform w2 q2) ↔
        (∀ a, byteAmong image1 a = byteAmong image2 a) ∧ (∀ a, byteAmong mem1 a = byteAmong mem2 a) ∧ SameRegs regs1 regs2) := by
  obtain ⟨q1, q2, e1, e2, h⟩ := C117_answers_tell_crashes_apart h1 h2
  refine ⟨q1, q2, e1, e2, fun w1 w2 => ?_⟩
  rw [h w1 w2]
  simp only [List.append_nil, byteAmong_append, Changeable, List.zip_nil_right, List.not_mem_nil, false_and, exists_false, or_false]
  have one : ∀ {im mem : List (U32 × List U8)}, Spec.Disjoint (im ++ mem ++ []) → ∀ a, byteAmong im a = none ∨ byteAmong mem a = none := by
    intro im mem hd a
    cases e : byteAmong im a with
    | none => exact .inl rfl
    | some v =>
      refine .inr ?_
      cases e' : byteAmong mem a with
      | none => rfl
      | some v' =>
        obtain ⟨b, hb, hw⟩ := byteAmong_isSome.1 (show (byteAmong im a).isSome = true by rw [e]; rfl)
        obtain ⟨b', hb', hw'⟩ := byteAmong_isSome.1 (show (byteAmong mem a).isSome = true by rw [e']; rfl)
        rw [List.append_nil] at hd
        exact (not_both_within hd hb hb' (by decide) hw hw').elim
  constructor
  · rintro ⟨s1, s2, s3⟩
    refine ⟨fun a => ?_, fun a => ?_, s3⟩ <;>
    · have k := s1 a
      have k2 := s2 a
      rcases one h1.disjoint a with u | u <;> rcases one h2.disjoint a with v | v <;> simp_all
  · rintro ⟨s1, s2, s3⟩
    exact ⟨fun a => by rw [s1, s2], fun a => by rw [s2], s3⟩

/-! ### Concrete cases -/

/-- The log and the dump of the same crash. -/
example : ∃ q1 q2, startUp argsBin progOdd = .ok () q1 ∧ startUp argsBin progDumpOdd = .ok () q2 ∧ ∀ w1 w2,
    SameAnswers (platform w1 q1) (platform w2 q2) := by
  obtain ⟨q1, q2, e1, e2, h⟩ := C117_without_aliases givenOdd givenDumpOdd
  exact ⟨q1, q2, e1, e2, fun w1 w2 => (h w1 w2).2 ⟨fun _ => rfl, fun _ => rfl, by decide +kernel, by decide +kernel, fun _ => by decide +kernel⟩⟩

/-- A dump with these blocks and R0, with the same raw image. -/
def progBlocks (r0 : U32) (mem : List (U32 × List U8)) : Prog :=
  { host := { mem := MemSim.init goodHeap,
              files := { opens := fun _ n => ([([0x62], [1, 2, 3, 4, 5, 6]), ([0x64], encode { dumpOdd with
                regs := r0 :: dumpOdd.regs.drop 1, mem := mem })].lookup n).map File.of } } }

theorem givenBlocks (r0 : U32) {mem : List (U32 × List U8)} (hm : mem = [] ∨ mem = [(0x30000000, [0, 0, 0, 0])] ∨ mem = [(0x30000000, [0, 0, 9, 0])]) :
    CrashGiven argsBin (progBlocks r0 mem) optsBin [(0x100, [1, 2, 3, 4, 5, 6])]
    (loadedRegs { dumpOdd with regs := r0 :: dumpOdd.regs.drop 1, mem := mem } {}) mem [] where
  spelled := spelledBin
  image := ⟨[0x62], _, rfl, fun _ => rfl, by simp, by decide, by decide +kernel⟩
  dump := ⟨[0x64], _, rfl, fun _ => rfl, .dump (df := { dumpOdd with regs := r0 :: dumpOdd.regs.drop 1, mem := mem }) (.inl rfl)
    ⟨show (dumpOdd.regs.drop 1).length + 1 = 19 by decide +kernel, show dumpOdd.fpr.length = if hasFloat dumpOdd.flags then 33 else 0 by decide +kernel,
      show ∀ r ∈ mem, r.2.length < 2 ^ 32 by rcases hm with rfl | rfl | rfl <;> decide⟩⟩
  aliases := .nil
  disjoint := by rcases hm with rfl | rfl | rfl <;> exact disjoint_ranges (by decide)
  fits := by rcases hm with rfl | rfl | rfl <;> (unfold Fits; decide)
  memory := fun _ => rfl

/-- Memory that is not in the dump is told from memory that is zero, a byte from another one, and a register from another one. -/
example : ∃ q1 q2 q3 q4, startUp argsBin (progBlocks 5 []) = .ok () q1 ∧ startUp argsBin (progBlocks 5 [(0x30000000, [0, 0, 0, 0])]) = .ok () q2 ∧
    startUp argsBin (progBlocks 5 [(0x30000000, [0, 0, 9, 0])]) = .ok () q3 ∧ startUp argsBin (progBlocks 6 [(0x30000000, [0, 0, 9, 0])]) = .ok () q4 ∧
    ∀ w, ¬ SameAnswers (platform w q1) (platform w q2) ∧ ¬ SameAnswers (platform w q2) (platform w q3) ∧
      ¬ SameAnswers (platform w q3) (platform w q4) := by
  obtain ⟨q1, q2, e1, e2, h1⟩ := C117_without_aliases (givenBlocks 5 (.inl rfl)) (givenBlocks 5 (.inr (.inl rfl)))
  obtain ⟨q2', q3, e2', e3, h2⟩ := C117_without_aliases (givenBlocks 5 (.inr (.inl rfl))) (givenBlocks 5 (.inr (.inr rfl)))
  obtain ⟨q3', q4, e3', e4, h3⟩ := C117_without_aliases (givenBlocks 5 (.inr (.inr rfl))) (givenBlocks 6 (.inr (.inr rfl)))
  rw [e2] at e2'
  rw [e3] at e3'
  injection e2' with _ e2'
  injection e3' with _ e3'
  subst e2' e3'
  refine ⟨q1, q2, q3, q4, e1, e2, e3, e4, fun w => ⟨fun h => ?_, fun h => ?_, fun h => ?_⟩⟩
  · exact absurd (((h1 w w).1 h).2.1 0x30000000) (by decide)
  · exact absurd (((h2 w w).1 h).2.1 0x30000002) (by decide)
  · have := ((h3 w w).1 h).2.2.1
    unfold loadedRegs at this
    exact absurd this (by decide +kernel)

end Verif.Props
