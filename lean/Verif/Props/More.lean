import Verif.Spec.More
import Verif.Props.Arrange
import Verif.Props.Aligned
/-
C103: more memory in the image or in the dump does not change what is found in the rest.
-/
namespace Verif.Props
open Verif MemSim Spec CommandLine Platform Main

theorem numberBytes_inj {w : Width} {u v : BitVec w.bits} (h : numberBytes u = numberBytes v) : u = v :=
  eq_of_bytes fun i hi => by
    have := numberBytes_get u hi
    rw [h, numberBytes_get v hi] at this
    exact (Option.some.inj this).symm

/-- The memory `c` is part of the memory `c'`. -/
structure PartOf (c c' : Crash) : Prop where
  pieces : ∀ p ∈ c.pieces, p ∈ c'.pieces
  aliases : c.aliases = c'.aliases
  apart : Apart c'

theorem PartOf.place {c c' : Crash} (h : PartOf c c') (a : U32) (n : Nat) : c.place a n = c'.place a n := by
  unfold Crash.place
  rw [h.aliases]

theorem PartOf.read {c c' : Crash} (h : PartOf c c') {a : U32} {n : Nat} (hn : 0 < n) {bs : List U8} (hr : c.read a n = some bs) :
    c'.read a n = some bs := by
  unfold Crash.read at hr ⊢
  rw [h.place] at hr
  obtain ⟨p, hp, rfl⟩ := Option.map_eq_some_iff.1 hr
  have h1 := h.pieces p (List.mem_of_find?_eq_some hp)
  have h2 := List.find?_some hp
  cases e : c'.pieces.find? fun p => p.holds (c'.place a n) n with
  | none => exact absurd h2 (List.find?_eq_none.1 e p h1)
  | some q =>
    rw [unique_of (h.apart.pieces.imp fun k => k _ n hn) q (List.mem_of_find?_eq_some e) p h1 (List.find?_some e) h2]
    rfl

theorem PartOf.writable {c c' : Crash} (h : PartOf c c') {a : U32} {n : Nat} (hw : c.writable a n = true) : c'.writable a n = true := by
  unfold Crash.writable at hw ⊢
  rw [h.place] at hw
  rw [List.any_eq_true] at hw ⊢
  obtain ⟨p, h1, h2⟩ := hw
  exact ⟨p, h.pieces p h1, h2⟩

theorem PartOf.write {c c' : Crash} (h : PartOf c c') (a : U32) (bs : List U8) : PartOf (c.write a bs) (c'.write a bs) := by
  refine ⟨?_, h.aliases, h.apart.write a bs⟩
  unfold Crash.write
  simp only
  rw [h.place]
  intro p hp
  obtain ⟨q, hq, rfl⟩ := List.mem_map.1 hp
  exact List.mem_map.2 ⟨q, h.pieces q hq, rfl⟩

theorem PartOf.after {cs : List PCall} {c c' : Crash} (h : PartOf c c') : PartOf (c.after cs) (c'.after cs) := by
  induction cs generalizing c c' with
  | nil => exact h
  | cons x xs ih =>
    show PartOf (Crash.after (Crash.step c x) xs) (Crash.after (Crash.step c' x) xs)
    apply ih
    cases x with
    | memWrite w a v => exact h.write a _
    | _ => exact h

theorem PartOf.alsoIn {c c' : Crash} (h : PartOf c c') {p p' : Plat} (hf : Finds p c) (hf' : Finds p' c') (hlt : p.faults + 1 < 2 ^ 31) :
    AlsoIn p p' := by
  constructor
  · intro w a v r hr he
    have h1 := (hf w a).1
    cases e : c.read a w.bytes with
    | none =>
      rw [e] at h1
      obtain ⟨s, k1, k2⟩ := h1 hlt
      rw [hr] at k1
      injection k1 with _ k1
      subst k1
      omega
    | some bs =>
      rw [e] at h1
      obtain ⟨u, s, k1, k2, k3⟩ := h1
      rw [hr] at k1
      injection k1 with k1 k1'
      subst k1 k1'
      have h2 := (hf' w a).1
      rw [h.read (width_pos w) e] at h2
      obtain ⟨u, s', l1, l2, l3⟩ := h2
      have : u = v := numberBytes_inj (l2.symm.trans k2)
      subst this
      exact ⟨s', l1, l3⟩
  · intro w a v r hr he
    have h1 := (hf w a).2 v
    cases e : c.writable a w.bytes with
    | false =>
      rw [e] at h1
      obtain ⟨s, k1, k2⟩ := h1 hlt
      rw [hr] at k1
      injection k1 with _ k1
      subst k1
      omega
    | true =>
      have h2 := (hf' w a).2 v
      rw [if_pos (h.writable e)] at h2
      exact h2

/-- C103. Two start-ups with the same aliases, where every block of the first image is in the second image and every block of the
first dump is in the second dump: both succeed, and after the same calls of the debug monitor whatever can be accessed in the
first session can be accessed in the second, and is the same. -/
theorem C103_more_memory {args1 args2 : List Str} {p1 p2 : Prog} {os1 os2 : List Opt}
    {image1 image2 shows : List (U32 × List U8)} {df1 df2 : DumpFile}
    (h1 : Given args1 p1 os1 image1 df1 shows) (h2 : Given args2 p2 os2 image2 df2 shows)
    (hi : ∀ b ∈ image1, b ∈ image2) (hm : ∀ b ∈ df1.mem, b ∈ df2.mem) (ha : aliases os1 = aliases os2) :
    ∃ q1 q2, startUp args1 p1 = .ok () q1 ∧ startUp args2 p2 = .ok () q2 ∧ ∀ w1 w2 cs pl1 pl2,
      PHist (platform w1 q1) cs pl1 → PHist (platform w2 q2) cs pl2 → pl1.faults + 1 < 2 ^ 31 → AlsoIn pl1 pl2 := by
  obtain ⟨n1, b1, i1, i2, i3⟩ := h1.image
  obtain ⟨d1, t1, j1, j2, j3⟩ := h1.dump
  obtain ⟨n2, b2, k1, k2, k3⟩ := h2.image
  obtain ⟨d2, t2, l1, l2, l3⟩ := h2.dump
  obtain ⟨q1, e1, s1⟩ := C90_session_of_dump h1.spelled i1 j1 i2 j2 i3 j3 h1.wf h1.aliases h1.disjoint h1.fits h1.memory
  obtain ⟨q2, e2, s2⟩ := C90_session_of_dump h2.spelled k1 l1 k2 l2 k3 l3 h2.wf h2.aliases h2.disjoint h2.fits h2.memory
  refine ⟨q1, q2, e1, e2, fun w1 w2 cs pl1 pl2 r1 r2 hlt => ?_⟩
  have hp : PartOf (crashOf image1 df1.mem (aliases os1) shows) (crashOf image2 df2.mem (aliases os2) shows) := by
    refine ⟨?_, by unfold crashOf; rw [ha], apart_crashOf h2.aliases h2.disjoint⟩
    intro p hp
    unfold crashOf at hp ⊢
    simp only [List.mem_append, List.mem_map] at hp ⊢
    rcases hp with ⟨b, hb, rfl⟩ | ⟨b, hb, rfl⟩
    · exact .inl ⟨b, hi b hb, rfl⟩
    · exact .inr ⟨b, hm b hb, rfl⟩
  exact hp.after.alsoIn (s1 w1 cs pl1 r1) (s2 w2 cs pl2 r2) hlt

/-- `dumpWords` with another block. -/
def dumpMore : DumpFile := { startDump with mem := [(0x20000000, [1, 2, 3, 4]), (0x10000000, [9, 9]), (0x20000004, [5, 6, 7, 8])] }

theorem givenMore : Given argsFour (progWith dumpMore) optsFour [(0x100, [1, 2, 3, 4, 5, 6, 7, 8])] dumpMore [(0x50, [1, 2, 3, 4])] where
  spelled := spelledFour
  image := ⟨[0x62], _, rfl, fun _ => rfl, by simp, by decide, by decide +kernel⟩
  dump := ⟨[0x64], _, rfl, fun _ => rfl, .inl rfl⟩
  wf := ⟨by decide, by decide, by decide⟩
  aliases := by
    rw [aliasesFour]
    exact .cons ⟨(0x20000000, [1, 2, 3, 4]), by simp [dumpMore], by decide, by decide, by decide⟩ .nil
  disjoint := disjoint_ranges (by decide)
  fits := by unfold Fits; decide
  memory := fun _ => rfl

/-- The hypotheses are met: one more block in the dump. -/
example : ∃ q1 q2, startUp argsFour (progWith dumpWords) = .ok () q1 ∧ startUp argsFour (progWith dumpMore) = .ok () q2 ∧
    ∀ w1 w2 cs pl1 pl2, PHist (platform w1 q1) cs pl1 → PHist (platform w2 q2) cs pl2 → pl1.faults + 1 < 2 ^ 31 → AlsoIn pl1 pl2 :=
  C103_more_memory givenWords givenMore (fun _ h => h) (by unfold dumpWords dumpMore; simp) rfl

end Verif.Props
