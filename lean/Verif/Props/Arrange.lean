import Verif.Spec.Arrange
import Verif.Props.Told
/-
C101: how files and command line arrange the crash does not matter.
-/
namespace Verif.Props
open Verif MemSim Spec CommandLine Platform Main

theorem find_perm {α : Type} {l l' : List α} {f : α → Bool} (h : l.Perm l') (hu : ∀ x ∈ l, ∀ y ∈ l, f x = true → f y = true → x = y) :
    l.find? f = l'.find? f := by
  cases e : l.find? f with
  | none =>
    rw [List.find?_eq_none] at e
    rw [eq_comm, List.find?_eq_none]
    exact fun x hx => e x (h.mem_iff.2 hx)
  | some x =>
    cases e' : l'.find? f with
    | none =>
      rw [List.find?_eq_none] at e'
      exact absurd (List.find?_some e) (e' x (h.mem_iff.1 (List.mem_of_find?_eq_some e)))
    | some y =>
      rw [hu x (List.mem_of_find?_eq_some e) y (h.mem_iff.2 (List.mem_of_find?_eq_some e')) (List.find?_some e) (List.find?_some e')]

/-- No two pieces and no two aliases hold the same bytes. -/
structure Apart (c : Crash) : Prop where
  pieces : c.pieces.Pairwise fun p q => ∀ a n, 0 < n → p.holds a n = true → q.holds a n = true → False
  aliases : c.aliases.Pairwise fun x y => ∀ a n, 0 < n → x.holds a n = true → y.holds a n = true → False

theorem unique_of {α : Type} {l : List α} {f : α → Bool} (h : l.Pairwise fun p q => f p = true → f q = true → False) :
    ∀ x ∈ l, ∀ y ∈ l, f x = true → f y = true → x = y := by
  induction l with
  | nil => intro x hx; cases hx
  | cons z zs ih =>
    rw [List.pairwise_cons] at h
    intro x hx y hy hfx hfy
    rcases List.mem_cons.1 hx with rfl | hx'
    · rcases List.mem_cons.1 hy with rfl | hy'
      · rfl
      · exact (h.1 y hy' hfx hfy).elim
    · rcases List.mem_cons.1 hy with rfl | hy'
      · exact (h.1 x hx' hfy hfx).elim
      · exact ih h.2 x hx' y hy' hfx hfy

/-- The same memory, in another order. -/
structure Reordered (c c' : Crash) : Prop where
  pieces : c.pieces.Perm c'.pieces
  aliases : c.aliases.Perm c'.aliases
  apart : Apart c

theorem Reordered.place {c c' : Crash} (h : Reordered c c') {a : U32} {n : Nat} (hn : 0 < n) : c.place a n = c'.place a n := by
  unfold Crash.place
  rw [find_perm h.aliases (unique_of (h.apart.aliases.imp fun k => k a n hn))]

theorem Reordered.read {c c' : Crash} (h : Reordered c c') {a : U32} {n : Nat} (hn : 0 < n) : c.read a n = c'.read a n := by
  unfold Crash.read
  rw [h.place hn, find_perm h.pieces (unique_of (h.apart.pieces.imp fun k => k _ n hn))]

theorem Reordered.writable {c c' : Crash} (h : Reordered c c') {a : U32} {n : Nat} (hn : 0 < n) : c.writable a n = c'.writable a n := by
  unfold Crash.writable
  rw [h.place hn, Bool.eq_iff_iff]
  simp only [List.any_eq_true]
  exact ⟨fun ⟨p, h1, h2⟩ => ⟨p, h.pieces.mem_iff.1 h1, h2⟩, fun ⟨p, h1, h2⟩ => ⟨p, h.pieces.mem_iff.2 h1, h2⟩⟩

/-- A write does not move a piece. -/
theorem holds_written {c : Crash} {b : U32} {bs : List U8} {p : Piece} (a : U32) (n : Nat) :
    (if p.holds (c.place b bs.length) bs.length && !p.image then
        { p with bytes := p.bytes.take ((c.place b bs.length).toNat - p.address.toNat) ++ bs ++
            p.bytes.drop ((c.place b bs.length).toNat - p.address.toNat + bs.length) }
      else p : Piece).holds a n = p.holds a n := by
  by_cases hc : (p.holds (c.place b bs.length) bs.length && !p.image) = true
  · rw [if_pos hc]
    rw [Bool.and_eq_true] at hc
    have := holds_lt hc.1
    have hl : (p.bytes.take ((c.place b bs.length).toNat - p.address.toNat) ++ bs ++
            p.bytes.drop ((c.place b bs.length).toNat - p.address.toNat + bs.length)).length = p.bytes.length := by
      simp only [List.length_append, List.length_take, List.length_drop]
      omega
    unfold Piece.holds
    simp only [hl]
  · rw [if_neg hc]

theorem Apart.write {c : Crash} (h : Apart c) (a : U32) (bs : List U8) : Apart (c.write a bs) := by
  refine ⟨?_, h.aliases⟩
  unfold Crash.write
  simp only [List.pairwise_map]
  refine h.pieces.imp fun k a n hn h1 h2 => ?_
  rw [holds_written] at h1 h2
  exact k a n hn h1 h2

theorem Reordered.write {c c' : Crash} (h : Reordered c c') (a : U32) {bs : List U8} (hn : 0 < bs.length) :
    Reordered (c.write a bs) (c'.write a bs) := by
  refine ⟨?_, h.aliases, h.apart.write a bs⟩
  unfold Crash.write
  simp only
  rw [← h.place hn]
  exact h.pieces.map _

theorem width_pos (w : Width) : 0 < w.bytes := by cases w <;> decide

theorem Reordered.after {cs : List PCall} {c c' : Crash} (h : Reordered c c') : Reordered (c.after cs) (c'.after cs) := by
  induction cs generalizing c c' with
  | nil => exact h
  | cons x xs ih =>
    show Reordered (Crash.after (Crash.step c x) xs) (Crash.after (Crash.step c' x) xs)
    apply ih
    cases x with
    | memWrite w a v => exact h.write a (by rw [numberBytes_length]; exact width_pos w)
    | _ => exact h

/-- What is told depends on what can be read and written, nothing else. -/
theorem Reordered.told {c c' : Crash} (h : Reordered c c') {p : Plat} {psr : U32} {regs : Str} (ht : Told p c' psr regs) : Told p c psr regs := by
  have hw : c.word = c'.word := by
    funext a
    unfold Crash.word
    rw [h.read (by decide)]
  refine ⟨?_, ht.signal, by rw [hw]; exact ht.report, ht.registers, ht.stop⟩
  intro w a
  rw [h.read (width_pos w), h.writable (width_pos w)]
  exact ht.memory w a

theorem pieces_apart {bs : List (U32 × List U8)} (h : Spec.Disjoint bs) :
    bs.Pairwise fun b c => ∀ (a : U32) n, 0 < n → (b.1.toNat ≤ a.toNat ∧ a.toNat + n ≤ b.1.toNat + b.2.length) →
      (c.1.toNat ≤ a.toNat ∧ a.toNat + n ≤ c.1.toNat + c.2.length) → False := by
  refine List.Pairwise.imp ?_ h
  intro b c hbc a n hn h1 h2
  have k1 : (byteIn b a).isSome := Dump.byteIn_iff.2 ⟨h1.1, by omega⟩
  have k2 : (byteIn c a).isSome := Dump.byteIn_iff.2 ⟨h2.1, by omega⟩
  rcases hbc a with e | e
  · rw [e] at k1; cases k1
  · rw [e] at k2; cases k2

theorem zip_address {mem : List (U32 × List U8)} {xs : List (U32 × U32 × U32)} {shows : List (U32 × List U8)}
    (h : List.Forall₂ (AliasShows mem) xs shows) : ∀ z ∈ xs.zip shows, z.2.1 = z.1.1 := by
  induction h with
  | nil => intro z hz; cases hz
  | cons h _ ih =>
    intro z hz
    rw [List.zip_cons_cons] at hz
    rcases List.mem_cons.1 hz with rfl | hz
    · obtain ⟨r, -, -, -, rfl⟩ := h
      rfl
    · exact ih z hz

theorem zip_pairwise {α β : Type} {R : β → β → Prop} {xs : List α} {ys : List β} (h : ys.Pairwise R) :
    (xs.zip ys).Pairwise fun a b => R a.2 b.2 := by
  induction xs generalizing ys with
  | nil => exact .nil
  | cons x xs ih =>
    cases ys with
    | nil => exact .nil
    | cons y ys =>
      rw [List.pairwise_cons] at h
      rw [List.zip_cons_cons, List.pairwise_cons]
      exact ⟨fun z hz => h.1 _ (List.of_mem_zip hz).2, ih h.2⟩

theorem apart_crashOf {mem blks dump shows : List (U32 × List U8)} {xs : List (U32 × U32 × U32)}
    (hx : List.Forall₂ (AliasShows mem) xs shows) (hd : Spec.Disjoint (blks ++ dump ++ shows)) : Apart (crashOf blks dump xs shows) := by
  have h1 := (List.pairwise_append.1 hd).1
  have h2 := (List.pairwise_append.1 hd).2.1
  constructor
  · have hp : (crashOf blks dump xs shows).pieces.map (fun p => (p.address, p.bytes)) = blks ++ dump := by
      simp [crashOf, Function.comp_def]
    have := pieces_apart h1
    rw [← hp, List.pairwise_map] at this
    exact this.imp fun k a n hn e1 e2 => k a n hn (holds_lt e1) (holds_lt e2)
  · unfold crashOf
    simp only [List.pairwise_map]
    refine (zip_pairwise (xs := xs) (pieces_apart h2)).imp_of_mem fun ha hb k a n hn e1 e2 => ?_
    have z1 := zip_address hx _ ha
    have z2 := zip_address hx _ hb
    refine k a n hn ?_ ?_
    · rw [z1]; simpa [Alias.holds] using e1
    · rw [z2]; simpa [Alias.holds] using e2

/-- C101. Two start-ups that are given the same blocks of the image, the same registers and blocks of the dump and the same
aliases, in whatever order, as ELF file or raw image, as binary or hexadecimal dump: both succeed, and after the same calls of
the debug monitor and the same register packets it is told the same in both sessions. -/
theorem C101_arrangement_does_not_matter {args1 args2 : List Str} {p1 p2 : Prog} {os1 os2 : List Opt}
    {image1 image2 shows1 shows2 : List (U32 × List U8)} {df1 df2 : DumpFile}
    (h1 : Given args1 p1 os1 image1 df1 shows1) (h2 : Given args2 p2 os2 image2 df2 shows2)
    (hi : image1.Perm image2) (hm : df1.mem.Perm df2.mem) (hr : SameRegisters df1 df2)
    (ha : ((aliases os1).zip shows1).Perm ((aliases os2).zip shows2)) :
    ∃ q1 q2, startUp args1 p1 = .ok () q1 ∧ startUp args2 p2 = .ok () q2 ∧ ∀ w1 w2 cs pl1 pl2 ws,
      RegisterWrites (platform w1 q1) cs pl1 ws → RegisterWrites (platform w2 q2) cs pl2 ws →
      ∃ c psr regs, Told pl1 c psr regs ∧ Told pl2 c psr regs := by
  obtain ⟨n1, b1, i1, i2, i3⟩ := h1.image
  obtain ⟨d1, t1, j1, j2, j3⟩ := h1.dump
  obtain ⟨n2, b2, k1, k2, k3⟩ := h2.image
  obtain ⟨d2, t2, l1, l2, l3⟩ := h2.dump
  obtain ⟨q1, e1, s1⟩ := C91_told_of_dump h1.spelled i1 j1 i2 j2 i3 j3 h1.wf h1.aliases h1.disjoint h1.fits h1.memory
  obtain ⟨q2, e2, s2⟩ := C91_told_of_dump h2.spelled k1 l1 k2 l2 k3 l3 h2.wf h2.aliases h2.disjoint h2.fits h2.memory
  refine ⟨q1, q2, e1, e2, fun w1 w2 cs pl1 pl2 ws r1 r2 => ⟨_, _, _, s1 w1 cs pl1 ws r1, ?_⟩⟩
  have hre : Reordered (crashOf image1 df1.mem (aliases os1) shows1) (crashOf image2 df2.mem (aliases os2) shows2) :=
    ⟨(hi.map _).append (hm.map _), ha.map _, apart_crashOf h1.aliases h1.disjoint⟩
  have := hre.after.told (s2 w2 cs pl2 ws r2)
  cases df1
  cases df2
  simp only [SameRegisters, DumpFile.mk.injEq] at hr
  obtain ⟨rfl, rfl, rfl, rfl, rfl, -⟩ := hr
  exact this

/-- `startDump` with its two blocks the other way round. -/
def startDump2 : DumpFile := { startDump with mem := [(0x20000010, [6, 7]), (0x20000000, [1, 2, 3, 4, 5])] }

/-- `argsTwo` with the aliases the other way round. -/
def argsTwo2 : List Str :=
  [asc "--alias", asc "0x1000", asc "0x100", asc "0x102"] ++ ([asc "--alias", asc "0x50", asc "4", asc "0x20000000"] ++ argsBin)
def optsTwo2 : List Opt := .alias (asc "0x1000") (asc "0x100") (asc "0x102") :: .alias (asc "0x50") (asc "4") (asc "0x20000000") :: optsBin
theorem spelledTwo2 : Spelled argsTwo2 optsTwo2 :=
  .cons (o := .alias _ _ _) (spells .alias (by decide +kernel)) (.cons (o := .alias _ _ _) (spells .alias (by decide +kernel)) spelledBin)
theorem aliasesTwo2 : aliases optsTwo2 = [(0x1000, 0x100, 0x102), (0x50, 4, 0x20000000)] := by decide +kernel

theorem givenTwo : Given argsTwo progExample optsTwo [(0x100, [1, 2, 3, 4, 5, 6])] startDump [(0x50, [1, 2, 3, 4]), (0x1000, [3, 4, 5, 6])] where
  spelled := spelledTwo
  image := ⟨[0x62], _, rfl, fun _ => rfl, by simp, by decide, by decide +kernel⟩
  dump := ⟨[0x64], _, rfl, fun _ => rfl, .inl rfl⟩
  wf := startDump_wf
  aliases := by
    rw [aliasesTwo]
    refine .cons ?_ (.cons ?_ .nil)
    · exact ⟨(0x20000000, [1, 2, 3, 4, 5]), by simp [startDump], by decide, by decide, by decide⟩
    · exact ⟨(0x100, [1, 2, 3, 4, 5, 6]), by simp, by decide, by decide, by decide⟩
  disjoint := disjoint_ranges (by decide)
  fits := by unfold Fits; decide
  memory := fun _ => rfl

/-- Files: the same raw image, a dump with its blocks in the other order. -/
def progExample2 : Prog :=
  { host := { mem := MemSim.init goodHeap,
              files := { opens := fun _ n => ([([0x62], [1, 2, 3, 4, 5, 6]), ([0x64], encode startDump2)].lookup n).map File.of } } }

theorem givenTwo2 : Given argsTwo2 progExample2 optsTwo2 [(0x100, [1, 2, 3, 4, 5, 6])] startDump2 [(0x1000, [3, 4, 5, 6]), (0x50, [1, 2, 3, 4])] where
  spelled := spelledTwo2
  image := ⟨[0x62], _, rfl, fun _ => rfl, by simp, by decide, by decide +kernel⟩
  dump := ⟨[0x64], _, rfl, fun _ => rfl, .inl rfl⟩
  wf := ⟨by decide, by decide, by decide⟩
  aliases := by
    rw [aliasesTwo2]
    refine .cons ?_ (.cons ?_ .nil)
    · exact ⟨(0x100, [1, 2, 3, 4, 5, 6]), by simp, by decide, by decide, by decide⟩
    · exact ⟨(0x20000000, [1, 2, 3, 4, 5]), by simp [startDump2], by decide, by decide, by decide⟩
  disjoint := disjoint_ranges (by decide)
  fits := by unfold Fits; decide
  memory := fun _ => rfl

/-- The hypotheses are met: other dump file, other command line. -/
example : ∃ q1 q2, startUp argsTwo progExample = .ok () q1 ∧ startUp argsTwo2 progExample2 = .ok () q2 ∧ ∀ w cs pl1 pl2 ws,
    RegisterWrites (platform w q1) cs pl1 ws → RegisterWrites (platform w q2) cs pl2 ws →
    ∃ c psr regs, Told pl1 c psr regs ∧ Told pl2 c psr regs := by
  obtain ⟨q1, q2, h1, h2, h⟩ := C101_arrangement_does_not_matter givenTwo givenTwo2 (.refl _)
    (show [((0x20000000 : U32), ([1, 2, 3, 4, 5] : List U8)), (0x20000010, [6, 7])].Perm [(0x20000010, [6, 7]), (0x20000000, [1, 2, 3, 4, 5])] from .swap ..)
    rfl (by rw [aliasesTwo, aliasesTwo2]; exact .swap ..)
  exact ⟨q1, q2, h1, h2, fun w cs pl1 pl2 ws => h w w cs pl1 pl2 ws⟩

end Verif.Props
