import Verif.Lemmas.CmdCore
/- Raw images. -/
namespace Verif.CommandLine
open Verif MemSim Spec Libc Elf

/-- Loading a segment into an empty simulator, if it fits. -/
theorem loadSegment_empty {s : Sim} (hr : s.regions = []) {a n : U32} {data : List U8} (h0 : 0 < n.toNat)
    (hl : n.toNat ≤ data.length) (hfit : a.toNat + n.toNat ≤ 2 ^ 32) :
    (∃ s', loadSegment a n data s = .throw ⟨.outOfMemory, []⟩ s') ∨
    loadSegment a n data s = .ok () { bumpHeap s 3 3 with regions := [romRegion (a, data.take n.toNat)] } := by
  have hlt : (data.take n.toNat).length = n.toNat := by rw [List.length_take]; omega
  have hs : Sound s := by intro r hm; rw [hr] at hm; cases hm
  have hfree : ∀ x, a.toNat ≤ x.toNat → x.toNat < a.toNat + n.toNat → ¬ Mapped s x 1 := by
    rintro x - - ⟨r, hm, -⟩; rw [hr] at hm; cases hm
  unfold loadSegment
  rcases createRegion_cases a n s with ⟨k, h⟩ | h
  · exact .inl ⟨_, by rw [M.bind_throw h]⟩
  rw [M.bind_apply, h]
  simp only
  have hs1 : Sound { bumpHeap s 2 2 with regions := s.regions ++ [newRegion a n] } :=
    sound_snoc hs rfl rfl (plainOK_new a n)
  have hR := fresh_range hfit hfree
  have hld := loadWords_range (src := data) hs1 hR hl
  rw [M.bind_apply, loadFromFlashImage, hld]
  simp only
  have hsp : splice (newRegion a n).data 0 (data.take n.toNat) = data.take n.toNat := splice_all (by simp [newRegion]; omega)
  have hset : (s.regions ++ [newRegion a n]).set s.regions.length { newRegion a n with data := splice (newRegion a n).data 0 (data.take n.toNat) }
      = [{ newRegion a n with data := data.take n.toNat }] := by
    rw [hsp, hr]; simp
  rw [hset]
  have hs2 : Sound { bumpHeap s 2 2 with regions := [{ newRegion a n with data := data.take n.toNat }] } :=
    sound_snoc hs (by rw [hr]; rfl) rfl (plainOK_data (plainOK_new a n) (by simp [newRegion]; omega))
  have ht : Target { bumpHeap s 2 2 with regions := [{ newRegion a n with data := data.take n.toNat }] } a 1
      0 { newRegion a n with data := data.take n.toNat } 0 := by
    have := target_append (s := { bumpHeap s 2 2 with regions := [{ newRegion a n with data := data.take n.toNat }] })
      (old := []) (news := [{ newRegion a n with data := data.take n.toNat }]) (a := a) (n := 1) (k := 0)
      (q := { newRegion a n with data := data.take n.toNat }) rfl
      (by intro p hp; cases hp) ⟨rfl, by simp only [Covers, newRegion]; omega, by simp⟩ rfl
    simpa [newRegion] using this
  rw [makeReadOnly_eq hs2 ht]
  split
  · exact .inl ⟨_, rfl⟩
  · right
    have : romRegion (a, data.take n.toNat) = { newRegion a n with
          data := data.take n.toNat, isReadOnly := true,
          readCounts := some (List.replicate (({ newRegion a n with data := data.take n.toNat } : Region).size.toNat / 2) 0) } := by
      simp [romRegion, newRegion, hlt]
    rw [this]
    simp [bumpHeap, Int.add_assoc]

/-- A simulator with a single plain region of this base and size. -/
def Single (s : Sim) (a n : U32) : Prop := ∃ r, s.regions = [r] ∧ r.isAlias = false ∧ r.baseAddress = a ∧ r.size = n ∧ PlainOK r

theorem single_sound {s : Sim} {a n : U32} (h : Single s a n) : Sound s := by
  obtain ⟨r, h1, h2, -, -, h3⟩ := h
  intro q hq
  rw [h1, List.mem_singleton] at hq
  subst hq
  rw [if_neg (by simp [h2])]
  exact h3

theorem single_below {s : Sim} {a n c : U32} {m : Nat} (h : Single s a n) (hc : c.toNat < a.toNat) : ¬ Mapped s c m := by
  obtain ⟨r, h1, -, h2, -, -⟩ := h
  rintro ⟨q, hq, hv⟩
  rw [h1, List.mem_singleton] at hq
  subst hq
  have := hv.1
  rw [h2] at this
  omega

theorem loadN_below {s : Sim} {a n c : U32} {bs : List U8} (h : Single s a n) (hc : c.toNat < a.toNat) :
    loadN c bs s = .throw ⟨.busError, []⟩ s := by
  simp only [loadN, M.bind_apply, gdp_unmapped (single_below h hc)]

theorem loadN_inside {s : Sim} {a n c : U32} {bs : List U8} (h : Single s a n) (h2 : bs.length ≠ 2)
    (hc : a.toNat ≤ c.toNat) (hl : c.toNat + bs.length ≤ a.toNat + n.toNat) : ∃ s', loadN c bs s = .ok () s' ∧ Single s' a n := by
  have hs := single_sound h
  obtain ⟨r, e1, e2, e3, e4, e5⟩ := h
  have ht : Target s c bs.length 0 r (c.toNat - a.toNat) := by
    refine ⟨0, r, ⟨by rw [e1]; rfl, ?_, by simp⟩, ?_⟩
    · simp only [Covers, e3, e4]; omega
    · simp [e2, e3]
  refine ⟨_, loadN_eq hs h2 ht, { r with data := r.data.take (c.toNat - a.toNat) ++ bs ++ r.data.drop (c.toNat - a.toNat + bs.length) }, ?_, e2, e3, e4, ?_⟩
  · rw [e1]; rfl
  · refine plainOK_data e5 ?_
    have : r.data.length = n.toNat := by rw [e5.1, e4]
    exact splice_length (by omega)

theorem loadBytes_past {m : Nat} {c : U32} {src : List U8} {s : Sim} {a n : U32} (h : Single s a n) (hm : m ≤ src.length)
    (hp : 2 ^ 32 < a.toNat + n.toNat) (hc : a.toNat ≤ c.toNat) (he : c.toNat + m = a.toNat + n.toNat) :
    ∃ s', loadBytes m c src s = .throw ⟨.busError, []⟩ s' := by
  induction m generalizing c src s with
  | zero => have := c.isLt; omega
  | succ m ih =>
    cases src with
    | nil => simp at hm
    | cons b src =>
      obtain ⟨s', h1, h2⟩ := loadN_inside (c := c) (bs := [b]) h (by simp) hc (by simp; omega)
      unfold loadBytes
      rw [M.bind_ok h1]
      have hn := n.isLt
      by_cases hw : c.toNat + 1 < 2 ^ 32
      · refine ih h2 (by simpa using hm) ?_ ?_ <;>
        · rw [BitVec.toNat_add, show (1 : U32).toNat = 1 from rfl, Nat.mod_eq_of_lt hw]; omega
      · have hc1 : (c + 1).toNat = 0 := by
          have := c.isLt
          rw [BitVec.toNat_add, show (1 : U32).toNat = 1 from rfl]; omega
        cases m with
        | zero => omega
        | succ m =>
          cases src with
          | nil => simp at hm
          | cons b' src =>
            unfold loadBytes
            exact ⟨s', by rw [M.bind_throw (loadN_below h2 (by omega))]⟩

theorem loadWords_below {src : List U8} {m : Nat} {c : U32} {s : Sim} {a n : U32} (h : Single s a n) (hm : m ≤ src.length)
    (h0 : 0 < m) (hc : c.toNat < a.toNat) : loadWords src m c s = .throw ⟨.busError, []⟩ s := by
  have hb : ∀ src : List U8, m ≤ src.length → loadBytes m c src s = .throw ⟨.busError, []⟩ s := by
    intro src hm
    cases m with
    | zero => omega
    | succ m =>
      cases src with
      | nil => simp at hm
      | cons b src => unfold loadBytes; rw [M.bind_throw (loadN_below h hc)]
  unfold loadWords
  split
  · split
    · rw [M.bind_throw (loadN_below h hc)]
    · exact hb _ hm
  · rename_i hno
    split
    · exfalso
      match src, hno, hm with
      | [], _, hl => simp at hl; omega
      | [_], _, hl => simp at hl; omega
      | [_, _], _, hl => simp at hl; omega
      | [_, _, _], _, hl => simp at hl; omega
      | b0 :: b1 :: b2 :: b3 :: rest, hno, _ => exact hno b0 b1 b2 b3 rest rfl
    · exact hb _ hm

theorem loadWords_past {src : List U8} {m : Nat} {c : U32} {s : Sim} {a n : U32} (h : Single s a n) (hm : m ≤ src.length)
    (hp : 2 ^ 32 < a.toNat + n.toNat) (hc : a.toNat ≤ c.toNat) (he : c.toNat + m = a.toNat + n.toNat) :
    ∃ s', loadWords src m c s = .throw ⟨.busError, []⟩ s' := by
  fun_induction loadWords src m c generalizing s with
  | case1 b0 b1 b2 b3 rest m c h4 ih =>
    obtain ⟨s', h1, h2⟩ := loadN_inside (c := c) (bs := [b0, b1, b2, b3]) h (by simp) hc (by simp; omega)
    rw [M.bind_ok h1]
    have hn := n.isLt
    by_cases hw : c.toNat + 4 < 2 ^ 32
    · have e : (c + 4).toNat = c.toNat + 4 := by
        rw [BitVec.toNat_add, show (4 : U32).toNat = 4 from rfl, Nat.mod_eq_of_lt hw]
      exact ih h2 (by simp at hm; omega) (by omega) (by omega)
    · have e : (c + 4).toNat = c.toNat + 4 - 2 ^ 32 := by
        have := c.isLt
        rw [BitVec.toNat_add, show (4 : U32).toNat = 4 from rfl]; omega
      exact ⟨s', loadWords_below h2 (by simp at hm; omega) (by omega) (by omega)⟩
  | case2 => exact loadBytes_past h hm hp hc he
  | case3 src n a hno h4 =>
    exfalso
    match src, hno, hm with
    | [], _, hl => simp at hl; omega
    | [_], _, hl => simp at hl; omega
    | [_, _], _, hl => simp at hl; omega
    | [_, _, _], _, hl => simp at hl; omega
    | b0 :: b1 :: b2 :: b3 :: rest, hno, _ => exact hno b0 b1 b2 b3 rest rfl
  | case4 => exact loadBytes_past h hm hp hc he

/-- A segment that is empty or runs past the end of the address space is refused. -/
theorem loadSegment_refused {s : Sim} (hr : s.regions = []) {a n : U32} {data : List U8} (hl : n.toNat ≤ data.length)
    (hn : n.toNat = 0 ∨ 2 ^ 32 < a.toNat + n.toNat) :
    ∃ e s', loadSegment a n data s = .throw e s' ∧ e.code ∈ [Exc.busError, .outOfMemory] := by
  unfold loadSegment
  rcases createRegion_cases a n s with ⟨k, h⟩ | h
  · exact ⟨_, _, by rw [M.bind_throw h], by simp⟩
  have hs1 : Single { bumpHeap s 2 2 with regions := s.regions ++ [newRegion a n] } a n :=
    ⟨newRegion a n, by rw [hr]; rfl, rfl, rfl, rfl, plainOK_new a n⟩
  rw [M.bind_apply, h]
  simp only
  rcases hn with hn | hn
  · have : loadFromFlashImage a data n { bumpHeap s 2 2 with regions := s.regions ++ [newRegion a n] } =
        .ok () { bumpHeap s 2 2 with regions := s.regions ++ [newRegion a n] } := by
      unfold loadFromFlashImage
      rw [hn]
      match data with
      | [] => rfl
      | [_] => rfl
      | [_, _] => rfl
      | [_, _, _] => rfl
      | _ :: _ :: _ :: _ :: _ => simp [loadWords, loadBytes]
    rw [M.bind_ok this]
    refine ⟨_, _, makeReadOnly_unmapped ?_, by simp⟩
    rintro ⟨q, hq, hv⟩
    rw [hr] at hq
    simp at hq
    subst hq
    have h1 := hv.2
    have h2 : (newRegion a n).size.toNat = 0 := hn
    have h3 : (newRegion a n).baseAddress = a := rfl
    rw [h2, h3] at h1
    omega
  · obtain ⟨s', h'⟩ := loadWords_past hs1 hl hn (Nat.le_refl _) rfl
    exact ⟨_, s', M.bind_throw h', by simp⟩

/-! ### What happens to the image afterwards -/

/-- The first region of a simulator is a read-only image. -/
structure ImageFirst (s : Sim) (a : U32) (data : List U8) : Prop where
  hits : s.hits < 2 ^ 31
  first : ∃ r, s.regions[0]? = some r ∧ r.isAlias = false ∧ r.baseAddress = a ∧ r.size.toNat = data.length ∧ r.data = data ∧
    r.isReadOnly = true ∧ r.watch = [] ∧ PlainOK r

theorem ImageFirst.access {s : Sim} {a : U32} {data : List U8} (h : ImageFirst s a data) :
    HoldsBlocks s [(a, data)] ∧ RefusesWrites s [(a, data)] := by
  obtain ⟨hh, r, e1, e2, e3, e4, e5, e6, e7, e8⟩ := h
  have fc : ∀ (b : U32) m, a.toNat ≤ b.toNat → b.toNat + m ≤ a.toNat + data.length → FirstCover s.regions b m 0 r :=
    fun b m h1 h2 => ⟨e1, by simp only [Covers, e3, e4]; omega, by simp⟩
  have hit : ∀ (b : U32) m, a.toNat ≤ b.toNat → b.toNat + m ≤ a.toNat + data.length → Hit s b m 0 r (b.toNat - a.toNat) := by
    intro b m h1 h2
    refine ⟨?_, e1, e2, e8, by rw [e4]; omega⟩
    unfold findMatchingRegion
    rw [show findFrom 0 s.regions b m = some (0, r) from findFrom_zero.2 (fc b m h1 h2)]
    simp only [e2, Bool.false_eq_true, if_false]
    congr 2
    rw [e3]
    apply BitVec.eq_of_toNat_eq
    rw [BitVec.toNat_add, BitVec.toNat_ofNat]
    have := b.isLt; have := a.isLt
    rw [Nat.mod_eq_of_lt (a := b.toNat - a.toNat) (by omega), Nat.mod_eq_of_lt (by omega)]
    omega
  constructor
  · intro q hq w b h1 h2
    rw [List.mem_singleton] at hq
    subst hq
    have hb := hit b w.bytes h1 h2
    have h0 : scanAt r (b.toNat - a.toNat) w.bytes READING = (0, false) := by simp [scanAt, e7, scanWatch]
    have hd : ((r.data.drop (b.toNat - a.toNat)).take w.bytes).length = w.bytes := by
      have := e8.1; simp; simp at h1 h2; omega
    have hv := readN_eq' hb
    simp only [h0, Nat.add_zero, Bool.false_eq_true, if_false] at hv
    rw [if_neg (by omega)] at hv
    obtain ⟨v, hv', hvb⟩ : ∃ v, IMemory.read w b s = .ok v _ ∧ v = BitVec.ofNat w.bits (leVal ((r.data.drop (b.toNat - a.toNat)).take w.bytes)) :=
      ⟨_, by rw [read_eq, hv], rfl⟩
    refine ⟨v, _, hv', ?_⟩
    intro j hj
    have hlen := e8.1
    simp only at h1 h2
    rw [hvb, ← byteOf_leVal (by simp; omega) hj, List.getElem?_take_of_lt hj, List.getElem?_drop, e5]
  · intro q hq w b v h1 h2
    rw [List.mem_singleton] at hq
    subst hq
    rw [write_eq]
    exact writeN_readOnly (i := 0) ⟨0, r, fc b w.bytes h1 h2, by simp [e2]⟩ e1 e6

theorem ImageFirst.kept {s s' : Sim} {a : U32} {data : List U8} (h : ImageFirst s a data) (hi : MemInv createsOrWrites s s') :
    ImageFirst s' a data := by
  obtain ⟨hs, hu, cs, hc, hh⟩ := hi
  have hx : Extends SafeRel s s' := by
    refine hist_extends hh.hist fun c hm => ?_
    have := hc c hm
    cases c <;> first | rfl | exact this.elim
  obtain ⟨ys, zs, h1, h2⟩ := hx
  obtain ⟨-, r, e1, e2, e3, e4, e5, e6, e7, e8⟩ := h
  obtain ⟨r', k1, k2⟩ := forall₂_get h2 e1
  have hr' : s'.regions[0]? = some r' := by rw [h1, List.getElem?_append_left (List.getElem?_eq_some_iff.1 k1).1]; exact k1
  have hsh := k2.shape
  simp only [shape, Prod.mk.injEq] at hsh
  have hal : r'.isAlias = false := by rw [← e2]; simp [hsh]
  refine ⟨hu.2, r', hr', hal, by rw [← e3]; simp [hsh], by rw [← e4]; simp [hsh], ?_, (k2.keep e6).1, hu.1 r' (List.mem_of_getElem? hr'), hs.plain hr' hal⟩
  rw [(k2.keep e6).2, e5]

theorem ImageFirst.aliased {s s' : Sim} {a : U32} {data : List U8} (h : ImageFirst s a data) (hi : Aliased s s') :
    ImageFirst s' a data := by
  obtain ⟨-, hh, xs, hx, -⟩ := hi
  obtain ⟨h0, r, e1, e2⟩ := h
  exact ⟨by omega, r, by rw [hx, List.getElem?_append_left (List.getElem?_eq_some_iff.1 e1).1]; exact e1, e2⟩

theorem imageFirst_rom {s : Sim} {a : U32} {data : List U8} (hl : data.length < 2 ^ 32) (hr : s.regions = [romRegion (a, data)])
    (hh : s.hits < 2 ^ 31) : ImageFirst s a data :=
  ⟨hh, _, by rw [hr]; rfl, rfl, rfl, by simp [romRegion]; omega, rfl, rfl, rfl, rom_ok hl⟩

end Verif.CommandLine
