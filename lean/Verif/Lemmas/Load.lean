import Verif.Lemmas.History
/- Image loading. -/
namespace Verif.MemSim
open Verif Spec

/-- `d` with the bytes from `off` on replaced by `b`. -/
def splice (d : List U8) (off : Nat) (b : List U8) : List U8 := d.take off ++ b ++ d.drop (off + b.length)

theorem splice_len {d b : List U8} {off : Nat} (h : off + b.length ≤ d.length) : (splice d off b).length = d.length :=
  splice_length h

theorem splice_get {d b : List U8} {off j : Nat} (h : off + b.length ≤ d.length) :
    (splice d off b)[j]? = if off ≤ j ∧ j < off + b.length then b[j - off]? else d[j]? := splice_getElem? h

theorem splice_nil (d : List U8) (off : Nat) : splice d off [] = d := by simp [splice]

theorem splice_splice {d b c : List U8} {off : Nat} (h : off + b.length + c.length ≤ d.length) :
    splice (splice d off b) (off + b.length) c = splice d off (b ++ c) := by
  apply List.ext_getElem?
  intro j
  rw [splice_get (by rw [splice_len (by omega)]; omega), splice_get (by omega), splice_get (by simp; omega)]
  simp only [List.length_append]
  by_cases h1 : off + b.length ≤ j ∧ j < off + b.length + c.length
  · rw [if_pos h1, if_pos (by omega), List.getElem?_append_right (by omega)]
    congr 1; omega
  · rw [if_neg h1]
    by_cases h2 : off ≤ j ∧ j < off + b.length
    · rw [if_pos h2, if_pos (by omega), List.getElem?_append_left (by omega)]
    · rw [if_neg h2, if_neg (by omega)]

/-- All accesses inside the range lead to consecutive bytes of one region. -/
structure Range (s : Sim) (a : U32) (n i : Nat) (r : Region) (off : Nat) : Prop where
  get : s.regions[i]? = some r
  room : off + n ≤ r.data.length
  sub : ∀ j m, 0 < m → j + m ≤ n → Target s (a + BitVec.ofNat 32 j) m i r (off + j)

theorem addr_add (a : U32) (m j : Nat) :
    a + BitVec.ofNat 32 m + BitVec.ofNat 32 j = a + BitVec.ofNat 32 (m + j) := by
  rw [BitVec.add_assoc, ← BitVec.ofNat_add]

/-- The range that remains after its first bytes were loaded. -/
theorem Range.next {s s' : Sim} {a : U32} {n i off : Nat} {r : Region} {bs : List U8} (h : Range s a n i r off)
    (hb : bs.length ≤ n) (hs' : s'.regions = s.regions.set i { r with data := splice r.data off bs }) :
    Range s' (a + BitVec.ofNat 32 bs.length) (n - bs.length) i { r with data := splice r.data off bs } (off + bs.length) := by
  have hlt : i < s.regions.length := (List.getElem?_eq_some_iff.1 h.get).1
  have hroom := h.room
  have hget : s'.regions[i]? = some { r with data := splice r.data off bs } := by
    rw [hs', List.getElem?_set_self hlt]
  refine ⟨hget, ?_, ?_⟩
  · simp only [splice_len (show off + bs.length ≤ r.data.length by omega)]; omega
  · intro j m hm hj
    rw [addr_add, Nat.add_assoc]
    exact (h.sub (bs.length + j) m hm (by omega)).sameShapes (hs' ▸ SameShapes.set h.get rfl) hget

theorem loadN_range {s : Sim} (hs : Sound s) {a : U32} {n i off : Nat} {r : Region} {bs : List U8}
    (h : Range s a n i r off) (hb : bs.length ≤ n) (hb0 : 0 < bs.length) (hb2 : bs.length ≠ 2) :
    loadN a bs s = .ok () { s with regions := s.regions.set i { r with data := splice r.data off bs } } := by
  have ht := h.sub 0 bs.length hb0 (by omega)
  simp only [Nat.add_zero] at ht
  rw [show a + 0#32 = a from by simp] at ht
  exact loadN_eq hs hb2 ht

theorem range_sound {s s' : Sim} (hs : Sound s) {a : U32} {n i off : Nat} {r : Region} {bs : List U8}
    (h : Range s a n i r off) (hb : bs.length ≤ n) (hb0 : 0 < bs.length)
    (hs' : s'.regions = s.regions.set i { r with data := splice r.data off bs }) : Sound s' := by
  have hi := (h.sub 0 bs.length hb0 (by omega)).info hs
  refine hs.set (r' := { r with data := splice r.data off bs }) h.get hi.plain rfl ?_ hs'
  exact plainOK_data hi.ok (splice_len (by have := h.room; omega))

theorem set_self {rs : List Region} {i : Nat} {r : Region} (h : rs[i]? = some r) : rs.set i r = rs := by
  apply List.ext_getElem?
  intro j
  rw [List.getElem?_set]
  split
  · rename_i e; subst e
    rw [if_pos (List.getElem?_eq_some_iff.1 h).1, h]
  · rfl

theorem loadBytes_range {n : Nat} {a : U32} {src : List U8} {s : Sim} (hs : Sound s) {i off : Nat} {r : Region}
    (h : Range s a n i r off) (hl : n ≤ src.length) :
    loadBytes n a src s = .ok () { s with regions := s.regions.set i { r with data := splice r.data off (src.take n) } } := by
  induction n generalizing a src s off r with
  | zero =>
    have : s.regions.set i { r with data := splice r.data off (src.take 0) } = s.regions := by
      simp only [List.take_zero, splice_nil]; exact set_self h.get
    rw [this]
    cases src <;> rfl
  | succ n ih =>
    cases src with
    | nil => simp at hl
    | cons b src =>
      have h1 := loadN_range hs (bs := [b]) h (by simp) (by simp) (by simp)
      have hn := h.next (bs := [b]) (s' := { s with regions := s.regions.set i { r with data := splice r.data off [b] } })
        (by simp) rfl
      have hsd : Sound { s with regions := s.regions.set i { r with data := splice r.data off [b] } } :=
        range_sound hs h (bs := [b]) (by simp) (by simp) rfl
      simp only [List.length_singleton, Nat.add_sub_cancel] at hn
      have := ih hsd hn (src := src) (by simpa using hl)
      simp only [loadBytes, M.bind_apply, h1]
      rw [show (1 : U32) = BitVec.ofNat 32 1 from rfl, this]
      simp only [List.set_set]
      congr 4
      rw [show off + 1 = off + [b].length from rfl, splice_splice]
      · simp
      · have := h.room; simp; simp at hl; omega

theorem loadWords_range {src : List U8} {n : Nat} {a : U32} {s : Sim} (hs : Sound s) {i off : Nat} {r : Region}
    (h : Range s a n i r off) (hl : n ≤ src.length) :
    loadWords src n a s = .ok () { s with regions := s.regions.set i { r with data := splice r.data off (src.take n) } } := by
  fun_induction loadWords src n a generalizing s off r with
  | case1 b0 b1 b2 b3 rest n a h4 ih =>
    have h1 := loadN_range hs (bs := [b0, b1, b2, b3]) h (by simp; omega) (by simp) (by simp)
    have hn := h.next (bs := [b0, b1, b2, b3])
      (s' := { s with regions := s.regions.set i { r with data := splice r.data off [b0, b1, b2, b3] } }) (by simp; omega) rfl
    have hsd : Sound { s with regions := s.regions.set i { r with data := splice r.data off [b0, b1, b2, b3] } } :=
      range_sound hs h (bs := [b0, b1, b2, b3]) (by simp; omega) (by simp) rfl
    have := ih hsd hn (by simp at hl; omega)
    simp only [M.bind_apply, h1, this]
    simp only [List.set_set]
    congr 4
    rw [splice_splice]
    · congr 1
      rw [show n = (n - 4) + 4 from by omega]
      simp
    · have := h.room; simp at hl ⊢; omega
  | case2 => exact loadBytes_range hs h hl
  | case3 src n a hno h4 =>
    exfalso
    match src, hno, hl with
    | [], _, hl => simp at hl; omega
    | [_], _, hl => simp at hl; omega
    | [_, _], _, hl => simp at hl; omega
    | [_, _, _], _, hl => simp at hl; omega
    | b0 :: b1 :: b2 :: b3 :: rest, hno, _ => exact hno b0 b1 b2 b3 rest rfl
  | case4 => exact loadBytes_range hs h hl

/-- A range of which one region is the undisputed owner. -/
theorem _root_.Verif.Spec.Owns.range {s : Sim} (hs : Sound s) {a : U32} {n k : Nat} {q : Region}
    (h : Owns s.regions a n k q) (hn : 0 < n) (hw : a.toNat + n ≤ 2 ^ 32) : ∃ i r off, Range s a n i r off := by
  obtain ⟨i, r, off, ht, hsub⟩ := h.target hs hn
  have hi := ht.info hs
  exact ⟨i, r, off, hi.get, by rw [hi.ok.1]; exact hi.room, fun j m hm hj => hsub j m hm hj (by omega)⟩

end Verif.MemSim
