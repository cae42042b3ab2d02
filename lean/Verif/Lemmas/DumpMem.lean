import Verif.Lemmas.History
import Verif.Spec.Dump
/- Loading bytes into freshly created regions. -/
namespace Verif.Dump
open Verif MemSim Spec

/-- An ordinary writable region without break/watchpoints. -/
structure Fresh (r : Region) : Prop where
  plain : r.isAlias = false
  ro : r.isReadOnly = false
  watch : r.watch = []
  counts : r.readCounts = none
  len : r.data.length = r.size.toNat

theorem Fresh.plainOK {r : Region} (h : Fresh r) : PlainOK r := by
  refine ⟨h.len, by rw [h.counts]; trivial, by simp [h.watch], by simp [h.watch], by simp [h.watch]⟩

theorem fresh_new (b n : U32) : Fresh (newRegion b n) := ⟨rfl, rfl, rfl, rfl, by simp [newRegion]⟩

/-- The byte at an address in the first region that contains it. -/
def peek : List Region → U32 → Option U8
  | [], _ => none
  | r :: rs, a => if Covers r a 1 then r.data[a.toNat - r.baseAddress.toNat]? else peek rs a

/-- Store a byte in the first region that contains the address. -/
def poke : List Region → U32 → U8 → List Region
  | [], _, _ => []
  | r :: rs, a, b =>
    if Covers r a 1 then { r with data := r.data.set (a.toNat - r.baseAddress.toNat) b } :: rs else r :: poke rs a b

/-- Store consecutive bytes. -/
def pokes : List Region → U32 → Str → List Region
  | rs, _, [] => rs
  | rs, a, b :: bs => pokes (poke rs a b) (a + 1) bs

/-- Create regions for the blocks one after the other and fill them. -/
def loadMem : List Region → List (U32 × List U8) → List Region
  | rs, [] => rs
  | rs, r :: rest => loadMem (pokes (rs ++ [newRegion r.1 (BitVec.ofNat 32 r.2.length)]) r.1 r.2) rest

def CoveredBy (rs : List Region) (a : U32) : Prop := ∃ r ∈ rs, Covers r a 1

instance : Decidable (CoveredBy rs a) := inferInstanceAs (Decidable (∃ r ∈ rs, Covers r a 1))

theorem peek_none {rs : List Region} {a : U32} (h : ¬ CoveredBy rs a) : peek rs a = none := by
  induction rs with
  | nil => rfl
  | cons r rs ih =>
    have h1 : ¬ Covers r a 1 := fun hc => h ⟨r, by simp, hc⟩
    simp only [peek, if_neg h1]
    exact ih fun ⟨q, hq, hc⟩ => h ⟨q, by simp [hq], hc⟩

theorem covered_of_peek {rs : List Region} {a : U32} {b : U8} (h : peek rs a = some b) : CoveredBy rs a := by
  by_cases hc : CoveredBy rs a
  · exact hc
  · rw [peek_none hc] at h; cases h

theorem peek_append {rs qs : List Region} {a : U32} :
    peek (rs ++ qs) a = if CoveredBy rs a then peek rs a else peek qs a := by
  induction rs with
  | nil =>
    have : ¬ CoveredBy [] a := by rintro ⟨r, hr, -⟩; cases hr
    simp [this]
  | cons r rs ih =>
    by_cases hc : Covers r a 1
    · have : CoveredBy (r :: rs) a := ⟨r, by simp, hc⟩
      simp [peek, hc, this]
    · have : CoveredBy (r :: rs) a ↔ CoveredBy rs a := by
        constructor
        · rintro ⟨q, hq, h⟩
          rcases List.mem_cons.1 hq with rfl | hq
          · exact absurd h hc
          · exact ⟨q, hq, h⟩
        · rintro ⟨q, hq, h⟩; exact ⟨q, by simp [hq], h⟩
      simp only [List.cons_append, peek, if_neg hc, this, ih]

theorem poke_shape {rs : List Region} {a : U32} {b : U8} : (poke rs a b).map shape = rs.map shape := by
  induction rs with
  | nil => rfl
  | cons r rs ih =>
    simp only [poke]
    split
    · simp [shape]
    · simp [ih]

theorem poke_fresh {rs : List Region} {a : U32} {b : U8} (h : ∀ r ∈ rs, Fresh r) : ∀ r ∈ poke rs a b, Fresh r := by
  induction rs with
  | nil => simp [poke]
  | cons r rs ih =>
    have hr := h r (by simp)
    simp only [poke]
    split
    · intro q hq
      rcases List.mem_cons.1 hq with rfl | hq
      · exact ⟨hr.plain, hr.ro, hr.watch, hr.counts, by simp [hr.len]⟩
      · exact h q (by simp [hq])
    · intro q hq
      rcases List.mem_cons.1 hq with rfl | hq
      · exact hr
      · exact ih (fun q hq => h q (by simp [hq])) q hq

theorem coveredBy_shape {rs rs' : List Region} (h : rs'.map shape = rs.map shape) {a : U32} (hc : CoveredBy rs a) :
    CoveredBy rs' a := by
  obtain ⟨r, hr, hc⟩ := hc
  have : shape r ∈ rs'.map shape := by rw [h]; exact List.mem_map_of_mem hr
  obtain ⟨r', hr', e⟩ := List.mem_map.1 this
  exact ⟨r', hr', (covers_shape e).2 hc⟩

theorem coveredBy_shape_iff {rs rs' : List Region} (h : rs'.map shape = rs.map shape) {a : U32} :
    CoveredBy rs' a ↔ CoveredBy rs a := ⟨coveredBy_shape h.symm, coveredBy_shape h⟩

theorem peek_poke {rs : List Region} {a a' : U32} {b : U8} (h : ∀ r ∈ rs, Fresh r) (hc : CoveredBy rs a) :
    peek (poke rs a b) a' = if a' = a then some b else peek rs a' := by
  induction rs with
  | nil => obtain ⟨r, hr, -⟩ := hc; cases hr
  | cons r rs ih =>
    have hr := h r (by simp)
    simp only [poke]
    by_cases h1 : Covers r a 1
    · rw [if_pos h1]
      simp only [peek]
      have hcov : Covers { r with data := r.data.set (a.toNat - r.baseAddress.toNat) b } a' 1 ↔ Covers r a' 1 := by
        simp [Covers]
      simp only [hcov]
      by_cases h2 : Covers r a' 1
      · simp only [if_pos h2]
        obtain ⟨c1, c2⟩ := h1
        obtain ⟨d1, d2⟩ := h2
        rw [List.getElem?_set]
        by_cases e : a' = a
        · subst e
          simp only [if_true]
          rw [if_pos (by rw [hr.len]; omega)]
        · have : a'.toNat ≠ a.toNat := fun h => e (BitVec.eq_of_toNat_eq h)
          rw [if_neg (by omega), if_neg e]
      · have : a' ≠ a := fun e => h2 (e ▸ h1)
        simp [h2, this]
    · rw [if_neg h1]
      simp only [peek]
      have hc' : CoveredBy rs a := by
        obtain ⟨q, hq, hc⟩ := hc
        rcases List.mem_cons.1 hq with rfl | hq
        · exact absurd hc h1
        · exact ⟨q, hq, hc⟩
      by_cases h2 : Covers r a' 1
      · have : a' ≠ a := fun e => h1 (e ▸ h2)
        simp [h2, this]
      · simp only [if_neg h2]
        exact ih (fun q hq => h q (by simp [hq])) hc'

theorem pokes_shape {bs : Str} {rs : List Region} {a : U32} : (pokes rs a bs).map shape = rs.map shape := by
  induction bs generalizing rs a with
  | nil => rfl
  | cons b bs ih => simp only [pokes]; rw [ih, poke_shape]

theorem pokes_fresh {bs : Str} {rs : List Region} {a : U32} (h : ∀ r ∈ rs, Fresh r) : ∀ r ∈ pokes rs a bs, Fresh r := by
  induction bs generalizing rs a with
  | nil => exact h
  | cons b bs ih => exact ih (poke_fresh h)

theorem peek_pokes {bs : Str} {rs : List Region} {a a' : U32} (h : ∀ r ∈ rs, Fresh r) (hfit : Fits (a, bs))
    (hc : ∀ x, (byteIn (a, bs) x).isSome → CoveredBy rs x) :
    peek (pokes rs a bs) a' = (byteIn (a, bs) a').or (peek rs a') := by
  induction bs generalizing rs a with
  | nil => simp [pokes, byteIn]
  | cons b bs ih =>
    unfold Fits at hfit
    simp only [List.length_cons] at hfit
    have hca : CoveredBy rs a := hc a (by simp [byteIn])
    simp only [pokes]
    have key : ∀ x : U32, byteIn (a, b :: bs) x = if x = a then some b else if bs = [] then none else byteIn (a + 1, bs) x := by
      intro x
      by_cases e : x = a
      · subst e; simp [byteIn]
      · have hne : x.toNat ≠ a.toNat := fun h => e (BitVec.eq_of_toNat_eq h)
        rw [if_neg e]
        by_cases hb : bs = []
        · subst hb
          simp only [byteIn, if_true]
          split
          · rw [List.getElem?_eq_none]; simp; omega
          · rfl
        · rw [if_neg hb]
          have : 0 < bs.length := List.length_pos_iff.2 hb
          have e1 : (a + 1).toNat = a.toNat + 1 := by
            simp only [BitVec.toNat_add]; simp; omega
          simp only [byteIn, e1]
          by_cases hle : a.toNat ≤ x.toNat
          · rw [if_pos hle, if_pos (by omega)]
            have : x.toNat - a.toNat = (x.toNat - (a.toNat + 1)) + 1 := by omega
            rw [this]
            simp
          · rw [if_neg hle, if_neg (by omega)]
    by_cases hb : bs = []
    · subst hb
      simp only [pokes]
      rw [peek_poke h hca, key]
      by_cases e : a' = a <;> simp [e]
    · have : 0 < bs.length := List.length_pos_iff.2 hb
      have e1 : (a + 1).toNat = a.toNat + 1 := by
        simp only [BitVec.toNat_add]; simp; omega
      rw [ih (poke_fresh h) (by unfold Fits; simp only [e1]; omega) ?_, peek_poke h hca, key a']
      · by_cases e : a' = a
        · subst e
          have : byteIn (a' + 1, bs) a' = none := by
            simp only [byteIn, e1]; rw [if_neg (by omega)]
          rw [this, if_pos rfl]
          simp
        · rw [if_neg e, if_neg e, if_neg hb]
      · intro x hx
        refine (coveredBy_shape_iff poke_shape).2 (hc x ?_)
        rw [key x]
        by_cases e : x = a
        · rw [if_pos e]; rfl
        · rw [if_neg e, if_neg hb]; exact hx

theorem covered_new {r : U32 × List U8} (hlen : r.2.length < 2 ^ 32) {x : U32} (hx : (byteIn r x).isSome) :
    Covers (newRegion r.1 (BitVec.ofNat 32 r.2.length)) x 1 := by
  unfold byteIn at hx
  split at hx
  · rename_i h
    rw [Option.isSome_iff_exists] at hx
    obtain ⟨b, hb⟩ := hx
    have := (List.getElem?_eq_some_iff.1 hb).1
    refine ⟨h, ?_⟩
    simp only [newRegion, BitVec.toNat_ofNat, Nat.mod_eq_of_lt hlen]
    omega
  · cases hx

theorem byteIn_of_covers {r : U32 × List U8} (hlen : r.2.length < 2 ^ 32) {x : U32}
    (h : Covers (newRegion r.1 (BitVec.ofNat 32 r.2.length)) x 1) : (byteIn r x).isSome := by
  obtain ⟨h1, h2⟩ := h
  simp only [newRegion, BitVec.toNat_ofNat, Nat.mod_eq_of_lt hlen] at h1 h2
  unfold byteIn
  rw [if_pos h1, List.getElem?_eq_getElem (by omega)]
  rfl

/-- One block. -/
theorem peek_block {rs : List Region} {r : U32 × List U8} (h : ∀ q ∈ rs, Fresh q) (hlen : r.2.length < 2 ^ 32) (hfit : Fits r)
    (a : U32) : peek (pokes (rs ++ [newRegion r.1 (BitVec.ofNat 32 r.2.length)]) r.1 r.2) a = (byteIn r a).or (peek rs a) := by
  have hf : ∀ q ∈ rs ++ [newRegion r.1 (BitVec.ofNat 32 r.2.length)], Fresh q := by
    intro q hq
    rcases List.mem_append.1 hq with hq | hq
    · exact h q hq
    · simp at hq; rw [hq]; exact fresh_new _ _
  rw [peek_pokes hf hfit fun x hx => ⟨_, by simp, covered_new hlen hx⟩]
  cases hb : byteIn r a with
  | some b => rfl
  | none =>
    simp only [Option.none_or]
    rw [peek_append]
    split
    · rfl
    · rename_i hc
      rw [peek_none hc]
      refine peek_none ?_
      rintro ⟨q, hq, hc⟩
      simp at hq
      subst hq
      have := byteIn_of_covers hlen hc
      rw [hb] at this; cases this

theorem loadMem_fresh {mem : List (U32 × List U8)} {rs : List Region} (h : ∀ q ∈ rs, Fresh q) : ∀ q ∈ loadMem rs mem, Fresh q := by
  induction mem generalizing rs with
  | nil => exact h
  | cons r mem ih =>
    refine ih (pokes_fresh ?_)
    intro q hq
    rcases List.mem_append.1 hq with hq | hq
    · exact h q hq
    · simp at hq; rw [hq]; exact fresh_new _ _

theorem loadMem_shape {mem : List (U32 × List U8)} {rs : List Region} :
    (loadMem rs mem).map shape = rs.map shape ++ mem.map (fun r => shape (newRegion r.1 (BitVec.ofNat 32 r.2.length))) := by
  induction mem generalizing rs with
  | nil => simp [loadMem]
  | cons r mem ih => simp [loadMem, ih, pokes_shape]

theorem peek_loadMem {mem : List (U32 × List U8)} {rs : List Region} (h : ∀ q ∈ rs, Fresh q)
    (hm : ∀ r ∈ mem, r.2.length < 2 ^ 32 ∧ Fits r) (a : U32) :
    peek (loadMem rs mem) a = mem.foldl (fun acc r => (byteIn r a).or acc) (peek rs a) := by
  induction mem generalizing rs with
  | nil => rfl
  | cons r mem ih =>
    have hr := hm r (by simp)
    simp only [loadMem, List.foldl_cons]
    rw [ih (pokes_fresh ?_) (fun q hq => hm q (by simp [hq])), peek_block h hr.1 hr.2]
    intro q hq
    rcases List.mem_append.1 hq with hq | hq
    · exact h q hq
    · simp at hq; rw [hq]; exact fresh_new _ _

/-! ### The simulator's operations on such regions -/

theorem poke_firstCover {rs : List Region} {a : U32} {b : U8} {k : Nat} {r : Region} (h : FirstCover rs a 1 k r) :
    poke rs a b = rs.set k { r with data := r.data.set (a.toNat - r.baseAddress.toNat) b } := by
  induction rs generalizing k with
  | nil => cases h.1
  | cons q rs ih =>
    obtain ⟨h1, h2, h3⟩ := h
    cases k with
    | zero =>
      simp at h1; subst h1
      simp [poke, h2]
    | succ k =>
      have : ¬ Covers q a 1 := h3 0 (by omega) q (by simp)
      simp only [poke, if_neg this, List.set_cons_succ]
      rw [ih ⟨by simpa using h1, h2, fun j hj p hp => h3 (j + 1) (by omega) p (by simpa using hp)⟩]

theorem peek_firstCover {rs : List Region} {a : U32} {k : Nat} {r : Region} (h : FirstCover rs a 1 k r) :
    peek rs a = r.data[a.toNat - r.baseAddress.toNat]? := by
  induction rs generalizing k with
  | nil => cases h.1
  | cons q rs ih =>
    obtain ⟨h1, h2, h3⟩ := h
    cases k with
    | zero =>
      simp at h1; subst h1
      simp [peek, h2]
    | succ k =>
      have : ¬ Covers q a 1 := h3 0 (by omega) q (by simp)
      simp only [peek, if_neg this]
      exact ih ⟨by simpa using h1, h2, fun j hj p hp => h3 (j + 1) (by omega) p (by simpa using hp)⟩

theorem firstCover_append_right {old news : List Region} {a : U32} {n k : Nat} {r : Region} (h : FirstCover news a n k r)
    (ho : ∀ q ∈ old, ¬ Covers q a n) : FirstCover (old ++ news) a n (old.length + k) r := by
  obtain ⟨h1, h2, h3⟩ := h
  refine ⟨by rw [List.getElem?_append_right (by omega)]; simpa using h1, h2, fun j hj p hp => ?_⟩
  by_cases hlt : j < old.length
  · rw [List.getElem?_append_left hlt] at hp
    exact ho p (List.mem_of_getElem? hp)
  · rw [List.getElem?_append_right (by omega)] at hp
    exact h3 _ (by omega) p hp

/-- The simulator `s` consists of the sound regions `old` followed by `news`. -/
structure Split (s : Sim) (old news : List Region) : Prop where
  regions : s.regions = old ++ news
  sound : ∀ s0 : Sim, s0.regions = old → Sound s0
  fresh : ∀ r ∈ news, Fresh r
  hits : s.hits < 2 ^ 31

theorem sound_append {s : Sim} {old news : List Region} (h : Split s old news) : Sound s := by
  intro r hr
  rw [h.regions] at hr
  rcases List.mem_append.1 hr with hr | hr
  · have := h.sound { s with regions := old } rfl r hr
    cases ha : r.isAlias with
    | false => simpa [ha] using this
    | true =>
      simp only [ha, if_true] at this ⊢
      unfold AliasOK at this ⊢
      cases hd : r.redirect with
      | none => simp [hd] at this
      | some i =>
        simp only [hd] at this ⊢
        cases hi : old[i]? with
        | none => simp [hi] at this
        | some t =>
          have : s.regions[i]? = some t := by
            rw [h.regions, List.getElem?_append_left (List.getElem?_eq_some_iff.1 hi).1, hi]
          simp_all
  · simp only [(h.fresh r hr).plain, Bool.false_eq_true, if_false]
    exact (h.fresh r hr).plainOK

theorem Split.target {s : Sim} {old news : List Region} (h : Split s old news) {a : U32} {n k : Nat} {r : Region}
    (hf : FirstCover news a n k r) (ho : ∀ q ∈ old, ¬ Covers q a n) :
    Target s a n (old.length + k) r (a.toNat - r.baseAddress.toNat) := by
  refine ⟨_, _, h.regions ▸ firstCover_append_right hf ho, ?_⟩
  simp [(h.fresh r hf.mem).plain]

theorem write8_split {s : Sim} {old news : List Region} (h : Split s old news) {a : U32} {b : U8}
    (ho : ∀ q ∈ old, ¬ Covers q a 1) (hc : CoveredBy news a) :
    IMemory.write .w8 a b s = .ok () { s with regions := old ++ poke news a b } := by
  obtain ⟨r, hr, hc⟩ := hc
  obtain ⟨k, q, hf⟩ := FirstCover.exists_of_mem hr hc
  have hs := sound_append h
  have ht := h.target hf ho
  have hq := h.fresh q hf.mem
  have hi := ht.info hs
  refine (write_eq (w := .w8) (v := b)).trans ?_
  show writeN 1 a b.toNat s = _
  rw [writeN_eq hs ht]
  simp only [hq.ro, Bool.false_eq_true, if_false]
  have h0 : (scanAt q (a.toNat - q.baseAddress.toNat) 1 WRITING).1 = 0 := by simp [scanAt, hq.watch, scanWatch]
  rw [h0, if_neg (by have := h.hits; omega)]
  simp only [Nat.add_zero]
  congr 1
  have hlt : k < news.length := (List.getElem?_eq_some_iff.1 hf.1).1
  have hoff : a.toNat - q.baseAddress.toNat < q.data.length := by
    have := hf.2.1; rw [hq.len]; unfold Covers at this; omega
  rw [poke_firstCover hf, h.regions, List.set_append_right _ _ (by omega)]
  simp only [Nat.add_sub_cancel_left]
  have e : leBytes 1 b.toNat = [b] := by simp [leBytes]
  rw [e]
  congr 3
  · rw [List.set_eq_take_append_cons_drop, if_pos hoff]
    simp [hq.ro]

theorem Split.poke {s : Sim} {old news : List Region} (h : Split s old news) (a : U32) (b : U8) :
    Split { s with regions := old ++ poke news a b } old (Dump.poke news a b) :=
  ⟨rfl, h.sound, poke_fresh h.fresh, h.hits⟩

theorem createRegion_ok {s : Sim} (hh : PlentyOfMemory s) (b n : U32) :
    createRegion b n s = .ok () { bumpHeap s 2 2 with regions := s.regions ++ [newRegion b n] } := by
  have h3 := hh
  unfold PlentyOfMemory at h3
  simp only [createRegion, throwingZeroedMalloc, malloc, addRegionToTail, M.bind_apply, M.tryCatch_apply, h3,
    Bool.false_eq_true, if_false]
  simp [bumpHeap, newRegion, Int.add_assoc, h3]

theorem read8_split {s : Sim} {old news : List Region} (h : Split s old news) {a : U32} {b : U8}
    (ho : ∀ q ∈ old, ¬ Covers q a 1) (hb : peek news a = some b) : ∃ s', IMemory.read .w8 a s = .ok b s' := by
  obtain ⟨r, hr, hc⟩ := covered_of_peek hb
  obtain ⟨k, q, hf⟩ := FirstCover.exists_of_mem hr hc
  have hs := sound_append h
  have ht := h.target hf ho
  have hq := h.fresh q hf.mem
  rw [peek_firstCover hf] at hb
  have h0 : scanAt q (a.toNat - q.baseAddress.toNat) 1 READING = (0, false) := by simp [scanAt, hq.watch, scanWatch]
  rw [read_eq, show Width.w8.bytes = 1 from rfl, readN_eq hs ht]
  simp only [h0, Nat.add_zero, Bool.false_eq_true, if_false]
  rw [if_neg (by have := h.hits; omega)]
  have hlt := (List.getElem?_eq_some_iff.1 hb).1
  have e : List.take 1 (List.drop (a.toNat - q.baseAddress.toNat) q.data) = [b] := by
    rw [List.drop_eq_getElem_cons hlt, (List.getElem?_eq_some_iff.1 hb).2]; rfl
  have e2 : BitVec.ofNat Width.w8.bits (leVal [b]) = b := by
    apply BitVec.eq_of_toNat_eq
    simp [leVal, Width.bits]
  simp only [e, e2]
  exact ⟨_, rfl⟩

end Verif.Dump
