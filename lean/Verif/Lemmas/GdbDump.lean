import Verif.Lemmas.GdbLoad
/- A log leads to the same memory as a dump of the same blocks. -/
namespace Verif.GdbLog
open Verif MemSim Spec Dump

/-- A region without its contents. -/
def core (r : Region) : Region := { r with data := [] }

theorem poke_core {rs : List Region} {a : U32} {b : U8} : (poke rs a b).map core = rs.map core := by
  induction rs with
  | nil => rfl
  | cons r rs ih =>
    unfold poke
    split
    · rfl
    · simp [ih]

theorem pokes_core {bs : Str} {rs : List Region} {a : U32} : (pokes rs a bs).map core = rs.map core := by
  induction bs generalizing rs a with
  | nil => rfl
  | cons b bs ih => unfold pokes; rw [ih, poke_core]

theorem pokeLines_core {ms : List Run} {news : List Region} : (pokeLines news ms).map core = news.map core := by
  induction ms generalizing news with
  | nil => rfl
  | cons m ms ih => simp only [pokeLines, List.foldl_cons] at ih ⊢; rw [ih, pokes_core]

theorem loadMem_core {mem : List (U32 × List U8)} {rs : List Region} :
    (loadMem rs mem).map core = rs.map core ++ mem.map (fun r => core (newRegion r.1 (BitVec.ofNat 32 r.2.length))) := by
  induction mem generalizing rs with
  | nil => simp [loadMem]
  | cons r mem ih => simp [loadMem, ih, pokes_core]

theorem region_ext {r q : Region} (hc : core r = core q) (hd : r.data = q.data) : r = q := by
  cases r; cases q
  simp only [core, Region.mk.injEq] at hc hd ⊢
  obtain ⟨h1, h2, -, h3, h4, h5, h6, h7, h8, h9⟩ := hc
  exact ⟨h1, h2, hd, h3, h4, h5, h6, h7, h8, h9⟩

/-- Regions that lie apart are determined by what they hold at each address. -/
theorem regions_ext {rs qs : List Region} (hc : rs.map core = qs.map core) (h1 : ∀ r ∈ rs, r.data.length = r.size.toNat)
    (h2 : ∀ r ∈ qs, r.data.length = r.size.toNat) (hf : ∀ r ∈ rs, r.baseAddress.toNat + r.size.toNat ≤ 2 ^ 32)
    (hd : rs.Pairwise fun r q => ∀ a, Covers r a 1 → ¬ Covers q a 1) (hp : ∀ a, CoveredBy rs a → peek rs a = peek qs a) : rs = qs := by
  induction rs generalizing qs with
  | nil => cases qs with
    | nil => rfl
    | cons q qs => cases hc
  | cons r rs ih =>
    cases qs with
    | nil => cases hc
    | cons q qs =>
      simp only [List.map_cons, List.cons.injEq] at hc
      obtain ⟨c1, c2⟩ := hc
      obtain ⟨d1, d2⟩ := List.pairwise_cons.1 hd
      have eb : q.baseAddress = r.baseAddress := (congrArg Region.baseAddress c1).symm
      have es : q.size = r.size := (congrArg Region.size c1).symm
      have ec : ∀ a, Covers q a 1 ↔ Covers r a 1 := by intro a; unfold Covers; rw [eb, es]
      have htail : rs = qs := by
        refine ih c2 (fun x hx => h1 x (by simp [hx])) (fun x hx => h2 x (by simp [hx])) (fun x hx => hf x (by simp [hx])) d2 ?_
        intro a ha
        obtain ⟨x, hx, hxa⟩ := ha
        have hn : ¬ Covers r a 1 := fun h => d1 x hx a h hxa
        have := hp a ⟨x, by simp [hx], hxa⟩
        simpa [peek, hn, ec] using this
      have hhead : r.data = q.data := by
        have l1 := h1 r (by simp)
        have l2 := h2 q (by simp)
        rw [es] at l2
        apply List.ext_getElem?
        intro i
        by_cases hi : i < r.size.toNat
        · have hfit := hf r (by simp)
          have ea : (r.baseAddress + BitVec.ofNat 32 i).toNat = r.baseAddress.toNat + i := by
            simp only [BitVec.toNat_add, BitVec.toNat_ofNat]; omega
          have hcv : Covers r (r.baseAddress + BitVec.ofNat 32 i) 1 := by unfold Covers; omega
          have := hp _ ⟨r, by simp, hcv⟩
          simp only [peek, hcv, if_true, ec, eb, ea, Nat.add_sub_cancel_left] at this
          exact this
        · rw [List.getElem?_eq_none (by omega), List.getElem?_eq_none (by omega)]
      rw [htail, region_ext c1 hhead]

/-! ### Runs hold what their lines hold -/

theorem foldl_acc (mem : List (U32 × List U8)) (a : U32) (x : Option U8) :
    mem.foldl (fun acc r => (byteIn r a).or acc) x = (lastByte mem a).or x := by
  unfold lastByte
  induction mem generalizing x with
  | nil => rfl
  | cons r mem ih =>
    simp only [List.foldl_cons]
    rw [ih, ih ((byteIn r a).or none)]
    cases mem.foldl (fun acc r => (byteIn r a).or acc) none <;> simp

theorem lastByte_cons (r : U32 × List U8) (mem : List (U32 × List U8)) (a : U32) :
    lastByte (r :: mem) a = (lastByte mem a).or (byteIn r a) := by
  show mem.foldl _ ((byteIn r a).or none) = _
  rw [foldl_acc, Option.or_none]

theorem byteIn_join {b : U32} {x y : List U8} {a : U32} (h : b.toNat + x.length + y.length ≤ 2 ^ 32) :
    byteIn (b, x ++ y) a = (byteIn (b + BitVec.ofNat 32 x.length, y) a).or (byteIn (b, x) a) := by
  by_cases hy : y = []
  · subst hy
    have : byteIn (b + BitVec.ofNat 32 x.length, ([] : List U8)) a = none := by
      cases hh : byteIn (b + BitVec.ofNat 32 x.length, ([] : List U8)) a with
      | none => rfl
      | some v => have := byteIn_iff.1 (show (byteIn _ a).isSome by rw [hh]; rfl); simp at this; omega
    rw [this, List.append_nil]; rfl
  have hpos := List.length_pos_iff.2 hy
  have eb : (b + BitVec.ofNat 32 x.length).toNat = b.toNat + x.length := by
    simp only [BitVec.toNat_add, BitVec.toNat_ofNat]; omega
  unfold byteIn
  simp only [eb]
  by_cases h1 : b.toNat ≤ a.toNat
  · rw [if_pos h1, if_pos h1]
    by_cases h2 : b.toNat + x.length ≤ a.toNat
    · rw [if_pos h2, List.getElem?_append_right (by omega), List.getElem?_eq_none (l := x) (by omega), Option.or_none]
      congr 1
      omega
    · rw [if_neg h2, List.getElem?_append_left (by omega)]
      rfl
  · rw [if_neg h1, if_neg h1, if_neg (by omega)]; rfl

theorem wordBytes_append (x y : List U32) : wordBytes (x ++ y) = wordBytes x ++ wordBytes y := by simp [wordBytes]

theorem runs_lastByte {ms : List Run} (h0 : ∀ x ∈ ms, x.2 ≠ []) (hf : ∀ r ∈ runs ms, RunFits r) (a : U32) :
    lastByte (blocks (runs ms)) a = lastByte (blocks ms) a := by
  induction ms with
  | nil => rfl
  | cons m ms ih =>
    have h0' : ∀ x ∈ ms, x.2 ≠ [] := fun x hx => h0 x (by simp [hx])
    have ih := ih h0' (runs_tail_fits h0' hf)
    simp only [runs] at hf ⊢
    cases he : runs ms with
    | nil =>
      cases ms with
      | nil => rfl
      | cons x xs =>
        obtain ⟨y, rs, e⟩ := runs_head x xs
        rw [e] at he; cases he
    | cons r rs =>
      rw [he] at ih hf
      simp only at hf ⊢
      split
      · next hj =>
        rw [if_pos hj] at hf
        have hfr := hf _ List.mem_cons_self
        unfold RunFits at hfr
        simp only [List.length_append] at hfr
        show lastByte ((m.1, wordBytes (m.2 ++ r.2)) :: blocks rs) a = lastByte ((m.1, wordBytes m.2) :: blocks ms) a
        rw [lastByte_cons, lastByte_cons, ← ih, wordBytes_append, byteIn_join (by simp only [wordBytes_length]; omega), wordBytes_length, hj]
        show (lastByte (blocks rs) a).or _ = (lastByte ((r.1, wordBytes r.2) :: blocks rs) a).or _
        rw [lastByte_cons, Option.or_assoc]
      · show lastByte ((m.1, wordBytes m.2) :: blocks (r :: rs)) a = lastByte ((m.1, wordBytes m.2) :: blocks ms) a
        rw [lastByte_cons, lastByte_cons, ih]

/-- The regions filled line by line are those filled run by run. -/
theorem same_regions {s : Sim} {ms : List Run} (h : LoadOK s ms) (hd : Spec.Disjoint (blocks (runs ms))) :
    pokeLines ((runs ms).map reg) ms = loadMem [] (blocks (runs ms)) := by
  have hlen : ∀ r ∈ blocks (runs ms), r.2.length < 2 ^ 32 ∧ Fits r := by
    intro r hr
    obtain ⟨x, hx, rfl⟩ := List.mem_map.1 hr
    exact ⟨by simpa [wordBytes_length] using h.len x hx, by simpa [Fits, RunFits, wordBytes_length] using h.fits x hx⟩
  have hfresh : ∀ r ∈ (runs ms).map reg, Fresh r := by
    intro r hr
    obtain ⟨x, -, rfl⟩ := List.mem_map.1 hr
    exact fresh_new _ _
  have hcore : (pokeLines ((runs ms).map reg) ms).map core = ((runs ms).map reg).map core := pokeLines_core
  refine regions_ext ?_ (fun r hr => (pokeLines_fresh hfresh r hr).len) (fun r hr => (loadMem_fresh (by simp) r hr).len) ?_ ?_ ?_
  · rw [pokeLines_core, loadMem_core]
    simp [blocks, reg, wordBytes_length, Function.comp_def]
  · intro r hr
    have : core r ∈ ((runs ms).map reg).map core := hcore ▸ List.mem_map_of_mem hr
    obtain ⟨q, hq, e⟩ := List.mem_map.1 this
    obtain ⟨x, hx, rfl⟩ := List.mem_map.1 hq
    have eb : r.baseAddress = x.1 := (congrArg Region.baseAddress e).symm
    have es : r.size = BitVec.ofNat 32 (4 * x.2.length) := (congrArg Region.size e).symm
    have hf := h.fits x hx
    unfold RunFits at hf
    rw [eb, es, BitVec.toNat_ofNat, Nat.mod_eq_of_lt (h.len x hx)]
    omega
  · have hpw : (((runs ms).map reg).map core).Pairwise fun r q => ∀ a, Covers r a 1 → ¬ Covers q a 1 := by
      rw [List.pairwise_map, List.pairwise_map]
      unfold Spec.Disjoint blocks at hd
      rw [List.pairwise_map] at hd
      refine hd.imp_of_mem ?_
      intro x y hx hy hxy a c1 c2
      have b1 := (reg_covers1 (h.len x hx)).1 c1
      have b2 := (reg_covers1 (h.len y hy)).1 c2
      rcases hxy a with e | e
      · have : byteIn (blk x) a = none := e
        rw [this] at b1; cases b1
      · have : byteIn (blk y) a = none := e
        rw [this] at b2; cases b2
    rw [← hcore, List.pairwise_map] at hpw
    exact hpw
  · intro a ha
    have hcov : CoveredBy ((runs ms).map reg) a := (coveredBy_shape_iff pokeLines_shape).1 ha
    obtain ⟨q, hq, hc⟩ := hcov
    obtain ⟨x, hx, rfl⟩ := List.mem_map.1 hq
    have hin := (reg_covers1 (h.len x hx)).1 hc
    obtain ⟨b, hb⟩ := lastByte_isSome (mem := blocks (runs ms)) (List.mem_map_of_mem hx) hin
    have hb' := hb
    rw [runs_lastByte h.ne h.fits] at hb'
    rw [h.peek hb', peek_loadMem (by simp) hlen]
    exact (hb : lastByte _ a = some b).symm

end Verif.GdbLog
