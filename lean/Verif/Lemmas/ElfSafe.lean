import Verif.Lemmas.ElfLoad
/- ELF files with arbitrary contents. -/
namespace Verif.Elf
open Verif MemSim Spec

theorem loadN_exn {a : U32} {bs : List U8} (hn : bs.length ≠ 2) {s s' : Sim} {e : Exn} (h : loadN a bs s = .throw e s') :
    e = ⟨.busError, []⟩ := by
  unfold loadN at h
  rw [M.bind_apply] at h
  rcases findMatchingRegion_cases a bs.length s with hf | ⟨i, a', hf⟩ | hf
  · simp only [getDataPointer, M.bind_apply, hf] at h
    cases h; rfl
  · simp only [getDataPointer, M.bind_apply, hf] at h
    cases hr : regionAt i s with
    | throw e s1 => unfold regionAt at hr; split at hr <;> cases hr
    | ub u => rw [hr] at h; cases h
    | ok r s1 =>
      rw [hr] at h
      have hw : ¬ (LOADING = WRITING ∧ r.isReadOnly = true) := fun h => absurd h.1 (by decide)
      have hc : ¬ (LOADING = READING ∧ bs.length = 2) := fun h => hn h.2
      simp only [if_neg hw, M.bind_apply, countRead, if_neg hc, M.pure_apply, Bool.false_eq_true, if_false, hostWrite] at h
      cases hr2 : regionAt i s1 with
      | throw e s1 => unfold regionAt at hr2; split at hr2 <;> cases hr2
      | ub u => rw [hr2] at h; cases h
      | ok r2 s2 =>
        rw [hr2] at h
        simp only at h
        split at h <;> cases h
  · simp only [getDataPointer, M.bind_apply, hf] at h
    cases h

theorem loadBytes_exn {n : Nat} {a : U32} {src : List U8} {s s' : Sim} {e : Exn} (h : loadBytes n a src s = .throw e s') :
    e = ⟨.busError, []⟩ := by
  induction n generalizing a src s with
  | zero => cases src <;> cases h
  | succ n ih =>
    cases src with
    | nil => cases h
    | cons b src =>
      simp only [loadBytes, M.bind_apply] at h
      cases hl : loadN a [b] s with
      | ok u s1 => rw [hl] at h; exact ih h
      | throw e1 s1 => rw [hl] at h; cases h; exact loadN_exn (by simp) hl
      | ub r => rw [hl] at h; cases h

theorem loadWords_exn {src : List U8} {n : Nat} {a : U32} {s s' : Sim} {e : Exn} (h : loadWords src n a s = .throw e s') :
    e = ⟨.busError, []⟩ := by
  fun_induction loadWords src n a generalizing s with
  | case1 b0 b1 b2 b3 rest n a h4 ih =>
    simp only [M.bind_apply] at h
    cases hl : loadN a [b0, b1, b2, b3] s with
    | ok u s1 => rw [hl] at h; exact ih h
    | throw e1 s1 => rw [hl] at h; cases h; exact loadN_exn (by simp) hl
    | ub r => rw [hl] at h; cases h
  | case2 => exact loadBytes_exn h
  | case3 => cases h
  | case4 => exact loadBytes_exn h

/-- Address, size and kind of a region. -/
def key (r : Region) : U32 × Nat × Bool := (r.baseAddress, r.size.toNat, r.isAlias)

/-- What the loader keeps, and the regions added so far. -/
structure LInv (s0 s : Sim) (added : List (U32 × Nat × Bool)) : Prop where
  inv : MemInv loadsImage s0 s
  keys : s.regions.map key = s0.regions.map key ++ added

theorem forall₂_map {α β : Type} {R : α → α → Prop} {f : α → β} (hf : ∀ x y, R x y → f y = f x) {l l' : List α}
    (h : List.Forall₂ R l l') : l'.map f = l.map f := by
  induction h with
  | nil => rfl
  | cons h1 _ ih => simp [hf _ _ h1, ih]

theorem sat_of {o : Out Sim α} {P : Sim → Prop} {C : Exn → Prop} (hu : ∀ r, o ≠ .ub r) (hp : Post o P)
    (hc : ∀ e s, o = .throw e s → C e) : Sat (fun _ => P) (fun e s => P s ∧ C e) o := by
  cases o with
  | ok a s => exact hp
  | throw e s => exact ⟨hp, hc e s rfl⟩
  | ub r => exact absurd rfl (hu r)

theorem load_inv {s0 s : Sim} {added : List (U32 × Nat × Bool)} (h : LInv s0 s added) {a n : U32} {data : List U8}
    (hl : n.toNat ≤ data.length) :
    Sat (fun _ s' => LInv s0 s' added) (fun e s' => LInv s0 s' added ∧ e.code = .busError) (loadFromFlashImage a data n s) := by
  refine sat_of (fun r => loadWords_no_overflow h.inv.1 hl) ?_ (fun e s' he => by rw [loadWords_exn he])
  have hd := loadWords_data (src := data) (n := n.toNat) (a := a) (s := s)
  have fin : ∀ s', Step (.load a data n) s s' → DataOnly s s' → LInv s0 s' added := by
    intro s' hst hd
    refine ⟨⟨step_sound (c := .load a data n) h.inv.1 hl hst, ⟨?_, by rw [hd.hits]; exact h.inv.2.1.2⟩,
      h.inv.2.2.snoc (c := .load a data n) trivial hl hst⟩, ?_⟩
    · intro r hr
      have hm := forall₂_map (f := Region.watch) (by rintro x y ⟨d, rfl⟩; rfl) hd.regions
      have : r.watch ∈ s'.regions.map Region.watch := List.mem_map_of_mem hr
      rw [hm] at this
      obtain ⟨q, hq, e⟩ := List.mem_map.1 this
      rw [← e]; exact h.inv.2.1.1 q hq
    · rw [forall₂_map (f := key) (by rintro x y ⟨d, rfl⟩; rfl) hd.regions]; exact h.keys
  cases e : loadFromFlashImage a data n s with
  | ok u s' => unfold loadFromFlashImage at e; rw [e] at hd; exact fin s' (.inl ⟨u, e⟩) hd
  | throw x s' => unfold loadFromFlashImage at e; rw [e] at hd; exact fin s' (.inr ⟨x, e⟩) hd
  | ub r => trivial

theorem mark_inv {s0 s : Sim} {added : List (U32 × Nat × Bool)} (h : LInv s0 s added) {a : U32} :
    Sat (fun _ s' => LInv s0 s' added) (fun e s' => LInv s0 s' added ∧ e.code ∈ [.busError, .outOfMemory]) (makeRegionReadOnly a s) := by
  have fin : ∀ s', Step (.makeReadOnly a) s s' → (∀ i r c, s.regions[i]? = some r → s'.regions = s.regions.set i { r with isReadOnly := true, readCounts := c } →
      s'.hits = s.hits → LInv s0 s' added) := by
    intro s' hst i r c hr hreg hh
    have hmem : ∀ {β : Type} (f : Region → β), f { r with isReadOnly := true, readCounts := c } = f r →
        s'.regions.map f = s.regions.map f := by
      intro β f hf
      rw [hreg, List.map_set, hf]
      apply List.ext_getElem?
      intro j
      rw [List.getElem?_set]
      split
      · rename_i e; subst e
        have := (List.getElem?_eq_some_iff.1 hr).1
        rw [if_pos (by simpa using this), List.getElem?_map, hr]; rfl
      · rfl
    refine ⟨⟨step_sound (c := .makeReadOnly a) h.inv.1 trivial hst, ⟨?_, by rw [hh]; exact h.inv.2.1.2⟩,
      h.inv.2.2.snoc (c := .makeReadOnly a) trivial trivial hst⟩, ?_⟩
    · intro q hq
      have : q.watch ∈ s'.regions.map Region.watch := List.mem_map_of_mem hq
      rw [hmem Region.watch rfl] at this
      obtain ⟨q', hq', e⟩ := List.mem_map.1 this
      rw [← e]; exact h.inv.2.1.1 q' hq'
    · rw [hmem key rfl]; exact h.keys
  rcases makeRegionReadOnly_cases a s with e | ⟨u, e⟩ | ⟨i, a', r, -, hr, ⟨-, e⟩ | ⟨-, e⟩⟩
  · rw [e]; exact ⟨h, by simp⟩
  · exact absurd e (makeReadOnly_no_ub h.inv.1 a u)
  · have hst : Step (.makeReadOnly a) s _ := .inr ⟨_, e⟩
    rw [e]
    exact ⟨fin _ hst i r r.readCounts hr rfl rfl, by simp⟩
  · have hst : Step (.makeReadOnly a) s _ := .inl ⟨_, e⟩
    rw [e]
    exact fin _ hst i r _ hr rfl rfl

theorem create_inv {s0 s : Sim} {added : List (U32 × Nat × Bool)} (h : LInv s0 s added) {a n : U32} :
    Sat (fun _ s' => LInv s0 s' (added ++ [(a, n.toNat, false)])) (fun e s' => LInv s0 s' added ∧ e.code = .outOfMemory)
      (createRegion a n s) := by
  have hc := createRegion_inv h.inv (b := a) (n := n) trivial
  rcases createRegion_cases a n s with ⟨k, e⟩ | e
  · rw [e] at hc ⊢
    exact ⟨⟨hc.1, h.keys⟩, rfl⟩
  · rw [e] at hc ⊢
    refine ⟨hc, ?_⟩
    simp [h.keys, key, newRegion]

/-- What may be raised. -/
def elfCodes : List Exc := [.elfFormat, .outOfMemory, .busError]

theorem segment_inv {s0 s : Sim} {added : List (U32 × Nat × Bool)} (h : LInv s0 s added) {a n : U32} {data : List U8}
    (hl : n.toNat ≤ data.length) :
    Sat (fun _ s' => LInv s0 s' (added ++ [(a, n.toNat, false)]))
      (fun e s' => (LInv s0 s' added ∨ LInv s0 s' (added ++ [(a, n.toNat, false)])) ∧ e.code ∈ elfCodes) (loadSegment a n data s) := by
  unfold loadSegment
  refine Sat.bind ((create_inv h).mono (fun _ _ h => h) ?_) ?_
  · rintro e s' ⟨h1, h2⟩; exact ⟨.inl h1, by simp [elfCodes, h2]⟩
  intro _ s1 h1
  refine Sat.bind ((load_inv h1 hl).mono (fun _ _ h => h) ?_) ?_
  · rintro e s' ⟨h1, h2⟩; exact ⟨.inr h1, by simp [elfCodes, h2]⟩
  intro _ s2 h2
  refine (mark_inv h2).mono (fun _ _ h => h) ?_
  rintro e s' ⟨h1, h2⟩
  refine ⟨.inr h1, ?_⟩
  simp only [List.mem_cons, List.not_mem_nil, or_false, elfCodes] at h2 ⊢
  rcases h2 with h2 | h2
  · exact .inr (.inr h2)
  · exact .inr (.inl h2)

/-- What a program header adds. -/
def addsOf (h : ProgHeader) : U32 × Nat × Bool := (BitVec.ofNat 32 h.paddr, h.filesz, false)

def addsFrom (b : Str) (i n : Nat) : List (U32 × Nat × Bool) := ((headersFrom b i n).filter ProgHeader.loadable).map addsOf

/-- The loop leaves the keys of a prefix of the loadable headers. -/
theorem entries_sat {b : Str} {n i : Nat} {c : U32} {s0 s : Sim} {added : List (U32 × Nat × Bool)}
    (hb : ∀ j, i ≤ j → j < i + n → entryWraps b j = false) (hi : LInv s0 s added)
    (hw : ∀ h ∈ headersFrom b i n, h.loadable = true → h.wraps b = false) :
    Sat (fun c' s' => LInv s0 s' (added ++ addsFrom b i n) ∧ c' = c + BitVec.ofNat 32 (addsFrom b i n).length)
      (fun e s' => (∃ k, LInv s0 s' (added ++ (addsFrom b i n).take k)) ∧ e.code ∈ elfCodes)
      (loadEntries b b.length (phentsize b) n i (BitVec.ofNat 32 (entryAt b i)) c s) := by
  induction n generalizing i c s added with
  | zero =>
    refine ⟨?_, ?_⟩ <;> simp [addsFrom, headersFrom]
    exact hi
  | succ n ih =>
    have hb' : ∀ j, i + 1 ≤ j → j < i + 1 + n → entryWraps b j = false := fun j h1 h2 => hb j (by omega) (by omega)
    rw [loadEntries_succ (noWrap (hb i (by omega) (by omega))), offset_toNat]
    by_cases h0 : entryAt b i + 32 ≤ b.length
    · rw [if_pos h0, offset_add]
      rw [headersFrom_succ] at hw
      have hw' : ∀ h ∈ headersFrom b (i + 1) n, h.loadable = true → h.wraps b = false :=
        fun h hm => hw h (List.mem_cons_of_mem _ hm)
      by_cases hl : (progHeaderAt b (entryAt b i)).loadable = true
      · generalize hh : progHeaderAt b (entryAt b i) = h at hl
        have hin := hw h (by rw [hh]; exact List.mem_cons_self) hl
        have hlt := progHeader_lt b (entryAt b i)
        rw [hh] at hlt
        have hbl : addsFrom b i (n + 1) = addsOf h :: addsFrom b (i + 1) n := by
          rw [addsFrom, headersFrom_succ, hh, List.filter_cons_of_pos hl]; rfl
        rw [hbl]
        have hent := entry_load (c := c) (s := s) h0 (by rw [hh]; exact hl)
        rw [hh] at hent
        by_cases hfi : h.offset + h.filesz ≤ b.length
        · rw [fetch_in (by rw [ofNat_toNat hlt.1, ofNat_toNat hlt.2.1]; exact hfi), ofNat_toNat hlt.1] at hent
          simp only at hent
          have hsg := segment_inv hi (a := BitVec.ofNat 32 h.paddr) (n := BitVec.ofNat 32 h.filesz) (data := b.drop h.offset)
            (by rw [ofNat_toNat hlt.2.1, List.length_drop]; omega)
          have hadd : (BitVec.ofNat 32 h.paddr, (BitVec.ofNat 32 h.filesz).toNat, false) = addsOf h := by
            rw [ofNat_toNat hlt.2.1]; rfl
          rw [hadd] at hsg
          refine Sat.bind (Q1 := fun c' s' => LInv s0 s' (added ++ [addsOf h]) ∧ c' = c + 1) ?_ ?_
          · rw [hent]
            refine Sat.bind (hsg.mono (fun _ _ h => h) ?_) ?_
            · rintro e s' ⟨h1 | h1, h2⟩
              · exact ⟨⟨0, by simpa using h1⟩, h2⟩
              · exact ⟨⟨1, by simpa using h1⟩, h2⟩
            · intro _ s1 h1; exact ⟨h1, rfl⟩
          · rintro c' s1 ⟨h1, rfl⟩
            refine (ih hb' h1 hw').mono ?_ ?_
            · rintro c2 s2 ⟨h2, rfl⟩
              refine ⟨by simpa using h2, ?_⟩
              rw [List.length_cons, BitVec.ofNat_add, BitVec.add_assoc, BitVec.add_comm 1]
              rfl
            · rintro e s2 ⟨⟨k, h2⟩, h3⟩
              exact ⟨⟨k + 1, by simpa using h2⟩, h3⟩
        · rw [fetch_reject (by rw [ofNat_toNat hlt.1, ofNat_toNat hlt.2.1]; omega)
            (by rw [ofNat_toNat hlt.1, ofNat_toNat hlt.2.1]; simp [ProgHeader.wraps] at hin; omega)] at hent
          simp only at hent
          rw [M.bind_throw hent]
          exact ⟨⟨0, by simpa using hi⟩, by simp [elfCodes]⟩
      · have hl' : (progHeaderAt b (entryAt b i)).loadable = false := by simpa using hl
        have hbl : addsFrom b i (n + 1) = addsFrom b (i + 1) n := by
          rw [addsFrom, headersFrom_succ, List.filter_cons_of_neg hl]; rfl
        rw [hbl, M.bind_apply, entry_skip h0 hl']
        exact ih hb' hi hw'
    · rw [if_neg h0]
      exact ⟨⟨0, by simpa using hi⟩, by simp [elfCodes]⟩

end Verif.Elf

namespace Verif.Elf
open Verif MemSim Spec

/-- Like `Sat`, but undefined behaviour is not excluded. -/
def Pst (Q : α → σ → Prop) (E : Exn → σ → Prop) : Out σ α → Prop
  | .ok a s => Q a s
  | .throw e s => E e s
  | .ub _ => True

theorem Pst.bind {m : M σ α} {f : α → M σ β} {s : σ} {Q1 : α → σ → Prop} {Q : β → σ → Prop} {E : Exn → σ → Prop}
    (h : Pst Q1 E (m s)) (hf : ∀ a s', Q1 a s' → Pst Q E (f a s')) : Pst Q E ((m >>= f) s) := by
  rw [M.bind_apply]
  cases hm : m s with
  | ok a s' => rw [hm] at h; exact hf a s' h
  | throw e s' => rw [hm] at h; exact h
  | ub r => trivial

theorem Pst.mono {o : Out σ α} {Q Q' : α → σ → Prop} {E E' : Exn → σ → Prop} (h : Pst Q E o) (hq : ∀ a s, Q a s → Q' a s)
    (he : ∀ e s, E e s → E' e s) : Pst Q' E' o := by
  cases o with
  | ok a s => exact hq a s h
  | throw e s => exact he e s h
  | ub r => trivial

def keys (s : Sim) : List (U32 × Nat × Bool) := s.regions.map key

/-- Not one of the complaints about the header. -/
def Later (e : Exn) : Prop := e.msg = [] ∨ ∃ c ∈ [0x66, 0x70, 0x63], e.msg[4]? = some (c : U8)

theorem create_keys (a n : U32) (s : Sim) :
    Pst (fun _ s' => keys s' = keys s ++ [(a, n.toNat, false)]) (fun e s' => keys s' = keys s ∧ e.msg = []) (createRegion a n s) := by
  rcases createRegion_cases a n s with ⟨k, e⟩ | e <;> rw [e]
  · exact ⟨rfl, rfl⟩
  · simp [Pst, keys, key, newRegion]

theorem load_keys (a n : U32) (data : List U8) (s : Sim) :
    Pst (fun _ s' => keys s' = keys s) (fun e s' => keys s' = keys s ∧ e.msg = []) (loadFromFlashImage a data n s) := by
  have hd := loadWords_data (src := data) (n := n.toNat) (a := a) (s := s)
  have fin : ∀ s', DataOnly s s' → keys s' = keys s := fun s' hd =>
    forall₂_map (f := key) (by rintro x y ⟨d, rfl⟩; rfl) hd.regions
  unfold loadFromFlashImage
  cases e : loadWords data n.toNat a s with
  | ok u s' => rw [e] at hd; exact fin s' hd
  | throw x s' => rw [e] at hd; exact ⟨fin s' hd, by rw [loadWords_exn e]⟩
  | ub r => trivial

theorem mark_keys (a : U32) (s : Sim) :
    Pst (fun _ s' => keys s' = keys s) (fun e s' => keys s' = keys s ∧ e.msg = []) (makeRegionReadOnly a s) := by
  have hm : ∀ i r c, s.regions[i]? = some r → (s.regions.set i { r with isReadOnly := true, readCounts := c }).map key = s.regions.map key := by
    intro i r c hr
    rw [List.map_set]
    apply List.ext_getElem?
    intro j
    rw [List.getElem?_set]
    split
    · rename_i e; subst e
      have := (List.getElem?_eq_some_iff.1 hr).1
      rw [if_pos (by simpa using this), List.getElem?_map, hr]; rfl
    · rfl
  rcases makeRegionReadOnly_cases a s with e | ⟨u, e⟩ | ⟨i, a', r, -, hr, ⟨-, e⟩ | ⟨-, e⟩⟩ <;> rw [e]
  · exact ⟨rfl, rfl⟩
  · trivial
  · exact ⟨hm i r r.readCounts hr, rfl⟩
  · exact hm i r _ hr

theorem segment_keys (a n : U32) (data : List U8) (s : Sim) :
    Pst (fun _ s' => keys s' = keys s ++ [(a, n.toNat, false)])
      (fun e s' => (keys s' = keys s ∨ keys s' = keys s ++ [(a, n.toNat, false)]) ∧ e.msg = []) (loadSegment a n data s) := by
  unfold loadSegment
  refine Pst.bind ((create_keys a n s).mono (fun _ _ h => h) ?_) ?_
  · rintro e s' ⟨h1, h2⟩; exact ⟨.inl h1, h2⟩
  intro _ s1 h1
  refine Pst.bind ((load_keys a n data s1).mono (fun _ _ h => h) ?_) ?_
  · rintro e s' ⟨h2, h3⟩; exact ⟨.inr (h2.trans h1), h3⟩
  intro _ s2 h2
  refine (mark_keys a s2).mono (fun _ _ h => h.trans (h2.trans h1)) ?_
  rintro e s' ⟨h3, h4⟩
  exact ⟨.inr (h3.trans (h2.trans h1)), h4⟩

theorem entries_keys {b : Str} {n i : Nat} {c : U32} {s : Sim} :
    Pst (fun c' s' => keys s' = keys s ++ addsFrom b i n ∧ c' = c + BitVec.ofNat 32 (addsFrom b i n).length)
      (fun e s' => (∃ k, keys s' = keys s ++ (addsFrom b i n).take k) ∧ Later e)
      (loadEntries b b.length (phentsize b) n i (BitVec.ofNat 32 (entryAt b i)) c s) := by
  induction n generalizing i c s with
  | zero => refine ⟨?_, ?_⟩ <;> simp [addsFrom, headersFrom]
  | succ n ih =>
    rw [loadEntries_any, offset_toNat, offset_add]
    split
    · rcases entry_any b (entryAt b i) c s with hub | ⟨hl, hent⟩ | ⟨hl, hent⟩
      · rw [M.bind_ub hub]; trivial
      · have hbl : addsFrom b i (n + 1) = addsFrom b (i + 1) n := by
          rw [addsFrom, headersFrom_succ, List.filter_cons_of_neg (by simp [hl])]; rfl
        rw [hbl, M.bind_apply, hent]
        exact ih
      · generalize hh : progHeaderAt b (entryAt b i) = h at hl hent
        have hlt := progHeader_lt b (entryAt b i)
        rw [hh] at hlt
        have hbl : addsFrom b i (n + 1) = addsOf h :: addsFrom b (i + 1) n := by
          rw [addsFrom, headersFrom_succ, hh, List.filter_cons_of_pos hl]; rfl
        rw [hbl]
        unfold fetchSizedByteArray at hent
        by_cases hfi : (BitVec.ofNat 32 h.offset).toNat > b.length ∨ (BitVec.ofNat 32 h.offset + BitVec.ofNat 32 h.filesz).toNat > b.length
        · rw [if_pos hfi] at hent
          simp only [M.throw_apply] at hent
          rw [M.bind_throw hent]
          refine ⟨⟨0, by simp⟩, .inr ⟨0x66, by simp, ?_⟩⟩
          unfold segmentComplaint
          rw [List.append_assoc, List.append_assoc, List.append_assoc, List.getElem?_append_left (by decide)]
          decide
        · rw [if_neg hfi] at hent
          simp only [M.pure_apply] at hent
          have hsg := segment_keys (BitVec.ofNat 32 h.paddr) (BitVec.ofNat 32 h.filesz) (b.drop (BitVec.ofNat 32 h.offset).toNat) s
          have hadd : (BitVec.ofNat 32 h.paddr, (BitVec.ofNat 32 h.filesz).toNat, false) = addsOf h := by
            rw [ofNat_toNat hlt.2.1]; rfl
          rw [hadd] at hsg
          refine Pst.bind (Q1 := fun c' s' => keys s' = keys s ++ [addsOf h] ∧ c' = c + 1) ?_ ?_
          · rw [hent]
            refine Pst.bind (hsg.mono (fun _ _ h => h) ?_) ?_
            · rintro e s' ⟨h1 | h1, h2⟩
              · exact ⟨⟨0, by simpa using h1⟩, .inl h2⟩
              · exact ⟨⟨1, by simpa using h1⟩, .inl h2⟩
            · intro _ s1 h1; exact ⟨h1, rfl⟩
          · rintro c' s1 ⟨h1, rfl⟩
            refine (ih).mono ?_ ?_
            · rintro c2 s2 ⟨h2, rfl⟩
              refine ⟨by simpa [h1] using h2, ?_⟩
              rw [List.length_cons, BitVec.ofNat_add, BitVec.add_assoc, BitVec.add_comm 1]
              rfl
            · rintro e s2 ⟨⟨k, h2⟩, h3⟩
              exact ⟨⟨k + 1, by simpa [h1] using h2⟩, h3⟩
    · refine ⟨⟨0, by simp⟩, .inr ⟨0x70, by simp, ?_⟩⟩
      rw [List.append_assoc, List.append_assoc, List.append_assoc, List.getElem?_append_left (by decide)]
      decide

theorem adds_len (b : Str) : (addsFrom b 0 (phnum b)).length < 2 ^ 32 := by
  have h1 : phnum b < 65536 := numAt_lt b 44 2
  have : (addsFrom b 0 (phnum b)).length ≤ phnum b := by
    rw [addsFrom, List.length_map]
    refine Nat.le_trans (List.length_filter_le _ _) ?_
    simp [headersFrom]
  omega

theorem from_keys {b : Str} {s : Sim} (hc : headerComplaint b = none) :
    Pst (fun _ s' => keys s' = keys s ++ addsFrom b 0 (phnum b) ∧ addsFrom b 0 (phnum b) ≠ [])
      (fun e s' => (∃ k, keys s' = keys s ++ (addsFrom b 0 (phnum b)).take k) ∧ Later e) (fromMemory b b.length s) := by
  rw [fromMemory_eq, hc]
  have h := entries_keys (b := b) (n := phnum b) (i := 0) (c := 0) (s := s)
  rw [entryAt_zero] at h
  refine Pst.bind h ?_
  rintro c s' ⟨h1, rfl⟩
  have hl := adds_len b
  unfold finish
  by_cases h0 : (0 : U32) + BitVec.ofNat 32 (addsFrom b 0 (phnum b)).length = 0
  · rw [if_pos h0]
    exact ⟨⟨(addsFrom b 0 (phnum b)).length, by rw [List.take_length]; exact h1⟩, .inr ⟨0x63, by simp, by decide⟩⟩
  · rw [if_neg h0]
    refine ⟨h1, ?_⟩
    intro hn
    rw [hn] at h0
    exact h0 rfl

theorem from_sat {b : Str} {s : Sim} (hb : ∀ i < phnum b, entryWraps b i = false) (hs : Sound s) (hu : Unwatched s)
    (hw : ∀ h ∈ progHeaders b, h.loadable = true → h.wraps b = false) :
    Sat (fun _ s' => MemInv loadsImage s s') (fun e s' => MemInv loadsImage s s' ∧ e.code ∈ elfCodes) (fromMemory b b.length s) := by
  rw [fromMemory_eq]
  cases hc : headerComplaint b with
  | some m => exact ⟨.init hs hu, by simp [elfCodes]⟩
  | none =>
    have h := entries_sat (b := b) (n := phnum b) (i := 0) (c := 0) (s := s) (s0 := s) (added := []) (fun j _ hj => hb j (by omega))
      ⟨.init hs hu, by simp⟩ (by rw [headersFrom_all]; exact hw)
    rw [entryAt_zero] at h
    refine Sat.bind (h.mono (fun _ _ h => h) (fun e s' h => ⟨h.1.choose_spec.inv, h.2⟩)) ?_
    rintro c s' ⟨h1, -⟩
    unfold finish
    by_cases h0 : c = 0
    · rw [if_pos h0]; exact ⟨h1.inv, by simp [elfCodes]⟩
    · rw [if_neg h0]; exact h1.inv

/-- Loading stops with an access outside the buffer if it is too short. -/
theorem loadBytes_short {n : Nat} {a : U32} {src : List U8} {s : Sim} (hs : Sound s) {i off : Nat} {r : Region}
    (h : Range s a n i r off) (hl : src.length < n) : loadBytes n a src s = .ub .outOfBounds := by
  induction n generalizing a src s off r with
  | zero => omega
  | succ n ih =>
    cases src with
    | nil => rfl
    | cons b src =>
      have h1 := loadN_range hs (bs := [b]) h (by simp) (by simp) (by simp)
      have hn := h.next (bs := [b]) (s' := { s with regions := s.regions.set i { r with data := splice r.data off [b] } })
        (by simp) rfl
      have hsd : Sound { s with regions := s.regions.set i { r with data := splice r.data off [b] } } :=
        range_sound hs h (bs := [b]) (by simp) (by simp) rfl
      simp only [List.length_singleton, Nat.add_sub_cancel] at hn
      simp only [loadBytes, M.bind_apply, h1]
      exact ih hsd hn (by simpa using hl)

theorem loadWords_short {src : List U8} {n : Nat} {a : U32} {s : Sim} (hs : Sound s) {i off : Nat} {r : Region}
    (h : Range s a n i r off) (hl : src.length < n) : loadWords src n a s = .ub .outOfBounds := by
  fun_induction loadWords src n a generalizing s off r with
  | case1 b0 b1 b2 b3 rest n a h4 ih =>
    have h1 := loadN_range hs (bs := [b0, b1, b2, b3]) h (by simp; omega) (by simp) (by simp)
    have hn := h.next (bs := [b0, b1, b2, b3])
      (s' := { s with regions := s.regions.set i { r with data := splice r.data off [b0, b1, b2, b3] } }) (by simp; omega) rfl
    have hsd : Sound { s with regions := s.regions.set i { r with data := splice r.data off [b0, b1, b2, b3] } } :=
      range_sound hs h (bs := [b0, b1, b2, b3]) (by simp; omega) (by simp) rfl
    simp only [M.bind_apply, h1]
    exact ih hsd hn (by simp at hl; omega)
  | case2 => exact loadBytes_short hs h hl
  | case3 => rfl
  | case4 => exact loadBytes_short hs h hl

theorem loadSegment_short {s : Sim} (hs : Sound s) (hp : PlentyOfMemory s) {a n : U32} {data : List U8}
    (hl : data.length < n.toNat) (hfit : a.toNat + n.toNat ≤ 2 ^ 32)
    (hfree : ∀ x, a.toNat ≤ x.toNat → x.toNat < a.toNat + n.toNat → ¬ Mapped s x 1) :
    loadSegment a n data s = .ub .outOfBounds := by
  unfold loadSegment
  rw [M.bind_apply, createRegion_ok hp]
  simp only
  rw [M.bind_apply, loadFromFlashImage, loadWords_short (sound_snoc hs rfl rfl (plainOK_new a n)) (fresh_range hfit hfree) hl]

theorem loadBytes_take (n : Nat) (a : U32) (src : List U8) : loadBytes n a (src.take n) = loadBytes n a src := by
  induction n generalizing a src with
  | zero => rfl
  | succ n ih =>
    cases src with
    | nil => rfl
    | cons x src => simp only [List.take_succ_cons, loadBytes, ih]

theorem loadWords_take (src : List U8) (n : Nat) (a : U32) : loadWords (src.take n) n a = loadWords src n a := by
  fun_induction loadWords src n a with
  | case1 b0 b1 b2 b3 rest n a h4 ih =>
    obtain ⟨m, rfl⟩ : ∃ m, n = m + 4 := ⟨n - 4, by omega⟩
    simp only [Nat.add_sub_cancel] at ih
    simp only [List.take_succ_cons, loadWords, if_pos h4, Nat.add_sub_cancel, ih]
  | case2 b0 b1 b2 b3 rest n a h4 =>
    rw [← loadBytes_take n a (b0 :: b1 :: b2 :: b3 :: rest)]
    have h5 : n = 0 ∨ n = 1 ∨ n = 2 ∨ n = 3 ∨ n = 4 := by omega
    rcases h5 with rfl | rfl | rfl | rfl | rfl <;> rfl
  | case3 src n a h4 hn =>
    match src, h4 with
    | [], _ => simp [loadWords, hn]
    | [x], _ => rw [List.take_of_length_le (by simp; omega)]; simp [loadWords, hn]
    | [x, y], _ => rw [List.take_of_length_le (by simp; omega)]; simp [loadWords, hn]
    | [x, y, z], _ => rw [List.take_of_length_le (by simp; omega)]; simp [loadWords, hn]
    | x :: y :: z :: w :: t, h => exact (h _ _ _ _ _ rfl).elim
  | case4 src n a h4 hn =>
    rw [← loadBytes_take n a src]
    have h5 : (src.take n).length < 4 := by
      match src, h4 with
      | [], _ => simp
      | [x], _ => simp; omega
      | [x, y], _ => simp; omega
      | [x, y, z], _ => simp; omega
      | x :: y :: z :: w :: t, h => exact (h _ _ _ _ _ rfl).elim
    generalize src.take n = t at h5
    match t, h5 with
    | [], _ => simp [loadWords, hn]
    | [x], _ => simp [loadWords, hn]
    | [x, y], _ => simp [loadWords, hn]
    | [x, y, z], _ => simp [loadWords, hn]
    | x :: y :: z :: w :: t, h => simp at h; omega

theorem loadSegment_congr {a n : U32} {d d' : List U8} (h : d.take n.toNat = d'.take n.toNat) : loadSegment a n d = loadSegment a n d' := by
  unfold loadSegment loadFromFlashImage
  rw [← loadWords_take d, h, loadWords_take]

theorem loadEntries_congr {b b' : Str} (hlen : b.length = b'.length) (ho : phoff b = phoff b')
    (he : phentsize b = phentsize b') {n i : Nat} {c : U32} {s : Sim}
    (hh : ∀ j, i ≤ j → j < i + n → let h := progHeaderAt b (entryAt b j); let h' := progHeaderAt b' (entryAt b j)
      (h.loadable = false ∧ h'.loadable = false) ∨ (h = h' ∧ h.block b = h.block b'))
    (hb : ∀ j, i ≤ j → j < i + n → entryWraps b j = false) :
    loadEntries b b.length (phentsize b) n i (BitVec.ofNat 32 (entryAt b i)) c s =
    loadEntries b' b'.length (phentsize b') n i (BitVec.ofNat 32 (entryAt b' i)) c s := by
  have hent : ∀ i, entryAt b' i = entryAt b i := fun i => by unfold entryAt; rw [ho, he]
  induction n generalizing i c s with
  | zero => rfl
  | succ n ih =>
    have hb' : entryWraps b' i = false := by
      have := hb i (by omega) (by omega)
      unfold entryWraps at this ⊢
      rw [hent, ← hlen]; exact this
    rw [loadEntries_succ (noWrap (hb i (by omega) (by omega))), offset_toNat,
      loadEntries_succ (noWrap hb'), offset_toNat, hent, ← hlen, ← he]
    by_cases h0 : entryAt b i + 32 ≤ b.length
    · rw [if_pos h0, if_pos h0, offset_add]
      have hrec : ∀ c s, loadEntries b b.length (phentsize b) n (i + 1) (BitVec.ofNat 32 (entryAt b (i + 1))) c s =
          loadEntries b' b.length (phentsize b) n (i + 1) (BitVec.ofNat 32 (entryAt b (i + 1))) c s := by
        intro c s
        have := ih (i := i + 1) (c := c) (s := s) (fun j h1 h2 => hh j (by omega) (by omega)) (fun j h1 h2 => hb j (by omega) (by omega))
        rw [← hlen, ← he, hent] at this
        exact this
      have h0' := h0
      rw [hlen] at h0'
      have hstep : loadIfFlashLoadableEntry b b.length (b.drop (entryAt b i)) c s =
          loadIfFlashLoadableEntry b' b.length (b'.drop (entryAt b i)) c s := by
        rcases hh i (by omega) (by omega) with ⟨h1, h2⟩ | ⟨h1, h2⟩
        · rw [entry_skip h0 h1, hlen, entry_skip h0' h2]
        · by_cases hl : (progHeaderAt b (entryAt b i)).loadable = true
          · have hl' := hl
            rw [h1] at hl'
            have e1 := entry_load (c := c) (s := s) h0 hl
            have e2 := entry_load (c := c) (s := s) h0' hl'
            rw [← hlen] at e2
            rw [e1, e2, ← h1]
            have hlt := progHeader_lt b (entryAt b i)
            generalize progHeaderAt b (entryAt b i) = h at *
            unfold fetchSizedByteArray
            by_cases hfi : (BitVec.ofNat 32 h.offset).toNat > b.length ∨ (BitVec.ofNat 32 h.offset + BitVec.ofNat 32 h.filesz).toNat > b.length
            · rw [if_pos hfi, if_pos hfi]
            · rw [if_neg hfi, if_neg hfi]
              simp only [M.pure_apply]
              rw [loadSegment_congr (d := b.drop (BitVec.ofNat 32 h.offset).toNat) (d' := b'.drop (BitVec.ofNat 32 h.offset).toNat)]
              rw [ofNat_toNat hlt.1, ofNat_toNat hlt.2.1]
              exact (Prod.mk.injEq .. ▸ h2).2
          · have hl1 : (progHeaderAt b (entryAt b i)).loadable = false := by simpa using hl
            have hl' := hl1
            rw [h1] at hl'
            have e2 := entry_skip (c := c) (s := s) h0' hl'
            rw [← hlen] at e2
            rw [entry_skip h0 hl1, e2]
      rw [M.bind_apply, M.bind_apply, hstep]
      cases loadIfFlashLoadableEntry b' b.length (b'.drop (entryAt b i)) c s with
      | ok c' s' => exact hrec c' s'
      | throw e s' => rfl
      | ub r => rfl
    · rw [if_neg h0, if_neg h0]

theorem sound_rom {s s' : Sim} {mem : List (U32 × List U8)} (hs : Sound s) (he : s'.regions = s.regions ++ mem.map romRegion)
    (hl : ∀ r ∈ mem, r.2.length < 2 ^ 32) : Sound s' := by
  induction mem generalizing s with
  | nil =>
    simp only [List.map_nil, List.append_nil] at he
    unfold Sound at hs ⊢
    rw [he]; exact hs
  | cons r mem ih =>
    refine ih (s := { s with regions := s.regions ++ [romRegion r] }) (sound_snoc hs rfl rfl (rom_ok (hl r (by simp)))) (by simpa using he)
      (fun q hq => hl q (by simp [hq]))

theorem getD_congr {b b' : Str} {n i : Nat} (h : b.take n = b'.take n) (hi : i < n) : b.getD i 0 = b'.getD i 0 := by
  have := congrArg (fun l : List U8 => l[i]?) h
  simp only [List.getElem?_take, if_pos hi] at this
  rw [List.getD_eq_getElem?_getD, List.getD_eq_getElem?_getD, this]

theorem numAt_congr {b b' : Str} {n i k : Nat} (h : b.take k = b'.take k) (hi : i + n ≤ k) :
    numAt b i n = numAt b' i n := by
  induction n generalizing i with
  | zero => rfl
  | succ n ih => rw [numAt, numAt, getD_congr h (by omega), ih (by omega)]

theorem headerComplaint_congr {b b' : Str} (hl : b.length = b'.length) (h : b.take 52 = b'.take 52) :
    headerComplaint b = headerComplaint b' := by
  have h4 : b.take 4 = b'.take 4 := by
    have := congrArg (List.take 4) h
    simpa [List.take_take] using this
  have n1 : numAt b 4 1 = numAt b' 4 1 := numAt_congr h (by decide)
  have n2 : numAt b 5 1 = numAt b' 5 1 := numAt_congr h (by decide)
  have n3 : numAt b 16 2 = numAt b' 16 2 := numAt_congr h (by decide)
  have n4 : phoff b = phoff b' := numAt_congr h (by decide)
  have n5 : phnum b = phnum b' := numAt_congr h (by decide)
  have n6 : phentsize b = phentsize b' := numAt_congr h (by decide)
  unfold headerComplaint
  rw [hl, h4, n1, n2, n3, n4, n5, n6]

end Verif.Elf
