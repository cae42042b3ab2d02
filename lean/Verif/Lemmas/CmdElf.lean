import Verif.Lemmas.ElfSafe
import Verif.Lemmas.Leak
/- What the ELF loader does with any blob of bytes, whether it is well-formed or not. -/
namespace Verif.Elf
open Verif MemSim Spec

/-- `s'` is reached from `s` by calls that load images. -/
def ImgHist (s s' : Sim) : Prop := ∃ cs, (∀ c ∈ cs, loadsImage c) ∧ Hist s cs s'

theorem hist_snoc' {cs : List Call} {s s1 s2 : Sim} {c : Call} (h : Hist s cs s1) (hs : Step c s1 s2) : Hist s (cs ++ [c]) s2 := by
  induction h with
  | nil => exact .cons hs (.nil _)
  | cons h1 _ ih => exact .cons h1 (ih hs)

theorem hist_append' {cs ds : List Call} {s s1 s2 : Sim} (h : Hist s cs s1) (h' : Hist s1 ds s2) : Hist s (cs ++ ds) s2 := by
  induction h with
  | nil => exact h'
  | cons h1 _ ih => exact .cons h1 (ih h')

theorem ImgHist.refl (s : Sim) : ImgHist s s := ⟨[], by simp, .nil s⟩
theorem ImgHist.trans {s s1 s2 : Sim} (h : ImgHist s s1) (h' : ImgHist s1 s2) : ImgHist s s2 := by
  obtain ⟨cs, h1, h2⟩ := h
  obtain ⟨ds, h3, h4⟩ := h'
  refine ⟨cs ++ ds, ?_, hist_append' h2 h4⟩
  intro c hc
  rcases List.mem_append.1 hc with hc | hc
  · exact h1 c hc
  · exact h3 c hc
theorem ImgHist.step {c : Call} {s s' : Sim} (hc : loadsImage c) (h : Step c s s') : ImgHist s s' :=
  ⟨[c], by simpa using hc, .cons h (.nil _)⟩

/-- All the code does to the simulator is to load images. -/
def Img (m : M Sim α) : Prop := ∀ s, Pst (fun _ s' => ImgHist s s') (fun e s' => ImgHist s s' ∧ e.code ∈ elfCodes) (m s)

theorem Img.bind {m : M Sim α} {f : α → M Sim β} (hm : Img m) (hf : ∀ a, Img (f a)) : Img (m >>= f) := by
  intro s
  refine Pst.bind (hm s) ?_
  intro a s' h
  exact (hf a s').mono (fun _ _ h' => h.trans h') (fun _ _ h' => ⟨h.trans h'.1, h'.2⟩)

theorem Img.pure (a : α) : Img (Pure.pure a : M Sim α) := fun s => ImgHist.refl s
theorem Img.throw {c : Exc} {m : Str} (h : c ∈ elfCodes) : Img (M.throw c m : M Sim α) := fun s => ⟨ImgHist.refl s, h⟩
theorem Img.ub (r : UB) : Img (M.ub r : M Sim α) := fun _ => trivial
theorem Img.ite {c : Prop} [Decidable c] {a b : M Sim α} (ha : Img a) (hb : Img b) : Img (if c then a else b) := by
  split <;> assumption
theorem Img.rename {b : M Sim α} {f : Exn → Str} (h : Img b) : Img (M.tryCatch b fun e => M.throw e.code (f e)) := by
  intro s
  have := h s
  rw [M.tryCatch_apply]
  cases e : b s <;> rw [e] at this
  · exact this
  · exact this
  · trivial

theorem img_field (p : List U8) (off n : Nat) : Img (field p off n) := .ite (.pure _) (.ub _)
theorem img_bytes (p : List U8) (n : Nat) : Img (bytesOf p n) := .ite (.pure _) (.ub _)
theorem img_fetch (b : List U8) (n : Nat) (o z : U32) : Img (fetchSizedByteArray b n o z) :=
  .ite (.throw (by simp [elfCodes])) (.pure _)

theorem img_create (a n : U32) : Img (createRegion a n) := by
  intro s
  rcases createRegion_cases a n s with ⟨k, e⟩ | e
  · have : Step (.createRegion a n) s _ := .inr ⟨_, e⟩
    rw [e]; exact ⟨.step (c := .createRegion a n) trivial this, by simp [elfCodes]⟩
  · have : Step (.createRegion a n) s _ := .inl ⟨_, e⟩
    rw [e]; exact .step (c := .createRegion a n) trivial this

theorem img_load (a n : U32) (d : List U8) : Img (loadFromFlashImage a d n) := by
  intro s
  cases e : loadFromFlashImage a d n s with
  | ok u s' =>
    have : Step (.load a d n) s s' := .inl ⟨_, e⟩
    exact .step (c := .load a d n) trivial this
  | throw x s' =>
    have : Step (.load a d n) s s' := .inr ⟨_, e⟩
    refine ⟨.step (c := .load a d n) trivial this, ?_⟩
    unfold loadFromFlashImage at e
    rw [loadWords_exn e]; simp [elfCodes]
  | ub r => trivial

theorem img_mark (a : U32) : Img (makeRegionReadOnly a) := by
  intro s
  rcases makeRegionReadOnly_cases a s with e | ⟨u, e⟩ | ⟨i, a', r, -, hr, ⟨-, e⟩ | ⟨-, e⟩⟩
  · rw [e]; exact ⟨.refl s, by simp [elfCodes]⟩
  · rw [e]; trivial
  · have : Step (.makeReadOnly a) s _ := .inr ⟨_, e⟩
    rw [e]; exact ⟨.step (c := .makeReadOnly a) trivial this, by simp [elfCodes]⟩
  · have : Step (.makeReadOnly a) s _ := .inl ⟨_, e⟩
    rw [e]; exact .step (c := .makeReadOnly a) trivial this

theorem img_validate (hdr : List U8) : Img (validateElfHeaderContents hdr) := by
  unfold validateElfHeaderContents
  repeat' first
    | exact Img.throw (by simp [elfCodes])
    | exact Img.pure _
    | exact img_field _ _ _
    | exact img_bytes _ _
    | refine Img.bind ?_ fun _ => ?_
    | refine Img.ite ?_ ?_

theorem img_loadable (ph : List U8) : Img (isFlashLoadableEntry ph) := by
  unfold isFlashLoadableEntry
  repeat' first
    | exact Img.pure _
    | exact img_field _ _ _
    | refine Img.bind ?_ fun _ => ?_
    | refine Img.ite ?_ ?_

theorem img_entry (b : List U8) (n : Nat) (ph : List U8) (c : U32) : Img (loadIfFlashLoadableEntry b n ph c) := by
  unfold loadIfFlashLoadableEntry
  repeat' first
    | exact Img.pure _
    | exact img_field _ _ _
    | exact img_loadable _
    | exact img_create _ _
    | exact img_load _ _ _
    | exact img_mark _
    | exact Img.rename (img_fetch _ _ _ _)
    | refine Img.bind ?_ fun _ => ?_
    | refine Img.ite ?_ ?_

theorem img_entries (b : List U8) (z e n i : Nat) (o c : U32) : Img (loadEntries b z e n i o c) := by
  induction n generalizing i o c with
  | zero => exact Img.pure _
  | succ n ih =>
    unfold loadEntries
    exact Img.bind (Img.rename (img_fetch _ _ _ _)) fun _ => Img.bind (img_entry _ _ _ _) fun _ => ih _ _ _

/-- Any blob. -/
theorem img_from (b : List U8) (n : Nat) : Img (fromMemory b n) := by
  unfold fromMemory initLoadObject loadFlashLoadableEntries
  repeat' first
    | exact Img.throw (by simp [elfCodes])
    | exact Img.pure _
    | exact img_field _ _ _
    | exact img_validate _
    | exact img_entries _ _ _ _ _ _ _
    | exact Img.rename (img_fetch _ _ _ _)
    | refine Img.bind ?_ fun _ => ?_
    | refine Img.ite ?_ ?_

/-! ### What such calls keep -/

theorem loadN_sound {a : U32} {bs : List U8} (hn : bs.length ≠ 2) {s : Sim} (hs : Sound s) : Post (loadN a bs s) Sound := by
  have := loadN_fine (g := false) (a := a) (bs := bs) ⟨hs, by simp⟩ hn
  cases e : loadN a bs s with
  | ok u s' => rw [e] at this; exact this.sound
  | throw x s' => rw [e] at this; exact this.sound
  | ub r => trivial

theorem loadBytes_sound {n : Nat} {a : U32} {src : List U8} {s : Sim} (hs : Sound s) : Post (loadBytes n a src s) Sound := by
  induction n generalizing a src s with
  | zero => cases src <;> exact hs
  | succ n ih =>
    cases src with
    | nil => trivial
    | cons b src => exact Post.bind (loadN_sound (by simp) hs) fun _ s' _ h => ih h

theorem loadWords_sound {src : List U8} {n : Nat} {a : U32} {s : Sim} (hs : Sound s) : Post (loadWords src n a s) Sound := by
  fun_induction loadWords src n a generalizing s with
  | case1 b0 b1 b2 b3 rest n a h ih => exact Post.bind (loadN_sound (by simp) hs) fun _ s' _ h => ih h
  | case2 => exact loadBytes_sound hs
  | case3 => trivial
  | case4 => exact loadBytes_sound hs

theorem imgStep_sound {c : Call} {s s' : Sim} (hc : loadsImage c) (hs : Sound s) (h : Step c s s') : Sound s' := by
  cases c with
  | createRegion b n => exact step_sound (c := .createRegion b n) hs trivial h
  | makeReadOnly b => exact step_sound (c := .makeReadOnly b) hs trivial h
  | load b d n => exact Post.step h (loadWords_sound hs)
  | _ => exact hc.elim

theorem imgStep_unwatched {c : Call} {s s' : Sim} (hc : loadsImage c) (hs : Unwatched s) (h : Step c s s') : Unwatched s' := by
  cases c with
  | createRegion b n =>
    refine Post.step h ?_
    rcases createRegion_cases b n s with ⟨k, e⟩ | e <;> simp only [Call.run, e]
    · exact hs
    · refine ⟨?_, hs.2⟩
      intro r hr
      rcases List.mem_append.1 hr with hr | hr
      · exact hs.1 r hr
      · simp at hr; rw [hr]; rfl
  | makeReadOnly b =>
    refine Post.step h ?_
    have key : ∀ i r c, s.regions[i]? = some r → ∀ q ∈ s.regions.set i { r with isReadOnly := true, readCounts := c }, q.watch = [] := by
      intro i r c hr q hq
      rcases List.mem_or_eq_of_mem_set hq with hq | rfl
      · exact hs.1 q hq
      · exact hs.1 r (List.mem_of_getElem? hr)
    rcases makeRegionReadOnly_cases b s with e | ⟨u, e⟩ | ⟨i, a', r, -, hr, ⟨-, e⟩ | ⟨-, e⟩⟩ <;> simp only [Call.run, e]
    · exact hs
    · trivial
    · exact ⟨key i r r.readCounts hr, hs.2⟩
    · exact ⟨key i r _ hr, hs.2⟩
  | load b d n =>
    refine Post.step h (loadWords_data.mono ?_)
    intro s' hd
    refine ⟨?_, by rw [hd.hits]; exact hs.2⟩
    intro r hr
    have hm := forall₂_map (f := Region.watch) (by rintro x y ⟨d, rfl⟩; rfl) hd.regions
    have : r.watch ∈ s'.regions.map Region.watch := List.mem_map_of_mem hr
    rw [hm] at this
    obtain ⟨q, hq, e⟩ := List.mem_map.1 this
    rw [← e]; exact hs.1 q hq
  | _ => exact hc.elim

theorem ImgHist.sound {s s' : Sim} (h : ImgHist s s') (hs : Sound s) : Sound s' := by
  obtain ⟨cs, hc, h⟩ := h
  induction h with
  | nil => exact hs
  | cons h1 _ ih => exact ih (imgStep_sound (hc _ List.mem_cons_self) hs h1) (fun c hm => hc c (List.mem_cons_of_mem _ hm))

theorem ImgHist.unwatched {s s' : Sim} (h : ImgHist s s') (hs : Unwatched s) : Unwatched s' := by
  obtain ⟨cs, hc, h⟩ := h
  induction h with
  | nil => exact hs
  | cons h1 _ ih => exact ih (imgStep_unwatched (hc _ List.mem_cons_self) hs h1) (fun c hm => hc c (List.mem_cons_of_mem _ hm))

/-! ### Memory owed -/

/-- A region added by loading one segment at an address where there is nothing yet. -/
theorem segment_owed {a n : U32} {d : List U8} {s : Sim} (hn : ∀ r ∈ s.regions, ¬ Covers r a 1) :
    Post (loadSegment a n d s) (fun s' => owed s' = owed s) := by
  unfold loadSegment
  refine Post.bind (createRegion_owed _ _ s) ?_
  intro _ s1 h1 o1
  have hs1 : s1.regions = s.regions ++ [newRegion a n] := by
    rcases createRegion_cases a n s with ⟨k, h⟩ | h <;> rw [h] at h1 <;> cases h1
    rfl
  unfold loadFromFlashImage
  have hq := loadWords_post (src := d) (n := n.toNat) (a := a) (s := s1)
  refine Post.bind (hq.mono fun _ h => h.owed.trans o1) ?_
  intro _ s2 h2 o2
  rw [h2] at hq
  refine (makeReadOnly_owed ?_).mono fun _ h => h.trans o2
  intro i r hi hr
  obtain ⟨r1, e1, e2⟩ := forall₂_get (forall₂_flip hq.regions) hr
  have : r1.readCounts = none := by
    rcases reaches_append hs1 rfl (hq.reaches hi) with ⟨k, q, hf, -⟩ | rfl
    · exact absurd hf.2.1 (hn q (List.mem_of_getElem? hf.1))
    · rw [hs1] at e1
      simp at e1
      rw [← e1]; rfl
  have := e2.counts
  simp_all

/-- The header's segment does not contain the address. -/
def Apart (k : U32 × Nat × Bool) (g : ProgHeader) : Prop := ¬ (k.1.toNat ≤ g.paddr ∧ g.paddr < k.1.toNat + k.2.1)

theorem entries_owed {b : Str} {n i : Nat} {c : U32} {s : Sim}
    (hk : ∀ k ∈ keys s, ∀ g ∈ (headersFrom b i n).filter ProgHeader.loadable, Apart k g)
    (hp : ((headersFrom b i n).filter ProgHeader.loadable).Pairwise fun h g => Apart (addsOf h) g) :
    Post (loadEntries b b.length (phentsize b) n i (BitVec.ofNat 32 (entryAt b i)) c s)
      (fun s' => owed s' = owed s) := by
  induction n generalizing i c s with
  | zero => exact rfl
  | succ n ih =>
    rw [loadEntries_any, offset_toNat, offset_add]
    split
    · rw [headersFrom_succ] at hk hp
      rcases entry_any b (entryAt b i) c s with hub | ⟨hl, hent⟩ | ⟨hl, hent⟩
      · rw [M.bind_ub hub]; trivial
      · rw [List.filter_cons_of_neg (by simp [hl])] at hk hp
        rw [M.bind_apply, hent]
        exact ih hk hp
      · rw [List.filter_cons_of_pos hl] at hk hp
        generalize hh : progHeaderAt b (entryAt b i) = h at hl hk hp hent
        have hlt := progHeader_lt b (entryAt b i)
        rw [hh] at hlt
        unfold fetchSizedByteArray at hent
        by_cases hfi : (BitVec.ofNat 32 h.offset).toNat > b.length ∨ (BitVec.ofNat 32 h.offset + BitVec.ofNat 32 h.filesz).toNat > b.length
        · rw [if_pos hfi] at hent
          simp only [M.throw_apply] at hent
          rw [M.bind_throw hent]
          exact rfl
        · rw [if_neg hfi] at hent
          simp only [M.pure_apply] at hent
          have hsg := segment_keys (BitVec.ofNat 32 h.paddr) (BitVec.ofNat 32 h.filesz) (b.drop (BitVec.ofNat 32 h.offset).toNat) s
          have hso : Post (loadSegment (BitVec.ofNat 32 h.paddr) (BitVec.ofNat 32 h.filesz) (b.drop (BitVec.ofNat 32 h.offset).toNat) s)
              (fun s' => owed s' = owed s) := by
            refine segment_owed ?_
            intro r hr hc
            have := hk (key r) (List.mem_map_of_mem hr) h List.mem_cons_self
            obtain ⟨c1, c2⟩ := hc
            rw [ofNat_toNat hlt.2.2] at c1 c2
            exact this ⟨c1, by simp only [key]; omega⟩
          have hadd : (BitVec.ofNat 32 h.paddr, (BitVec.ofNat 32 h.filesz).toNat, false) = addsOf h := by
            rw [ofNat_toNat hlt.2.1]; rfl
          rw [hadd] at hsg
          have hent2 : Post (loadIfFlashLoadableEntry b b.length (b.drop (entryAt b i)) c s) (fun s' => owed s' = owed s) := by
            rw [hent]
            exact Post.bind hso fun _ s1 _ h1 => h1
          refine Post.bind hent2 ?_
          intro c' s1 e1 o1
          have hk1 : keys s1 = keys s ++ [addsOf h] := by
            rw [hent, M.bind_apply] at e1
            cases e : loadSegment (BitVec.ofNat 32 h.paddr) (BitVec.ofNat 32 h.filesz) (b.drop (BitVec.ofNat 32 h.offset).toNat) s with
            | ok u s2 => rw [e] at e1 hsg; cases e1; exact hsg
            | throw x s2 => rw [e] at e1; cases e1
            | ub r => rw [e] at e1; cases e1
          refine (ih ?_ (List.Pairwise.of_cons hp)).mono fun _ h => h.trans o1
          intro k hkm g hg
          rw [hk1] at hkm
          rcases List.mem_append.1 hkm with hkm | hkm
          · exact hk k hkm g (List.mem_cons_of_mem _ hg)
          · simp at hkm
            rw [hkm]
            exact List.rel_of_pairwise_cons hp hg
    · exact rfl

/-- Loading a file whose segments do not start inside each other into an empty simulator. -/
theorem from_owed {b : Str} {s : Sim} (hr : s.regions = [])
    (hp : ((progHeaders b).filter ProgHeader.loadable).Pairwise fun h g => ¬ (h.paddr ≤ g.paddr ∧ g.paddr < h.paddr + h.filesz)) :
    Post (fromMemory b b.length s) (fun s' => owed s' = owed s) := by
  rw [fromMemory_eq]
  cases headerComplaint b with
  | some m => exact rfl
  | none =>
    have h := entries_owed (b := b) (n := phnum b) (i := 0) (c := 0) (s := s)
      (by simp [keys, hr]) ?_
    · rw [entryAt_zero] at h
      refine Post.bind h ?_
      intro c s' _ o
      unfold finish
      split <;> exact o
    · rw [headersFrom_all]
      refine hp.imp_of_mem ?_
      intro h g hm _ hn
      have : h.paddr < 2 ^ 32 := by
        have := (List.mem_filter.1 hm).1
        obtain ⟨i, -, rfl⟩ := List.mem_map.1 this
        exact (progHeader_lt b _).2.2
      simp only [Apart, addsOf, ofNat_toNat this]
      exact hn

end Verif.Elf
