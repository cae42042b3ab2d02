import Verif.Lemmas.PlatSafe
import Verif.Lemmas.RegsKept
import Verif.Lemmas.CmdFail
import Verif.Lemmas.AliasOrder
/- The state in which start-up leaves the program, and what a session keeps of it. -/
namespace Verif.MemSim
open Verif Spec

/-- Everything about the regions except their contents, counters and watchpoints. -/
def skeleton (s : Sim) : List ((U32 × U32 × Bool × Option Nat × U32) × Bool) := s.regions.map fun r => (shape r, r.isReadOnly)

theorem skeleton_entries {s s' : Sim} (h : skeleton s' = skeleton s) : entries s' = entries s := by
  have key : ∀ t : Sim, entries t = (skeleton t).map fun x => ⟨x.2, x.1.1, x.1.2.1⟩ := by
    intro t
    simp [entries, skeleton, shape]
  rw [key, key, h]

theorem skeleton_insync {s s' : Sim} (h : skeleton s' = skeleton s) (hs : InSync s) : InSync s' := by
  have key : ∀ {t t' : Sim} {i : Nat} {r : Region}, skeleton t' = skeleton t → t'.regions[i]? = some r →
      ∃ r', t.regions[i]? = some r' ∧ shape r' = shape r ∧ r'.isReadOnly = r.isReadOnly := by
    intro t t' i r h hr
    have h1 : (skeleton t')[i]? = some (shape r, r.isReadOnly) := by simp [skeleton, hr]
    rw [h] at h1
    unfold skeleton at h1
    rw [List.getElem?_map] at h1
    cases e : t.regions[i]? with
    | none => rw [e] at h1; cases h1
    | some r' =>
      rw [e] at h1
      have := Option.some.inj h1
      exact ⟨r', rfl, congrArg Prod.fst this, congrArg Prod.snd this⟩
  intro q hq ha i t hi ht
  obtain ⟨k, hk⟩ := List.getElem?_of_mem hq
  obtain ⟨q', e1, e2, e3⟩ := key h hk
  obtain ⟨t', f1, f2, f3⟩ := key h ht
  obtain ⟨-, -, g3, g4, -⟩ := shape_eq e2
  rw [← e3, ← f3]
  exact hs q' (List.mem_of_getElem? e1) (g3.trans ha) i t' (g4.trans hi) f1

theorem skeleton_contents {s s' : Sim} (h : contents s' = contents s) : skeleton s' = skeleton s := by
  have key : ∀ t : Sim, skeleton t = (contents t).map fun r => (shape r, r.isReadOnly) := by
    intro t
    simp [contents, skeleton, shape]
  rw [key, key, h]

theorem write_skeleton {s : Sim} (hs : Sound s) {w : Width} {a : U32} {v : BitVec w.bits} :
    Post (IMemory.write w a v s) fun s' => skeleton s' = skeleton s := by
  by_cases hm : Mapped s a w.bytes
  · obtain ⟨i, r, off, ht⟩ := target_of_mapped hs hm
    have hi := ht.info hs
    have e : IMemory.write w a v s = _ := write_eq.trans (writeN_eq hs ht)
    rw [e]
    split
    · exact rfl
    · split
      · trivial
      · exact MemSim.map_set_same hi.get rfl
  · rw [write_eq, writeN_unmapped hm]
    exact rfl

theorem noAlias_of_shape {s s' : Sim} (h : NoAlias s) (hs : s'.regions.map shape = s.regions.map shape) : NoAlias s' := by
  intro q hq
  have : shape q ∈ s.regions.map shape := hs ▸ List.mem_map_of_mem hq
  obtain ⟨r, hr, he⟩ := List.mem_map.1 this
  rw [← (shape_eq he).2.2.1]
  exact h r hr

theorem noAlias_data {s s' : Sim} (h : NoAlias s) (hd : DataOnly s s') : NoAlias s' := by
  have : ∀ {xs ys : List Region}, List.Forall₂ (fun r r' => ∃ d, r' = { r with data := d }) xs ys → ys.map shape = xs.map shape := by
    intro xs ys h
    induction h with
    | nil => rfl
    | cons h _ ih => obtain ⟨d, rfl⟩ := h; simp [ih, shape]
  exact noAlias_of_shape h (this hd.regions)

/-- The calls that make up the loading of image and dump. -/
theorem load_noAlias {c : Call} {s s' : Sim} (hc : loadsImage c ∨ createsOrWrites c) (hs : Sound s) (h : NoAlias s) (hst : Step c s s') :
    NoAlias s' := by
  refine Post.step hst ?_
  cases c with
  | createRegion b n =>
    rcases createRegion_cases b n s with ⟨k, e⟩ | e <;> simp only [Call.run, e]
    · exact h
    · intro q hq
      rcases List.mem_append.1 hq with hq | hq
      · exact h q hq
      · simp at hq; rw [hq]; rfl
  | makeReadOnly b =>
    have hset : ∀ (s' : Sim) (i : Nat) (r r' : Region), s.regions[i]? = some r → r'.isAlias = r.isAlias →
        s'.regions = s.regions.set i r' → NoAlias s' := by
      intro s' i r r' hr ha hs q hq
      rw [hs] at hq
      rcases List.mem_or_eq_of_mem_set hq with hq | rfl
      · exact h q hq
      · rw [ha]; exact h r (List.mem_of_getElem? hr)
    simp only [Call.run]
    rcases makeRegionReadOnly_cases b s with e | ⟨u, e⟩ | ⟨j, a', q, -, hq, ⟨-, e⟩ | ⟨-, e⟩⟩ <;> rw [e]
    · exact h
    · trivial
    · exact hset _ j q { q with isReadOnly := true } hq rfl rfl
    · exact hset _ j q { q with isReadOnly := true, readCounts := some _ } hq rfl rfl
  | load b img n => exact loadWords_data.mono fun _ hd => noAlias_data h hd
  | write w a v => exact (GdbLog.write_shape hs).mono fun _ hd => noAlias_of_shape h hd
  | _ => rcases hc with hc | hc <;> exact hc.elim

end Verif.MemSim

namespace Verif.CommandLine
open Verif MemSim Spec

theorem img_noAlias {s s' : Sim} (h : Elf.ImgHist s s') (hs : Sound s) (hn : NoAlias s) : NoAlias s' := by
  obtain ⟨cs, hc, h⟩ := h
  induction h with
  | nil => exact hn
  | cons h1 _ ih =>
    exact ih (Elf.imgStep_sound (hc _ List.mem_cons_self) hs h1) (load_noAlias (.inl (hc _ List.mem_cons_self)) hs hn h1)
      (fun c hm => hc c (List.mem_cons_of_mem _ hm))

theorem byCalls_noAlias {s s' : Sim} (h : ByCalls createsOrWrites s s') (hs : Sound s) (hn : NoAlias s) : NoAlias s' := by
  obtain ⟨cs, hc, h⟩ := h
  induction h with
  | nil => exact hn
  | cons h0 h1 _ ih =>
    exact ih (step_sound hs h0 h1) (load_noAlias (.inr (hc _ List.mem_cons_self)) hs hn h1) (fun c hm => hc c (List.mem_cons_of_mem _ hm))

/-- Every alias stems from one of the options. -/
def Stem (done : List (U32 × U32 × U32)) (s : Sim) : Prop :=
  ∀ r ∈ s.regions, r.isAlias = true → ∃ x ∈ done, r.baseAddress = x.1 ∧ r.size.toNat ≤ x.2.1.toNat

/-- Creating the aliases, after the blocks `L`, into which all of them lead. -/
theorem aliases_sound {L : List Region} (hL : ∀ r ∈ L, r.isAlias = false) {todo : List (U32 × U32 × U32)} : ∀ {A : List Region} {s s' : Sim},
    Sound s → Unwatched s → InSync s → s.regions = L ++ A → (∀ x ∈ todo, ∃ r ∈ L, Covers r x.2.2 1) →
    createAliases todo s = .ok () s' → Sound s' ∧ Unwatched s' ∧ InSync s' := by
  induction todo with
  | nil =>
    intro A s s' hs hu hi _ _ h
    cases h
    exact ⟨hs, hu, hi⟩
  | cons x xs ih =>
    intro A s s' hs hu hi hr hld h
    change ((M.tryCatch (createAlias x.1 x.2.2 x.2.1) _ : M Sim Unit) >>= fun _ => createAliases xs) s = _ at h
    rw [M.bind_apply, M.tryCatch_apply] at h
    have hcare : ∀ k q, FirstCover s.regions x.2.2 1 k q → q.isAlias = false := by
      intro k q hf
      obtain ⟨r, hrL, hcov⟩ := hld x List.mem_cons_self
      obtain ⟨j, hj⟩ := List.mem_iff_getElem?.1 hrL
      have hjl := (List.getElem?_eq_some_iff.1 hj).1
      rw [hr] at hf
      have hkj : k ≤ j := by
        apply Nat.le_of_not_lt
        intro hlt
        exact hf.2.2 j hlt r (by rw [List.getElem?_append_left hjl]; exact hj) hcov
      have := hf.1
      rw [List.getElem?_append_left (by omega)] at this
      exact hL q (List.mem_of_getElem? this)
    rcases createAlias_cases x.1 x.2.2 x.2.1 s with ⟨k, e⟩ | ⟨k, e, -⟩ | ⟨j, a', t, h1, h2, e⟩ | ⟨u, e, -⟩
    · rw [e] at h; cases h
    · rw [e] at h; cases h
    · rw [e] at h
      have hstep : Step (.createAlias x.1 x.2.2 x.2.1) s { bumpHeap s 2 2 with regions := s.regions ++ [newAlias x.1 x.2.2 x.2.1 j t] } := .inl ⟨(), e⟩
      refine ih (A := A ++ [newAlias x.1 x.2.2 x.2.1 j t]) ?_ ?_ ?_ ?_ (fun y hy => hld y (List.mem_cons_of_mem _ hy)) h
      · exact step_sound (c := .createAlias x.1 x.2.2 x.2.1) hs hcare hstep
      · refine ⟨?_, hu.2⟩
        intro q hq
        rcases List.mem_append.1 hq with hq | hq
        · exact hu.1 q hq
        · simp at hq; rw [hq]; rfl
      · exact call_insync (c := .createAlias x.1 x.2.2 x.2.1) hs hi trivial hstep
      · simp [hr]
    · rw [e] at h; cases h

/-- Creating the aliases adds just these to the memory. -/
theorem aliases_regions {todo : List (U32 × U32 × U32)} : ∀ {s s' : Sim}, createAliases todo s = .ok () s' →
    ∃ A, s'.regions = s.regions ++ A ∧ (∀ r ∈ A, r.isAlias = true) ∧ ∀ x ∈ todo, ∃ r ∈ A, r.baseAddress = x.1 ∧ r.redirectAddress = x.2.2 := by
  induction todo with
  | nil => intro s s' h; cases h; exact ⟨[], by simp⟩
  | cons x xs ih =>
    intro s s' h
    change ((M.tryCatch (createAlias x.1 x.2.2 x.2.1) _ : M Sim Unit) >>= fun _ => createAliases xs) s = _ at h
    rw [M.bind_apply, M.tryCatch_apply] at h
    rcases createAlias_cases x.1 x.2.2 x.2.1 s with ⟨k, e⟩ | ⟨k, e, -⟩ | ⟨j, a', t, h1, h2, e⟩ | ⟨u, e, -⟩
    · rw [e] at h; cases h
    · rw [e] at h; cases h
    · rw [e] at h
      obtain ⟨A, k1, k2, k3⟩ := ih h
      refine ⟨newAlias x.1 x.2.2 x.2.1 j t :: A, by rw [k1]; simp, ?_, ?_⟩
      · intro r hr
        rcases List.mem_cons.1 hr with rfl | hr
        · rfl
        · exact k2 r hr
      · intro y hy
        rcases List.mem_cons.1 hy with rfl | hy
        · exact ⟨_, List.mem_cons_self, rfl, rfl⟩
        · obtain ⟨r, hr, h⟩ := k3 y hy
          exact ⟨r, List.mem_cons_of_mem _ hr, h⟩
    · rw [e] at h; cases h

/-- If no alias leads into the range of one given before it, all lead into the blocks `L` that were there before. -/
theorem noChain_lead {L : List Region} {todo : List (U32 × U32 × U32)} : ∀ {done : List (U32 × U32 × U32)} {A : List Region} {s s' : Sim},
    s.regions = L ++ A → (∀ r ∈ A, r.isAlias = true) → Stem done s → NoAliasChain (done ++ todo) →
    createAliases todo s = .ok () s' → ∀ x ∈ todo, ∃ r ∈ L, Covers r x.2.2 1 := by
  induction todo with
  | nil => intro done A s s' _ _ _ _ _ x hx; cases hx
  | cons x xs ih =>
    intro done A s s' hr hA hst hch h
    change ((M.tryCatch (createAlias x.1 x.2.2 x.2.1) _ : M Sim Unit) >>= fun _ => createAliases xs) s = _ at h
    rw [M.bind_apply, M.tryCatch_apply] at h
    rcases createAlias_cases x.1 x.2.2 x.2.1 s with ⟨k, e⟩ | ⟨k, e, -⟩ | ⟨j, a', t, h1, h2, e⟩ | ⟨u, e, -⟩
    · rw [e] at h; cases h
    · rw [e] at h; cases h
    · rw [e] at h
      have hx : ∃ r ∈ L, Covers r x.2.2 1 := by
        have hm : ∃ k q, FirstCover s.regions x.2.2 1 k q := by
          unfold findMatchingRegion at h1
          cases hf : findFrom 0 s.regions x.2.2 1 with
          | none => rw [hf] at h1; cases h1
          | some kq => exact ⟨kq.1, kq.2, findFrom_zero.1 hf⟩
        obtain ⟨k, q, hf⟩ := hm
        have hq := List.mem_of_getElem? hf.1
        rw [hr] at hq
        rcases List.mem_append.1 hq with hq | hq
        · exact ⟨q, hq, hf.2.1⟩
        · exfalso
          obtain ⟨y, hy, g1, g2⟩ := hst q (List.mem_of_getElem? hf.1) (hA q hq)
          have hcov : Covers q x.2.2 1 := hf.2.1
          have := List.pairwise_append.1 hch |>.2.2 y hy x (by simp)
          apply this
          unfold Covers at hcov
          rw [g1] at hcov
          omega
      intro y hy
      rcases List.mem_cons.1 hy with rfl | hy
      · exact hx
      · refine ih (done := done ++ [x]) (A := A ++ [newAlias x.1 x.2.2 x.2.1 j t]) (by simp [hr]) ?_ ?_ (by simpa using hch) h y hy
        · intro r hr
          rcases List.mem_append.1 hr with hr | hr
          · exact hA r hr
          · simp at hr; rw [hr]; rfl
        · intro q hq ha
          rcases List.mem_append.1 hq with hq | hq
          · obtain ⟨y, hy, h⟩ := hst q hq ha
            exact ⟨y, by simp [hy], h⟩
          · simp at hq
            refine ⟨x, by simp, by rw [hq]; rfl, ?_⟩
            rw [hq]
            simp only [newAlias]
            split <;> omega
    · rw [e] at h; cases h

theorem parse_regs {h h' : Host} {name : Str} (hs : Sound h.mem) (hu : Unwatched h.mem) (hc : RegsWF h.ctx)
    (he : GdbLog.parse name h = .ok () h') : RegsWF h'.ctx := by
  cases hf : h.files.opens h.files.next name with
  | none => rw [GdbLog.parse_missing hf] at he; cases he
  | some f =>
    have key := GdbLog.both_safe (h := Dump.opened h) (fails := f.seekSetFails) hs hu (GdbLog.results_valid (bytes := f.bytes))
    have e0 : GdbLog.parse name h = GdbLog.both _ _ (Dump.opened h) := GdbLog.parse_eq hf
    rw [← e0, he] at key
    have key : _ ∧ _ ∧ h'.ctx = (GdbLog.results f.bytes).foldl GdbLog.ctxOf (GdbLog.startCtx h.ctx) := key
    rw [key.2.2]
    exact (GdbLog.ctx_kept GdbLog.results_valid (GdbLog.startCtx_wf hc)).1

/-- The reader of the dump leaves complete registers. -/
theorem reader_regs {h h' : Host} {name : Str} {bytes : Str} (hs : Sound h.mem) (hu : Unwatched h.mem) (hc : RegsWF h.ctx)
    (he : readerFor bytes name h = .ok () h') : RegsWF h'.ctx := by
  unfold readerFor at he
  by_cases h1 : [0x63, 0x43] <+: bytes
  · rw [if_pos h1] at he; exact Dump.file_wf hc (.inl ⟨_, he⟩)
  · rw [if_neg h1] at he
    by_cases h2 : asc "6343" <+: bytes
    · rw [if_pos h2] at he; exact Dump.file_wf hc (.inl ⟨_, he⟩)
    · rw [if_neg h2] at he; exact parse_regs hs hu hc he

/-- The last stage of a successful start-up. -/
theorem started_stage {args : List Str} {os : List Opt} {p q : Prog} (h : Spelled args os) (hq : startUp args p = .ok () q) :
    ∃ m, Sound m ∧ Unwatched m ∧ NoAlias m ∧ createAliases (aliases os) m = .ok () q.host.mem ∧ RegsWF q.host.ctx := by
  obtain ⟨os', n, d, f0, s1, s2, g1, g2, g3, g4, g5, g6, -⟩ := startUp_ok hq
  cases spelled_unique h g1
  have hin : imageName (withMemory (chosen os p)) = some n := (chosen_image os p).trans g2
  have him : loadImageFile (withMemory (chosen os p)) = .ok () (atMem (withMemory (chosen os p)) (bumpHeap s1 0 (-1))) := by
    rcases loadImageFile_cases (p := withMemory (chosen os p)) rfl (imageName_split hin) with ⟨e, k, h1, h2, h3⟩ | ⟨f, h1, h2, h3⟩
    · exfalso
      rw [startUp_full h g2 g3] at hq
      unfold memStages at hq
      rw [M.bind_throw h1] at hq
      cases hq
    · have : f = f0 := Option.some.inj (h1.symm.trans g4)
      subst this
      have he : imageWork (withMemory (chosen os p)) f (bumpHeap (withMemory (chosen os p)).host.mem 1 1) = .ok () s1 := g6
      rw [h3, he]
  have hsp := startUp_image_ok h g2 g3 him
  have hw := image_img (withMemory (chosen os p)) f0 (bumpHeap (withMemory (chosen os p)).host.mem 1 1)
  have he : imageWork (withMemory (chosen os p)) f0 (bumpHeap (withMemory (chosen os p)).host.mem 1 1) = .ok () s1 := g6
  rw [he] at hw
  have hw : Elf.ImgHist (bumpHeap (withMemory (chosen os p)).host.mem 1 1) s1 := hw
  have hs1 : Sound s1 := hw.sound (by intro r hr; cases hr)
  have hu1 : Unwatched s1 := hw.unwatched ⟨(by intro r hr; cases hr), (by simp [withMemory, bumpHeap, MemSim.init])⟩
  have hn1 : NoAlias s1 := img_noAlias hw (by intro r hr; cases hr) (by intro r hr; cases hr)
  cases ho : p.host.files.opens (p.host.files.next + 1) d with
  | none => rw [ho] at hsp; obtain ⟨q', hsp⟩ := hsp; rw [hq] at hsp; cases hsp
  | some f =>
    rw [ho] at hsp
    simp only at hsp
    have hrd := reader_sat (h := peeked (atMem (withMemory (chosen os p)) (bumpHeap s1 0 (-1))).host) (name := d) hs1 hu1
      ([0x63, 0x43] <+: f.bytes) (asc "6343" <+: f.bytes)
    rw [readerFor_eq] at hrd
    cases e3 : readerFor f.bytes d (peeked (atMem (withMemory (chosen os p)) (bumpHeap s1 0 (-1))).host) with
    | ub r => rw [e3] at hsp; rw [hq] at hsp; cases hsp
    | throw x h' => rw [e3] at hsp; obtain ⟨q', hsp⟩ := hsp; rw [hq] at hsp; cases hsp
    | ok u h2 =>
      rw [e3] at hsp hrd
      have hn2 : NoAlias h2.mem := byCalls_noAlias hrd.1.2.2 hs1 hn1
      simp only at hsp
      cases e4 : createAliases (aliases os) h2.mem with
      | ub r => rw [e4] at hsp; rw [hq] at hsp; cases hsp
      | throw x s => rw [e4] at hsp; obtain ⟨q', hsp⟩ := hsp; rw [hq] at hsp; cases hsp
      | ok u s2 =>
        rw [e4] at hsp
        obtain ⟨q', h1, h2'⟩ := hsp
        rw [hq] at h1
        cases h1
        rw [h2']
        have hr : RegsWF h2.ctx := reader_regs (h' := h2) hs1 hu1 ⟨rfl, rfl⟩ e3
        exact ⟨h2.mem, hrd.1.1, hrd.1.2.1, hn2, e4, hr⟩

/-- After a successful start-up. -/
theorem started {args : List Str} {os : List Opt} {p q : Prog} (h : Spelled args os) (hq : startUp args p = .ok () q)
    (ha : AliasesLoaded (aliases os) q.host.mem) : Sound q.host.mem ∧ Unwatched q.host.mem ∧ InSync q.host.mem ∧ RegsWF q.host.ctx := by
  obtain ⟨m, h1, h2, h3, h4, h5⟩ := started_stage h hq
  obtain ⟨A, g1, g2, -⟩ := aliases_regions h4
  obtain ⟨k1, k2, k3⟩ := aliases_sound (L := m.regions) h3 (A := []) h1 h2 h3.insync (by simp) (fun x hx => by
    obtain ⟨r, hr, hn, hc⟩ := ha x hx
    rw [g1] at hr
    rcases List.mem_append.1 hr with hr | hr
    · exact ⟨r, hr, hc⟩
    · rw [g2 r hr] at hn; cases hn) h4
  exact ⟨k1, k2, k3, h5⟩

/-- If no alias leads into the range of one given before it, all lead into loaded memory. -/
theorem noChain_loaded {args : List Str} {os : List Opt} {p q : Prog} (h : Spelled args os) (hq : startUp args p = .ok () q)
    (ha : NoAliasChain (aliases os)) : AliasesLoaded (aliases os) q.host.mem := by
  obtain ⟨m, h1, h2, h3, h4, -⟩ := started_stage h hq
  obtain ⟨A, g1, g2, -⟩ := aliases_regions h4
  have := noChain_lead (L := m.regions) (done := []) (A := []) (by simp) (by simp) (by intro r hr ha; rw [h3 r hr] at ha; cases ha) ha h4
  intro x hx
  obtain ⟨r, hr, hc⟩ := this x hx
  exact ⟨r, by rw [g1]; exact List.mem_append_left _ hr, h3 r hr, hc⟩

theorem aliases_resolved {todo : List (U32 × U32 × U32)} : ∀ {s s' : Sim}, ResolvedS s → createAliases todo s = .ok () s' → ResolvedS s' := by
  induction todo with
  | nil => intro s s' hr h; cases h; exact hr
  | cons x xs ih =>
    intro s s' hr h
    change ((M.tryCatch (createAlias x.1 x.2.2 x.2.1) _ : M Sim Unit) >>= fun _ => createAliases xs) s = _ at h
    rw [M.bind_apply, M.tryCatch_apply] at h
    cases e : createAlias x.1 x.2.2 x.2.1 s with
    | ok u t =>
      rw [e] at h
      exact ih (call_resolved (c := .createAlias x.1 x.2.2 x.2.1) hr (.inl ⟨u, e⟩)) h
    | throw y t => rw [e] at h; cases h
    | ub r => rw [e] at h; cases h

/-- After any successful start-up, aliases lead to ordinary memory. -/
theorem started_resolved {args : List Str} {os : List Opt} {p q : Prog} (h : Spelled args os) (hq : startUp args p = .ok () q) :
    ResolvedS q.host.mem := by
  obtain ⟨m, h1, h2, h3, h4, -⟩ := started_stage h hq
  refine aliases_resolved ?_ h4
  intro k r hk
  have hr := h3 r (List.mem_of_getElem? hk)
  have := h1 r (List.mem_of_getElem? hk)
  rw [if_neg (by rw [hr]; decide)] at this ⊢
  exact this.1

end Verif.CommandLine

namespace Verif.Platform
open Verif MemSim Spec

theorem step_skeleton {c : PCall} {p q : Plat} (hp : OK p) (h : PStep c p q) : skeleton q.mem = skeleton p.mem := by
  by_cases hc : c.changesState = false
  · exact skeleton_contents (unchanged_step hc h).2
  · have he := step_ends h
    cases c with
    | memWrite w a v =>
      change Ends (memWrite w a v p) q at he
      have hw := write_skeleton hp.sound (w := w) (a := a) (v := v)
      cases e : IMemory.write w a v p.mem with
      | ok x s => rw [e] at hw; rw [memWrite_ok e] at he; have := ends_ok he; subst this; exact hw
      | throw x s =>
        rw [e] at hw
        rw [memWrite_fault e] at he
        split at he
        · have := ends_ok he; subst this; exact hw
        · exact (ends_ub he).elim
      | ub r => rw [memWrite_ub e] at he; exact (ends_ub he).elim
    | copyFrom =>
      exact copyFrom_ends (R := fun p q => skeleton q.mem = skeleton p.mem) (fun _ => rfl) (fun _ _ _ h1 h2 => h2.trans h1) (fun _ _ => rfl)
        (fun _ _ => rfl) (fun _ _ => rfl) p q he
    | _ => exact (hc rfl).elim

theorem skeleton_length {s s' : Sim} (h : skeleton s' = skeleton s) : s'.regions.length = s.regions.length := by
  simpa [skeleton] using congrArg List.length h

theorem hist_skeleton {cs : List PCall} {p q : Plat} (hp : OK p) (h : PHist p cs q) : skeleton q.mem = skeleton p.mem := by
  induction h with
  | nil => rfl
  | cons h _ ih => exact (ih (step_ok hp h)).trans (step_skeleton hp h)
  | packet b c _ ih => exact ih ⟨hp.1, hp.2, hp.3⟩

end Verif.Platform
