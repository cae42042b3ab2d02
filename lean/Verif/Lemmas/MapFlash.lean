import Verif.Lemmas.Xml
import Verif.Lemmas.Leak
/- What is listed as flash cannot be written, for every history. -/
namespace Verif.Spec
open Verif MemSim Spec

/-- An alias listed as flash leads to read-only memory. -/
def FlashHolds (s : Sim) : Prop :=
  ∀ q ∈ s.regions, q.isAlias = true → ∀ i t, q.redirect = some i → s.regions[i]? = some t → q.isReadOnly = true → t.isReadOnly = true

theorem holds_of {s s' : Sim} (h : FlashHolds s) (hr : List.Forall₂ (fun r r' => shape r' = shape r ∧ r'.isReadOnly = r.isReadOnly)
    s.regions s'.regions) : FlashHolds s' := by
  intro q hq ha i t hi ht hro
  obtain ⟨k, hk⟩ := List.getElem?_of_mem hq
  have flip : List.Forall₂ (fun r' r => shape r' = shape r ∧ r'.isReadOnly = r.isReadOnly) s'.regions s.regions := by
    clear h hq hk ht
    generalize s.regions = xs at hr
    generalize s'.regions = ys at hr
    induction hr with
    | nil => exact .nil
    | cons h t ih => exact .cons h ih
  obtain ⟨q0, e1, e2, e3⟩ := forall₂_get flip hk
  obtain ⟨t0, f1, f2, f3⟩ := forall₂_get flip ht
  obtain ⟨-, -, g3, g4, -⟩ := shape_eq e2
  rw [f3]
  exact h q0 (List.mem_of_getElem? e1) (g3 ▸ ha) i t0 (g4 ▸ hi) f1 (e3 ▸ hro)

theorem holds_same {s s' : Sim} (h : FlashHolds s) (hr : s'.regions = s.regions) : FlashHolds s' :=
  holds_of h (hr ▸ forall₂_refl (fun _ => ⟨rfl, rfl⟩) _)

theorem holds_set {s s' : Sim} (h : FlashHolds s) {i : Nat} {r r' : Region} (hr : s.regions[i]? = some r)
    (hs : s'.regions = s.regions.set i r') (e1 : shape r' = shape r) (e2 : r'.isReadOnly = r.isReadOnly) : FlashHolds s' :=
  holds_of h (hs ▸ forall₂_set (fun _ => ⟨rfl, rfl⟩) hr ⟨e1, e2⟩)

theorem _root_.Verif.MemSim.Quiet.holds {s s' : Sim} (h : FlashHolds s) (hq : Quiet s s') : FlashHolds s' := by
  refine holds_of h ?_
  have : ∀ {xs ys : List Region}, List.Forall₂ AccessRel xs ys →
      List.Forall₂ (fun r r' => shape r' = shape r ∧ r'.isReadOnly = r.isReadOnly) xs ys := by
    intro xs ys h
    induction h with
    | nil => exact .nil
    | cons h t ih => exact .cons ⟨h.shape, h.ro⟩ ih
  exact this hq.regions

theorem holds_append {s s' : Sim} (hs : Sound s) (h : FlashHolds s) {r : Region} (hr : s'.regions = s.regions ++ [r])
    (hn : r.isAlias = true → ∀ i t, r.redirect = some i → s.regions[i]? = some t → r.isReadOnly = true → t.isReadOnly = true)
    (hl : r.isAlias = true → ∀ i, r.redirect = some i → i < s.regions.length) : FlashHolds s' := by
  intro q hq ha i t hi ht hro
  rw [hr] at hq ht
  rcases List.mem_append.1 hq with hq | hq
  · obtain ⟨k, hk⟩ := List.getElem?_of_mem hq
    obtain ⟨j, t', e1, e2, -⟩ := hs.alias hk ha
    rw [hi] at e1; cases e1
    rw [List.getElem?_append_left (List.getElem?_eq_some_iff.1 e2).1] at ht
    exact h q hq ha i t hi ht hro
  · simp only [List.mem_singleton] at hq
    subst hq
    rw [List.getElem?_append_left (hl ha i hi)] at ht
    exact hn ha i t hi ht hro

theorem holds_create {s : Sim} (hs : Sound s) (h : FlashHolds s) (b n : U32) : Post (createRegion b n s) FlashHolds := by
  rcases createRegion_cases b n s with ⟨k, e⟩ | e <;> rw [e]
  · exact holds_same h rfl
  · exact holds_append (r := newRegion b n) hs h rfl nofun nofun

theorem holds_mark {s : Sim} (hs : Sound s) (h : FlashHolds s) (b : U32) : Post (makeRegionReadOnly b s) FlashHolds := by
  rcases makeRegionReadOnly_cases b s with e | ⟨u, e⟩ | ⟨j, a', r, hf, hr, ⟨-, e⟩ | ⟨-, e⟩⟩ <;> rw [e]
  · exact h
  · trivial
  all_goals
    have hplain : r.isAlias = false := by
      by_cases hm : Mapped s b 1
      · obtain ⟨i, r', off, ht⟩ := target_of_mapped hs hm
        rw [find_target hs ht] at hf
        cases hf
        rw [(ht.info hs).get] at hr; cases hr
        exact (ht.info hs).plain
      · rw [find_unmapped hm] at hf; cases hf
    intro q hq ha i t hi ht hro
    have hq' : q ∈ s.regions := by
      rcases List.mem_or_eq_of_mem_set hq with hq | rfl
      · exact hq
      · simp only [hplain] at ha; cases ha
    simp only at ht
    by_cases hne : j = i
    · subst hne
      rw [List.getElem?_set_self (List.getElem?_eq_some_iff.1 hr).1] at ht
      cases ht
      rfl
    · rw [List.getElem?_set_ne hne] at ht
      exact h q hq' ha i t hi ht hro

theorem holds_flash {img : List U8} {n : U32} {s : Sim} (hs : Sound s) (h : FlashHolds s) (hc : n.toNat ≤ img.length) :
    Post (createRegionsFromFlashImage img n s) FlashHolds := by
  unfold createRegionsFromFlashImage
  split
  · exact h
  · refine Post.bind (holds_create hs h _ _) ?_
    intro _ s1 e1 h1
    have hs1 := step_sound (c := .createRegion _ _) hs trivial (.inl ⟨_, e1⟩)
    refine Post.bind (P := FlashHolds) (loadWords_post.mono fun _ hq => hq.holds h1) ?_
    intro _ s2 e2 h2
    have hs2 := step_sound (c := .load _ _ _) hs1 hc (.inl ⟨_, e2⟩)
    refine Post.tryCatch ?_ ?_
    · refine Post.bind (holds_mark hs2 h2 _) ?_
      intro _ s3 e3 h3
      have hs3 := step_sound (c := .makeReadOnly _) hs2 trivial (.inl ⟨_, e3⟩)
      split
      · trivial
      · exact holds_create hs3 h3 _ _
    · intro e s4 h4
      refine Post.bind ((freeLast_map s4).mono ?_) (fun _ _ _ h => h)
      rintro t ⟨-, g⟩ q hq ha i r hi hr hro
      rw [g] at hq hr
      refine h4 q ((List.dropLast_sublist _).mem hq) ha i r hi ?_ hro
      rw [List.getElem?_dropLast] at hr
      split at hr
      · exact hr
      · cases hr

theorem call_holds {c : Call} {s s' : Sim} (hs : Sound s) (h : FlashHolds s) (hc : Careful c s) (hst : Step c s s') :
    FlashHolds s' := by
  refine Post.step hst ?_
  cases c with
  | createRegion b n => exact holds_create hs h b n
  | createAlias al rd n =>
    rcases createAlias_cases al rd n s with ⟨k, e⟩ | ⟨k, e, -⟩ | ⟨j, a', t, -, hj, e⟩ | ⟨u, e, -⟩ <;> simp only [Call.run, e]
    · exact holds_same h rfl
    · exact holds_same h rfl
    · refine holds_append hs h rfl ?_ ?_
      · intro _ i t' hi ht hro
        simp only [newAlias, Option.some.injEq] at hi
        subst hi
        rw [hj] at ht
        cases ht
        exact hro
      · intro _ i hi
        simp only [newAlias, Option.some.injEq] at hi
        subst hi
        exact (List.getElem?_eq_some_iff.1 hj).1
    · trivial
  | makeReadOnly b => exact holds_mark hs h b
  | load b img n => exact loadWords_post.mono fun _ hq => hq.holds h
  | flashImage img n => exact holds_flash hs h hc
  | read w a => exact Post.bind (read_post.mono fun _ hq => hq.quiet.holds h) (fun _ _ _ h => h)
  | write w a v =>
    simp only [Call.run, write_eq]
    exact writeN_post.mono fun _ hq => hq.1.holds h
  | memoryMap =>
    refine Post.bind ?_ (fun _ _ _ h => h)
    rcases xml_raw s with e | e | ⟨text, e⟩ <;> rw [e]
    · exact holds_same h rfl
    · trivial
    · exact holds_same h rfl
  | mapForWrite a n => exact Post.bind (gdp_post.mono fun _ hq => hq.quiet.holds h) (fun _ _ _ h => h)
  | mapForRead a n => exact Post.bind (gdp_post.mono fun _ hq => hq.quiet.holds h) (fun _ _ _ h => h)
  | readCount a =>
    refine Post.bind ?_ (fun _ _ _ h => h)
    rcases readCount_raw a s with ⟨v, e⟩ | e | ⟨u, e⟩ <;> rw [e]
    · exact h
    · exact h
    · trivial
  | setBreakpoint a n =>
    rcases setWatchpoint_raw a n WATCHPOINT_BREAKPOINT s with ⟨k, e⟩ | ⟨x, k, e⟩ | ⟨u, e⟩ | ⟨i, r, ws, al, k, hr, e, -⟩ <;>
      simp only [Call.run, setHardwareBreakpoint, e]
    · exact holds_same h rfl
    · exact holds_same h rfl
    · trivial
    · exact holds_set (r' := { r with watch := ws, watchAlloc := al }) h hr rfl rfl rfl
  | setWatchpoint a n t =>
    rcases setWatchpoint_raw a n t s with ⟨k, e⟩ | ⟨x, k, e⟩ | ⟨u, e⟩ | ⟨i, r, ws, al, k, hr, e, -⟩ <;>
      simp only [Call.run, setHardwareWatchpoint, e]
    · exact holds_same h rfl
    · exact holds_same h rfl
    · trivial
    · exact holds_set (r' := { r with watch := ws, watchAlloc := al }) h hr rfl rfl rfl
  | clearBreakpoint a n =>
    rcases clearWatchpoint_raw a n WATCHPOINT_BREAKPOINT s with e | ⟨x, e⟩ | ⟨u, e⟩ | ⟨i, r, ws, hr, e⟩ <;>
      simp only [Call.run, clearHardwareBreakpoint, e]
    · exact h
    · exact h
    · trivial
    · exact holds_set (r' := { r with watch := ws }) h hr rfl rfl rfl
  | clearWatchpoint a n t =>
    rcases clearWatchpoint_raw a n t s with e | ⟨x, e⟩ | ⟨u, e⟩ | ⟨i, r, ws, hr, e⟩ <;>
      simp only [Call.run, clearHardwareWatchpoint, e]
    · exact h
    · exact h
    · trivial
    · exact holds_set (r' := { r with watch := ws }) h hr rfl rfl rfl
  | wasHit => exact holds_same h rfl
  | uninit => intro q hq; cases hq
theorem hist_holds {cs : List Call} {s s' : Sim} (h : CarefulHist s cs s') (hs : Sound s) (hi : FlashHolds s) : Sound s' ∧ FlashHolds s' := by
  induction h with
  | nil s => exact ⟨hs, hi⟩
  | cons hc h t ih => exact ih (step_sound hs hc h) (call_holds hs hi hc h)

end Verif.Spec
