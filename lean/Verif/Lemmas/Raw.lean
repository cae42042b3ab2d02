import Batteries.Data.List.Basic
import Verif.Lemmas.Watch
import Verif.Spec.History
/- What each call can do to the regions and to the heap, in any state at all. -/
namespace Verif.MemSim
open Verif Spec

/-- A property of the state a call leaves, whether it returned or raised. -/
def Post (o : Out Sim α) (P : Sim → Prop) : Prop :=
  match o with
  | .ok _ s => P s
  | .throw _ s => P s
  | .ub _ => True

theorem Post.mono {o : Out Sim α} {P Q : Sim → Prop} (h : Post o P) (hpq : ∀ s, P s → Q s) : Post o Q := by
  cases o with
  | ok a s => exact hpq s h
  | throw e s => exact hpq s h
  | ub r => trivial

theorem Post.bind {m : M Sim α} {f : α → M Sim β} {s : Sim} {P : Sim → Prop}
    (hm : Post (m s) P) (hf : ∀ a s', m s = .ok a s' → P s' → Post (f a s') P) : Post ((m >>= f) s) P := by
  rw [M.bind_apply]
  cases h : m s with
  | ok a s' => rw [h] at hm; exact hf a s' h hm
  | throw e s' => rw [h] at hm; exact hm
  | ub r => trivial

theorem Post.step {c : Call} {s s' : Sim} {P : Sim → Prop} (h : Step c s s') (hp : Post (c.run s) P) : P s' := by
  rcases h with ⟨u, h⟩ | ⟨e, h⟩ <;> rw [h] at hp <;> exact hp

/-- The region lists are related one by one, possibly with new regions at the end. -/
def Extends (R : Region → Region → Prop) (s s' : Sim) : Prop :=
  ∃ ys zs, s'.regions = ys ++ zs ∧ List.Forall₂ R s.regions ys

theorem forall₂_refl {R : Region → Region → Prop} (hr : ∀ r, R r r) : ∀ rs : List Region, List.Forall₂ R rs rs
  | [] => .nil
  | r :: rs => .cons (hr r) (forall₂_refl hr rs)

theorem forall₂_set {R : Region → Region → Prop} (hr : ∀ r, R r r) : ∀ {rs : List Region} {i : Nat} {r r' : Region},
    rs[i]? = some r → R r r' → List.Forall₂ R rs (rs.set i r')
  | [], _, _, _, h, _ => by simp at h
  | x :: xs, 0, r, r', h, hR => by
    simp at h; subst h
    exact .cons hR (forall₂_refl hr xs)
  | x :: xs, i + 1, r, r', h, hR => by
    simp at h
    exact .cons (hr x) (forall₂_set hr h hR)

theorem forall₂_trans {R : Region → Region → Prop} (ht : ∀ a b c, R a b → R b c → R a c) :
    ∀ {xs ys zs : List Region}, List.Forall₂ R xs ys → List.Forall₂ R ys zs → List.Forall₂ R xs zs
  | _, _, _, .nil, .nil => .nil
  | _, _, _, .cons h t, .cons h' t' => .cons (ht _ _ _ h h') (forall₂_trans ht t t')

theorem forall₂_get {R : Region → Region → Prop} : ∀ {xs ys : List Region}, List.Forall₂ R xs ys → ∀ {i : Nat} {r : Region},
    xs[i]? = some r → ∃ r', ys[i]? = some r' ∧ R r r'
  | _, _, .nil, _, _, h => by simp at h
  | _, _, .cons h _, 0, _, e => by simp at e; subst e; exact ⟨_, rfl, h⟩
  | _, _, .cons _ t, i + 1, _, e => by simp at e; simpa using forall₂_get t e

theorem forall₂_append_inv {R : Region → Region → Prop} : ∀ {xs ys zs : List Region}, List.Forall₂ R (xs ++ ys) zs →
    ∃ as bs, zs = as ++ bs ∧ List.Forall₂ R xs as
  | [], _, zs, _ => ⟨[], zs, rfl, .nil⟩
  | x :: xs, ys, _, .cons h t => by
    obtain ⟨as, bs, rfl, h'⟩ := forall₂_append_inv t
    exact ⟨_ :: as, bs, rfl, .cons h h'⟩

theorem Extends.refl {R : Region → Region → Prop} (hr : ∀ r, R r r) {s s' : Sim} (h : s'.regions = s.regions) :
    Extends R s s' := ⟨s.regions, [], by simp [h], forall₂_refl hr _⟩

theorem Extends.set {R : Region → Region → Prop} (hr : ∀ r, R r r) {s s' : Sim} {i : Nat} {r r' : Region}
    (h : s.regions[i]? = some r) (h' : s'.regions = s.regions.set i r') (hR : R r r') : Extends R s s' :=
  ⟨_, [], by simp [h'], forall₂_set hr h hR⟩

theorem Extends.append {R : Region → Region → Prop} (hr : ∀ r, R r r) {s s' : Sim} {x : Region}
    (h' : s'.regions = s.regions ++ [x]) : Extends R s s' := ⟨_, [x], h', forall₂_refl hr _⟩

theorem Extends.trans {R : Region → Region → Prop} (ht : ∀ a b c, R a b → R b c → R a c) {s s1 s2 : Sim}
    (h : Extends R s s1) (h' : Extends R s1 s2) : Extends R s s2 := by
  obtain ⟨ys, zs, e, f⟩ := h
  obtain ⟨ys', zs', e', f'⟩ := h'
  rw [e] at f'
  obtain ⟨as, bs, rfl, g⟩ := forall₂_append_inv f'
  exact ⟨as, bs ++ zs', by simp [e'], forall₂_trans ht f g⟩

theorem Extends.get {R : Region → Region → Prop} {s s' : Sim} (h : Extends R s s') {i : Nat} {r : Region}
    (hr : s.regions[i]? = some r) : ∃ r', s'.regions[i]? = some r' ∧ R r r' := by
  obtain ⟨ys, zs, e, f⟩ := h
  obtain ⟨r', h1, h2⟩ := forall₂_get f hr
  refine ⟨r', ?_, h2⟩
  rw [e, List.getElem?_append_left (List.getElem?_eq_some_iff.1 h1).1]; exact h1

/-- A data pointer computation changes at most the read counters of one region. -/
structure GdpPost (s s' : Sim) : Prop where
  heap : s'.heap = s.heap
  xml : s'.xml = s.xml
  regions : s'.regions = s.regions ∨ ∃ i r cs cs', s.regions[i]? = some r ∧ r.readCounts = some cs ∧
    s'.regions = s.regions.set i { r with readCounts := some cs' }

theorem regionAt_ok {s s' : Sim} {i : Nat} {r : Region} (h : regionAt i s = .ok r s') : s' = s ∧ s.regions[i]? = some r := by
  unfold regionAt at h
  split at h
  · rename_i e; cases h; exact ⟨rfl, e⟩
  · cases h

theorem regionAt_post {s : Sim} {i : Nat} : Post (regionAt i s) (fun s' => s' = s) := by
  unfold regionAt; split <;> simp [Post]

theorem find_post {s : Sim} {a : U32} {n : Nat} : Post (findMatchingRegion a n s) (fun s' => s' = s) := by
  rcases findMatchingRegion_cases a n s with h | ⟨i, a', h⟩ | h <;> rw [h] <;> simp [Post]

theorem countRead_post {s : Sim} {i : Nat} {r : Region} {off n : Nat} {t : U32} (hr : s.regions[i]? = some r) :
    Post (countRead i r off n t s) (GdpPost s) := by
  unfold countRead
  split
  · cases e : r.readCounts with
    | none => exact ⟨rfl, rfl, .inl rfl⟩
    | some cs =>
      simp only
      cases cs[off / 2]? with
      | some c => exact ⟨rfl, rfl, .inr ⟨i, r, cs, _, hr, e, rfl⟩⟩
      | none => trivial
  · exact ⟨rfl, rfl, .inl rfl⟩

theorem check_post {s : Sim} {r : Region} {a : U32} {n : Nat} {t : U32} :
    Post (checkForBreakWatchPoint r a n t s) (fun s' => s'.heap = s.heap ∧ s'.xml = s.xml ∧ s'.regions = s.regions) := by
  unfold checkForBreakWatchPoint
  simp only
  split
  · trivial
  · split <;> exact ⟨rfl, rfl, rfl⟩

theorem gdp_post {s : Sim} {a : U32} {n : Nat} {t : U32} {c : Bool} :
    Post (getDataPointer a n t c s) (GdpPost s) := by
  unfold getDataPointer
  have hrefl : GdpPost s s := ⟨rfl, rfl, .inl rfl⟩
  refine Post.bind (find_post.mono (by rintro _ rfl; exact hrefl)) ?_
  rintro ⟨i, a'⟩ s1 hf -
  have : s1 = s := by have := find_post (s := s) (a := a) (n := n); rw [hf] at this; exact this
  subst this
  refine Post.bind (regionAt_post.mono (by rintro _ rfl; exact hrefl)) ?_
  intro r s2 hr _
  obtain ⟨rfl, hr⟩ := regionAt_ok hr
  simp only
  split
  · exact hrefl
  · refine Post.bind (countRead_post hr) ?_
    intro _ s3 _ h3
    split
    · refine Post.bind ?_ (fun _ _ _ h => h)
      refine check_post.mono ?_
      rintro s4 ⟨h1, h2, h5⟩
      exact ⟨h1.trans h3.heap, h2.trans h3.xml, h5 ▸ h3.regions⟩
    · exact h3

/-- For a write, the region reached is writable and nothing at all is changed on the way, except the hit counter. -/
theorem gdp_write_ok {s s' : Sim} {a : U32} {n : Nat} {c : Bool} {p : Nat × Nat}
    (h : getDataPointer a n WRITING c s = .ok p s') :
    s'.regions = s.regions ∧ ∃ r, s.regions[p.1]? = some r ∧ r.isReadOnly = false := by
  unfold getDataPointer at h
  simp only [M.bind_apply] at h
  rcases findMatchingRegion_cases a n s with hf | ⟨i, a', hf⟩ | hf <;> rw [hf] at h <;> simp only at h
  · cases h
  · cases hr : regionAt i s with
    | throw e s1 => rw [hr] at h; cases h
    | ub r => rw [hr] at h; cases h
    | ok r s1 =>
      obtain ⟨rfl, hr'⟩ := regionAt_ok hr
      rw [hr] at h
      simp only [true_and] at h
      by_cases hro : r.isReadOnly = true
      · simp [hro] at h
      · have hcr : countRead i r (a' - r.baseAddress).toNat n WRITING s1 = .ok () s1 := by
          simp [countRead, WRITING_ne_READING]
        simp only [hro, Bool.false_eq_true, if_false, M.bind_apply, hcr] at h
        cases c
        · simp at h
          obtain ⟨rfl, rfl⟩ := h
          exact ⟨rfl, r, hr', by simpa using hro⟩
        · simp only [if_true, M.bind_apply] at h
          have hc := check_post (s := s1) (r := r) (a := a') (n := n) (t := WRITING)
          cases hck : checkForBreakWatchPoint r a' n WRITING s1 with
          | ok u s2 =>
            rw [hck] at h hc
            simp at h
            obtain ⟨rfl, rfl⟩ := h
            exact ⟨hc.2.2, r, hr', by simpa using hro⟩
          | throw e s2 => rw [hck] at h; cases h
          | ub e => rw [hck] at h; cases h
  · cases h

theorem hostWrite_post {s : Sim} {p : Nat × Nat} {bs : List U8} :
    Post (hostWrite p bs s) (fun s' => s'.heap = s.heap ∧ s'.xml = s.xml ∧ ∃ r d, s.regions[p.1]? = some r ∧
      d.length = r.data.length ∧ s'.regions = s.regions.set p.1 { r with data := d }) := by
  unfold hostWrite
  rw [M.bind_apply]
  cases hr : regionAt p.1 s with
  | ok r s1 =>
    obtain ⟨rfl, hr'⟩ := regionAt_ok hr
    simp only
    split
    · rename_i hl
      refine ⟨rfl, rfl, r, _, hr', ?_, rfl⟩
      exact splice_length hl
    · trivial
  | throw e s1 =>
    unfold regionAt at hr; split at hr <;> cases hr
  | ub e => trivial

/-- What a call that does not change contents or settings does to a region. -/
structure AccessRel (r r' : Region) : Prop where
  shape : shape r' = shape r
  ro : r'.isReadOnly = r.isReadOnly
  watch : r'.watch = r.watch
  alloc : r'.watchAlloc = r.watchAlloc
  counts : r'.readCounts.isSome = r.readCounts.isSome
  len : r'.data.length = r.data.length

theorem AccessRel.refl (r : Region) : AccessRel r r := ⟨rfl, rfl, rfl, rfl, rfl, rfl⟩
theorem AccessRel.trans (a b c : Region) (h : AccessRel a b) (h' : AccessRel b c) : AccessRel a c :=
  ⟨h'.shape.trans h.shape, h'.ro.trans h.ro, h'.watch.trans h.watch, h'.alloc.trans h.alloc, h'.counts.trans h.counts,
   h'.len.trans h.len⟩
theorem AccessRel.blocks {r r' : Region} (h : AccessRel r r') : r'.blocks = r.blocks := by
  unfold Region.blocks; rw [h.counts, h.alloc]

/-- Nothing but contents and counters changed. -/
structure Quiet (s s' : Sim) : Prop where
  heap : s'.heap = s.heap
  xml : s'.xml = s.xml
  regions : List.Forall₂ AccessRel s.regions s'.regions

theorem Quiet.refl (s : Sim) : Quiet s s := ⟨rfl, rfl, forall₂_refl AccessRel.refl _⟩
theorem Quiet.trans {a b c : Sim} (h : Quiet a b) (h' : Quiet b c) : Quiet a c :=
  ⟨h'.heap.trans h.heap, h'.xml.trans h.xml, forall₂_trans AccessRel.trans h.regions h'.regions⟩

theorem GdpPost.quiet {s s' : Sim} (h : GdpPost s s') : Quiet s s' := by
  refine ⟨h.heap, h.xml, ?_⟩
  rcases h.regions with h | ⟨i, r, cs, cs', h1, h2, h3⟩
  · rw [h]; exact forall₂_refl AccessRel.refl _
  · rw [h3]; exact forall₂_set AccessRel.refl h1 ⟨rfl, rfl, rfl, rfl, by simp [h2], rfl⟩

theorem readN_post {s : Sim} {n : Nat} {a : U32} : Post (readN n a s) (GdpPost s) := by
  unfold readN
  refine Post.bind gdp_post ?_
  intro p s1 _ h1
  refine Post.bind ?_ (fun _ _ _ h => h)
  unfold hostRead
  refine Post.bind (regionAt_post.mono (by rintro _ rfl; exact h1)) ?_
  intro r s2 hr h2
  split
  · exact h2
  · trivial

theorem writeN_post {s : Sim} {n : Nat} {a : U32} {v : Nat} : Post (writeN n a v s) (fun s' => Quiet s s' ∧
    (s'.regions = s.regions ∨ ∃ i r d, s.regions[i]? = some r ∧ r.isReadOnly = false ∧
      s'.regions = s.regions.set i { r with data := d })) := by
  unfold writeN
  rw [M.bind_apply]
  have hg := gdp_post (s := s) (a := a) (n := n) (t := WRITING) (c := true)
  cases h : getDataPointer a n WRITING true s with
  | ok p s1 =>
    obtain ⟨h1, r, h2, h3⟩ := gdp_write_ok h
    rw [h] at hg
    refine hostWrite_post.mono ?_
    rintro s2 ⟨g1, g2, q, d, g3, g4, g5⟩
    rw [h1] at g3 g5
    rw [h2] at g3; cases g3
    refine ⟨hg.quiet.trans ⟨g1, g2, ?_⟩, .inr ⟨p.1, r, d, h2, h3, g5⟩⟩
    rw [g5, h1]
    exact forall₂_set AccessRel.refl h2 ⟨rfl, rfl, rfl, rfl, rfl, g4⟩
  | throw e s1 =>
    rw [h] at hg
    refine ⟨hg.quiet, ?_⟩
    rcases hg.regions with hh | ⟨i, r, cs, cs', e1, e2, e3⟩
    · exact .inl hh
    · -- a write never touches the counters
      left
      unfold getDataPointer at h
      simp only [M.bind_apply] at h
      rcases findMatchingRegion_cases a n s with hf | ⟨i, a', hf⟩ | hf <;> rw [hf] at h <;> simp only at h
      · cases h; rfl
      · cases hr : regionAt i s with
        | throw e s1 => rw [hr] at h; unfold regionAt at hr; split at hr <;> cases hr
        | ub r => rw [hr] at h; cases h
        | ok r s1 =>
          obtain ⟨rfl, hr'⟩ := regionAt_ok hr
          rw [hr] at h
          simp only [true_and] at h
          by_cases hro : r.isReadOnly = true
          · simp [hro] at h; rw [h.2]
          · have hcr : countRead i r (a' - r.baseAddress).toNat n WRITING s1 = .ok () s1 := by
              simp [countRead, WRITING_ne_READING]
            simp only [hro, Bool.false_eq_true, if_false, M.bind_apply, hcr, if_true] at h
            have hc := check_post (s := s1) (r := r) (a := a') (n := n) (t := WRITING)
            cases hck : checkForBreakWatchPoint r a' n WRITING s1 with
            | ok u s2 => rw [hck] at h; cases h
            | throw e s2 => rw [hck] at h hc; cases h; exact hc.2.2
            | ub e => rw [hck] at h; cases h
      · cases h
  | ub e => trivial

theorem loadN_post {s : Sim} {a : U32} {bs : List U8} : Post (loadN a bs s) (Quiet s) := by
  unfold loadN
  refine Post.bind (gdp_post.mono fun _ h => h.quiet) ?_
  intro p s1 _ h1
  refine hostWrite_post.mono ?_
  rintro s2 ⟨g1, g2, r, d, g3, g4, g5⟩
  refine h1.trans ⟨g1, g2, ?_⟩
  rw [g5]
  exact forall₂_set AccessRel.refl g3 ⟨rfl, rfl, rfl, rfl, rfl, g4⟩

theorem loadBytes_post {n : Nat} {a : U32} {src : List U8} {s : Sim} : Post (loadBytes n a src s) (Quiet s) := by
  induction n generalizing a src s with
  | zero => cases src <;> exact Quiet.refl s
  | succ n ih =>
    cases src with
    | nil => trivial
    | cons b src =>
      refine Post.bind loadN_post ?_
      intro _ s1 _ h1
      exact ih.mono fun _ h => h1.trans h

theorem loadWords_post {src : List U8} {n : Nat} {a : U32} {s : Sim} : Post (loadWords src n a s) (Quiet s) := by
  fun_induction loadWords src n a generalizing s with
  | case1 b0 b1 b2 b3 rest n a h ih =>
    refine Post.bind loadN_post ?_
    intro _ s1 _ h1
    exact ih.mono fun _ h => h1.trans h
  | case2 => exact loadBytes_post
  | case3 => trivial
  | case4 => exact loadBytes_post

theorem bump_regions (s : Sim) (k : Nat) (l : Int) : (bumpHeap s k l).regions = s.regions := rfl

theorem makeRegionReadOnly_cases (b : U32) (s : Sim) :
    makeRegionReadOnly b s = .throw ⟨.busError, []⟩ s ∨ (∃ u, makeRegionReadOnly b s = .ub u) ∨
    ∃ i a' r, findMatchingRegion b 1 s = .ok (i, a') s ∧ s.regions[i]? = some r ∧
      ((s.heap.fails s.heap.next = true ∧ makeRegionReadOnly b s = .throw ⟨.outOfMemory, []⟩ { bumpHeap s 1 0 with
          regions := s.regions.set i { r with isReadOnly := true } }) ∨
       (s.heap.fails s.heap.next = false ∧ makeRegionReadOnly b s = .ok () { bumpHeap s 1 1 with
          regions := s.regions.set i { r with isReadOnly := true,
                                              readCounts := some (List.replicate (r.size.toNat / 2) 0) } })) := by
  simp only [makeRegionReadOnly, M.bind_apply]
  rcases findMatchingRegion_cases b 1 s with hf | ⟨i, a', hf⟩ | hf <;> rw [hf]
  · exact .inl rfl
  · simp only
    cases hr : regionAt i s with
    | throw e s1 => unfold regionAt at hr; split at hr <;> cases hr
    | ub u => exact .inr (.inl ⟨u, rfl⟩)
    | ok r s1 =>
      obtain ⟨rfl, hr'⟩ := regionAt_ok hr
      right; right
      refine ⟨i, a', r, rfl, hr', ?_⟩
      simp only [setRegion, M.modify_apply, M.modify_apply, throwingZeroedMalloc_eq, bumpHeap]
      cases s1.heap.fails s1.heap.next
      · right; simp
      · left; simp
  · exact .inr (.inl ⟨_, rfl⟩)

theorem setWatchpoint_raw (a n t : U32) (s : Sim) :
    (∃ k, setWatchpoint a n t s = .ok () (bumpHeap s k 0)) ∨ (∃ e k, setWatchpoint a n t s = .throw e (bumpHeap s k 0)) ∨
    (∃ u, setWatchpoint a n t s = .ub u) ∨
    ∃ i r ws al k, s.regions[i]? = some r ∧ setWatchpoint a n t s = .ok () { bumpHeap s k
        (if r.watchAlloc = 0 then 1 else 0) with
      regions := s.regions.set i { r with watch := ws, watchAlloc := al } } ∧ al ≠ 0 := by
  have hb : bumpHeap s 0 0 = s := by simp [bumpHeap]
  simp only [setWatchpoint, M.bind_apply]
  rcases findMatchingRegion_cases a n.toNat s with hf | ⟨i, a', hf⟩ | hf <;> rw [hf]
  · exact .inr (.inl ⟨_, 0, by rw [hb]⟩)
  · simp only
    cases hr : regionAt i s with
    | throw e s1 => unfold regionAt at hr; split at hr <;> cases hr
    | ub u => exact .inr (.inr (.inl ⟨u, rfl⟩))
    | ok r s1 =>
      obtain ⟨rfl, hr'⟩ := regionAt_ok hr
      simp only
      cases hf : findWatch 0 r.watch { type := t, startAddress := a', endAddress := a' + n } with
      | mk k b =>
        cases b
        · simp only
          by_cases hl : r.watch.length + 1 > r.watchAlloc
          · simp only [if_pos hl, M.bind_apply, realloc]
            by_cases hfail : s1.heap.fails s1.heap.next = true
            · right; left
              refine ⟨⟨.outOfMemory, []⟩, 1, ?_⟩
              simp [hfail, bumpHeap]
            · right; right; right
              refine ⟨i, r, r.watch.insertIdx k { type := t, startAddress := a', endAddress := a' + n },
                r.watch.length + 1, 1, hr', ?_, Nat.succ_ne_zero r.watch.length⟩
              simp [hfail, bumpHeap, setRegion]
          · simp only [if_neg hl]
            right; right; right
            refine ⟨i, r, r.watch.insertIdx k { type := t, startAddress := a', endAddress := a' + n }, r.watchAlloc, 0,
              hr', ?_, by omega⟩
            rw [if_neg (by omega), hb]
            rfl
        · exact .inl ⟨0, by rw [hb]; rfl⟩
  · exact .inr (.inr (.inl ⟨_, rfl⟩))

theorem clearWatchpoint_raw (a n t : U32) (s : Sim) :
    clearWatchpoint a n t s = .ok () s ∨ (∃ e, clearWatchpoint a n t s = .throw e s) ∨
    (∃ u, clearWatchpoint a n t s = .ub u) ∨
    ∃ i r ws, s.regions[i]? = some r ∧ clearWatchpoint a n t s = .ok () { s with
      regions := s.regions.set i { r with watch := ws } } := by
  simp only [clearWatchpoint, M.bind_apply]
  rcases findMatchingRegion_cases a n.toNat s with hf | ⟨i, a', hf⟩ | hf <;> rw [hf]
  · exact .inr (.inl ⟨_, rfl⟩)
  · simp only
    cases hr : regionAt i s with
    | throw e s1 => unfold regionAt at hr; split at hr <;> cases hr
    | ub u => exact .inr (.inr (.inl ⟨u, rfl⟩))
    | ok r s1 =>
      obtain ⟨rfl, hr'⟩ := regionAt_ok hr
      simp only
      cases hf : findWatch 0 r.watch { type := t, startAddress := a', endAddress := a' + n } with
      | mk k b =>
        cases b
        · exact .inl rfl
        · exact .inr (.inr (.inr ⟨i, r, _, hr', rfl⟩))
  · exact .inr (.inr (.inl ⟨_, rfl⟩))

theorem xml_raw (s : Sim) : getMemoryMapXML s = .throw ⟨.outOfMemory, []⟩ (bumpHeap s 1 0) ∨
    getMemoryMapXML s = .ub .assertFailed ∨
    ∃ text, getMemoryMapXML s = .ok text { bumpHeap s 1 (if s.xml.isNone then 1 else 0) with xml := some text } := by
  unfold getMemoryMapXML
  simp only [M.bind_apply, M.get_apply, realloc]
  by_cases hfail : s.heap.fails s.heap.next = true
  · left; simp [hfail, bumpHeap]
  · right
    simp only [hfail, Bool.false_eq_true, if_false, if_true]
    split
    · exact .inl rfl
    · cases happ : appendMemoryMapRegions s.regions xmlHeader _ with
      | none => exact .inl rfl
      | some p =>
        simp only
        split
        · exact .inl rfl
        · right
          exact ⟨_, rfl⟩

theorem readCount_raw (a : U32) (s : Sim) : (∃ v, getFlashReadCount a s = .ok v s) ∨
    getFlashReadCount a s = .throw ⟨.busError, []⟩ s ∨ ∃ u, getFlashReadCount a s = .ub u := by
  simp only [getFlashReadCount, M.bind_apply]
  rcases findMatchingRegion_cases a 2 s with hf | ⟨i, a', hf⟩ | hf <;> rw [hf]
  · exact .inr (.inl rfl)
  · simp only
    cases hr : regionAt i s with
    | throw e s1 => unfold regionAt at hr; split at hr <;> cases hr
    | ub u => exact .inr (.inr ⟨u, rfl⟩)
    | ok r s1 =>
      obtain ⟨rfl, hr'⟩ := regionAt_ok hr
      simp only
      cases r.isReadOnly
      · simp
      · simp only [not_true_eq_false, if_false]
        cases r.readCounts with
        | none => exact .inr (.inr ⟨_, rfl⟩)
        | some cs =>
          simp only
          cases cs[(a' - r.baseAddress).toNat / 2]? with
          | none => exact .inr (.inr ⟨_, rfl⟩)
          | some c => exact .inl ⟨c, rfl⟩
  · exact .inr (.inr ⟨_, rfl⟩)

theorem read_post {w : Width} {a : U32} {s : Sim} : Post (IMemory.read w a s) (GdpPost s) := by
  rw [read_eq]
  have := readN_post (s := s) (n := w.bytes) (a := a)
  cases h : readN w.bytes a s <;> rw [h] at this <;> exact this

end Verif.MemSim
