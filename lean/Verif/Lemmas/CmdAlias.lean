import Verif.Lemmas.CmdEnd
import Verif.Spec.Alias
/- Aliases beside blocks of memory. -/
namespace Verif.CommandLine
open Verif MemSim Spec

/-- The regions have the addresses and sizes of the blocks. -/
def Laid (rs : List Region) (mem : List (U32 × List U8)) : Prop :=
  rs.map (fun r => (r.baseAddress, r.size.toNat)) = mem.map (fun b => (b.1, b.2.length))

theorem Laid.get {rs : List Region} {mem : List (U32 × List U8)} (h : Laid rs mem) {k : Nat} {b : U32 × List U8} (hk : mem[k]? = some b) :
    ∃ q, rs[k]? = some q ∧ q.baseAddress = b.1 ∧ q.size.toNat = b.2.length := by
  have := congrArg (fun l => l[k]?) h
  simp only [List.getElem?_map, hk, Option.map_some] at this
  cases hq : rs[k]? with
  | none => rw [hq] at this; cases this
  | some q =>
    rw [hq] at this
    simp only [Option.map_some, Option.some.injEq, Prod.mk.injEq] at this
    exact ⟨q, rfl, this.1, this.2⟩

theorem Laid.get' {rs : List Region} {mem : List (U32 × List U8)} (h : Laid rs mem) {k : Nat} {q : Region} (hk : rs[k]? = some q) :
    ∃ b, mem[k]? = some b ∧ q.baseAddress = b.1 ∧ q.size.toNat = b.2.length := by
  have := congrArg (fun l => l[k]?) h
  simp only [List.getElem?_map, hk, Option.map_some] at this
  cases hb : mem[k]? with
  | none => rw [hb] at this; cases this
  | some b =>
    rw [hb] at this
    simp only [Option.map_some, Option.some.injEq, Prod.mk.injEq] at this
    exact ⟨b, rfl, this.1, this.2⟩

/-- With disjoint blocks, the region of a block serves all accesses inside the block. -/
theorem Laid.first {rs : List Region} {mem : List (U32 × List U8)} (h : Laid rs mem) (hd : Spec.Disjoint mem) {k : Nat} {b : U32 × List U8}
    (hk : mem[k]? = some b) {a : U32} {n : Nat} (hn : 0 < n) (h1 : b.1.toNat ≤ a.toNat) (h2 : a.toNat + n ≤ b.1.toNat + b.2.length) :
    ∃ q, rs[k]? = some q ∧ q.baseAddress = b.1 ∧ q.size.toNat = b.2.length ∧ FirstCover rs a n k q := by
  obtain ⟨q, hq, hb, hz⟩ := h.get hk
  refine ⟨q, hq, hb, hz, hq, ⟨by rw [hb]; exact h1, by rw [hb, hz]; exact h2⟩, fun j hj p hp hc => ?_⟩
  obtain ⟨x, hx, e1, e2⟩ := h.get' hp
  obtain ⟨c1, c2⟩ := hc
  rw [e1] at c1 c2
  rw [e2] at c2
  have s1 : (byteIn x a).isSome := Dump.byteIn_iff.2 ⟨c1, by omega⟩
  have s2 : (byteIn b a).isSome := Dump.byteIn_iff.2 ⟨h1, by omega⟩
  rcases Dump.pairwise_get hd hx hk hj a with h | h
  · rw [h] at s1; cases s1
  · rw [h] at s2; cases s2

/-- The regions after loading an image and a dump. -/
theorem laid_loaded {blks mem : List (U32 × List U8)} (h1 : ∀ r ∈ blks, r.2.length < 2 ^ 32) (h2 : ∀ r ∈ mem, r.2.length < 2 ^ 32) :
    Laid (blks.map Elf.romRegion ++ Dump.loadMem [] mem) (blks ++ mem) ∧
    ∀ r ∈ blks.map Elf.romRegion ++ Dump.loadMem [] mem, r.isAlias = false ∧ r.watch = [] := by
  have key : ∀ k : Nat, ((Dump.loadMem [] mem)[k]?).map (fun r => (r.baseAddress, r.size.toNat)) = mem[k]?.map (fun b => (b.1, b.2.length)) := by
    intro k
    cases hk : mem[k]? with
    | none =>
      have : (Dump.loadMem [] mem).length = mem.length := by
        simpa using congrArg List.length (Dump.loadMem_shape (mem := mem) (rs := []))
      rw [List.getElem?_eq_none_iff] at hk
      rw [List.getElem?_eq_none (by omega)]
      rfl
    | some r =>
      obtain ⟨q, hq, hb, hz⟩ := Dump.news_get h2 hk
      rw [hq]
      simp [hb, hz]
  constructor
  · unfold Laid
    rw [List.map_append, List.map_append]
    congr 1
    · rw [List.map_map]
      apply List.map_congr_left
      intro r hr
      have := h1 r hr
      simp [Elf.romRegion]
      omega
    · apply List.ext_getElem?
      intro k
      rw [List.getElem?_map, List.getElem?_map]
      exact key k
  · intro r hr
    rcases List.mem_append.1 hr with hr | hr
    · obtain ⟨b, -, rfl⟩ := List.mem_map.1 hr
      exact ⟨rfl, rfl⟩
    · exact ⟨(Dump.loadMem_fresh (by simp) r hr).plain, (Dump.loadMem_fresh (by simp) r hr).watch⟩

theorem createAlias_ok {s : Sim} (hs : Sound s) (hp : PlentyOfMemory s) {al rd n : U32} {k : Nat} {t : Region}
    (hf : FirstCover s.regions rd 1 k t) (hpl : t.isAlias = false) :
    createAlias al rd n s = .ok () { bumpHeap s 2 2 with regions := s.regions ++ [newAlias al rd n k t] } := by
  have ht : Target s rd 1 k t (rd.toNat - t.baseAddress.toNat) := ⟨k, t, hf, by simp [hpl]⟩
  have h1 := hp s.heap.next
  have h2 := hp (s.heap.next + 1)
  simp only [createAlias, M.bind_apply, throwingZeroedMalloc_eq, M.tryCatch_apply]
  simp only [h1, Bool.false_eq_true, if_false, find_bump, find_target hs ht]
  simp [regionAt, bumpHeap, hf.1, h2, addRegionToTail, newAlias]
  omega

/-- An alias and the memory it leads to. -/
def Leads (s : Sim) (x : U32 × U32 × U32) (b : U32 × List U8) : Prop :=
  ∀ (o n : Nat) (a a' : U32), 0 < n → o + n ≤ b.2.length → a.toNat = x.1.toNat + o → a'.toNat = x.2.2.toNat + o →
    ∃ i r off, Target s a n i r off ∧ Target s a' n i r off

theorem forall₂_get {α β : Type} {R : α → β → Prop} {xs : List α} {ys : List β} (h : List.Forall₂ R xs ys) {k : Nat} {y : β}
    (hk : ys[k]? = some y) : ∃ x, xs[k]? = some x ∧ R x y := by
  induction h generalizing k with
  | nil => simp at hk
  | cons h1 h2 ih =>
    cases k with
    | zero => simp at hk; subst hk; exact ⟨_, rfl, h1⟩
    | succ k => simpa using ih (by simpa using hk)

/-- Accesses inside what was there before come out as before. -/
def Keeps (s s' : Sim) : Prop :=
  ∀ (w : Width) (a : U32), Mapped s a w.bytes → Mapped s' a w.bytes ∧
    (∀ v s1, IMemory.read w a s = .ok v s1 → ∃ s2, IMemory.read w a s' = .ok v s2) ∧
    ∀ v, IMemory.write w a v s = .throw ⟨.busError, []⟩ s → IMemory.write w a v s' = .throw ⟨.busError, []⟩ s'

theorem keeps_grow {s : Sim} (hs : Sound s) (x : Region) (k : Nat) (l : Int) :
    Keeps s { bumpHeap s k l with regions := s.regions ++ [x] } := by
  intro w a hm
  obtain ⟨i, r, off, ht⟩ := target_of_mapped hs hm
  refine ⟨?_, ?_, ?_⟩
  · obtain ⟨q, hq, hc⟩ := hm
    exact ⟨q, List.mem_append_left _ hq, hc⟩
  · intro v s1 h
    have := read_grow (w := w) (x := x) (hp := (bumpHeap s k l).heap) (ht.hit hs)
    rw [h] at this
    exact ⟨_, this⟩
  · intro v h
    have := write_grow (w := w) (v := v) (x := x) (hp := (bumpHeap s k l).heap) (ht.hit hs)
    rw [h] at this
    exact this

/-- Creating the aliases. `mem` is what was there before all of them, `before` what those already created show. -/
theorem createAliases_ok {mem : List (U32 × List U8)} {xs : List (U32 × U32 × U32)} {shown : List (U32 × List U8)}
    (hx : List.Forall₂ (AliasShows mem) xs shown) : ∀ {s : Sim} {before : List (U32 × List U8)}, Sound s → PlentyOfMemory s →
    Laid s.regions (mem ++ before) → (∀ k q, k < mem.length → s.regions[k]? = some q → q.isAlias = false) →
    Spec.Disjoint (mem ++ before ++ shown) →
    ∃ s', createAliases xs s = .ok () s' ∧ Sound s' ∧ Laid s'.regions (mem ++ before ++ shown) ∧ s'.hits = s.hits ∧
      (∃ zs, s'.regions = s.regions ++ zs ∧ ∀ z ∈ zs, z.watch = []) ∧ Keeps s s' ∧
      ∀ (k : Nat) x, xs[k]? = some x → ∃ j t, j < mem.length ∧ s.regions[j]? = some t ∧ t.baseAddress.toNat ≤ x.2.2.toNat ∧
        x.2.2.toNat < t.baseAddress.toNat + t.size.toNat ∧
        s'.regions[mem.length + before.length + k]? = some (newAlias x.1 x.2.2 x.2.1 j t) := by
  induction hx with
  | nil =>
    intro s before hs hp hl hpl hd
    exact ⟨s, rfl, hs, by simpa using hl, rfl, ⟨[], by simp, by simp⟩, fun w a hm => ⟨hm, fun v s1 h => ⟨s1, h⟩, fun v h => h⟩, by simp⟩
  | @cons x b xs shown h1 h2 ih =>
    intro s before hs hp hl hpl hd
    obtain ⟨r, hr, c1, c2, rfl⟩ := h1
    obtain ⟨j, hj, rfl⟩ := List.mem_iff_getElem.1 hr
    have hj' : (mem ++ before)[j]? = some mem[j] := by
      rw [List.getElem?_append_left hj]; exact List.getElem?_eq_getElem hj
    have hd0 : Spec.Disjoint (mem ++ before) := (List.pairwise_append.1 hd).1
    obtain ⟨t, g1, g2, g3, g4⟩ := hl.first hd0 hj' (a := x.2.2) (n := 1) (by omega) c1 (by omega)
    have hta : t.isAlias = false := hpl j t hj g1
    have hc := createAlias_ok hs hp (al := x.1) (n := x.2.1) g4 hta
    have ht : Target s x.2.2 1 j t (x.2.2.toNat - t.baseAddress.toNat) := ⟨j, t, g4, by simp [hta]⟩
    obtain ⟨hok, hsz⟩ := aliasOK_new (al := x.1) (n := x.2.1) (ht.info hs) g4.2.1
    have hs1 : Sound { bumpHeap s 2 2 with regions := s.regions ++ [newAlias x.1 x.2.2 x.2.1 j t] } :=
      hs.append rfl (by simpa [newAlias] using hok)
    have hlen : s.regions.length = mem.length + before.length := by
      have := congrArg List.length hl; simpa using this
    have hl1 : Laid (s.regions ++ [newAlias x.1 x.2.2 x.2.1 j t])
        (mem ++ (before ++ [(x.1, (mem[j].2.drop (x.2.2.toNat - mem[j].1.toNat)).take x.2.1.toNat)])) := by
      unfold Laid at hl ⊢
      rw [List.map_append, hl, ← List.append_assoc, List.map_append (l₁ := mem ++ before)]
      congr 1
      simp only [List.map_cons, List.map_nil, List.cons.injEq, Prod.mk.injEq, and_true]
      refine ⟨rfl, ?_⟩
      rw [hsz, List.length_take, List.length_drop, g2, g3]
    have e := ih (s := { bumpHeap s 2 2 with regions := s.regions ++ [newAlias x.1 x.2.2 x.2.1 j t] })
      (before := before ++ [(x.1, (mem[j].2.drop (x.2.2.toNat - mem[j].1.toNat)).take x.2.1.toNat)]) hs1 ?_ hl1 ?_ ?_
    · obtain ⟨s', k1, k2, k3, k4, ⟨zs, k5, k5'⟩, kk, k6⟩ := e
      refine ⟨s', ?_, k2, by simpa using k3, k4, ⟨newAlias x.1 x.2.2 x.2.1 j t :: zs, by rw [k5]; simp, List.forall_mem_cons.2 ⟨rfl, k5'⟩⟩, ?_, ?_⟩
      · unfold createAliases
        rw [M.bind_apply, M.tryCatch_apply, hc]
        exact k1
      · intro w a hm
        obtain ⟨u1, u2, u3⟩ := keeps_grow hs (newAlias x.1 x.2.2 x.2.1 j t) 2 2 w a hm
        obtain ⟨v1, v2, v3⟩ := kk w a u1
        refine ⟨v1, fun v s1 h => ?_, fun v h => v3 v (u3 v h)⟩
        obtain ⟨s2, h⟩ := u2 v s1 h
        exact v2 v s2 h
      · intro k y hk
        cases k with
        | zero =>
          simp at hk
          subst hk
          refine ⟨j, t, hj, g1, g4.2.1.1, by have := g4.2.1.2; omega, ?_⟩
          rw [k5, Nat.add_zero, ← hlen]
          simp
        | succ k =>
          obtain ⟨j', t', m1, m2, m3, m4, m5⟩ := k6 k y (by simpa using hk)
          refine ⟨j', t', m1, ?_, m3, m4, ?_⟩
          · rwa [List.getElem?_append_left (by omega)] at m2
          · rw [← m5]; congr 1; simp; omega
    · exact hp
    · intro k q hk hq
      exact hpl k q hk (by rwa [List.getElem?_append_left (by omega)] at hq)
    · simpa using hd

theorem aliases_lead {mem : List (U32 × List U8)} {xs : List (U32 × U32 × U32)} {shown : List (U32 × List U8)} {s : Sim}
    (hx : List.Forall₂ (AliasShows mem) xs shown) (hs : Sound s) (hp : PlentyOfMemory s) (hl : Laid s.regions mem)
    (hpl : ∀ r ∈ s.regions, r.isAlias = false) (hd : Spec.Disjoint (mem ++ shown)) :
    ∃ s', createAliases xs s = .ok () s' ∧ Sound s' ∧ (Unwatched s → Unwatched s') ∧ Laid s'.regions (mem ++ shown) ∧ (∃ zs, s'.regions = s.regions ++ zs) ∧ Keeps s s' ∧
      ∀ (k : Nat) x b, xs[k]? = some x → shown[k]? = some b → Leads s' x b := by
  obtain ⟨s', h1, h2, h3, h4, ⟨zs, h5, h5'⟩, hkk, h6⟩ := createAliases_ok hx (s := s) (before := []) hs hp (by simpa using hl)
    (fun k q _ hq => hpl q (List.mem_of_getElem? hq)) (by simpa using hd)
  rw [List.append_nil] at h3
  refine ⟨s', h1, h2, ?_, h3, ⟨zs, h5⟩, hkk, ?_⟩
  · rintro ⟨u1, u2⟩
    refine ⟨fun r hr => ?_, by rw [h4]; exact u2⟩
    rw [h5] at hr
    exact (List.mem_append.1 hr).elim (u1 r) (h5' r)
  intro k x b hk hb o n a a' hn ho ha ha'
  obtain ⟨x', e, r, hr, c1, c2, rfl⟩ := forall₂_get hx hb
  rw [hk] at e
  cases e
  simp only [List.length_take, List.length_drop] at ho
  obtain ⟨j, t, m1, m2, m3, m4, m5⟩ := h6 k x hk
  obtain ⟨q, f1, f2, f3, f4⟩ := h3.first hd (k := mem.length + k) (a := a) (n := n) (b := (x.1, (r.2.drop (x.2.2.toNat - r.1.toNat)).take x.2.1.toNat))
    (by rw [List.getElem?_append_right (by omega), Nat.add_sub_cancel_left]; exact hb) hn (by show x.1.toNat ≤ _; omega)
    (by simp only [List.length_take, List.length_drop]; omega)
  rw [List.length_nil, Nat.add_zero] at m5
  rw [m5] at f1
  cases f1
  have hjs : s'.regions[j]? = some t := by
    rw [h5, List.getElem?_append_left (List.getElem?_eq_some_iff.1 m2).1]; exact m2
  obtain ⟨b', hb', e1, e2⟩ := hl.get' m2
  -- the region of `t` is that of `r`: both contain the address the alias leads to
  have hrb : r = b' := by
    obtain ⟨i, hi, rfl⟩ := List.mem_iff_getElem.1 hr
    have s1 : (byteIn mem[i] x.2.2).isSome := Dump.byteIn_iff.2 ⟨c1, c2⟩
    have s2 : (byteIn b' x.2.2).isSome := Dump.byteIn_iff.2 ⟨by rw [← e1]; exact m3, by rw [← e1, ← e2]; exact m4⟩
    have hi' : mem[i]? = some mem[i] := List.getElem?_eq_getElem hi
    have hdm : Spec.Disjoint mem := (List.pairwise_append.1 hd).1
    rcases Nat.lt_trichotomy i j with h | h | h
    · rcases Dump.pairwise_get hdm hi' hb' h x.2.2 with h | h
      · rw [h] at s1; cases s1
      · rw [h] at s2; cases s2
    · subst h; rw [hi'] at hb'; exact Option.some.inj hb'
    · rcases Dump.pairwise_get hdm hb' hi' h x.2.2 with h | h
      · rw [h] at s2; cases s2
      · rw [h] at s1; cases s1
  subst hrb
  obtain ⟨t', u1, u2, u3, u4⟩ := h3.first hd (k := j) (a := a') (n := n) (b := r)
    (by rw [List.getElem?_append_left m1]; exact hb') hn (by omega) (by omega)
  rw [hjs] at u1
  cases u1
  have hta := hpl t (List.mem_of_getElem? m2)
  refine ⟨j, t, x.2.2.toNat + o - t.baseAddress.toNat, ⟨_, _, f4, ?_⟩, ⟨j, t, u4, ?_⟩⟩
  · simp only [newAlias, if_true]
    exact ⟨trivial, hjs, by omega⟩
  · simp only [hta, Bool.false_eq_true, if_false]
    exact ⟨trivial, trivial, by omega⟩

/-- All blocks are mapped, access by access. -/
theorem Laid.mapped {s : Sim} {mem : List (U32 × List U8)} (h : Laid s.regions mem) {b : U32 × List U8} (hb : b ∈ mem) {a : U32} {n : Nat}
    (h1 : b.1.toNat ≤ a.toNat) (h2 : a.toNat + n ≤ b.1.toNat + b.2.length) : Mapped s a n := by
  obtain ⟨k, hk, rfl⟩ := List.mem_iff_getElem.1 hb
  obtain ⟨q, hq, e1, e2⟩ := h.get (List.getElem?_eq_getElem hk)
  exact ⟨q, List.mem_of_getElem? hq, by unfold Covers; rw [e1, e2]; exact ⟨h1, h2⟩⟩

theorem bytes_pos (w : Width) : 0 < w.bytes := by cases w <;> decide

/-- What aliases show, beside blocks that are in memory. -/
theorem aliases_hold {mem : List (U32 × List U8)} {xs : List (U32 × U32 × U32)} {shown : List (U32 × List U8)} {s : Sim}
    (hx : List.Forall₂ (AliasShows mem) xs shown) (hs : Sound s) (hp : PlentyOfMemory s) (hl : Laid s.regions mem)
    (hpl : ∀ r ∈ s.regions, r.isAlias = false) (hd : Spec.Disjoint (mem ++ shown)) (hf : ∀ r ∈ mem, Fits r) (hm : HoldsBlocks s mem) :
    ∃ s', createAliases xs s = .ok () s' ∧ (Sound s' ∧ (Unwatched s → Unwatched s') ∧ Laid s'.regions (mem ++ shown) ∧ (∃ zs, s'.regions = s.regions ++ zs)) ∧ HoldsBlocks s' (mem ++ shown) ∧
      (∀ bs, (∀ b ∈ bs, b ∈ mem) → RefusesWrites s bs → RefusesWrites s' bs ∧
        ∀ x b, (x, b) ∈ xs.zip shown → AliasShows bs x b → RefusesWrites s' [b]) ∧
      ∀ x b, (x, b) ∈ xs.zip shown → Leads s' x b := by
  obtain ⟨s', h1, h2, h3, h3', h3'', h4, h5⟩ := aliases_lead hx hs hp hl hpl hd
  have hzip : ∀ x b, (x, b) ∈ xs.zip shown → ∃ k : Nat, xs[k]? = some x ∧ shown[k]? = some b := by
    intro x b h
    obtain ⟨k, hk, e⟩ := List.mem_iff_getElem.1 h
    rw [List.length_zip] at hk
    rw [List.getElem_zip] at e
    cases e
    exact ⟨k, List.getElem?_eq_getElem _, List.getElem?_eq_getElem _⟩
  have hm' : HoldsBlocks s' mem := by
    intro r hr w a c1 c2
    obtain ⟨v, s1, e, hv⟩ := hm r hr w a c1 c2
    obtain ⟨s2, e'⟩ := (h4 w a (hl.mapped hr c1 c2)).2.1 v s1 e
    exact ⟨v, s2, e', hv⟩
  have haddr : ∀ (r : U32 × List U8) (x : U32 × U32 × U32) (o n : Nat), Fits r → r.1.toNat ≤ x.2.2.toNat → x.2.2.toNat < r.1.toNat + r.2.length →
      0 < n → o + n ≤ ((r.2.drop (x.2.2.toNat - r.1.toNat)).take x.2.1.toNat).length →
      (x.2.2 + BitVec.ofNat 32 o).toNat = x.2.2.toNat + o ∧ r.1.toNat ≤ (x.2.2 + BitVec.ofNat 32 o).toNat ∧
      (x.2.2 + BitVec.ofNat 32 o).toNat + n ≤ r.1.toNat + r.2.length := by
    intro r x o n hfr c1 c2 hn ho
    unfold Fits at hfr
    simp only [List.length_take, List.length_drop] at ho
    have : (x.2.2 + BitVec.ofNat 32 o).toNat = x.2.2.toNat + o := by
      simp only [BitVec.toNat_add, BitVec.toNat_ofNat]; omega
    omega
  refine ⟨s', h1, ⟨h2, h3, h3', h3''⟩, ?_, ?_, ?_⟩
  · intro b hb w a c1 c2
    rcases List.mem_append.1 hb with hb | hb
    · exact hm' b hb w a c1 c2
    · obtain ⟨k, hk, rfl⟩ := List.mem_iff_getElem.1 hb
      obtain ⟨x, hxk, r, hr, d1, d2, e⟩ := forall₂_get hx (List.getElem?_eq_getElem hk)
      have hlead := h5 k x _ hxk (List.getElem?_eq_getElem hk)
      rw [e] at c1 c2 hlead ⊢
      simp only at c1 c2
      obtain ⟨e1, e2, e3⟩ := haddr r x (a.toNat - x.1.toNat) w.bytes (hf r hr) d1 d2 (bytes_pos w) (by omega)
      obtain ⟨i, t, off, t1, t2⟩ := hlead (a.toNat - x.1.toNat) w.bytes a (x.2.2 + BitVec.ofNat 32 (a.toNat - x.1.toNat)) (bytes_pos w)
        (by simp only; omega) (by omega) e1
      obtain ⟨v, s1, e4, hv⟩ := hm' r hr w _ e2 e3
      refine ⟨v, s1, by rw [same_target_read h2 t1 t2]; exact e4, fun j hj => ?_⟩
      have hlt : a.toNat - x.1.toNat + j < x.2.1.toNat := by simp only [List.length_take, List.length_drop] at c2; omega
      show ((r.2.drop (x.2.2.toNat - r.1.toNat)).take x.2.1.toNat)[a.toNat - x.1.toNat + j]? = _
      rw [← hv j hj, List.getElem?_take_of_lt hlt, List.getElem?_drop]
      congr 1
      omega
  · intro bs hbs hw
    have hw' : RefusesWrites s' bs := by
      intro r hr w a v c1 c2
      exact (h4 w a (hl.mapped (hbs r hr) c1 c2)).2.2 v (hw r hr w a v c1 c2)
    refine ⟨hw', ?_⟩
    rintro x b hxb ⟨r, hr, d1, d2, rfl⟩ b' hb' w a v c1 c2
    rw [List.mem_singleton.1 hb'] at c1 c2
    simp only at c1 c2
    obtain ⟨k, k1, k2⟩ := hzip x _ hxb
    obtain ⟨e1, e2, e3⟩ := haddr r x (a.toNat - x.1.toNat) w.bytes (hf r (hbs r hr)) d1 d2 (bytes_pos w) (by omega)
    obtain ⟨i, t, off, t1, t2⟩ := h5 k x _ k1 k2 (a.toNat - x.1.toNat) w.bytes a (x.2.2 + BitVec.ofNat 32 (a.toNat - x.1.toNat)) (bytes_pos w)
        (by simp only; omega) (by omega) e1
    rw [same_target_write h2 t1 t2]
    exact hw' r hr w _ v e2 e3
  · intro x b hxb
    obtain ⟨k, k1, k2⟩ := hzip x b hxb
    exact h5 k x b k1 k2

end Verif.CommandLine
