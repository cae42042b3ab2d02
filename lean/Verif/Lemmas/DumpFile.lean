import Verif.Lemmas.Dump
/- Whole dump files. -/
namespace Verif.Dump
open Verif MemSim Spec

/-- The surroundings with one more file opened. -/
def opened (h : Host) : Host := { h with files := { h.files with next := h.files.next + 1, live := h.files.live + 1 } }

/-- A dump file as opened. -/
def start (h : Host) (bytes : Str) : D := { host := opened h, rest := bytes }

/-- The surroundings with one file closed. -/
def closed (h : Host) : Host := { h with files := { h.files with live := h.files.live - 1 } }

theorem readFile_eq {rd : Reader} {h : Host} {name bytes : Str} (hn : NextFile h name bytes) :
    readFile rd name h = match readDump rd (start h bytes) with
      | .ok _ d => .ok () (closed d.host)
      | .throw e d => .throw e (closed d.host)
      | .ub r => .ub r := by
  obtain ⟨f, h1, rfl⟩ := hn
  simp only [readFile, Host.fopen, M.bind_apply, h1]
  show (match readDump rd (start h f.bytes) with | .ok _ d => _ | .throw e d => _ | .ub r => _) = _
  cases readDump rd (start h f.bytes) <;> rfl

theorem foldl_or_unique {mem : List (U32 × List U8)} {a : U32} {b : U8} (acc : Option U8)
    (hu : ∀ q ∈ mem, (byteIn q a).isSome → byteIn q a = some b) (ha : acc = some b ∨ ∃ r ∈ mem, (byteIn r a).isSome) :
    mem.foldl (fun acc r => (byteIn r a).or acc) acc = some b := by
  induction mem generalizing acc with
  | nil =>
    rcases ha with ha | ⟨r, hr, -⟩
    · exact ha
    · cases hr
  | cons r mem ih =>
    simp only [List.foldl_cons]
    refine ih _ (fun q hq => hu q (by simp [hq])) ?_
    by_cases h : (byteIn r a).isSome
    · left; rw [hu r (by simp) h]; rfl
    · have hn : byteIn r a = none := by simpa using h
      rcases ha with ha | ⟨q, hq, hs⟩
      · left; rw [hn, ha]; rfl
      · right
        rcases List.mem_cons.1 hq with rfl | hq
        · exact absurd hs h
        · exact ⟨q, hq, hs⟩

theorem pairwise_get {α : Type} {R : α → α → Prop} {l : List α} (h : l.Pairwise R) {i j : Nat} {x y : α}
    (hi : l[i]? = some x) (hj : l[j]? = some y) (hij : i < j) : R x y := by
  obtain ⟨h1, rfl⟩ := List.getElem?_eq_some_iff.1 hi
  obtain ⟨h2, rfl⟩ := List.getElem?_eq_some_iff.1 hj
  exact (List.pairwise_iff_getElem.1 h) i j h1 h2 hij

theorem lastByte_disjoint {mem : List (U32 × List U8)} (hd : Spec.Disjoint mem) {k : Nat} {r : U32 × List U8} {a : U32} {b : U8}
    (hk : mem[k]? = some r) (hb : byteIn r a = some b) : lastByte mem a = some b := by
  refine foldl_or_unique none ?_ (.inr ⟨r, List.mem_of_getElem? hk, by rw [hb]; rfl⟩)
  intro q hq hs
  obtain ⟨j, hj, rfl⟩ := List.mem_iff_getElem.1 hq
  have hj' : mem[j]? = some mem[j] := List.getElem?_eq_getElem hj
  rcases Nat.lt_trichotomy j k with h | h | h
  · rcases pairwise_get hd hj' hk h a with h | h
    · rw [h] at hs; cases hs
    · rw [h] at hb; cases hb
  · subst h
    rw [hk] at hj'
    rw [← Option.some.inj hj', hb]
  · rcases pairwise_get hd hk hj' h a with h | h
    · rw [h] at hb; cases hb
    · rw [h] at hs; cases hs

/-- A read served by one of the new regions. -/
theorem readW_split {s : Sim} {old news : List Region} (h : Split s old news) {w : Width} {a : U32} {k : Nat} {q : Region}
    (hf : FirstCover news a w.bytes k q) (ho : ∀ p ∈ old, ¬ Covers p a w.bytes) :
    ∃ v s', IMemory.read w a s = .ok v s' ∧ ∀ j < w.bytes, q.data[a.toNat - q.baseAddress.toNat + j]? = some (byteOf v j) := by
  have hs := sound_append h
  have ht := h.target hf ho
  have hq := h.fresh q hf.mem
  have : ∃ v s', IMemory.read w a s = .ok v s' := by
    have h0 : scanAt q (a.toNat - q.baseAddress.toNat) w.bytes READING = (0, false) := by simp [scanAt, hq.watch, scanWatch]
    rw [read_eq, readN_eq hs ht]
    simp only [h0, Nat.add_zero, Bool.false_eq_true, if_false]
    rw [if_neg (by have := h.hits; omega)]
    exact ⟨_, _, rfl⟩
  obtain ⟨v, s', e⟩ := this
  exact ⟨v, s', e, read_bytes hs ht e⟩

theorem news_get {mem : List (U32 × List U8)} {k : Nat} {r : U32 × List U8} (hl : ∀ r ∈ mem, r.2.length < 2 ^ 32)
    (hk : mem[k]? = some r) : ∃ q, (loadMem [] mem)[k]? = some q ∧ q.baseAddress = r.1 ∧ q.size.toNat = r.2.length := by
  have h := congrArg (fun l => l[k]?) (loadMem_shape (mem := mem) (rs := []))
  simp only [List.map_nil, List.nil_append, List.getElem?_map, hk, Option.map_some] at h
  cases hq : (loadMem [] mem)[k]? with
  | none => rw [hq] at h; cases h
  | some q =>
    rw [hq] at h
    simp only [Option.map_some, Option.some.injEq, shape, newRegion, Prod.mk.injEq] at h
    refine ⟨q, rfl, h.1, ?_⟩
    rw [h.2.1]
    simp only [BitVec.toNat_ofNat]
    exact Nat.mod_eq_of_lt (hl r (List.mem_of_getElem? hk))

theorem news_get' {mem : List (U32 × List U8)} {k : Nat} {q : Region} (hl : ∀ r ∈ mem, r.2.length < 2 ^ 32)
    (hk : (loadMem [] mem)[k]? = some q) : ∃ r, mem[k]? = some r ∧ q.baseAddress = r.1 ∧ q.size.toNat = r.2.length := by
  have hlen : (loadMem [] mem).length = mem.length := by
    simpa using congrArg List.length (loadMem_shape (mem := mem) (rs := []))
  have hk' : k < mem.length := hlen ▸ (List.getElem?_eq_some_iff.1 hk).1
  obtain ⟨q', e, e1, e2⟩ := news_get hl (List.getElem?_eq_getElem hk')
  rw [hk] at e
  cases e
  exact ⟨_, List.getElem?_eq_getElem hk', e1, e2⟩

theorem byteIn_iff {r : U32 × List U8} {a : U32} :
    (byteIn r a).isSome ↔ r.1.toNat ≤ a.toNat ∧ a.toNat < r.1.toNat + r.2.length := by
  unfold byteIn
  split
  · rename_i h
    simp
    omega
  · rename_i h
    simp; omega

theorem firstCover_news {mem : List (U32 × List U8)} (hl : ∀ r ∈ mem, r.2.length < 2 ^ 32) (hd : Spec.Disjoint mem)
    {k : Nat} {r : U32 × List U8} {q : Region} (hk : mem[k]? = some r) (hq : (loadMem [] mem)[k]? = some q)
    (hb : q.baseAddress = r.1) (hz : q.size.toNat = r.2.length) {a : U32} {n : Nat} (hn : 0 < n) (h1 : r.1.toNat ≤ a.toNat)
    (h2 : a.toNat + n ≤ r.1.toNat + r.2.length) : FirstCover (loadMem [] mem) a n k q := by
  refine ⟨hq, ⟨by rw [hb]; exact h1, by rw [hb, hz]; exact h2⟩, fun j hj p hp hc => ?_⟩
  obtain ⟨x, hx, e1, e2⟩ := news_get' hl hp
  obtain ⟨c1, c2⟩ := hc
  rw [e1] at c1 c2
  rw [e2] at c2
  have s1 : (byteIn x a).isSome := byteIn_iff.2 ⟨c1, by omega⟩
  have s2 : (byteIn r a).isSome := byteIn_iff.2 ⟨h1, by omega⟩
  rcases pairwise_get hd hx hk hj a with h | h
  · rw [h] at s1; cases s1
  · rw [h] at s2; cases s2

theorem holds_blocks {s s0 : Sim} {mem : List (U32 × List U8)} (h : Split s s0.regions (loadMem [] mem)) (hd : Spec.Disjoint mem)
    (hf : Free s0 mem) (hl : ∀ r ∈ mem, r.2.length < 2 ^ 32) : HoldsBlocks s mem := by
  intro r hr w a h1 h2
  obtain ⟨k, hk, rfl⟩ := List.mem_iff_getElem.1 hr
  have hk' : mem[k]? = some mem[k] := List.getElem?_eq_getElem hk
  obtain ⟨q, hq, hb, hz⟩ := news_get hl hk'
  have hw : 0 < w.bytes := by cases w <;> decide
  have hfc := firstCover_news hl hd hk' hq hb hz hw h1 h2
  have s2 : (byteIn mem[k] a).isSome := byteIn_iff.2 ⟨h1, by omega⟩
  obtain ⟨v, s', e, hbytes⟩ := readW_split h (w := w) hfc (fun p hp hc => (hf _ hr).2 a s2 ⟨p, hp, hc.1, by have := hc.2; omega⟩)
  refine ⟨v, s', e, fun j hj => ?_⟩
  have hfit := (hf _ hr).1
  unfold Fits at hfit
  have hlt : a.toNat + j < 2 ^ 32 := by omega
  have ej : (a + BitVec.ofNat 32 j).toNat = a.toNat + j := by
    simp only [BitVec.toNat_add, BitVec.toNat_ofNat]; omega
  have hfj := firstCover_news hl hd hk' hq hb hz (a := a + BitVec.ofNat 32 j) (n := 1) (by omega) (by omega) (by omega)
  have hp := peek_firstCover hfj
  rw [peek_loadMem (by simp) (fun r hr => ⟨hl r hr, (hf r hr).1⟩)] at hp
  have hin : (byteIn mem[k] (a + BitVec.ofNat 32 j)).isSome := byteIn_iff.2 ⟨by omega, by omega⟩
  obtain ⟨b, hbb⟩ := Option.isSome_iff_exists.1 hin
  have hlast := lastByte_disjoint hd hk' hbb
  unfold lastByte at hlast
  simp only [peek] at hp
  rw [hlast] at hp
  have e0 : (a + BitVec.ofNat 32 j).toNat - q.baseAddress.toNat = a.toNat - q.baseAddress.toNat + j := by
    rw [ej, hb]; omega
  rw [e0, hbytes j hj] at hp
  rw [← hp, ← hbb]
  unfold byteIn
  rw [if_pos (by omega), ej]
  congr 1
  omega

theorem adds_blocks {s s0 : Sim} {mem : List (U32 × List U8)} (h : Split s s0.regions (loadMem [] mem))
    (hl : ∀ r ∈ mem, r.2.length < 2 ^ 32) : AddsBlocks s0 s mem := by
  refine ⟨_, h.regions, ?_⟩
  apply List.ext_getElem?
  intro k
  simp only [List.getElem?_map]
  cases hk : mem[k]? with
  | none =>
    have hlen : (loadMem [] mem).length = mem.length := by
      simpa using congrArg List.length (loadMem_shape (mem := mem) (rs := []))
    have := List.getElem?_eq_none_iff.1 hk
    rw [List.getElem?_eq_none (by omega)]
    rfl
  | some r =>
    obtain ⟨q, hq, hb, hz⟩ := news_get hl hk
    have hfr := h.fresh q (List.mem_of_getElem? hq)
    simp [hq, hb, hz, hfr.ro, hfr.plain]

/-- What loading does to everything but the registers. -/
structure Loaded (h h' : Host) (mem : List (U32 × List U8)) : Prop where
  split : Split h'.mem h.mem.regions (loadMem [] mem)
  live : h'.files.live = h.files.live
  heap : PlentyOfMemory h.mem → PlentyOfMemory h'.mem

theorem dump_at {h : Host} {df : DumpFile} {t : Str} (hr : Ready h) (hwf : df.WF) (hf : Free h.mem df.mem) :
    ∃ f d, t.length ≤ f ∧ readDump binaryRead (start h (encode df ++ t)) = readMemoryRegions binaryRead (f + 1) d ∧ d.rest = t ∧
      d.host.ctx = loadedRegs df h.ctx ∧ Loaded h (closed d.host) df.mem := by
  obtain ⟨f, h1, h2, h3⟩ := dump_eq (d := start h (encode df ++ t)) hwf hr.regs rfl hr.sound hr.heap hr.hits hf rfl
  refine ⟨f, _, h1, h2, rfl, rfl, ⟨h3, ?_, fun hp => hp⟩⟩
  simp [closed, D.put, D.afterHead, start, opened]

/-- A whole dump. -/
theorem dump_loads {h : Host} {name : Str} {df : DumpFile} (hr : Ready h) (hn : NextFile h name (encode df)) (hwf : df.WF)
    (hf : Free h.mem df.mem) :
    ∃ h', readBinary name h = .ok () h' ∧ h'.ctx = loadedRegs df h.ctx ∧ Loaded h h' df.mem := by
  obtain ⟨f, d, h1, h2, h3, h4, h5⟩ := dump_at (t := []) hr hwf hf
  refine ⟨closed d.host, ?_, h4, h5⟩
  unfold readBinary
  rw [readFile_eq hn]
  rw [List.append_nil] at h2
  rw [h2, regions_eof h3]

theorem last_byte {h h' : Host} {mem : List (U32 × List U8)} (hl : Loaded h h' mem) (hf : Free h.mem mem)
    (hm : ∀ r ∈ mem, r.2.length < 2 ^ 32) {a : U32} {b : U8} (hb : lastByte mem a = some b) :
    ∃ s', IMemory.read .w8 a h'.mem = .ok b s' := by
  refine read8_split hl.split ?_ (?_ : peek (loadMem [] mem) a = some b)
  · have : ∃ r ∈ mem, (byteIn r a).isSome := by
      by_cases hx : ∃ r ∈ mem, (byteIn r a).isSome
      · exact hx
      · have : ∀ (m : List (U32 × List U8)), (∀ r ∈ m, ¬ (byteIn r a).isSome) → m.foldl (fun acc r => (byteIn r a).or acc) none = none := by
          intro m
          induction m with
          | nil => simp
          | cons r m ih =>
            intro hm
            have h1 : byteIn r a = none := by simpa using hm r (by simp)
            simp only [List.foldl_cons, h1]
            exact ih fun q hq => hm q (by simp [hq])
        unfold lastByte at hb
        rw [this mem fun r hr hs => hx ⟨r, hr, hs⟩] at hb
        cases hb
    obtain ⟨r, hr, hs⟩ := this
    exact fun q hq hc => (hf r hr).2 a hs ⟨q, hq, hc⟩
  · rw [peek_loadMem (by simp) (fun r hr => ⟨hm r hr, (hf r hr).1⟩)]
    exact hb

end Verif.Dump
