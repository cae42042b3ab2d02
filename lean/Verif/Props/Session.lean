import Verif.Lemmas.Session
import Verif.Props.MemMap
import Verif.Props.Main
import Verif.Props.Platform
import Verif.Props.MemAccess
/-
C79, C80: a whole debugging session, from the command line on.
-/
namespace Verif.Props
open Verif MemSim Spec CommandLine Platform Main

/-- What every point of a session has in common. -/
theorem session_ok {args : List Str} {os : List Opt} {p q : Prog} {w : World} {cs : List PCall} {pl : Plat}
    (hs : Spelled args os) (hq : startUp args p = .ok () q) (ha : AliasesLoaded (aliases os) q.host.mem)
    (h : PHist (platform w q) cs pl) : OK pl ∧ InSync pl.mem ∧ entries pl.mem = entries q.host.mem ∧
      pl.mem.regions.length = q.host.mem.regions.length := by
  obtain ⟨h1, h2, h3, h4⟩ := started hs hq ha
  have h0 : OK (platform w q) := ⟨h1, h2, h4⟩
  have hk := hist_skeleton h0 h
  exact ⟨hist_ok h0 h, skeleton_insync hk h3, skeleton_entries hk, skeleton_length hk⟩

/-! ### C79 -/

theorem holds_covers (r : Region) (a : U32) (n : Nat) :
    (Entry.holds ⟨r.isReadOnly, r.baseAddress, r.size⟩ a n = true) ↔ Covers r a n := by
  simp [Entry.holds, Covers]

theorem mapped_iff {s : Sim} {a : U32} {n : Nat} : Mapped s a n ↔ ∃ e ∈ entries s, e.holds a n = true := by
  constructor
  · rintro ⟨r, hr, hc⟩
    exact ⟨_, List.mem_map.2 ⟨r, hr, rfl⟩, (holds_covers r a n).2 hc⟩
  · rintro ⟨e, he, hh⟩
    obtain ⟨r, hr, rfl⟩ := List.mem_map.1 he
    exact ⟨r, hr, (holds_covers r a n).1 hh⟩

theorem find_first {a : U32} {n : Nat} : ∀ {rs : List Region} {e : Entry},
    (rs.map fun r => (⟨r.isReadOnly, r.baseAddress, r.size⟩ : Entry)).find? (fun e => e.holds a n) = some e →
    ∃ k q, FirstCover rs a n k q ∧ q.isReadOnly = e.flash
  | [], e, h => by cases h
  | r :: rs, e, h => by
    rw [List.map_cons, List.find?_cons] at h
    split at h
    · rename_i hh
      cases h
      exact ⟨0, r, ⟨rfl, (holds_covers r a n).1 hh, fun j hj => absurd hj (by omega)⟩, rfl⟩
    · rename_i hh
      obtain ⟨k, q, ⟨h1, h2, h3⟩, h4⟩ := find_first h
      refine ⟨k + 1, q, ⟨by simpa using h1, h2, ?_⟩, h4⟩
      intro j hj p' hp
      cases j with
      | zero =>
        cases hp
        intro hc
        rw [(holds_covers r a n).2 hc] at hh
        cases hh
      | succ j => exact h3 j (by omega) p' (by simpa using hp)

/-- The memory that the first matching region leads to has its read-only flag. -/
theorem target_ro {s : Sim} (hi : InSync s) {a : U32} {n k i off : Nat} {q r : Region} (hq : FirstCover s.regions a n k q)
    (ht : Target s a n i r off) : r.isReadOnly = q.isReadOnly := by
  obtain ⟨k', q', hq', hx⟩ := ht
  obtain ⟨rfl, rfl⟩ := hq.unique hq'
  cases ha : q.isAlias with
  | true =>
    simp only [ha, if_true] at hx
    exact (hi q (List.mem_of_getElem? hq.1) ha i r hx.1 hx.2.1).symm
  | false =>
    simp only [ha, Bool.false_eq_true, if_false] at hx
    rw [hx.2.1]

/-- C79. The memory map that GDB asks for at one point of the session tells which accesses are refused at any other point:
exactly the reads that lie in no entry, and the writes that lie in no entry or for which the first entry in which they
lie is listed as flash. -/
theorem C79_map_tells_access {args : List Str} {os : List Opt} {p q : Prog} {w : World} {cs cs' : List PCall} {p1 p1' p2 : Plat} {t : Str}
    {es : List Entry} (hs : Spelled args os) (hq : startUp args p = .ok () q) (ha : AliasesLoaded (aliases os) q.host.mem)
    (h1 : PHist (platform w q) cs p1) (ht : getDeviceMemoryMapXml p1 = .ok t p1')
    (hes : IsMap es t) (h2 : PHist (platform w q) cs' p2) (wd : Width) (a : U32) (v : BitVec wd.bits) :
    (Faults (.memRead wd a) p2 ↔ ¬ ∃ e ∈ es, e.holds a wd.bytes = true) ∧
    (Faults (.memWrite wd a v) p2 ↔ ∀ e, es.find? (fun e => e.holds a wd.bytes) = some e → e.flash = true) := by
  obtain ⟨-, -, k3, -⟩ := session_ok hs hq ha h1
  obtain ⟨⟨hso, hu, -⟩, m2, m3, -⟩ := session_ok hs hq ha h2
  have hee : es = entries p2.mem := by
    unfold getDeviceMemoryMapXml Platform.onMem at ht
    rw [M.zoom_apply] at ht
    cases e : getMemoryMapXML p1.mem with
    | ok t' s' =>
      rw [e] at ht
      cases ht
      rw [C18_text_determines_entries hes (C17_returned_map_is_exact e).1, k3, m3]
    | throw x s' => rw [e] at ht; cases ht
    | ub r => rw [e] at ht; cases ht
  subst hee
  constructor
  · rw [← mapped_iff]
    have hr := read_sat hso hu wd a
    obtain ⟨c1, -⟩ := C04_read_faults_iff_unmapped (w := wd) (a := a) hso
    rw [← c1]
    constructor
    · rintro ⟨e, s, hx⟩
      rw [hx] at hr
      exact ⟨[], s, by rw [hx, hr.2]⟩
    · rintro ⟨m, s, hx⟩; exact ⟨_, s, hx⟩
  · obtain ⟨c1, c2⟩ := C04_write_faults_iff (w := wd) (a := a) (v := v) hso
    have hf : Faults (.memWrite wd a v) p2 ↔ ∃ m s', IMemory.write wd a v p2.mem = .throw ⟨.busError, m⟩ s' := by
      constructor
      · rintro ⟨e, s, hx⟩
        obtain ⟨rfl, rfl⟩ := c2 e s hx
        exact ⟨[], _, hx⟩
      · rintro ⟨m, s, hx⟩; exact ⟨_, s, hx⟩
    rw [hf, c1]
    constructor
    · intro hor e he
      obtain ⟨k, r, hfc, hfl⟩ := find_first he
      rcases hor with hm | ⟨i, r', off, htg, hro⟩
      · exact absurd ⟨r, List.mem_of_getElem? hfc.1, hfc.2.1⟩ hm
      · rw [← hfl, ← target_ro m2 hfc htg, hro]
    · intro hall
      by_cases hm : Mapped p2.mem a wd.bytes
      · right
        obtain ⟨i, r, off, htg⟩ := target_of_mapped hso hm
        refine ⟨i, r, off, htg, ?_⟩
        cases he : (entries p2.mem).find? (fun e => e.holds a wd.bytes) with
        | none =>
          obtain ⟨e, hmem, hh⟩ := mapped_iff.1 hm
          exact absurd hh (by simpa using List.find?_eq_none.1 he e hmem)
        | some e =>
          obtain ⟨k, r', hfc, hfl⟩ := find_first he
          rw [target_ro m2 hfc htg, hfl]
          exact hall e he
      · exact .inl hm

/-- C79. At every point of the session GDB gets the map, always with the same entries, and the size it is told is the length
of that text; or it is told that memory is exhausted. Asking changes neither registers nor memory. -/
theorem C79_map_given {args : List Str} {os : List Opt} {p q : Prog} {w : World} {cs : List PCall} {pl : Plat}
    (hs : Spelled args os) (hq : startUp args p = .ok () q) (ha : AliasesLoaded (aliases os) q.host.mem) (hn : q.host.mem.regions.length ≤ 19522578)
    (h : PHist (platform w q) cs pl) :
    (pl.mem.heap.fails pl.mem.heap.next = false → ∃ t pl', IsMap (entries q.host.mem) t ∧ getDeviceMemoryMapXml pl = .ok t pl' ∧
      getDeviceMemoryMapXmlSize pl = .ok t.length pl' ∧ pl'.ctx = pl.ctx ∧ pl'.mem.regions = pl.mem.regions) ∧
    (pl.mem.heap.fails pl.mem.heap.next = true → ∃ pl', getDeviceMemoryMapXml pl = .throw ⟨.outOfMemory, []⟩ pl' ∧
      getDeviceMemoryMapXmlSize pl = .throw ⟨.outOfMemory, []⟩ pl' ∧ pl'.ctx = pl.ctx ∧ pl'.mem.regions = pl.mem.regions) := by
  obtain ⟨-, -, k3, k4⟩ := session_ok hs hq ha h
  obtain ⟨c1, c2⟩ := C17_map_lists_regions (s := pl.mem) (by omega)
  constructor
  · intro hf
    obtain ⟨t, s', e, hm, -, hr, -⟩ := c1 hf
    refine ⟨t, { pl with mem := s' }, by rw [← k3]; exact hm, ?_, ?_, rfl, hr⟩
    · unfold getDeviceMemoryMapXml Platform.onMem
      rw [M.zoom_apply, e]
    · unfold getDeviceMemoryMapXmlSize Platform.onMem
      rw [M.bind_apply, M.zoom_apply, e]
      rfl
  · intro hf
    obtain ⟨s', e, -, hr, -⟩ := c2 hf
    refine ⟨{ pl with mem := s' }, ?_, ?_, rfl, hr⟩
    · unfold getDeviceMemoryMapXml Platform.onMem
      rw [M.zoom_apply, e]
    · unfold getDeviceMemoryMapXmlSize Platform.onMem
      rw [M.bind_apply, M.zoom_apply, e]

/-! ### C80 -/

/-- C80, for start-ups in which every alias leads into memory of the image or the dump (as it does if none leads into the range of
one given before it, `noChain_loaded`), up to 19 522 578 blocks of memory, and as long as GDB asks for the faults it caused before there are 2^31 of them: whatever the files contained, whatever calls mri has made
so far (with whatever failures of input, output and the heap) and whatever packets it received, the next call has a defined
outcome. Missing: chained aliases, for which the claim is false, see the witness and `C80_defined_iff_partial`. -/
theorem C80_session_defined_partial {args : List Str} {os : List Opt} {p q : Prog} {w : World} {cs : List PCall} {pl : Plat}
    (hs : Spelled args os) (hq : startUp args p = .ok () q) (ha : AliasesLoaded (aliases os) q.host.mem) (hn : q.host.mem.regions.length ≤ 19522578)
    (h : PHist (platform w q) cs pl) (hf : pl.faults + 1 < 2 ^ 31) (c : PCall) (r : UB) : c.run pl ≠ .ub r := by
  intro hu
  obtain ⟨k1, -, -, k4⟩ := session_ok hs hq ha h
  have := call_safe (c := c) k1 (by omega) hf
  rw [hu] at this
  exact this

/-- `--alias 0x50000000 4 0x20000000 --alias 0x60000000 4 0x50000000 --ELF e --dump d` -/
def argsChain : List Str :=
  [asc "--alias", asc "0x50000000", asc "4", asc "0x20000000", asc "--alias", asc "0x60000000", asc "4", asc "0x50000000"] ++ argsElf

/-- Is the read undefined after this start-up? -/
def undefinedRead (o : Out Prog Unit) (a : U32) : Bool :=
  match o with
  | .ok _ q => match IMemory.read .w32 a q.host.mem with | .ub .outOfBounds => true | _ => false
  | _ => false

theorem undefinedRead_iff {o : Out Prog Unit} {a : U32} (h : undefinedRead o a = true) :
    ∃ q, o = .ok () q ∧ IMemory.read .w32 a q.host.mem = .ub .outOfBounds := by
  unfold undefinedRead at h
  split at h
  · rename_i q
    split at h
    · rename_i e; exact ⟨q, rfl, e⟩
    · cases h
  · cases h

/-- C80 is false of the code if an alias leads into another alias: start-up accepts it, and GDB's first read through it goes
outside of the simulated memory. -/
theorem C80_chained_alias_witness (w : World) : ∃ q, startUp argsChain progExample = .ok () q ∧
    (PCall.memRead .w32 0x60000000).run (platform w q) = .ub .outOfBounds := by
  obtain ⟨q, h1, h2⟩ := undefinedRead_iff (o := startUp argsChain progExample) (a := 0x60000000) (by decide +kernel)
  refine ⟨q, h1, ?_⟩
  have e : memRead .w32 0x60000000 (platform w q) = .ub .outOfBounds := memRead_ub h2
  exact M.bind_ub e

/-- C80: this is so for every alias of an alias. After every successful start-up, whatever the files and options were (with
loaded memory that ends within the address space): if an alias leads into the range of another one, and not into loaded
memory, GDB's first byte or word read at the start of this alias is undefined, unless something else is in the way. -/
theorem C80_chained_alias_always_escapes {args : List Str} {os : List Opt} {p q : Prog} {w : World} {k k' : Nat} {x y : Region} {wd : Width}
    (hs : Spelled args os) (hq : startUp args p = .ok () q)
    (hfit : ∀ r ∈ q.host.mem.regions, r.isAlias = false → r.baseAddress.toNat + r.size.toNat ≤ 2 ^ 32)
    (hx : FirstCover q.host.mem.regions x.baseAddress wd.bytes k x) (ha : x.isAlias = true)
    (hy : FirstCover q.host.mem.regions x.redirectAddress 1 k' y) (hya : y.isAlias = true) (hw : wd ≠ .w16) :
    ∃ u, (PCall.memRead wd x.baseAddress).run (platform w q) = .ub u := by
  obtain ⟨i, t, -, -, ⟨u, hu⟩, -⟩ := chained_escapes (started_resolved hs hq) hfit hx ha hy hya hw
  have e : memRead wd x.baseAddress (platform w q) = .ub u := memRead_ub hu
  exact ⟨u, M.bind_ub e⟩

/-- C80, exactly: after a successful start-up with loaded memory that ends within the address space and aliases none of which starts
inside of another block of memory, the session is defined, whatever is called, if and only if every alias leads into memory of
the image or the dump. (Always with up to 19 522 578 blocks of memory and as long as GDB asks for the faults it caused.) -/
theorem C80_defined_iff_partial {args : List Str} {os : List Opt} {p q : Prog} {w : World}
    (hs : Spelled args os) (hq : startUp args p = .ok () q) (hn : q.host.mem.regions.length ≤ 19522578)
    (hfit : ∀ r ∈ q.host.mem.regions, r.isAlias = false → r.baseAddress.toNat + r.size.toNat ≤ 2 ^ 32)
    (hown : ∀ (k : Nat) (r : Region), q.host.mem.regions[k]? = some r → r.isAlias = true → FirstCover q.host.mem.regions r.baseAddress 1 k r) :
    (∀ cs pl c r, PHist (platform w q) cs pl → pl.faults + 1 < 2 ^ 31 → PCall.run c pl ≠ .ub r) ↔
      AliasesLoaded (aliases os) q.host.mem := by
  constructor
  · intro hdef x hx
    obtain ⟨m, -, -, -, h4, -⟩ := started_stage hs hq
    obtain ⟨A, g1, g2, g3⟩ := aliases_regions h4
    obtain ⟨r, hr, hb, hrd⟩ := g3 x hx
    have ha := g2 r hr
    have hm : r ∈ q.host.mem.regions := by rw [g1]; exact List.mem_append_right _ hr
    obtain ⟨k, hk⟩ := List.mem_iff_getElem?.1 hm
    have hres := started_resolved hs hq k r hk
    rw [if_pos ha] at hres
    obtain ⟨k0, y, i, t, -, hy, -⟩ := hres
    cases hya : y.isAlias with
    | false => exact ⟨y, List.mem_of_getElem? hy.1, hya, by rw [← hrd]; exact hy.2.1⟩
    | true =>
      obtain ⟨u, hu⟩ := C80_chained_alias_always_escapes (w := w) (wd := .w8) hs hq hfit (hown k r hk ha) ha hy hya (by decide)
      exact absurd hu (hdef [] _ _ u (.nil _) (by simp [platform]))
  · intro ha cs pl c r h hf
    exact C80_session_defined_partial hs hq ha hn h hf c r

/-- For evaluating in the kernel: start-up succeeds, with memory inside the address space and aliases that do not start inside
of other blocks. -/
def ownStarts (o : Out Prog Unit) : Bool :=
  match o with
  | .ok _ q => decide (q.host.mem.regions.length ≤ 19522578) &&
      q.host.mem.regions.all (fun r => r.isAlias || decide (r.baseAddress.toNat + r.size.toNat ≤ 2 ^ 32)) &&
      (List.range q.host.mem.regions.length).all fun k => match q.host.mem.regions[k]? with
        | some r => !r.isAlias || decide (findFrom 0 q.host.mem.regions r.baseAddress 1 = some (k, r))
        | none => true
  | _ => false

theorem ownStarts_iff {o : Out Prog Unit} (h : ownStarts o = true) : ∃ q, o = .ok () q ∧ q.host.mem.regions.length ≤ 19522578 ∧
    (∀ r ∈ q.host.mem.regions, r.isAlias = false → r.baseAddress.toNat + r.size.toNat ≤ 2 ^ 32) ∧
    ∀ (k : Nat) (r : Region), q.host.mem.regions[k]? = some r → r.isAlias = true → FirstCover q.host.mem.regions r.baseAddress 1 k r := by
  unfold ownStarts at h
  split at h
  · rename_i q
    simp only [Bool.and_eq_true, List.all_eq_true, Bool.or_eq_true, decide_eq_true_eq] at h
    obtain ⟨⟨h1, h2⟩, h3⟩ := h
    refine ⟨q, rfl, h1, fun r hr hn => (h2 r hr).resolve_left (by rw [hn]; decide), fun k r hk ha => ?_⟩
    have := h3 k (List.mem_range.2 (List.getElem?_eq_some_iff.1 hk).1)
    rw [hk] at this
    simp only [ha, Bool.not_true, Bool.false_or, decide_eq_true_eq] at this
    exact findFrom_zero.1 this
  · cases h

/-- Both sides of the equivalence occur: a start-up with an alias of memory, and one with an alias of an alias. -/
example : (∃ q, startUp argsAlias progExample = .ok () q ∧ q.host.mem.regions.length ≤ 19522578 ∧
      (∀ r ∈ q.host.mem.regions, r.isAlias = false → r.baseAddress.toNat + r.size.toNat ≤ 2 ^ 32) ∧
      ∀ (k : Nat) (r : Region), q.host.mem.regions[k]? = some r → r.isAlias = true → FirstCover q.host.mem.regions r.baseAddress 1 k r) ∧
    ∃ q, startUp argsChain progExample = .ok () q ∧ q.host.mem.regions.length ≤ 19522578 ∧
      (∀ r ∈ q.host.mem.regions, r.isAlias = false → r.baseAddress.toNat + r.size.toNat ≤ 2 ^ 32) ∧
      ∀ (k : Nat) (r : Region), q.host.mem.regions[k]? = some r → r.isAlias = true → FirstCover q.host.mem.regions r.baseAddress 1 k r :=
  ⟨ownStarts_iff (by decide +kernel), ownStarts_iff (by decide +kernel)⟩

/-- Is there such an alias? -/
def hasChain (o : Out Prog Unit) : Bool :=
  match o with
  | .ok _ q => q.host.mem.regions.all (fun r => r.isAlias || decide (r.baseAddress.toNat + r.size.toNat ≤ 2 ^ 32)) &&
    q.host.mem.regions.any fun x => x.isAlias &&
      match findFrom 0 q.host.mem.regions x.baseAddress 4, findFrom 0 q.host.mem.regions x.redirectAddress 1 with
      | some (_, x'), some (_, y) => decide (x' = x) && y.isAlias
      | _, _ => false
  | _ => false

theorem hasChain_iff {o : Out Prog Unit} (h : hasChain o = true) : ∃ q k k' x y, o = .ok () q ∧
    (∀ r ∈ q.host.mem.regions, r.isAlias = false → r.baseAddress.toNat + r.size.toNat ≤ 2 ^ 32) ∧
    FirstCover q.host.mem.regions x.baseAddress 4 k x ∧ x.isAlias = true ∧
    FirstCover q.host.mem.regions x.redirectAddress 1 k' y ∧ y.isAlias = true := by
  unfold hasChain at h
  split at h
  · rename_i q
    simp only [Bool.and_eq_true, List.all_eq_true, List.any_eq_true, Bool.or_eq_true, decide_eq_true_eq] at h
    obtain ⟨h1, x, hx, ha, h⟩ := h
    split at h
    · rename_i k x' k' y e1 e2
      simp only [Bool.and_eq_true, decide_eq_true_eq] at h
      obtain ⟨rfl, hy⟩ := h
      exact ⟨q, k, k', x', y, rfl, fun r hr hn => (h1 r hr).resolve_left (by rw [hn]; decide), findFrom_zero.1 e1, ha, findFrom_zero.1 e2, hy⟩
    · cases h
  · cases h

/-- The start-up of the witness is such a case. -/
example : ∃ q k k' x y, startUp argsChain progExample = .ok () q ∧
    (∀ r ∈ q.host.mem.regions, r.isAlias = false → r.baseAddress.toNat + r.size.toNat ≤ 2 ^ 32) ∧
    FirstCover q.host.mem.regions x.baseAddress 4 k x ∧ x.isAlias = true ∧
    FirstCover q.host.mem.regions x.redirectAddress 1 k' y ∧ y.isAlias = true := hasChain_iff (by decide +kernel)

/-- Reads of an address where there is nothing, until the counter of faults is at its limit. -/
theorem many_faults {p : Plat} {a : U32} (h : ¬ Mapped p.mem a 1) (n : Nat) (hn : p.faults + n < 2 ^ 31) :
    ∃ pl, PHist p (List.replicate n (.memRead .w8 a)) pl ∧ pl.mem = p.mem ∧ pl.faults = p.faults + n := by
  induction n generalizing p with
  | zero => exact ⟨p, .nil p, rfl, rfl⟩
  | succ n ih =>
    have e : IMemory.read .w8 a p.mem = .throw ⟨.busError, []⟩ p.mem := by rw [read_eq, readN_unmapped (n := Width.w8.bytes) h]
    have em := memRead_fault e
    rw [if_pos (by omega)] at em
    obtain ⟨pl, h1, h2, h3⟩ := ih (p := { p with mem := p.mem, code := some .busError, faults := p.faults + 1 }) h (by simp only; omega)
    exact ⟨pl, .cons (.inl (M.bind_ok em)) h1, h2, by rw [h3]; simp only; omega⟩

/-- C80 is false of the code if GDB never asks about faults: the counter of refused accesses is an `int`, and the access
after 2147483647 refused ones overflows it. This is so after every start-up, with every address where there is nothing. -/
theorem C80_fault_counter_witness {q : Prog} {w : World} {a : U32} (h : ¬ Mapped q.host.mem a 1) :
    ∃ n pl, PHist (platform w q) (List.replicate n (.memRead .w8 a)) pl ∧ (PCall.memRead .w8 a).run pl = .ub .signedOverflow := by
  obtain ⟨pl, h1, h2, h3⟩ := many_faults (p := platform w q) h (2 ^ 31 - 1) (by simp [platform])
  refine ⟨_, pl, h1, M.bind_ub ?_⟩
  have e : IMemory.read .w8 a pl.mem = .throw ⟨.busError, []⟩ pl.mem := by
    rw [read_eq, readN_unmapped (n := Width.w8.bytes) (by rw [h2]; exact h)]
  rw [memRead_fault e, if_neg]
  have : (platform w q).faults = 0 := rfl
  omega

/-- For evaluating in the kernel: start-up succeeds, and there is nothing at this address. -/
def nothingAt (o : Out Prog Unit) (a : U32) : Bool :=
  match o with
  | .ok _ q => decide (¬ Mapped q.host.mem a 1)
  | _ => false

/-- There is nothing at 0x70000000 after this start-up. -/
example : ∃ q, startUp argsChain progExample = .ok () q ∧ ¬ Mapped q.host.mem 0x70000000 1 := by
  have h : nothingAt (startUp argsChain progExample) 0x70000000 = true := by decide +kernel
  unfold nothingAt at h
  split at h
  · rename_i q e
    exact ⟨q, e, by simpa using h⟩
  · cases h

/-- GDB reads through the alias, writes through it, writes to the image (refused), reads where there is nothing. -/
def sessionCalls : List PCall := [.memRead .w32 0x50, .memWrite .w8 0x51 7, .memWrite .w8 0x30000000 7, .memRead .w8 0x70000000]

/-- For evaluating in the kernel: the session works, the faults are counted, and the map can be allocated. -/
def sessionWorks (o : Out Prog Unit) : Bool :=
  match o with
  | .ok _ q =>
    decide (q.host.mem.regions.length ≤ 19522578) &&
    match runCalls sessionCalls (platform reading q) with
    | some pl => decide (pl.faults = 2) && !pl.mem.heap.fails pl.mem.heap.next
    | none => false
  | _ => false

theorem sessionWorks_iff {o : Out Prog Unit} (h : sessionWorks o = true) : ∃ q pl, o = .ok () q ∧ q.host.mem.regions.length ≤ 19522578 ∧
    PHist (platform reading q) sessionCalls pl ∧ pl.faults = 2 ∧ pl.mem.heap.fails pl.mem.heap.next = false := by
  unfold sessionWorks at h
  split at h
  · rename_i q
    simp only [Bool.and_eq_true, decide_eq_true_eq] at h
    obtain ⟨h1, h2⟩ := h
    split at h2
    · rename_i pl e
      simp only [Bool.and_eq_true, decide_eq_true_eq, Bool.not_eq_true'] at h2
      exact ⟨q, pl, rfl, h1, runCalls_hist e, h2.1, h2.2⟩
    · cases h2
  · cases h

/-- The hypotheses of C79 and C80 are met by the command line `argsAlias`, which has an alias of memory from the dump. -/
example : ∃ q pl t pl', Spelled argsAlias (.alias (asc "0x50") (asc "4") (asc "0x20000000") :: optsElf) ∧
    startUp argsAlias progExample = .ok () q ∧
    AliasesLoaded (aliases (.alias (asc "0x50") (asc "4") (asc "0x20000000") :: optsElf)) q.host.mem ∧
    q.host.mem.regions.length ≤ 19522578 ∧ PHist (platform reading q) sessionCalls pl ∧ pl.faults + 1 < 2 ^ 31 ∧
    getDeviceMemoryMapXml pl = .ok t pl' ∧ IsMap (entries q.host.mem) t := by
  obtain ⟨q, pl, h1, h2, h3, h4, h5⟩ := sessionWorks_iff (o := startUp argsAlias progExample) (by decide +kernel)
  have hc : NoAliasChain (aliases (.alias (asc "0x50") (asc "4") (asc "0x20000000") :: optsElf)) := by simp [NoAliasChain, aliases, optsElf]
  have hc := noChain_loaded spelledAlias h1 hc
  obtain ⟨t, pl', m1, m2, -⟩ := (C79_map_given spelledAlias h1 hc h2 h3).1 h5
  exact ⟨q, pl, t, pl', spelledAlias, h1, hc, h2, h3, by omega, m2, m1⟩

end Verif.Props
