import Verif.Lemmas.Effects
import Verif.Spec.MemMap
/- The memory map text. -/
namespace Verif.MemSim
open Verif Spec

theorem digit_val (n : Nat) (h : n < 16) : digitVal (hexDigitUpper n) = some n := by
  have : ∀ n < 16, digitVal (hexDigitUpper n) = some n := by decide
  exact this n h

theorem hexVal_append (a b : Str) : hexVal (a ++ b) = b.foldl (fun acc b => acc * 16 + (digitVal b).getD 0) (hexVal a) := by
  simp [hexVal]

theorem hexUpper_spec : ∀ (fuel n : Nat), n < 16 ^ fuel → 0 < fuel →
    hexUpper fuel n ≠ [] ∧ (∀ b ∈ hexUpper fuel n, digitVal b ≠ none) ∧ hexVal (hexUpper fuel n) = n ∧
    ((hexUpper fuel n).head? = some 48 → n = 0) ∧ (n = 0 → (hexUpper fuel n).length = 1) ∧
    (hexUpper fuel n).length ≤ fuel := by
  intro fuel
  induction fuel with
  | zero => intro n _ h; omega
  | succ f ih =>
    intro n hn _
    unfold hexUpper
    by_cases h : n < 16
    · rw [if_pos h]
      have hd := digit_val n h
      refine ⟨by simp, by simp [hd], by simp [hexVal, hd], ?_, by simp, by simp⟩
      intro he
      simp only [List.head?_cons, Option.some.injEq] at he
      rw [he] at hd
      have : digitVal 48 = some 0 := by decide
      rw [this] at hd
      simpa using hd.symm
    · rw [if_neg h]
      have hf : 0 < f := by
        rcases Nat.eq_zero_or_pos f with rfl | h0
        · simp at hn; omega
        · exact h0
      have hlt : n / 16 < 16 ^ f := by
        rw [Nat.pow_succ] at hn
        exact Nat.div_lt_of_lt_mul (by omega)
      obtain ⟨i1, i2, i3, i4, i5, i6⟩ := ih (n / 16) hlt hf
      have hd := digit_val (n % 16) (Nat.mod_lt _ (by decide))
      refine ⟨by simp, ?_, ?_, ?_, by omega, by simp; omega⟩
      · intro b hb
        rcases List.mem_append.1 hb with hb | hb
        · exact i2 b hb
        · simp at hb; rw [hb, hd]; simp
      · rw [hexVal_append, i3]
        simp [hd]
        omega
      · intro he
        have : (hexUpper f (n / 16)).head? = some 48 := by
          cases hx : hexUpper f (n / 16) with
          | nil => exact absurd hx i1
          | cons x xs => rw [hx] at he; simpa using he
        have := i4 this
        omega

theorem fmtX_isHex (x : U32) : IsHex (fmtX x) x.toNat ∧ (fmtX x).length ≤ 8 := by
  obtain ⟨h1, h2, h3, h4, h5, h6⟩ := hexUpper_spec 8 x.toNat (by have := x.isLt; omega) (by decide)
  exact ⟨⟨h1, h2, h3, fun h => h5 (h4 h)⟩, h6⟩

theorem xmlElement_is (r : Region) : IsElement ⟨r.isReadOnly, r.baseAddress, r.size⟩ (xmlElement r) := by
  refine ⟨fmtX r.baseAddress, fmtX r.size, (fmtX_isHex _).1, (fmtX_isHex _).1, ?_⟩
  unfold xmlElement
  have e1 : asc "<memory type=\"flash\" start=\"0x" = asc "<memory type=\"" ++ asc "flash" ++ asc "\" start=\"0x" := by decide
  have e2 : asc "<memory type=\"ram\" start=\"0x" = asc "<memory type=\"" ++ asc "ram" ++ asc "\" start=\"0x" := by decide
  have e3 : asc "\"> <property name=\"blocksize\">1</property></memory>" =
    asc "\">" ++ asc " <property name=\"blocksize\">1</property>" ++ asc "</memory>" := by decide
  have e4 : asc "\"></memory>" = asc "\">" ++ asc "</memory>" := by decide
  cases h : r.isReadOnly
  · simp only [Bool.false_eq_true, if_false, e2, e4, List.append_assoc, List.nil_append]
  · simp only [if_true, e1, e3, List.append_assoc]

theorem xmlElement_length (r : Region) : (xmlElement r).length ≤ xmlExampleLine.length := by
  have h1 := (fmtX_isHex r.baseAddress).2
  have h2 := (fmtX_isHex r.size).2
  have e : xmlExampleLine.length = 109 := by decide
  have a1 : (asc "<memory type=\"").length = 14 := by decide
  have a2 : (asc "flash").length = 5 := by decide
  have a3 : (asc "ram").length = 3 := by decide
  have a4 : (asc "\" start=\"0x").length = 11 := by decide
  have a5 : (asc "\" length=\"0x").length = 12 := by decide
  have a6 : (asc "\">").length = 2 := by decide
  have a7 : (asc " <property name=\"blocksize\">1</property>").length = 40 := by decide
  have a8 : (asc "</memory>").length = 9 := by decide
  rw [e]
  unfold xmlElement
  cases r.isReadOnly <;> simp only [List.length_append, a1, a2, a3, a4, a5, a6, a7, a8, Bool.false_eq_true, if_false,
    if_true, List.length_nil] <;> omega

theorem toInt32_small {n : Nat} (h : n < 2 ^ 31) : toInt32 n = n := by
  unfold toInt32
  rw [BitVec.toInt_eq_toNat_of_lt]
  · simp; omega
  · simp; omega

/-- The loop, when there is room for one example line per region. -/
theorem appendRegions_eq : ∀ (rs : List Region) (text : Str) (size : Nat), size < 2 ^ 31 →
    rs.length * (xmlExampleLine.length + 1) ≤ size →
    ∃ left, appendMemoryMapRegions rs text size = some (text ++ (rs.map xmlElement).flatten, left) ∧
      size ≤ left + rs.length * (xmlExampleLine.length + 1)
  | [], text, size, _, _ => ⟨size, by simp [appendMemoryMapRegions], by simp⟩
  | r :: rs, text, size, h1, h2 => by
    have hl := xmlElement_length r
    simp only [List.length_cons, Nat.add_mul, Nat.one_mul] at h2
    unfold appendMemoryMapRegions
    simp only
    rw [toInt32_small h1, if_pos (by omega)]
    obtain ⟨left, e1, e2⟩ := appendRegions_eq rs (text ++ xmlElement r) (size - (xmlElement r).length) (by omega) (by omega)
    refine ⟨left, by simp [e1], ?_⟩
    simp only [List.length_cons, Nat.add_mul, Nat.one_mul]
    omega

/-- The room that is left after the header. -/
def mapRoom (s : Sim) : Nat :=
  1 + (xmlTrailer.length + 1) + s.regions.length * (xmlExampleLine.length + 1)

/-- It fits an `int` exactly up to this number of regions. -/
theorem room_iff {s : Sim} : mapRoom s < 2 ^ 31 ↔ s.regions.length ≤ 19522578 := by
  have e : xmlExampleLine.length = 109 := by decide
  have e2 : xmlTrailer.length = 13 := by decide
  unfold mapRoom
  rw [e, e2]
  omega

theorem xml_eq {s : Sim} (h : mapRoom s < 2 ^ 31) :
    getMemoryMapXML s =
      if s.heap.fails s.heap.next then .throw ⟨.outOfMemory, []⟩ (bumpHeap s 1 0)
      else .ok (xmlHeader ++ (s.regions.map xmlElement).flatten ++ xmlTrailer)
        { bumpHeap s 1 (if s.xml.isNone then 1 else 0) with
          xml := some (xmlHeader ++ (s.regions.map xmlElement).flatten ++ xmlTrailer) } := by
  unfold mapRoom at h
  unfold getMemoryMapXML
  simp only [M.bind_apply, M.get_apply, realloc]
  by_cases hf : s.heap.fails s.heap.next = true
  · simp [hf, bumpHeap]
  · simp only [hf, Bool.false_eq_true, if_false, if_true]
    rw [if_neg (by omega)]
    obtain ⟨left, e1, e2⟩ := appendRegions_eq s.regions xmlHeader
      (xmlHeader.length + 1 + (xmlTrailer.length + 1) + s.regions.length * (xmlExampleLine.length + 1) - xmlHeader.length)
      (by omega) (by omega)
    rw [e1]
    simp only
    rw [if_neg (by omega)]
    simp [bumpHeap]

theorem appendRegions_some : ∀ {rs : List Region} {text text' : Str} {size left : Nat},
    appendMemoryMapRegions rs text size = some (text', left) → text' = text ++ (rs.map xmlElement).flatten
  | [], text, text', size, left, h => by
    simp only [appendMemoryMapRegions, Option.some.injEq, Prod.mk.injEq] at h
    simp [← h.1]
  | r :: rs, text, text', size, left, h => by
    unfold appendMemoryMapRegions at h
    simp only at h
    split at h
    · rw [appendRegions_some h]; simp
    · simp at h

/-- Whatever the number of regions: a text that is returned is the whole map, and it is kept. -/
theorem xml_ok {s s' : Sim} {t : Str} (h : getMemoryMapXML s = .ok t s') :
    t = xmlHeader ++ (s.regions.map xmlElement).flatten ++ xmlTrailer ∧ s'.xml = some t ∧ s'.regions = s.regions ∧
      s'.hits = s.hits := by
  unfold getMemoryMapXML at h
  simp only [M.bind_apply, M.get_apply, realloc] at h
  by_cases hf : s.heap.fails s.heap.next = true
  · simp [hf] at h
  · simp only [hf, Bool.false_eq_true, if_false, if_true] at h
    rw [if_neg (by omega)] at h
    cases he : appendMemoryMapRegions s.regions xmlHeader
      (xmlHeader.length + 1 + (xmlTrailer.length + 1) + s.regions.length * (xmlExampleLine.length + 1) - xmlHeader.length) with
    | none => simp [he] at h
    | some p =>
      obtain ⟨text, size⟩ := p
      simp only [he] at h
      by_cases hl : size < xmlTrailer.length + 1
      · simp [hl] at h
      · rw [if_neg hl] at h
        simp only [M.bind_apply, M.modify_apply, M.pure_apply, Out.ok.injEq] at h
        obtain ⟨rfl, rfl⟩ := h
        exact ⟨by rw [appendRegions_some he], rfl, rfl, rfl⟩

/-- Whatever the number of regions: only the allocation fails. -/
theorem xml_throw {s s' : Sim} {x : Exn} (h : getMemoryMapXML s = .throw x s') : s' = bumpHeap s 1 0 := by
  unfold getMemoryMapXML at h
  simp only [M.bind_apply, M.get_apply, realloc] at h
  by_cases hf : s.heap.fails s.heap.next = true
  · simp [hf] at h
    rw [← h.2]; simp [bumpHeap]
  · simp only [hf, Bool.false_eq_true, if_false, if_true] at h
    rw [if_neg (by omega)] at h
    cases he : appendMemoryMapRegions s.regions xmlHeader
      (xmlHeader.length + 1 + (xmlTrailer.length + 1) + s.regions.length * (xmlExampleLine.length + 1) - xmlHeader.length) with
    | none => simp [he] at h
    | some p =>
      obtain ⟨text, size⟩ := p
      simp only [he] at h
      by_cases hl : size < xmlTrailer.length + 1
      · simp [hl] at h
      · rw [if_neg hl] at h
        simp [M.bind_apply] at h

/-! ### Reading the map back -/

theorem delim {a a' x x' : Str} {d : U8} (ha : d ∉ a) (ha' : d ∉ a') (h : a ++ d :: x = a' ++ d :: x') : a = a' ∧ x = x' := by
  induction a generalizing a' with
  | nil =>
    cases a' with
    | nil => simpa using h
    | cons b a' => simp at h; simp [h.1] at ha'
  | cons b a ih =>
    cases a' with
    | nil => simp at h; simp [h.1] at ha
    | cons b' a' =>
      simp only [List.cons_append, List.cons.injEq] at h
      simp only [List.mem_cons, not_or] at ha ha'
      obtain ⟨e1, e2⟩ := ih ha.2 ha'.2 h.2
      exact ⟨by rw [h.1, e1], e2⟩

theorem hex_no_quote {t : Str} {n : Nat} (h : IsHex t n) : (34 : U8) ∉ t := fun hm => h.2.1 34 hm (by decide)

/-- An element is recovered from any text that begins with it. -/
theorem element_unique {e e' : Entry} {t t' x x' : Str} (h : IsElement e t) (h' : IsElement e' t') (he : t ++ x = t' ++ x') :
    e = e' ∧ x = x' := by
  obtain ⟨a, b, h1, h2, rfl⟩ := h
  obtain ⟨a', b', h1', h2', rfl⟩ := h'
  have q1 : asc "\" length=\"0x" = 34 :: asc " length=\"0x" := by decide
  have q2 : asc "\"> <property name=\"blocksize\">1</property></memory>" = 34 :: asc "> <property name=\"blocksize\">1</property></memory>" := by decide
  have q3 : asc "\"></memory>" = 34 :: asc "></memory>" := by decide
  have p1 : asc "<memory type=\"flash\" start=\"0x" = asc "<memory type=\"" ++ 102 :: asc "lash\" start=\"0x" := by decide
  have p2 : asc "<memory type=\"ram\" start=\"0x" = asc "<memory type=\"" ++ 114 :: asc "am\" start=\"0x" := by decide
  have fin : ∀ {f : Bool}, e.flash = f → e'.flash = f → a = a' → b = b' → e = e' := by
    intro f e1 e2 e3 e4
    subst e3; subst e4
    have s1 : e.start = e'.start := BitVec.eq_of_toNat_eq (h1.2.2.1.symm.trans h1'.2.2.1)
    have s2 : e.length = e'.length := BitVec.eq_of_toNat_eq (h2.2.2.1.symm.trans h2'.2.2.1)
    cases e; cases e'; simp_all
  cases hf : e.flash <;> cases hf' : e'.flash <;> simp only [hf, hf', Bool.false_eq_true, if_false, if_true] at he
  · simp only [List.append_assoc, List.append_cancel_left_eq] at he
    simp only [q1, q3, List.cons_append] at he
    obtain ⟨e1, e2⟩ := delim (hex_no_quote h1) (hex_no_quote h1') he
    simp only [List.append_cancel_left_eq] at e2
    obtain ⟨e3, e4⟩ := delim (hex_no_quote h2) (hex_no_quote h2') e2
    exact ⟨fin hf hf' e1 e3, by simpa using e4⟩
  · simp only [p1, p2, List.append_assoc, List.append_cancel_left_eq, List.cons_append, List.cons.injEq] at he
    exact absurd he.1 (by decide)
  · simp only [p1, p2, List.append_assoc, List.append_cancel_left_eq, List.cons_append, List.cons.injEq] at he
    exact absurd he.1 (by decide)
  · simp only [List.append_assoc, List.append_cancel_left_eq] at he
    simp only [q1, q2, List.cons_append] at he
    obtain ⟨e1, e2⟩ := delim (hex_no_quote h1) (hex_no_quote h1') he
    simp only [List.append_cancel_left_eq] at e2
    obtain ⟨e3, e4⟩ := delim (hex_no_quote h2) (hex_no_quote h2') e2
    exact ⟨fin hf hf' e1 e3, by simpa using e4⟩

theorem element_not_tail {e : Entry} {t x : Str} (h : IsElement e t) (he : t ++ x = mapTail) : False := by
  obtain ⟨a, b, -, -, rfl⟩ := h
  have m : mapTail = 60 :: 47 :: asc "memory-map>" := by decide
  have p1 : asc "<memory type=\"flash\" start=\"0x" = 60 :: 109 :: asc "emory type=\"flash\" start=\"0x" := by decide
  have p2 : asc "<memory type=\"ram\" start=\"0x" = 60 :: 109 :: asc "emory type=\"ram\" start=\"0x" := by decide
  rw [m] at he
  cases hf : e.flash <;> simp only [hf, Bool.false_eq_true, if_false, if_true, p1, p2, List.append_assoc, List.cons_append,
    List.cons.injEq] at he <;> exact absurd he.2.1 (by decide)

theorem elements_unique : ∀ {es es' : List Entry} {ts ts' : List Str}, List.Forall₂ IsElement es ts →
    List.Forall₂ IsElement es' ts' → ts.flatten ++ mapTail = ts'.flatten ++ mapTail → es = es'
  | _, _, _, _, .nil, .nil, _ => rfl
  | _, _, _, _, .nil, .cons h t, he => by
    simp only [List.flatten_nil, List.nil_append, List.flatten_cons, List.append_assoc] at he
    exact (element_not_tail h he.symm).elim
  | _, _, _, _, .cons h t, .nil, he => by
    simp only [List.flatten_nil, List.nil_append, List.flatten_cons, List.append_assoc] at he
    exact (element_not_tail h he).elim
  | _, _, _, _, .cons h t, .cons h' t', he => by
    simp only [List.flatten_cons, List.append_assoc] at he
    obtain ⟨e1, e2⟩ := element_unique h h' he
    rw [e1, elements_unique t t' e2]

/-! ### Read-only flags of aliases -/

theorem insync_of {s s' : Sim} (h : InSync s) (hr : List.Forall₂ (fun r r' => shape r' = shape r ∧ r'.isReadOnly = r.isReadOnly)
    s.regions s'.regions) : InSync s' := by
  intro q hq ha i t hi ht
  obtain ⟨k, hk⟩ := List.getElem?_of_mem hq
  have flip : List.Forall₂ (fun r' r => shape r' = shape r ∧ r'.isReadOnly = r.isReadOnly) s'.regions s.regions := by
    clear h hq hk ht
    generalize s.regions = xs at hr
    generalize s'.regions = ys at hr
    induction hr with
    | nil => exact .nil
    | cons h t ih => exact .cons h ih
  obtain ⟨q0, e1, e2, e3⟩ := forall₂_get flip hk
  obtain ⟨t0, f1, f2, f3⟩ := forall₂_get flip ht
  obtain ⟨-, -, g3, g4, -⟩ := shape_eq e2
  rw [e3, f3]
  exact h q0 (List.mem_of_getElem? e1) (g3 ▸ ha) i t0 (g4 ▸ hi) f1

theorem insync_same {s s' : Sim} (h : InSync s) (hr : s'.regions = s.regions) : InSync s' :=
  insync_of h (hr ▸ forall₂_refl (fun _ => ⟨rfl, rfl⟩) _)

theorem insync_set {s s' : Sim} (h : InSync s) {i : Nat} {r r' : Region} (hr : s.regions[i]? = some r)
    (hs : s'.regions = s.regions.set i r') (e1 : shape r' = shape r) (e2 : r'.isReadOnly = r.isReadOnly) : InSync s' :=
  insync_of h (hs ▸ forall₂_set (fun _ => ⟨rfl, rfl⟩) hr ⟨e1, e2⟩)

theorem _root_.Verif.MemSim.Quiet.insync {s s' : Sim} (h : InSync s) (hq : Quiet s s') : InSync s' := by
  refine insync_of h ?_
  have : ∀ {xs ys : List Region}, List.Forall₂ AccessRel xs ys →
      List.Forall₂ (fun r r' => shape r' = shape r ∧ r'.isReadOnly = r.isReadOnly) xs ys := by
    intro xs ys h
    induction h with
    | nil => exact .nil
    | cons h t ih => exact .cons ⟨h.shape, h.ro⟩ ih
  exact this hq.regions

def NoAlias (s : Sim) : Prop := ∀ q ∈ s.regions, q.isAlias = false

theorem NoAlias.insync {s : Sim} (h : NoAlias s) : InSync s := by
  intro q hq ha
  rw [h q hq] at ha; cases ha

theorem noAlias_flash {img : List U8} {n : U32} {s : Sim} (h : NoAlias s) :
    Post (createRegionsFromFlashImage img n s) NoAlias := by
  have hcr : ∀ (b n : U32) (s : Sim), NoAlias s → Post (createRegion b n s) NoAlias := by
    intro b n s h
    rcases createRegion_cases b n s with ⟨k, e⟩ | e <;> rw [e]
    · exact h
    · intro q hq
      rcases List.mem_append.1 hq with hq | hq
      · exact h q hq
      · simp at hq; rw [hq]; rfl
  have hset : ∀ (s s' : Sim) (i : Nat) (r r' : Region), NoAlias s → s.regions[i]? = some r → r'.isAlias = r.isAlias →
      s'.regions = s.regions.set i r' → NoAlias s' := by
    intro s s' i r r' h hr ha hs q hq
    rw [hs] at hq
    rcases List.mem_or_eq_of_mem_set hq with hq | rfl
    · exact h q hq
    · rw [ha]; exact h r (List.mem_of_getElem? hr)
  unfold createRegionsFromFlashImage
  split
  · exact h
  · refine Post.bind (hcr _ _ _ h) ?_
    intro _ s1 _ h1
    unfold loadFromFlashImage
    refine Post.bind (P := NoAlias) (loadWords_data.mono ?_) ?_
    · intro t hd q hq
      obtain ⟨k, hk⟩ := List.getElem?_of_mem hq
      have := forall₂_length hd.regions
      have hlt := (List.getElem?_eq_some_iff.1 hk).1
      obtain ⟨q', f1, d, f2⟩ := forall₂_get hd.regions (List.getElem?_eq_getElem (l := s1.regions) (i := k) (by omega))
      rw [hk] at f1; cases f1
      rw [f2]
      exact h1 (s1.regions[k]'(by omega)) (List.getElem_mem _)
    · intro _ s2 _ h2
      refine Post.tryCatch ?_ ?_
      · refine Post.bind ?_ ?_
        · rcases makeRegionReadOnly_cases FLASH_BASE_ADDRESS s2 with e | ⟨u, e⟩ | ⟨j, a', q, -, hq, ⟨-, e⟩ | ⟨-, e⟩⟩ <;> rw [e]
          · exact h2
          · trivial
          · exact hset _ _ j q { q with isReadOnly := true } h2 hq rfl rfl
          · exact hset _ _ j q { q with isReadOnly := true, readCounts := some _ } h2 hq rfl rfl
        · intro _ s3 _ h3
          split
          · trivial
          · exact hcr _ _ _ h3
      · intro e s4 h4
        refine Post.bind ((freeLast_map s4).mono ?_) (fun _ _ _ h => h)
        rintro t ⟨-, g⟩ q hq
        rw [g] at hq
        exact h4 q ((List.dropLast_sublist _).mem hq)

theorem call_insync {c : Call} {s s' : Sim} (hs : Sound s) (h : InSync s) (hc : NoLateMark c s) (hst : Step c s s') :
    InSync s' := by
  refine Post.step hst ?_
  cases c with
  | createRegion b n =>
    rcases createRegion_cases b n s with ⟨k, e⟩ | e <;> simp only [Call.run, e]
    · exact insync_same h rfl
    · intro q hq ha i t hi ht
      rcases List.mem_append.1 hq with hq | hq
      · obtain ⟨k, hk⟩ := List.getElem?_of_mem hq
        obtain ⟨j, t', e1, e2, -⟩ := hs.alias hk ha
        rw [hi] at e1; cases e1
        simp only at ht
        rw [List.getElem?_append_left (List.getElem?_eq_some_iff.1 e2).1] at ht
        exact h q hq ha i t hi ht
      · simp at hq; rw [hq] at ha; cases ha
  | createAlias al rd n =>
    rcases createAlias_cases al rd n s with ⟨k, e⟩ | ⟨k, e, -⟩ | ⟨j, a', t, -, hj, e⟩ | ⟨u, e, -⟩ <;> simp only [Call.run, e]
    · exact insync_same h rfl
    · exact insync_same h rfl
    · intro q hq ha i t' hi ht
      simp only at ht
      rcases List.mem_append.1 hq with hq | hq
      · obtain ⟨k, hk⟩ := List.getElem?_of_mem hq
        obtain ⟨j, t'', e1, e2, -⟩ := hs.alias hk ha
        rw [hi] at e1; cases e1
        rw [List.getElem?_append_left (List.getElem?_eq_some_iff.1 e2).1] at ht
        exact h q hq ha i t' hi ht
      · simp only [List.mem_singleton] at hq
        subst hq
        simp only [newAlias, Option.some.injEq] at hi
        subst hi
        rw [List.getElem?_append_left (List.getElem?_eq_some_iff.1 hj).1, hj] at ht
        cases ht
        rfl
    · trivial
  | makeReadOnly b =>
    rcases makeRegionReadOnly_cases b s with e | ⟨u, e⟩ | ⟨j, a', r, hf, hr, ⟨-, e⟩ | ⟨-, e⟩⟩ <;> simp only [Call.run, e]
    · exact h
    · trivial
    all_goals
      have hreach := reaches_find hf
      have hplain : r.isAlias = false := by
        by_cases hm : Mapped s b 1
        · obtain ⟨i, r', off, ht⟩ := target_of_mapped hs hm
          rw [find_target hs ht] at hf
          cases hf
          rw [(ht.info hs).get] at hr; cases hr
          exact (ht.info hs).plain
        · rw [find_unmapped hm] at hf; cases hf
      intro q hq ha i t hi ht
      have hq' : q ∈ s.regions := by
        rcases List.mem_or_eq_of_mem_set hq with hq | rfl
        · exact hq
        · simp only [hplain] at ha; cases ha
      have hne : j ≠ i := by
        rintro rfl
        exact hc j hreach q hq' ha hi
      simp only at ht
      rw [List.getElem?_set_ne hne] at ht
      exact h q hq' ha i t hi ht
  | load b img n => exact loadWords_post.mono fun _ hq => hq.insync h
  | flashImage img n => exact (noAlias_flash hc).mono fun _ h => h.insync
  | read w a => exact Post.bind (read_post.mono fun _ hq => hq.quiet.insync h) (fun _ _ _ h => h)
  | write w a v =>
    simp only [Call.run, write_eq]
    exact writeN_post.mono fun _ hq => hq.1.insync h
  | memoryMap =>
    refine Post.bind ?_ (fun _ _ _ h => h)
    rcases xml_raw s with e | e | ⟨text, e⟩ <;> rw [e]
    · exact insync_same h rfl
    · trivial
    · exact insync_same h rfl
  | mapForWrite a n => exact Post.bind (gdp_post.mono fun _ hq => hq.quiet.insync h) (fun _ _ _ h => h)
  | mapForRead a n => exact Post.bind (gdp_post.mono fun _ hq => hq.quiet.insync h) (fun _ _ _ h => h)
  | readCount a =>
    refine Post.bind ?_ (fun _ _ _ h => h)
    rcases readCount_raw a s with ⟨v, e⟩ | e | ⟨u, e⟩ <;> rw [e]
    · exact h
    · exact h
    · trivial
  | setBreakpoint a n =>
    rcases setWatchpoint_raw a n WATCHPOINT_BREAKPOINT s with ⟨k, e⟩ | ⟨x, k, e⟩ | ⟨u, e⟩ | ⟨i, r, ws, al, k, hr, e, -⟩ <;>
      simp only [Call.run, setHardwareBreakpoint, e]
    · exact insync_same h rfl
    · exact insync_same h rfl
    · trivial
    · exact insync_set (r' := { r with watch := ws, watchAlloc := al }) h hr rfl rfl rfl
  | setWatchpoint a n t =>
    rcases setWatchpoint_raw a n t s with ⟨k, e⟩ | ⟨x, k, e⟩ | ⟨u, e⟩ | ⟨i, r, ws, al, k, hr, e, -⟩ <;>
      simp only [Call.run, setHardwareWatchpoint, e]
    · exact insync_same h rfl
    · exact insync_same h rfl
    · trivial
    · exact insync_set (r' := { r with watch := ws, watchAlloc := al }) h hr rfl rfl rfl
  | clearBreakpoint a n =>
    rcases clearWatchpoint_raw a n WATCHPOINT_BREAKPOINT s with e | ⟨x, e⟩ | ⟨u, e⟩ | ⟨i, r, ws, hr, e⟩ <;>
      simp only [Call.run, clearHardwareBreakpoint, e]
    · exact h
    · exact h
    · trivial
    · exact insync_set (r' := { r with watch := ws }) h hr rfl rfl rfl
  | clearWatchpoint a n t =>
    rcases clearWatchpoint_raw a n t s with e | ⟨x, e⟩ | ⟨u, e⟩ | ⟨i, r, ws, hr, e⟩ <;>
      simp only [Call.run, clearHardwareWatchpoint, e]
    · exact h
    · exact h
    · trivial
    · exact insync_set (r' := { r with watch := ws }) h hr rfl rfl rfl
  | wasHit => exact insync_same h rfl
  | uninit => intro q hq; cases hq

theorem hist_insync {cs : List Call} {s s' : Sim} (h : HistWith (fun c s => Careful c s ∧ NoLateMark c s) s cs s')
    (hs : Sound s) (hi : InSync s) : Sound s' ∧ InSync s' := by
  induction h with
  | nil s => exact ⟨hs, hi⟩
  | cons hc h t ih => exact ih (step_sound hs hc.1 h) (call_insync hs hi hc.2 h)

theorem hexUpper_pos : ∀ (fuel n : Nat), 0 < fuel → 0 < (hexUpper fuel n).length
  | f + 1, n, _ => by
    unfold hexUpper
    split <;> simp

theorem xmlElement_min (r : Region) : 53 ≤ (xmlElement r).length := by
  have h1 := hexUpper_pos 8 r.baseAddress.toNat (by decide)
  have h2 := hexUpper_pos 8 r.size.toNat (by decide)
  have a1 : (asc "<memory type=\"").length = 14 := by decide
  have a2 : (asc "flash").length = 5 := by decide
  have a3 : (asc "ram").length = 3 := by decide
  have a4 : (asc "\" start=\"0x").length = 11 := by decide
  have a5 : (asc "\" length=\"0x").length = 12 := by decide
  have a6 : (asc "\">").length = 2 := by decide
  have a7 : (asc " <property name=\"blocksize\">1</property>").length = 40 := by decide
  have a8 : (asc "</memory>").length = 9 := by decide
  unfold xmlElement fmtX
  cases r.isReadOnly <;> simp only [List.length_append, a1, a2, a3, a4, a5, a6, a7, a8, Bool.false_eq_true, if_false,
    if_true, List.length_nil] <;> omega

/-- A number below the `int` value of another one. -/
theorem toInt32_above {e n : Nat} (h : (e : Int) < toInt32 n) : e < n % 2 ^ 32 ∧ n % 2 ^ 32 < 2 ^ 31 := by
  unfold toInt32 at h
  rw [BitVec.toInt_eq_toNat_cond] at h
  simp only [BitVec.toNat_ofNat] at h
  split at h <;> omega

/-- The loop ends only if the room, as an `int`, is not used up. -/
theorem appendRegions_room : ∀ {rs : List Region} {text : Str} {size : Nat} {p : Str × Nat}, rs ≠ [] →
    appendMemoryMapRegions rs text size = some p → rs.length * 53 < size % 2 ^ 32 ∧ size % 2 ^ 32 < 2 ^ 31
  | [], _, _, _, h, _ => absurd rfl h
  | r :: rs, text, size, p, _, h => by
    unfold appendMemoryMapRegions at h
    simp only at h
    by_cases hc : ((xmlElement r).length : Int) < toInt32 size
    · rw [if_pos hc] at h
      have hm := xmlElement_min r
      obtain ⟨h1, h2⟩ := toInt32_above hc
      refine ⟨?_, h2⟩
      by_cases hr : rs = []
      · subst hr; simp; omega
      · have ih := appendRegions_room hr h
        simp only [List.length_cons, Nat.add_mul, Nat.one_mul]
        omega
    · rw [if_neg hc] at h; cases h

/-- With more regions than that the assertion on the room fails. -/
theorem xml_beyond {s : Sim} (hn : 19522578 < s.regions.length) (hf : s.heap.fails s.heap.next = false) :
    getMemoryMapXML s = .ub .assertFailed := by
  have e : xmlExampleLine.length = 109 := by decide
  have e2 : xmlTrailer.length = 13 := by decide
  unfold getMemoryMapXML
  simp only [M.bind_apply, M.get_apply, realloc, hf, Bool.false_eq_true, if_false, if_true]
  rw [if_neg (by omega)]
  cases he : appendMemoryMapRegions s.regions xmlHeader
    (xmlHeader.length + 1 + (xmlTrailer.length + 1) + s.regions.length * (xmlExampleLine.length + 1) - xmlHeader.length) with
  | none => rfl
  | some p =>
    have hr : s.regions ≠ [] := by intro h; rw [h] at hn; simp at hn
    obtain ⟨h1, h2⟩ := appendRegions_room hr he
    rw [e, e2] at h1 h2
    have h3 : s.regions.length < 40518560 := by omega
    generalize hz : xmlHeader.length + 1 + (13 + 1) + s.regions.length * (109 + 1) - xmlHeader.length = z at h1 h2
    have h4 : z < 2 * 2 ^ 32 := by omega
    by_cases h5 : z < 2 ^ 32
    · rw [Nat.mod_eq_of_lt h5] at h1 h2
      omega
    · have h6 : z % 2 ^ 32 = z - 2 ^ 32 := by omega
      omega

end Verif.MemSim
