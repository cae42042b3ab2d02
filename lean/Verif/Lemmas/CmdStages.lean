import Verif.Lemmas.CmdInit
/- The dump and the aliases. -/
namespace Verif.CommandLine
open Verif MemSim Spec Libc Elf

theorem onMemory_apply {m : M Host α} {p : Prog} (hm : p.memory = true) : onMemory m p =
    match m p.host with
    | .ok a h => .ok a { p with host := h }
    | .throw e h => .throw e { p with host := h }
    | .ub r => .ub r := by
  unfold onMemory
  rw [if_pos hm]
  simp only [onHost, M.zoom_apply]
  cases m p.host <;> rfl

/-- The surroundings after one `fopen` and `fclose`. -/
def peeked (h : Host) : Host := { h with files := { h.files with next := h.files.next + 1 } }

theorem prefix2 (bytes : Str) (a b : U8) : (bytes.take 4 ++ List.replicate (4 - (bytes.take 4).length) (0 : U8))[0]? = some a ∧
    (bytes.take 4 ++ List.replicate (4 - (bytes.take 4).length) (0 : U8))[1]? = some b → a ≠ 0 → b ≠ 0 → [a, b] <+: bytes := by
  rintro ⟨h1, h2⟩ ha hb
  match bytes with
  | [] => simp at h1; exact absurd h1.symm ha
  | [x] => simp at h1 h2; exact absurd h2.symm hb
  | x :: y :: t =>
    simp at h1 h2
    rw [h1, h2]
    exact ⟨t, rfl⟩

theorem prefix4 (bytes : Str) (a b c d : U8) (h1 : (bytes.take 4 ++ List.replicate (4 - (bytes.take 4).length) (0 : U8))[0]? = some a)
    (h2 : (bytes.take 4 ++ List.replicate (4 - (bytes.take 4).length) (0 : U8))[1]? = some b)
    (h3 : (bytes.take 4 ++ List.replicate (4 - (bytes.take 4).length) (0 : U8))[2]? = some c)
    (h4 : (bytes.take 4 ++ List.replicate (4 - (bytes.take 4).length) (0 : U8))[3]? = some d) (hb : b ≠ 0) (hc : c ≠ 0) (hd : d ≠ 0)
    (ha : a ≠ 0) : [a, b, c, d] <+: bytes := by
  match bytes with
  | [] => simp at h1; exact absurd h1.symm ha
  | [x] => simp at h2; exact absurd h2.symm hb
  | [x, y] => simp at h3; exact absurd h3.symm hc
  | [x, y, z] => simp at h4; exact absurd h4.symm hd
  | x :: y :: z :: w :: t =>
    simp at h1 h2 h3 h4
    rw [h1, h2, h3, h4]
    exact ⟨t, rfl⟩

/-- What is done with a dump whose first bytes are known. -/
theorem getFileType_some {p : Prog} {name : Str} {f : File} (ho : p.host.files.opens p.host.files.next name = some f) :
    getFileType name p = .ok (if [0x63, 0x43] <+: f.bytes then .crashCatcherBin else
      if asc "6343" <+: f.bytes then .crashCatcherHex else .gdbLog) { p with host := peeked p.host } := by
  have hfo : onHost (Host.fopen name) p = .ok (some f) { p with host := Dump.opened p.host } := by
    simp only [onHost, M.zoom_apply, Host.fopen, ho]; rfl
  have hfc : onHost Host.fclose { p with host := Dump.opened p.host } = .ok () { p with host := peeked p.host } := by
    simp only [onHost, M.zoom_apply, Host.fclose, M.modify_apply, Dump.opened, peeked, Int.add_sub_cancel]
  have hx : asc "6343" = [0x36, 0x33, 0x34, 0x33] := by decide
  have e1 : hiNibbleDigit 0x63 = some 0x36 := by decide
  have e2 : loNibbleDigit 0x63 = some 0x33 := by decide
  have e3 : hiNibbleDigit 0x43 = some 0x34 := by decide
  have e4 : loNibbleDigit 0x43 = some 0x33 := by decide
  have hbin : hasBinarySignature (f.bytes.take 4 ++ List.replicate (4 - (f.bytes.take 4).length) 0) = decide ([0x63, 0x43] <+: f.bytes) := by
    by_cases h : [0x63, 0x43] <+: f.bytes
    · obtain ⟨t, ht⟩ := h
      rw [decide_eq_true (p := [0x63, 0x43] <+: f.bytes) ⟨t, ht⟩, ← ht]
      simp [hasBinarySignature]
    · rw [decide_eq_false h]
      cases hb : hasBinarySignature (f.bytes.take 4 ++ List.replicate (4 - (f.bytes.take 4).length) 0) with
      | false => rfl
      | true =>
        simp only [hasBinarySignature, Bool.and_eq_true, decide_eq_true_eq] at hb
        exact absurd (prefix2 _ _ _ hb (by decide) (by decide)) h
  have hhex : hasHexSignature (f.bytes.take 4 ++ List.replicate (4 - (f.bytes.take 4).length) 0) = decide (asc "6343" <+: f.bytes) := by
    rw [hx]
    by_cases h : [0x36, 0x33, 0x34, 0x33] <+: f.bytes
    · obtain ⟨t, ht⟩ := h
      rw [decide_eq_true (p := [0x36, 0x33, 0x34, 0x33] <+: f.bytes) ⟨t, ht⟩, ← ht]
      unfold hasHexSignature; rw [e1, e2, e3, e4]; simp
    · rw [decide_eq_false h]
      cases hb : hasHexSignature (f.bytes.take 4 ++ List.replicate (4 - (f.bytes.take 4).length) 0) with
      | false => rfl
      | true =>
        simp only [hasHexSignature, Bool.and_eq_true, decide_eq_true_eq, e1, e2, e3, e4] at hb
        obtain ⟨⟨⟨h1, h2⟩, h3⟩, h4⟩ := hb
        exact absurd (prefix4 _ _ _ _ _ h1 h2 h3 h4 (by decide) (by decide) (by decide) (by decide)) h
  unfold getFileType
  rw [M.bind_ok hfo]
  simp only []
  rw [M.bind_ok hfc, hbin, hhex]
  simp only [decide_eq_true_eq]
  by_cases h : [0x63, 0x43] <+: f.bytes
  · rw [if_pos h, if_pos h]; rfl
  · rw [if_neg h, if_neg h]
    by_cases h' : asc "6343" <+: f.bytes
    · rw [if_pos h', if_pos h']; rfl
    · rw [if_neg h', if_neg h']; rfl

theorem loadDumpFile_some {p : Prog} {name : Str} {f : File} (hd : p.dump = some name)
    (ho : p.host.files.opens p.host.files.next name = some f) :
    loadDumpFile p = onMemory (if [0x63, 0x43] <+: f.bytes then Dump.readBinary name
      else if asc "6343" <+: f.bytes then Dump.readHex name else GdbLog.parse name) { p with host := peeked p.host } := by
  unfold loadDumpFile
  rw [M.bind_ok (show (M.get : M Prog Prog) p = .ok p p from rfl), hd]
  simp only []
  rw [M.bind_ok (getFileType_some ho)]
  by_cases h : [0x63, 0x43] <+: f.bytes
  · rw [if_pos h, if_pos h]; simp only [hd]
  · rw [if_neg h, if_neg h]
    by_cases h' : asc "6343" <+: f.bytes
    · rw [if_pos h', if_pos h']; simp only [hd]
    · rw [if_neg h', if_neg h']; simp only [hd]

theorem loadDumpFile_none {p : Prog} {name : Str} (hd : p.dump = some name)
    (ho : p.host.files.opens p.host.files.next name = none) :
    loadDumpFile p = .throw ⟨.file, (asc "Failed to open \"" ++ name ++ asc "\".").take 1023⟩ { p with host := peeked p.host } := by
  unfold loadDumpFile
  rw [M.bind_ok (show (M.get : M Prog Prog) p = .ok p p from rfl), hd]
  have hfo : onHost (Host.fopen name) p = .ok none { p with host := peeked p.host } := by
    simp only [onHost, M.zoom_apply, Host.fopen, ho]; rfl
  have hg : getFileType name p = .throw ⟨.file, (asc "Failed to open \"" ++ name ++ asc "\".").take 1023⟩ { p with host := peeked p.host } := by
    unfold getFileType
    rw [M.bind_ok hfo]
    rfl
  simp only []
  rw [M.bind_throw hg]; simp only [hd]

/-- What the dump stage may raise. -/
def dumpCodes : List Exc := [.file, .fileFormat, .stackOverflow, .outOfMemory, .busError]

/-- What the dump stage keeps. -/
structure DumpKept (p q : Prog) : Prop where
  rest : q = { p with host := q.host }
  mem : MemInv createsOrWrites p.host.mem q.host.mem
  live : q.host.files.live = p.host.files.live

theorem reader_sat {h : Host} {name : Str} (hs : Sound h.mem) (hu : Unwatched h.mem) (c1 c2 : Prop) [Decidable c1] [Decidable c2] :
    Sat (fun _ h' => MemInv createsOrWrites h.mem h'.mem ∧ h'.files.live = h.files.live)
      (fun e h' => (MemInv createsOrWrites h.mem h'.mem ∧ h'.files.live = h.files.live) ∧ e.code ∈ dumpCodes)
      ((if c1 then Dump.readBinary name else if c2 then Dump.readHex name else GdbLog.parse name) h) := by
  have hd : ∀ {rd : Dump.Reader}, Dump.Consumes rd → Sat (fun _ h' => MemInv createsOrWrites h.mem h'.mem ∧ h'.files.live = h.files.live)
      (fun e h' => (MemInv createsOrWrites h.mem h'.mem ∧ h'.files.live = h.files.live) ∧ e.code ∈ dumpCodes) (Dump.readFile rd name h) :=
    fun hr => (Dump.file_sat hr hs hu).mono (fun _ _ k => ⟨k.1, k.2.1⟩) (fun _ _ k => ⟨⟨k.1.1, k.1.2.1⟩, k.2⟩)
  by_cases h1 : c1
  · rw [if_pos h1]; exact hd Dump.binary_consumes
  · rw [if_neg h1]
    by_cases h2 : c2
    · rw [if_pos h2]; exact hd Dump.hex_consumes
    · rw [if_neg h2]
      cases hf : h.files.opens h.files.next name with
      | none =>
        rw [GdbLog.parse_missing hf]
        exact ⟨⟨.init hs hu, rfl⟩, by simp [dumpCodes]⟩
      | some f =>
        have key := GdbLog.both_safe (h := Dump.opened h) (fails := f.seekSetFails) hs hu (GdbLog.results_valid (bytes := f.bytes))
        have e0 : GdbLog.parse name h = GdbLog.both _ _ (Dump.opened h) := GdbLog.parse_eq hf
        rw [← e0] at key
        refine key.mono ?_ ?_
        · rintro _ h' ⟨m1, m2, -⟩
          refine ⟨m1, ?_⟩
          rw [m2]
          show h.files.live + 1 - 1 = h.files.live
          omega
        · rintro e h' ⟨m1, m2, -, m4, -⟩
          refine ⟨⟨m1, ?_⟩, ?_⟩
          · rw [m2]
            show h.files.live + 1 - 1 = h.files.live
            omega
          · simp only [dumpCodes, List.mem_cons, List.not_mem_nil, or_false] at m4 ⊢
            rcases m4 with m4 | m4 | m4 <;> simp [m4]

theorem dump_sat {p : Prog} (hm : p.memory = true) (hd : p.dump ≠ none) (hs : Sound p.host.mem) (hu : Unwatched p.host.mem) :
    Sat (fun _ q => DumpKept p q) (fun e q => DumpKept p q ∧ e.code ∈ dumpCodes) (loadDumpFile p) := by
  obtain ⟨name, hd⟩ := Option.ne_none_iff_exists'.1 hd
  cases ho : p.host.files.opens p.host.files.next name with
  | none =>
    rw [loadDumpFile_none hd ho]
    exact ⟨⟨rfl, .init hs hu, rfl⟩, by simp [dumpCodes]⟩
  | some f =>
    rw [loadDumpFile_some hd ho, onMemory_apply (p := { p with host := peeked p.host }) hm]
    have key := reader_sat (h := peeked p.host) (name := name) hs hu ([0x63, 0x43] <+: f.bytes) (asc "6343" <+: f.bytes)
    cases e : (if [0x63, 0x43] <+: f.bytes then Dump.readBinary name
      else if asc "6343" <+: f.bytes then Dump.readHex name else GdbLog.parse name) (peeked p.host) with
    | ok u h' => rw [e] at key; exact ⟨rfl, key.1, key.2⟩
    | throw x h' => rw [e] at key; exact ⟨⟨rfl, key.1.1, key.1.2⟩, key.2⟩
    | ub r => rw [e] at key; exact key

/-! ### Aliases -/

theorem addAlias_eq {x : U32 × U32 × U32} {p : Prog} (hm : p.memory = true) : addAlias x p =
    match createAlias x.1 x.2.2 x.2.1 p.host.mem with
    | .ok _ s => .ok () (withMem p s)
    | .throw e s => .throw ⟨e.code, aliasComplaint x⟩ (withMem p s)
    | .ub r => .ub r := by
  unfold addAlias
  rw [M.tryCatch_apply, onMem_apply hm, fmt08X_eq, fmtD_eq]
  cases createAlias x.1 x.2.2 x.2.1 p.host.mem <;> rfl

/-- Aliases point to existing regions. -/
def Linked (s : Sim) : Prop := ∀ r ∈ s.regions, r.isAlias = true → ∃ j, r.redirect = some j ∧ j < s.regions.length

theorem linked_of_sound {s : Sim} (hs : Sound s) : Linked s := by
  intro r hr ha
  have h := hs r hr
  rw [if_pos ha] at h
  unfold AliasOK at h
  split at h
  · exact h.elim
  · rename_i i e
    split at h
    · exact h.elim
    · rename_i q hq
      exact ⟨i, e, (List.getElem?_eq_some_iff.1 hq).1⟩

/-- Only aliases were added. -/
def Aliased (s s' : Sim) : Prop := owed s' = owed s ∧ s'.hits = s.hits ∧ ∃ xs, s'.regions = s.regions ++ xs ∧ ∀ x ∈ xs, x.isAlias = true

theorem createAlias_sat {a r n : U32} {s : Sim} (hl : Linked s) :
    Sat (fun _ s' => Linked s' ∧ Aliased s s')
      (fun e s' => (Linked s' ∧ Aliased s s') ∧ e.code ∈ [Exc.busError, .outOfMemory]) (createAlias a r n s) := by
  have hsame : ∀ k, Linked (bumpHeap s k 0) ∧ Aliased s (bumpHeap s k 0) :=
    fun k => ⟨hl, by rw [owed_bump]; omega, rfl, [], by simp [bumpHeap], by simp⟩
  have hf : ∀ j a', findMatchingRegion r 1 s = .ok (j, a') s → j < s.regions.length := by
    intro j a' h
    obtain ⟨k, q, hfc, hq⟩ := reaches_find h
    have hk := (List.getElem?_eq_some_iff.1 hfc.1).1
    by_cases ha : q.isAlias = true
    · rw [if_pos ha] at hq
      obtain ⟨j', e, hlt⟩ := hl q (List.mem_of_getElem? hfc.1) ha
      rw [hq] at e; cases e; exact hlt
    · rw [if_neg ha] at hq; omega
  rcases createAlias_cases a r n s with ⟨k, h⟩ | ⟨k, h, -⟩ | ⟨j, a', t, h1, h2, h⟩ | ⟨u, h, h1⟩ <;> rw [h]
  · exact ⟨hsame k, by simp⟩
  · exact ⟨hsame k, by simp⟩
  · refine ⟨?_, ?_, rfl, [newAlias a r n j t], rfl, by simp [newAlias]⟩
    · intro q hq ha
      simp only [List.length_append]
      rcases List.mem_append.1 hq with hq | hq
      · obtain ⟨j', e, hlt⟩ := hl q hq ha
        exact ⟨j', e, by omega⟩
      · simp at hq
        rw [hq]
        exact ⟨j, rfl, by have := hf j a' h1; omega⟩
    · exact call_owed (c := .createAlias a r n) (.inl ⟨_, h⟩) trivial
  · exfalso
    rcases h1 with h1 | ⟨j, a', h1, h2⟩
    · unfold findMatchingRegion at h1
      split at h1
      · cases h1
      · rename_i k q hfind
        have hfc := findFrom_zero.1 hfind
        split at h1
        · rename_i ha
          obtain ⟨j, e, -⟩ := hl q (List.mem_of_getElem? hfc.1) ha
          rw [e] at h1
          cases h1
        · cases h1
    · have := hf j a' h1
      rw [List.getElem?_eq_none_iff] at h2
      omega

theorem addAliases_sat {xs : List (U32 × U32 × U32)} {p : Prog} (hm : p.memory = true) (hl : Linked p.host.mem) :
    Sat (fun _ q => ∃ s, q = withMem p s ∧ Linked s ∧ Aliased p.host.mem s)
      (fun e q => (∃ s, q = withMem p s ∧ Linked s ∧ Aliased p.host.mem s) ∧ e.code ∈ [Exc.busError, .outOfMemory]) (addAliases xs p) := by
  induction xs generalizing p with
  | nil => exact ⟨p.host.mem, rfl, hl, rfl, rfl, [], by simp, by simp⟩
  | cons x xs ih =>
    unfold addAliases
    have hc := createAlias_sat (a := x.1) (r := x.2.2) (n := x.2.1) hl
    rw [M.bind_apply, addAlias_eq hm]
    cases e : createAlias x.1 x.2.2 x.2.1 p.host.mem with
    | ub r => rw [e] at hc; exact hc
    | throw y s => rw [e] at hc; exact ⟨⟨s, rfl, hc.1⟩, hc.2⟩
    | ok u s =>
      rw [e] at hc
      obtain ⟨h1, h2, hh, ys, h3, h4⟩ := hc
      have tr : ∀ s', Aliased s s' → Aliased p.host.mem s' := by
        rintro s' ⟨h5, hh', zs, h6, h7⟩
        refine ⟨h5.trans h2, hh'.trans hh, ys ++ zs, by rw [h6, h3, List.append_assoc], ?_⟩
        intro x hx
        rcases List.mem_append.1 hx with hx | hx
        · exact h4 x hx
        · exact h7 x hx
      refine (ih (p := withMem p s) hm h1).mono ?_ ?_
      · rintro _ q ⟨s', rfl, k1, k2⟩; exact ⟨s', rfl, k1, tr s' k2⟩
      · rintro e q ⟨⟨s', rfl, k1, k2⟩, k3⟩; exact ⟨⟨s', rfl, k1, tr s' k2⟩, k3⟩

end Verif.CommandLine
