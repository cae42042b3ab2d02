import Verif.Lemmas.NumberWord
import Verif.Props.CommandLine
/-
C81: numbers on the command line.
-/
namespace Verif.Props
open Verif MemSim CommandLine Spec

/-- C81. How the numbers on a command line are written makes no difference. -/
theorem C81_notation_irrelevant {args args' : List Str} {os os' : List Opt} (h : Spelled args os) (h' : Spelled args' os')
    (hs : List.Forall₂ SameOpt os os') : startUp args = startUp args' := by
  obtain ⟨h1, h2, h3, h4⟩ := same_lasts hs
  have e1 : lastElf os = lastElf os' := congrArg List.getLast? h1
  have e2 : lastDump os = lastDump os' := congrArg List.getLast? h2
  have e3 : (lastBin os).map (fun x => (x.1, Libc.strtoul32 x.2)) = (lastBin os').map fun x => (x.1, Libc.strtoul32 x.2) := by
    have := congrArg List.getLast? h3
    rw [List.getLast?_map, List.getLast?_map] at this
    exact this
  funext p
  rw [startUp_spelled h, startUp_spelled h']
  unfold selected
  have e4 : (lastBin os).map Prod.fst = (lastBin os').map Prod.fst := by
    have := congrArg (Option.map Prod.fst) e3
    simpa [Option.map_map, Function.comp_def] using this
  have e5 : ((lastBin os).map fun x => Libc.strtoul32 x.2) = (lastBin os').map fun x => Libc.strtoul32 x.2 := by
    have := congrArg (Option.map Prod.snd) e3
    simpa [Option.map_map, Function.comp_def] using this
  rw [e1, e2, e4, e5, h4]

theorem digitsOf_mk {base : Nat} {ds : Str} (h : ds ≠ [] ∧ ds.all (fun c => (hexDigit c).any (· < base)) = true) : DigitsOf base ds := by
  refine ⟨h.1, fun c hc => ?_⟩
  have := List.all_eq_true.1 h.2 c hc
  cases e : hexDigit c with
  | none => rw [e] at this; cases this
  | some d => rw [e] at this; exact ⟨d, rfl, by simpa using this⟩

/-- 256 in three notations, and zero. -/
theorem numerals : Numeral (asc "256") 256 ∧ Numeral (asc "0400") 256 ∧ Numeral (asc "0X100") 256 ∧ Numeral (asc "0x100") 256 ∧
    Numeral (asc "0") 0 :=
  ⟨.decimal (ds := asc "256") (digitsOf_mk (by decide +kernel)) (by decide +kernel), .octal (ds := asc "400") (digitsOf_mk (by decide +kernel)),
   .hex (x := 0x58) (ds := asc "100") (.inr rfl) (digitsOf_mk (by decide +kernel)),
   .hex (x := 0x78) (ds := asc "100") (.inl rfl) (digitsOf_mk (by decide +kernel)), .octal (ds := []) (digitsOf_mk (by decide +kernel))⟩

example : List.Forall₂ SameOpt [.dump [0x64], .bin [0x62] (asc "0x100")] [.dump [0x64], .bin [0x62] (asc "0400")] :=
  .cons (.dump _) (.cons (.bin _ (.inr ⟨256, numerals.2.2.2.1, numerals.2.1⟩)) .nil)

/-- C81. The base address that `--bin` selects is the number given. -/
theorem C81_base_address {args : List Str} {os : List Opt} {p q : Prog} {f t : Str} {n : Nat} (h : Spelled args os)
    (hb : lastBin os = some (f, t)) (hn : Numeral t n) (hlt : n < 2 ^ 32) (hq : Ends (startUp args p) q) : q.baseAddress.toNat = n := by
  rw [(C48_selection h hq).2.2.2, hb]
  simp only [Option.map_some, Option.getD_some]
  rw [Libc.strtoul32_numeral hn (by omega)]
  simp; omega

/-- C81. The raw image can be read at the number given. -/
theorem C81_raw_image_at_number {args : List Str} {os : List Opt} {p q : Prog} {name t bytes : Str} {n : Nat} (h : Spelled args os)
    (he : lastElf os = none) (hb : lastBin os = some (name, t)) (hn : Numeral t n) (hlt : n < 2 ^ 32)
    (hf : OrdinaryFile p.host name bytes) (hl : bytes.length < 2 ^ 32) (hq : startUp args p = .ok () q) :
    HoldsBlocks q.host.mem [(BitVec.ofNat 32 n, bytes)] ∧ RefusesWrites q.host.mem [(BitVec.ofNat 32 n, bytes)] := by
  have := C55_raw_image_loaded h he hb hf hl hq
  rw [Libc.strtoul32_numeral hn (by omega)] at this
  exact ⟨this.1, this.2.1⟩

example : ∃ q, lastElf optsBin = none ∧ lastBin optsBin = some ([0x62], asc "0x100") ∧ Numeral (asc "0x100") 256 ∧
    OrdinaryFile progExample.host [0x62] [1, 2, 3, 4, 5, 6] ∧ startUp argsBin progExample = .ok () q := by
  obtain ⟨q, h, -⟩ := startBin
  exact ⟨q, rfl, rfl, numerals.2.2.2.1, rfl, h⟩

/-- C81. The aliases that are created have the numbers given as their address, size and target. -/
theorem C81_alias_numbers {os : List Opt} {ts : List (Str × Str × Str)} {ns : List (Nat × Nat × Nat)}
    (ho : (os.filterMap fun o => match o with | .alias b s r => some (b, s, r) | _ => none) = ts)
    (hn : List.Forall₂ (fun t n => (Numeral t.1 n.1 ∧ n.1 < 2 ^ 32) ∧ (Numeral t.2.1 n.2.1 ∧ n.2.1 < 2 ^ 32) ∧
      Numeral t.2.2 n.2.2 ∧ n.2.2 < 2 ^ 32) ts ns) :
    aliases os = ns.map fun n => (BitVec.ofNat 32 n.1, BitVec.ofNat 32 n.2.1, BitVec.ofNat 32 n.2.2) := by
  have e : aliases os = ts.map fun t => (Libc.strtoul32 t.1, Libc.strtoul32 t.2.1, Libc.strtoul32 t.2.2) := by
    rw [← ho, List.map_filterMap]
    unfold aliases
    congr 1
    funext o
    cases o <;> rfl
  rw [e]
  clear ho e
  induction hn with
  | nil => rfl
  | cons h _ ih =>
    obtain ⟨⟨h1, l1⟩, ⟨h2, l2⟩, h3, l3⟩ := h
    simp only [List.map_cons]
    rw [Libc.strtoul32_numeral h1 (by omega), Libc.strtoul32_numeral h2 (by omega), Libc.strtoul32_numeral h3 (by omega), ih]

example : ([Opt.dump [0x64], .alias (asc "256") (asc "0400") (asc "0")].filterMap fun o => match o with
      | .alias b s r => some (b, s, r) | _ => none) = [(asc "256", asc "0400", asc "0")] ∧
    Numeral (asc "256") 256 ∧ Numeral (asc "0400") 256 ∧ Numeral (asc "0") 0 := ⟨rfl, numerals.1, numerals.2.1, numerals.2.2.2.2⟩

/-- C81. Every word means one number. -/
theorem C81_means_one (t : Str) : ∃ v, Means t v ∧ ∀ v', Means t v' → v' = v := by
  obtain ⟨v, h⟩ := Libc.means_exists t
  exact ⟨v, h, fun v' h' => by rw [← Libc.strtoul32_means h, ← Libc.strtoul32_means h']⟩

/-- C81. The base address that `--bin` selects is what the word given means, for every word. -/
theorem C81_base_address_any {args : List Str} {os : List Opt} {p q : Prog} {f t : Str} {v : U32} (h : Spelled args os)
    (hb : lastBin os = some (f, t)) (hv : Means t v) (hq : Ends (startUp args p) q) : q.baseAddress = v := by
  rw [(C48_selection h hq).2.2.2, hb]
  exact Libc.strtoul32_means hv

/-- C81. The aliases that are created have what the words given mean as their address, size and target, for all words. -/
theorem C81_alias_numbers_any {os : List Opt} {vs : List (U32 × U32 × U32)}
    (hv : List.Forall₂ (fun t v => Means t.1 v.1 ∧ Means t.2.1 v.2.1 ∧ Means t.2.2 v.2.2)
      (os.filterMap fun o => match o with | .alias b s r => some (b, s, r) | _ => none) vs) : aliases os = vs := by
  have e : aliases os = (os.filterMap fun o => match o with | .alias b s r => some (b, s, r) | _ => none).map fun t =>
      (Libc.strtoul32 t.1, Libc.strtoul32 t.2.1, Libc.strtoul32 t.2.2) := by
    rw [List.map_filterMap]
    unfold aliases
    congr 1
    funext o
    cases o <;> rfl
  rw [e]
  clear e
  generalize (os.filterMap fun o => match o with | .alias b s r => some (b, s, r) | _ => none) = ts at hv ⊢
  induction hv with
  | nil => rfl
  | cons h _ ih =>
    obtain ⟨h1, h2, h3⟩ := h
    simp only [List.map_cons]
    rw [Libc.strtoul32_means h1, Libc.strtoul32_means h2, Libc.strtoul32_means h3, ih]

/-- A sign, white space, something behind the number, and no number at all. -/
example : Means (asc "+256") 256 ∧ Means (asc " -256") (-256) ∧ Means (asc "256 bytes") 256 ∧ Means (asc "main") 0 := by
  have nospace : ∀ (r rest : Str) k (num : Str), r ≠ [] → r <+: (0x20 :: rest) → ¬ Numeral (num ++ r) k := by
    rintro r rest k num hr ⟨r', e⟩ hn
    cases r with
    | nil => exact hr rfl
    | cons c r =>
      obtain rfl : c = 0x20 := by simpa using (List.cons.inj e).1
      have key : ∀ t n, Numeral t n → (0x20 : U8) ∉ t := by
        intro t n ht hm
        have nd : ∀ base ds, DigitsOf base ds → (0x20 : U8) ∉ ds := by
          intro base ds hd hm
          obtain ⟨d, h1, -⟩ := hd.2 _ hm
          revert h1; decide +revert
        cases ht with
        | decimal h => exact nd _ _ h hm
        | octal h => exact nd _ _ h hm
        | hex hx h =>
          rcases List.mem_cons.1 hm with e | hm
          · revert e; decide
          · rcases List.mem_cons.1 hm with e | hm
            · rw [← e] at hx; revert hx; decide
            · exact nd _ _ h hm
      exact key _ _ hn (by simp)
  have nonil : ∀ (r : Str) k (num : Str), r ≠ [] → r <+: [] → ¬ Numeral (num ++ r) k := by
    intro r k num hr hp
    exact absurd (List.prefix_nil.1 hp) hr
  refine ⟨.plus (n := 256) (rest := []) ⟨[], asc "+", asc "256", by decide +kernel, by simp, numerals.1, .inr (by decide +kernel), fun r k => nonil r k _⟩ (by decide),
    .minus (n := 256) (rest := []) ⟨asc " ", asc "-", asc "256", by decide +kernel, by unfold Blank; decide +kernel, numerals.1, by decide +kernel, fun r k => nonil r k _⟩ (by decide),
    .plus (n := 256) (rest := asc " bytes") ⟨[], [], asc "256", by decide +kernel, by simp, numerals.1, .inl rfl, ?_⟩ (by decide), .nothing ?_⟩
  · intro r k hr hp
    exact nospace r (asc "bytes") k _ hr (by simpa [asc] using hp)
  · intro m n rest hb
    have h1 := congrArg Prod.snd (Libc.strtoul_begins hb)
    have h2 : (Libc.strtoul (asc "main")).2 = asc "main" := by decide +kernel
    obtain ⟨sp, sg, num, e, -, hn, -⟩ := hb.parts
    obtain ⟨c, u, rfl, -⟩ := Libc.numeral_head hn
    have := congrArg List.length e
    rw [← h2, h1] at this
    simp only [List.length_append, List.length_cons] at this
    omega

/-- C81, what is not checked: a word that is no number at all, or one with a misspelled digit, is not refused but taken for
the number at its beginning, here 0 and 0x1; a number of 2^32 or more is reduced. -/
theorem C81_unchecked_witness : ¬ (∃ n, Numeral (asc "main") n) ∧ ¬ (∃ n, Numeral (asc "0x1O0") n) ∧
    Libc.strtoul32 (asc "main") = 0 ∧ Libc.strtoul32 (asc "0x1O0") = 1 ∧
    Numeral (asc "0x100000100") 0x100000100 ∧ Libc.strtoul32 (asc "0x100000100") = 0x100 ∧
    okReads (startUp [asc "--dump", [0x64], asc "--bin", [0x62], asc "main"] progExample) 0 0x04030201 = true := by
  refine ⟨?_, ?_, by decide +kernel, by decide +kernel, .hex (x := 0x78) (ds := asc "100000100") (.inl rfl) (digitsOf_mk (by decide +kernel)),
    by decide +kernel, by decide +kernel⟩
  · rintro ⟨n, h⟩
    generalize e : asc "main" = t at h
    cases h with
    | decimal h => subst e; obtain ⟨d, hd, -⟩ := h.2 0x6D (by decide +kernel); revert hd; decide +revert
    | octal h => cases e
    | hex h => cases e
  · rintro ⟨n, h⟩
    generalize e : asc "0x1O0" = t at h
    cases h with
    | decimal h => subst e; obtain ⟨d, hd, -⟩ := h.2 0x4F (by decide +kernel); revert hd; decide +revert
    | octal h => rw [← e] at h; obtain ⟨d, hd, -⟩ := h.2 0x4F (by decide +kernel); revert hd; decide +revert
    | hex hx h =>
      rename_i x ds
      have : ds = asc "1O0" := by
        have := congrArg (List.drop 2) e
        exact this.symm
      subst this
      obtain ⟨d, hd, -⟩ := h.2 0x4F (by decide +kernel); revert hd; decide +revert

end Verif.Props
