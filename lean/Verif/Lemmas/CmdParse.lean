import Verif.Lemmas.Text
import Verif.Spec.CommandLine
/- What the two passes over the argument vector do. -/
namespace Verif.CommandLine
open Verif MemSim Spec Libc

theorem tolower_eq {c d : U8} (hd : tolower d = d) :
    tolower c = d ↔ c = d ∨ (65 ≤ c.toNat ∧ c.toNat ≤ 90 ∧ d.toNat = c.toNat + 32) := by
  unfold tolower at *
  constructor
  · intro h
    split at h
    · rename_i hc
      right
      refine ⟨by omega, by omega, ?_⟩
      rw [← h, BitVec.toNat_add]; simp; omega
    · exact .inl h
  · rintro (rfl | ⟨h1, h2, h3⟩)
    · exact hd
    · rw [if_pos ⟨by omega, by omega⟩]
      apply BitVec.eq_of_toNat_eq
      rw [BitVec.toNat_add, h3]; simp; omega

theorem spells_iff {w name : Str} (hn : ∀ d ∈ name, tolower d = d) : strcasecmpEq w name = true ↔ Spells w name := by
  unfold strcasecmpEq Spells
  rw [decide_eq_true_iff]
  induction w generalizing name with
  | nil =>
    cases name with
    | nil => simp
    | cons d ds => constructor <;> intro h <;> cases h
  | cons c cs ih =>
    cases name with
    | nil => constructor <;> intro h <;> cases h
    | cons d ds =>
      have hd := hn d (by simp)
      have := ih (name := ds) (fun x hx => hn x (List.mem_cons_of_mem _ hx))
      simp only [List.map_cons, List.cons.injEq, List.forall₂_cons, hd, tolower_eq hd, this]

theorem name_lower (k : Kind) : ∀ d ∈ asc k.name, tolower d = d := by cases k <;> decide +kernel

theorem case_kind (k : Kind) (w : Str) : strcasecmpEq w (asc k.name) = true ↔ Spells w (asc k.name) := spells_iff (name_lower k)

theorem spells_unique {w : Str} {k k' : Kind} (h : Spells w (asc k.name)) (h' : Spells w (asc k'.name)) : k = k' := by
  have h1 := (case_kind k w).2 h
  have h2 := (case_kind k' w).2 h'
  unfold strcasecmpEq at h1 h2
  rw [decide_eq_true_iff] at h1 h2
  rw [h1] at h2
  revert h2
  cases k <;> cases k' <;> decide +kernel

theorem dashes_iff {w : Str} : hasDoubleDashPrefix w = true ↔ asc "--" <+: w := by
  have e : asc "--" = [0x2D, 0x2D] := by decide
  rw [e]
  unfold hasDoubleDashPrefix
  match w with
  | [] => simp
  | [a] => simp
  | a :: b :: t =>
    simp only [List.getElem?_cons_zero, List.getElem?_cons_succ, Bool.and_eq_true, decide_eq_true_iff, Option.some.injEq]
    constructor
    · rintro ⟨rfl, rfl⟩; exact ⟨t, rfl⟩
    · rintro ⟨u, h⟩
      rw [List.cons_append, List.cons_append, List.cons.injEq, List.cons.injEq] at h
      exact ⟨h.1.symm, h.2.1.symm⟩

theorem spells_dashes {w : Str} {k : Kind} (h : Spells w (asc k.name)) : asc "--" <+: w := by
  have e : asc "--" = [0x2D, 0x2D] := by decide
  have e2 : ∃ t, asc k.name = 0x2D :: 0x2D :: t := by
    cases k <;> exact ⟨_, rfl⟩
  obtain ⟨t, e2⟩ := e2
  rw [e2] at h
  unfold Spells at h
  cases h with
  | cons h1 h =>
    cases h with
    | cons h2 h =>
      rw [e]
      have f : ∀ c : U8, (c = 0x2D ∨ (65 ≤ c.toNat ∧ c.toNat ≤ 90 ∧ (0x2D : U8).toNat = c.toNat + 32)) → c = 0x2D := by
        rintro c (h | ⟨h1, h2, h3⟩)
        · exact h
        · have : (0x2D : U8).toNat = 45 := rfl
          omega
      rw [f _ h1, f _ h2]
      exact ⟨_, rfl⟩

/-- What the handler for a kind is. -/
def handler : Kind → (argc : Int) → List Str → Pass → M Prog Nat
  | .bin => parseBinFilenameOption
  | .elf => parseElfFilenameOption
  | .dump => parseDumpFilenameOption
  | .alias => parseAliasOption

theorem arg_cons (w : Str) (ws : List Str) (p : Prog) : arg (w :: ws) 0 p = .ok w p := rfl

theorem argument_known {w : Str} {ws : List Str} {k : Kind} (h : Spells w (asc k.name)) (argc : Int) (pass : Pass) :
    parseArgument argc (w :: ws) pass = handler k (argc - 1) ws pass := by
  funext p
  have hne : ∀ k', k ≠ k' → strcasecmpEq w (asc k'.name) = false := by
    intro k' hk
    cases hc : strcasecmpEq w (asc k'.name) with
    | false => rfl
    | true => exact absurd (spells_unique h ((case_kind k' w).1 hc)) hk
  have hy := (case_kind k w).2 h
  unfold parseArgument
  rw [M.bind_ok (arg_cons w ws p), if_pos (dashes_iff.2 (spells_dashes h))]
  unfold parseFlagArgument
  rw [M.bind_ok (arg_cons w ws p)]
  have hb := hne .bin
  have he := hne .elf
  have hd := hne .dump
  simp only [Kind.name] at hb he hd hy
  cases k with
  | bin => simp only [hy, if_true]; rfl
  | elf => simp only [hb (by decide), hy]; rfl
  | dump => simp only [hb (by decide), he (by decide), hy]; rfl
  | «alias» => simp only [hb (by decide), he (by decide), hd (by decide), hy]; rfl

/-- What a complete option does in a pass. -/
def optStep : Opt → Pass → M Prog Unit
  | .bin f b, .first => M.modify fun p => { p with bin := some f, baseAddress := strtoul32 b }
  | .elf f, .first => M.modify fun p => { p with elf := some f }
  | .dump f, .first => M.modify fun p => { p with dump := some f }
  | .alias b s r, .second =>
      M.tryCatch (onMemory (Host.onMem (createAlias (strtoul32 b) (strtoul32 r) (strtoul32 s))))
        (fun e => M.throw e.code (asc "Failed to create alias of 0x" ++ fmt08X (strtoul32 b) ++ asc " to 0x" ++
          fmt08X (strtoul32 r) ++ asc " of size " ++ Elf.fmtD (strtoul32 s) ++ asc "."))
  | _, _ => pure ()

theorem handler_opt {o : Opt} {ws : List Str} {argc : Int} (hargc : (o.params.length : Int) ≤ argc) (pass : Pass) :
    handler o.kind argc (o.params ++ ws) pass = (do optStep o pass; pure (1 + o.params.length)) := by
  funext p
  cases o <;> cases pass <;> simp only [Opt.params, List.length_cons, List.length_nil] at hargc <;>
    simp only [Opt.kind, handler, parseBinFilenameOption, parseElfFilenameOption, parseDumpFilenameOption, parseAliasOption, Opt.params]
  · rw [if_neg (by omega)]; rfl
  · rw [if_neg (by omega)]; rfl
  · rw [if_neg (by omega)]; rfl
  · rw [if_neg (by omega)]; rfl
  · rw [if_neg (by omega)]; rfl
  · rw [if_neg (by omega)]; rfl
  · rw [if_neg (by omega)]; rfl
  · rw [if_neg (by omega)]; rfl

/-- The passes over complete options. -/
def runOpts (pass : Pass) : List Opt → M Prog Unit
  | [] => pure ()
  | o :: os => do optStep o pass; runOpts pass os

theorem spelled_length {ws : List Str} {os : List Opt} (h : Spelled ws os) : os.length ≤ ws.length := by
  induction h with
  | nil => simp
  | cons _ _ ih => simp; omega

theorem loop_prefix {pre : List Str} {os : List Opt} (h : Spelled pre os) (pass : Pass) (fuel : Nat) (rest : List Str) (p : Prog) :
    parseLoop pass (os.length + fuel) ((pre ++ rest).length : Nat) (pre ++ rest) p =
      (do runOpts pass os; parseLoop pass fuel (rest.length : Nat) rest) p := by
  induction h generalizing p with
  | nil => simp [runOpts]
  | @cons w o ws os hn h ih =>
    rw [List.length_cons, show os.length + 1 + fuel = (os.length + fuel) + 1 by omega, parseLoop]
    rw [if_neg (by simp; omega), List.cons_append, argument_known hn, List.append_assoc,
      handler_opt (by simp; omega)]
    simp only [M.bind_apply, runOpts, M.pure_apply]
    cases optStep o pass p with
    | ub r => rfl
    | throw e p' => rfl
    | ok u p' =>
      simp only
      have hd : (w :: (o.params ++ (ws ++ rest))).drop (1 + o.params.length) = ws ++ rest := by
        rw [Nat.add_comm, List.drop_succ_cons, List.drop_left]
      have hl : (((w :: (o.params ++ (ws ++ rest))).length : Nat) : Int) - ((1 + o.params.length : Nat) : Int) = ((ws ++ rest).length : Nat) := by
        simp; omega
      rw [hd, hl, ih]
      simp only [M.bind_apply]

theorem loop_nil (pass : Pass) (fuel : Nat) (p : Prog) : parseLoop pass (fuel + 1) 0 [] p = .ok () p := by
  simp [parseLoop]

/-- A pass over complete options. -/
theorem pass_complete {ws : List Str} {os : List Opt} (h : Spelled ws os) (pass : Pass) :
    parseArguments ws.length ws pass = runOpts pass os := by
  funext p
  unfold parseArguments
  obtain ⟨k, hk⟩ := Nat.le.dest (spelled_length h)
  have := loop_prefix h pass (k + 1) [] p
  rw [List.append_nil] at this
  rw [show ws.length + 1 = os.length + (k + 1) by omega, this, M.bind_apply]
  cases runOpts pass os p with
  | ok u p' => exact loop_nil _ _ _
  | throw e p' => rfl
  | ub r => rfl

theorem argument_stuck {ws : List Str} {m : Str} (h : Stuck ws m) (pass : Pass) (p : Prog) :
    parseArgument ws.length ws pass p = .throw ⟨.invalidArgument, m⟩ p := by
  cases h with
  | @noDashes w ws h =>
    unfold parseArgument
    rw [M.bind_ok (arg_cons w ws p), if_neg (fun hd => h (dashes_iff.1 hd))]; rfl
  | @unknown w ws hd h =>
    unfold parseArgument
    rw [M.bind_ok (arg_cons w ws p), if_pos (dashes_iff.2 hd)]
    unfold parseFlagArgument
    rw [M.bind_ok (arg_cons w ws p)]
    have hn : ∀ k : Kind, ¬ strcasecmpEq w (asc k.name) = true := fun k hk => h k ((case_kind k w).1 hk)
    have hb := hn .bin
    have he := hn .elf
    have hd := hn .dump
    have ha := hn .alias
    simp only [Kind.name] at hb he hd ha
    simp only [hb, he, hd, ha]; rfl
  | @tooFew w ws k h hl =>
    rw [argument_known h]
    have e : (((w :: ws).length : Nat) : Int) - 1 = ws.length := by simp
    rw [e]
    cases k <;> simp only [Kind.arity] at hl <;>
      simp only [handler, parseBinFilenameOption, parseElfFilenameOption, parseDumpFilenameOption, parseAliasOption]
    · rw [if_pos (by omega)]
      have : asc "The --bin command line option requires filename and base address." =
        asc ("The " ++ Kind.name .bin ++ " command line option requires " ++ Kind.needs .bin ++ ".") := by decide +kernel
      rw [this]; rfl
    · rw [if_pos (by omega)]
      have : asc "The --elf command line option requires filename." =
        asc ("The " ++ Kind.name .elf ++ " command line option requires " ++ Kind.needs .elf ++ ".") := by decide +kernel
      rw [this]; rfl
    · rw [if_pos (by omega)]
      have : asc "The --dump command line option requires filename." =
        asc ("The " ++ Kind.name .dump ++ " command line option requires " ++ Kind.needs .dump ++ ".") := by decide +kernel
      rw [this]; rfl
    · rw [if_pos (by omega)]
      have : asc "The --alias command line option requires baseAddress, size, and redirectAddress." =
        asc ("The " ++ Kind.name .alias ++ " command line option requires " ++ Kind.needs .alias ++ ".") := by decide +kernel
      rw [this]; rfl

/-- A pass that meets a malformed option. -/
theorem pass_stuck {pre rest : List Str} {os : List Opt} {m : Str} (h : Spelled pre os) (hs : Stuck rest m) (pass : Pass) :
    parseArguments (pre ++ rest).length (pre ++ rest) pass =
      (do runOpts pass os; M.throw .invalidArgument m) := by
  funext p
  unfold parseArguments
  obtain ⟨k, hk⟩ := Nat.le.dest (spelled_length h)
  have hr : 0 < rest.length := by cases hs <;> simp
  rw [show (pre ++ rest).length + 1 = os.length + ((k + rest.length) + 1) by rw [List.length_append]; omega, loop_prefix h]
  simp only [M.bind_apply]
  cases runOpts pass os p with
  | ok u p' =>
    simp only [parseLoop]
    rw [if_neg (by omega), M.bind_throw (argument_stuck hs pass p')]; rfl
  | throw e p' => rfl
  | ub r => rfl

/-- Every argument vector is complete options, perhaps followed by something malformed. -/
theorem split_args (ws : List Str) : (∃ os, Spelled ws os) ∨
    ∃ pre os rest m, ws = pre ++ rest ∧ Spelled pre os ∧ Stuck rest m := by
  obtain ⟨n, hn⟩ : ∃ n, ws.length ≤ n := ⟨_, Nat.le_refl _⟩
  induction n generalizing ws with
  | zero =>
    have : ws = [] := List.length_eq_zero_iff.1 (by omega)
    subst this; exact .inl ⟨[], .nil⟩
  | succ n ih =>
    cases ws with
    | nil => exact .inl ⟨[], .nil⟩
    | cons w ws =>
      by_cases hd : asc "--" <+: w
      · by_cases hk : ∃ k : Kind, Spells w (asc k.name)
        · obtain ⟨k, hk⟩ := hk
          by_cases hl : ws.length < k.arity
          · exact .inr ⟨[], [], w :: ws, _, rfl, .nil, .tooFew k hk hl⟩
          · have hsplit : ∃ (o : Opt) (t : List Str), o.kind = k ∧ ws = o.params ++ t := by
              cases k <;> simp only [Kind.arity] at hl
              · match ws, hl with
                | [], h => simp at h
                | [x], h => simp at h
                | f :: b :: t, _ => exact ⟨.bin f b, t, rfl, rfl⟩
              · match ws, hl with
                | [], h => simp at h
                | f :: t, _ => exact ⟨.elf f, t, rfl, rfl⟩
              · match ws, hl with
                | [], h => simp at h
                | f :: t, _ => exact ⟨.dump f, t, rfl, rfl⟩
              · match ws, hl with
                | [], h => simp at h
                | [x], h => simp at h
                | [x, y], h => simp at h
                | b :: s :: r :: t, _ => exact ⟨.alias b s r, t, rfl, rfl⟩
            obtain ⟨o, t, rfl, rfl⟩ := hsplit
            rcases ih t (by simp at hn; omega) with ⟨os, h⟩ | ⟨pre, os, rest, m, rfl, h1, h2⟩
            · exact .inl ⟨o :: os, .cons hk h⟩
            · exact .inr ⟨w :: (o.params ++ pre), o :: os, rest, m, by simp, .cons hk h1, h2⟩
        · exact .inr ⟨[], [], w :: ws, _, rfl, .nil, .unknown hd (fun k h => hk ⟨k, h⟩)⟩
      · exact .inr ⟨[], [], w :: ws, _, rfl, .nil, .noDashes hd⟩

/-- A word may be replaced by another spelling of the same option name. -/
theorem pass_case {pre post : List Str} {os : List Opt} {w w' : Str} {k : Kind} (h : Spelled pre os) (hw : Spells w (asc k.name))
    (hw' : Spells w' (asc k.name)) (pass : Pass) :
    parseArguments (pre ++ w :: post).length (pre ++ w :: post) pass =
      parseArguments (pre ++ w' :: post).length (pre ++ w' :: post) pass := by
  funext p
  unfold parseArguments
  obtain ⟨m, hm⟩ := Nat.le.dest (spelled_length h)
  have hl : ∀ x, (pre ++ x :: post).length + 1 = os.length + ((m + post.length + 1) + 1) := by
    intro x; rw [List.length_append, List.length_cons]; omega
  rw [hl w, hl w', loop_prefix h, loop_prefix h]
  simp only [M.bind_apply]
  cases runOpts pass os p with
  | throw e q => rfl
  | ub r => rfl
  | ok u q => ?_
  simp only [parseLoop]
  rw [List.length_cons, List.length_cons, argument_known hw, argument_known hw']
  by_cases h0 : ((post.length + 1 : Nat) : Int) = 0
  · rw [if_pos h0, if_pos h0]
  · rw [if_neg h0, if_neg h0]
    simp only [M.bind_apply]
    cases hh : handler k (((post.length + 1 : Nat) : Int) - 1) post pass q with
    | throw e q' => rfl
    | ub r => rfl
    | ok n q' =>
      simp only
      have hn : n ≠ 0 := by
        rintro rfl
        revert hh
        cases k <;> simp only [handler, parseBinFilenameOption, parseElfFilenameOption, parseDumpFilenameOption, parseAliasOption] <;>
          intro hh <;> split at hh <;> try cases hh
        all_goals
          split at hh
          · simp only [M.bind_apply] at hh
            (repeat' split at hh) <;> cases hh
          · cases hh
      obtain ⟨j, rfl⟩ := Nat.exists_eq_succ_of_ne_zero hn
      rfl

/-- What the first pass selects. -/
def selected (os : List Opt) (p : Prog) : Prog :=
  { p with elf := (lastElf os).or p.elf, dump := (lastDump os).or p.dump,
           bin := ((lastBin os).map Prod.fst).or p.bin,
           baseAddress := ((lastBin os).map fun x => strtoul32 x.2).getD p.baseAddress }

theorem getLast?_cons_or {α : Type} (x : α) (l : List α) : (x :: l).getLast? = l.getLast?.or (some x) := by
  cases l with
  | nil => rfl
  | cons y l => rw [List.getLast?_cons_cons]; cases h : (y :: l).getLast? with
    | none => simp at h
    | some z => rfl

theorem first_pass (os : List Opt) (p : Prog) : runOpts .first os p = .ok () (selected os p) := by
  induction os generalizing p with
  | nil => rfl
  | cons o os ih =>
    simp only [runOpts]
    cases o with
    | bin f b =>
      rw [M.bind_ok (show optStep (.bin f b) .first p = .ok () _ from rfl), ih]
      simp only [selected, lastElf, lastBin, lastDump, List.filterMap_cons, getLast?_cons_or]
      cases (os.filterMap fun o => match o with | .bin f b => some (f, b) | _ => none).getLast? <;> rfl
    | elf f =>
      rw [M.bind_ok (show optStep (.elf f) .first p = .ok () _ from rfl), ih]
      simp only [selected, lastElf, lastBin, lastDump, List.filterMap_cons, getLast?_cons_or]
      cases (os.filterMap fun o => match o with | .elf f => some f | _ => none).getLast? <;> rfl
    | dump f =>
      rw [M.bind_ok (show optStep (.dump f) .first p = .ok () _ from rfl), ih]
      simp only [selected, lastElf, lastBin, lastDump, List.filterMap_cons, getLast?_cons_or]
      cases (os.filterMap fun o => match o with | .dump f => some f | _ => none).getLast? <;> rfl
    | «alias» b s r =>
      rw [M.bind_ok (show optStep (.alias b s r) .first p = .ok () p from rfl), ih]
      simp only [selected, lastElf, lastBin, lastDump, List.filterMap_cons]

/-- Creating one alias in the second pass. -/
def addAlias (x : U32 × U32 × U32) : M Prog Unit :=
  M.tryCatch (onMemory (Host.onMem (createAlias x.1 x.2.2 x.2.1)))
    (fun e => M.throw e.code (asc "Failed to create alias of 0x" ++ fmt08X x.1 ++ asc " to 0x" ++
      fmt08X x.2.2 ++ asc " of size " ++ Elf.fmtD x.2.1 ++ asc "."))

def addAliases : List (U32 × U32 × U32) → M Prog Unit
  | [] => pure ()
  | x :: xs => do addAlias x; addAliases xs

theorem second_pass (os : List Opt) : runOpts .second os = addAliases (aliases os) := by
  induction os with
  | nil => rfl
  | cons o os ih =>
    funext p
    simp only [runOpts, ih]
    cases o <;> rfl

end Verif.CommandLine
