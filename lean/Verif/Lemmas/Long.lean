import Verif.Spec.Long
import Verif.Lemmas.AnyLog
import Verif.Lemmas.CmdTop
/-
Lemmas about hosts whose `unsigned long` has another number of bits.
-/
namespace Verif.Libc
open Verif Spec

theorem strtoulW_begins {t rest : Str} {minus : Bool} {n : Nat} (w : Nat) (h : Begins t minus n rest) :
    strtoulW w t = (if 2 ^ w ≤ n then 2 ^ w - 1 else if minus then (2 ^ w - n) % 2 ^ w else n, rest) := by
  obtain ⟨sp, sg, num, rfl, hsp, hn, hsg, hmax⟩ := h.parts
  obtain ⟨c, u, rfl, hc⟩ := numeral_head hn
  obtain ⟨base, ds, h1, h2, h3, h4, h5⟩ := base_digits hn hmax
  unfold strtoulW
  have hs := skip (u := u ++ rest) hsp hc hsg
  have h1' : takeBase (c :: (u ++ rest)) = (base, ds ++ rest) := h1
  simp only [List.cons_append, hs, h1', h2, h3]
  rw [if_neg h4, h5]

theorem strtoulW_nothing {t : Str} (w : Nat) (h : ∀ m n rest, ¬ Begins t m n rest) : strtoulW w t = (0, t) := by
  unfold strtoulW
  generalize h1 : takeSign (t.dropWhile isspace) = x
  obtain ⟨neg, t2⟩ := x
  generalize h2 : takeBase t2 = y
  obtain ⟨base, t3⟩ := y
  simp only [h2]
  exact if_pos (no_digits h h1 h2)

theorem word_minus {w n : Nat} (hw : 32 ≤ w) (hn : n < 2 ^ w) : BitVec.ofNat 32 ((2 ^ w - n) % 2 ^ w) = -BitVec.ofNat 32 n := by
  obtain ⟨k, rfl⟩ : ∃ k, w = 32 + k := ⟨w - 32, by omega⟩
  apply BitVec.eq_of_toNat_eq
  simp only [BitVec.toNat_ofNat, BitVec.toNat_neg]
  rw [Nat.pow_add] at hn ⊢
  rw [Nat.mod_mul_right_mod]
  generalize hj : 2 ^ k = j at hn
  have hj0 : 0 < j := by rw [← hj]; exact Nat.two_pow_pos k
  by_cases h0 : n = 0
  · subst h0; simp
  · omega

/-- A number of at most 32 bits is the same on all hosts, and so is what follows it. -/
theorem strtoulW_fits {w : Nat} (hw : 32 ≤ w) {t : Str} (h : NumFits t) : strtoulW32 w t = strtoul32 t ∧ (strtoulW w t).2 = (strtoul t).2 := by
  unfold strtoulW32 strtoul32
  by_cases hb : ∃ m n rest, Begins t m n rest
  · obtain ⟨m, n, rest, hb⟩ := hb
    have hn := h _ _ _ hb
    have hw2 : 2 ^ 32 ≤ 2 ^ w := Nat.pow_le_pow_right (by omega) hw
    rw [strtoulW_begins w hb, strtoul_begins hb, if_neg (show ¬ 2 ^ w ≤ n by omega), if_neg (show ¬ 2 ^ 64 ≤ n by omega)]
    refine ⟨?_, rfl⟩
    cases m with
    | false => rfl
    | true =>
      simp only [if_true]
      rw [word_minus hw (by omega), word_minus (w := 64) (by omega) (by omega)]
  · have hb' : ∀ m n rest, ¬ Begins t m n rest := fun m n rest h => hb ⟨m, n, rest, h⟩
    rw [strtoulW_nothing w hb', strtoul_nothing hb']
    exact ⟨rfl, rfl⟩

end Verif.Libc

namespace Verif.GdbLog
open Verif MemSim Spec Libc

variable {w : Nat}

theorem parseValuesW_fits (hw : 32 ≤ w) {k : Nat} {t : Str} (h : AllFit k t) (vs : List U32) (hk : vs.length + k = 4) (fuel : Nat) (o : Obj) :
    parseValuesW w fuel vs t o = parseValues fuel vs t o := by
  induction h generalizing vs fuel with
  | @enough t =>
    cases fuel with
    | zero => rfl
    | succ fuel =>
      have : areMoreValues vs t = false := by
        unfold areMoreValues VALUES_SIZE
        simp only [decide_eq_false_iff_not]
        exact fun h => by omega
      rw [parseValuesW, parseValues]
      simp only [this]
      rfl
  | ended =>
    cases fuel with
    | zero => rfl
    | succ fuel =>
      rw [parseValuesW, parseValues]
      have : areMoreValues vs [] = false := by simp [areMoreValues]
      simp only [this]
      rfl
  | @value k t u rest v h hs hf hv ht ih =>
    cases fuel with
    | zero => rfl
    | succ fuel =>
      rw [parseValuesW, parseValues]
      have hm : areMoreValues vs t = true := by
        unfold areMoreValues VALUES_SIZE
        simp only [decide_eq_true_eq]
        exact ⟨h, by omega⟩
      rw [if_pos hm, if_pos hm]
      have hl : vs.length < VALUES_SIZE := by unfold VALUES_SIZE; omega
      have e1 : parseNextValueW w vs t o = .ok (vs ++ [v], rest) o := by
        unfold parseNextValueW parseValueW
        rw [skips hs, if_pos hl, (strtoulW_fits hw hf).1, (strtoulW_fits hw hf).2, (counts hv).1, (counts hv).2]
        rfl
      have e2 : parseNextValue vs t o = .ok (vs ++ [v], rest) o := by
        unfold parseNextValue parseValue
        rw [skips hs, if_pos hl, (counts hv).1, (counts hv).2]
        rfl
      rw [M.bind_ok e1, M.bind_ok e2]
      exact ih (vs ++ [v]) (by simp; omega) fuel

theorem parseFieldW (r : Reg) (t : Str) (o : Obj) : parseLineW w (r.field ++ t) o =
    .ok (.register (offsetOf r) (if r.isFloat then parseFloatRegisterW w t else strtoulW32 w t)) o := by
  unfold parseLineW
  rw [notMemory_field, isRegister_field]
  simp only [Bool.false_eq_true, if_false, parseRegisterLineW]
  have hd : (r.field ++ t).drop 15 = t := by
    rw [List.drop_append, field_len, List.drop_of_length_le (by rw [field_len]; omega)]; rfl
  rw [if_neg (by simp [field_len]), (field_facts r (mem_allRegs r)).2.2, hd]
  cases r.isFloat <;> rfl

theorem parseLineW_fits (hw : 32 ≤ w) {line : Str} (h : LineFits line) (o : Obj) : parseLineW w line o = parseLine line o := by
  cases h with
  | memory h ha hv =>
    unfold parseLineW parseLine
    rw [if_pos (likeMemory_iff.2 h), if_pos (likeMemory_iff.2 h)]
    unfold parseMemoryLineW parseMemoryLine
    have hl := h.1
    rw [if_neg (by omega), if_neg (by omega), M.bind_apply, M.bind_apply, parseValuesW_fits hw hv [] rfl, (strtoulW_fits hw ha).1]
  | @core r t hr hl hv => rw [hl, parseFieldW, parse_field, hr, (strtoulW_fits hw hv).1]; rfl
  | @raw r t hr hx hv =>
    have hx' := hx
    obtain ⟨f, w, e, -⟩ := hx'
    obtain ⟨u, rfl⟩ : r.field <+: line := ⟨f ++ w ++ (asc "(raw " ++ t), by rw [e]; simp⟩
    rw [parseFieldW, parse_field, if_pos hr, if_pos hr]
    unfold parseFloatRegisterW parseFloatRegister
    simp only [afterWord hx]
    rw [if_neg (by rw [strncmp_prefix]; simp), if_neg (by rw [strncmp_prefix]; simp)]
    have : (asc "(raw " ++ t).drop 5 = t := rfl
    rw [this, (strtoulW_fits hw hv).1]
  | @noRaw r rest hr hx hn =>
    have hx' := hx
    obtain ⟨f, w, e, -⟩ := hx'
    obtain ⟨u, rfl⟩ : r.field <+: line := ⟨f ++ w ++ rest, by rw [e]; simp⟩
    rw [parseFieldW, parse_field, if_pos hr, if_pos hr]
    unfold parseFloatRegisterW parseFloatRegister
    simp only [afterWord hx]
    rw [if_pos (by rw [strncmp_prefix]; exact hn), if_pos (by rw [strncmp_prefix]; exact hn)]
  | other h hr =>
    rw [parse_other h hr]
    unfold parseLineW
    rw [if_neg (by rw [likeMemory_iff]; exact h)]
    rw [← likeRegister_iff] at hr
    cases e : isRegisterLine line with
    | none => rfl
    | some x => rw [e] at hr; exact absurd rfl hr

theorem parseLoopW_fits (hw : 32 ≤ w) (handler : Results → M Obj Unit) {text : Str} {ps : List Str} (hl : Lines text ps)
    (h : ∀ p ∈ ps, LineFits (upToNul p)) (fuel : Nat) (o : Obj) : parseLoopW w handler fuel text o = parseLoop handler fuel text o := by
  induction hl generalizing fuel o with
  | nil => cases fuel <;> rfl
  | @cons p rest ps hf ht ih =>
    cases fuel with
    | zero => rfl
    | succ fuel =>
      obtain ⟨h0, h1, h2, h3⟩ := hf
      rw [parseLoopW, parseLoop, fgets_first (n := LINE_SIZE - 1) h0 h1 h2 h3]
      simp only [M.bind_apply]
      rw [cstr_eq, parseLineW_fits hw (h p List.mem_cons_self)]
      cases parseLine (upToNul p) o with
      | ub r => rfl
      | throw e o => rfl
      | ok r o =>
        simp only
        cases handler r o with
        | ub r => rfl
        | throw e o => rfl
        | ok u o => exact ih (fun p hp => h p (List.mem_cons_of_mem _ hp)) fuel o

theorem parseLinesW_fits (hw : 32 ≤ w) (handler : Results → M Obj Unit) {text : Str} (h : LogFits text) :
    parseLinesW w handler text = parseLines handler text := by
  obtain ⟨ps, hl, hf⟩ := h
  funext x
  unfold parseLinesW parseLines
  simp only [M.bind_apply, parseLoopW_fits hw handler hl hf]
  rfl

/-- A log whose numbers have at most 32 bits is read in the same way on all hosts. -/
theorem parseW_fits (hw : 32 ≤ w) {name : Str} {h : Host} (hf : ∀ f, h.files.opens h.files.next name = some f → LogFits f.bytes) :
    parseW w name h = parse name h := by
  unfold parseW parse
  rw [M.bind_apply, M.bind_apply]
  unfold Host.fopen
  cases hx : h.files.opens h.files.next name with
  | none => rfl
  | some f =>
    simp only [parseLinesW_fits hw _ (hf f hx)]

end Verif.GdbLog

namespace Verif.CommandLine
open Verif MemSim Spec Libc

variable {w : Nat}

theorem binW_fits (hw : 32 ≤ w) {argc : Int} {f b : Str} {ws : List Str} (hc : 2 ≤ argc) (h : NumFits b) (pass : Pass) (p : Prog) :
    parseBinFilenameOptionW w argc (f :: b :: ws) pass p = parseBinFilenameOption argc (f :: b :: ws) pass p := by
  unfold parseBinFilenameOptionW parseBinFilenameOption
  rw [if_neg (show ¬ argc < 2 by omega), if_neg (show ¬ argc < 2 by omega)]
  cases pass with
  | first =>
    show Out.ok 3 { p with bin := some f, baseAddress := strtoulW32 w b } = Out.ok 3 { p with bin := some f, baseAddress := strtoul32 b }
    rw [(strtoulW_fits hw h).1]
  | second => rfl

/-- The second pass of `parseAliasOption`, when the numbers are read. -/
def aliasStep (b s r : U32) : M Prog Nat := do
  M.tryCatch (onMemory (Host.onMem (createAlias b r s)))
    (fun e => M.throw e.code (asc "Failed to create alias of 0x" ++ fmt08X b ++ asc " to 0x" ++ fmt08X r ++ asc " of size " ++ Elf.fmtD s ++ asc "."))
  pure 4

theorem aliasW_second {argc : Int} {b s r : Str} {ws : List Str} (hc : 3 ≤ argc) (p : Prog) :
    parseAliasOptionW w argc (b :: s :: r :: ws) .second p = aliasStep (strtoulW32 w b) (strtoulW32 w s) (strtoulW32 w r) p := by
  unfold parseAliasOptionW
  rw [if_neg (show ¬ argc < 3 by omega)]
  rfl

theorem alias_second {argc : Int} {b s r : Str} {ws : List Str} (hc : 3 ≤ argc) (p : Prog) :
    parseAliasOption argc (b :: s :: r :: ws) .second p = aliasStep (strtoul32 b) (strtoul32 s) (strtoul32 r) p := by
  unfold parseAliasOption
  rw [if_neg (show ¬ argc < 3 by omega)]
  rfl

theorem aliasW_first {argc : Int} {ws : List Str} (hc : 3 ≤ argc) (p : Prog) : parseAliasOptionW w argc ws .first p = .ok 4 p := by
  unfold parseAliasOptionW
  rw [if_neg (show ¬ argc < 3 by omega)]
  rfl

theorem alias_first {argc : Int} {ws : List Str} (hc : 3 ≤ argc) (p : Prog) : parseAliasOption argc ws .first p = .ok 4 p := by
  unfold parseAliasOption
  rw [if_neg (show ¬ argc < 3 by omega)]
  rfl

theorem aliasW_fits (hw : 32 ≤ w) {argc : Int} {b s r : Str} {ws : List Str} (hc : 3 ≤ argc) (h : NumFits b ∧ NumFits s ∧ NumFits r) (pass : Pass)
    (p : Prog) : parseAliasOptionW w argc (b :: s :: r :: ws) pass p = parseAliasOption argc (b :: s :: r :: ws) pass p := by
  cases pass with
  | first => rw [aliasW_first hc, alias_first hc]
  | second => rw [aliasW_second hc, alias_second hc, (strtoulW_fits hw h.1).1, (strtoulW_fits hw h.2.1).1, (strtoulW_fits hw h.2.2).1]

/-- What the handler for a kind is. -/
def handlerW (w : Nat) : Kind → (argc : Int) → List Str → Pass → M Prog Nat
  | .bin => parseBinFilenameOptionW w
  | .elf => parseElfFilenameOption
  | .dump => parseDumpFilenameOption
  | .alias => parseAliasOptionW w

theorem argumentW_known {a : Str} {ws : List Str} {k : Kind} (h : Spells a (asc k.name)) (argc : Int) (pass : Pass) :
    parseArgumentW w argc (a :: ws) pass = handlerW w k (argc - 1) ws pass := by
  funext p
  have hne : ∀ k', k ≠ k' → strcasecmpEq a (asc k'.name) = false := by
    intro k' hk
    cases hc : strcasecmpEq a (asc k'.name) with
    | false => rfl
    | true => exact absurd (spells_unique h ((case_kind k' a).1 hc)) hk
  have hy := (case_kind k a).2 h
  unfold parseArgumentW
  rw [M.bind_ok (arg_cons a ws p), if_pos (dashes_iff.2 (spells_dashes h))]
  unfold parseFlagArgumentW
  rw [M.bind_ok (arg_cons a ws p)]
  have hb := hne .bin
  have he := hne .elf
  have hd := hne .dump
  simp only [Kind.name] at hb he hd hy
  cases k with
  | bin => simp only [hy, if_true]; rfl
  | elf => simp only [hb (by decide), hy]; rfl
  | dump => simp only [hb (by decide), he (by decide), hy]; rfl
  | «alias» => simp only [hb (by decide), he (by decide), hd (by decide), hy]; rfl

theorem argumentW_complete (hw : 32 ≤ w) {a : Str} {o : Opt} {ws : List Str} (ha : Spells a (asc o.kind.name)) (ho : OptFits o) (pass : Pass)
    (p : Prog) : parseArgumentW w (((a :: (o.params ++ ws)).length : Nat) : Int) (a :: (o.params ++ ws)) pass p =
      parseArgument (((a :: (o.params ++ ws)).length : Nat) : Int) (a :: (o.params ++ ws)) pass p := by
  rw [argumentW_known ha, argument_known ha]
  cases o with
  | elf f => rfl
  | dump f => rfl
  | bin f b => exact binW_fits hw (by simp [Opt.params]; omega) ho pass p
  | «alias» b s r => exact aliasW_fits hw (by simp [Opt.params]; omega) ho pass p

theorem argumentW_stuck {ws : List Str} {m : Str} (h : Stuck ws m) (pass : Pass) (p : Prog) :
    parseArgumentW w ws.length ws pass p = parseArgument ws.length ws pass p := by
  cases h with
  | @noDashes a ws h =>
    unfold parseArgumentW parseArgument
    rw [M.bind_ok (arg_cons a ws p), M.bind_ok (arg_cons a ws p), if_neg (fun hd => h (dashes_iff.1 hd)), if_neg (fun hd => h (dashes_iff.1 hd))]
  | @unknown a ws hd h =>
    unfold parseArgumentW parseArgument
    rw [M.bind_ok (arg_cons a ws p), M.bind_ok (arg_cons a ws p), if_pos (dashes_iff.2 hd), if_pos (dashes_iff.2 hd)]
    unfold parseFlagArgumentW parseFlagArgument
    rw [M.bind_ok (arg_cons a ws p), M.bind_ok (arg_cons a ws p)]
    have hn : ∀ k : Kind, ¬ strcasecmpEq a (asc k.name) = true := fun k hk => h k ((case_kind k a).1 hk)
    have hb := hn .bin
    have ha := hn .alias
    simp only [Kind.name] at hb ha
    rw [if_neg hb, if_neg hb, if_neg ha, if_neg ha]
  | @tooFew a ws k h hl =>
    rw [argumentW_known h, argument_known h]
    have e : (((a :: ws).length : Nat) : Int) - 1 = ws.length := by simp
    rw [e]
    cases k <;> simp only [Kind.arity] at hl
    · simp only [handlerW, handler, parseBinFilenameOptionW, parseBinFilenameOption]; rw [if_pos (by omega), if_pos (by omega)]
    · rfl
    · rfl
    · simp only [handlerW, handler, parseAliasOptionW, parseAliasOption]; rw [if_pos (by omega), if_pos (by omega)]

theorem loopW_prefix (hw : 32 ≤ w) {pre : List Str} {os : List Opt} (h : Spelled pre os) (ho : ∀ o ∈ os, OptFits o) (pass : Pass) (fuel : Nat)
    (rest : List Str) (hr : ∀ p, parseLoopW w pass fuel (rest.length : Nat) rest p = parseLoop pass fuel (rest.length : Nat) rest p) (p : Prog) :
    parseLoopW w pass (os.length + fuel) ((pre ++ rest).length : Nat) (pre ++ rest) p =
      parseLoop pass (os.length + fuel) ((pre ++ rest).length : Nat) (pre ++ rest) p := by
  induction h generalizing p with
  | nil => simpa using hr p
  | @cons a o ws os hn h ih =>
    rw [List.length_cons, show os.length + 1 + fuel = (os.length + fuel) + 1 by omega, parseLoopW, parseLoop]
    rw [if_neg (by simp; omega), if_neg (by simp; omega), List.cons_append, List.append_assoc, M.bind_apply, M.bind_apply,
      argumentW_complete hw hn (ho o List.mem_cons_self), argument_known hn, handler_opt (by simp; omega)]
    simp only [M.bind_apply, M.pure_apply]
    cases optStep o pass p with
    | ub r => rfl
    | throw e p' => rfl
    | ok u p' =>
      simp only
      have hd : (a :: (o.params ++ (ws ++ rest))).drop (1 + o.params.length) = ws ++ rest := by
        rw [Nat.add_comm, List.drop_succ_cons, List.drop_left]
      have hl : (((a :: (o.params ++ (ws ++ rest))).length : Nat) : Int) - ((1 + o.params.length : Nat) : Int) = ((ws ++ rest).length : Nat) := by
        simp; omega
      rw [hd, hl, ih (fun o h => ho o (List.mem_cons_of_mem _ h))]

theorem argumentsW_fits (hw : 32 ≤ w) {args : List Str} (h : WordsFit args) (pass : Pass) :
    parseArgumentsW w args.length args pass = parseArguments args.length args pass := by
  funext p
  unfold parseArgumentsW parseArguments
  rcases split_args args with ⟨os, hs⟩ | ⟨pre, os, rest, m, rfl, hs, hst⟩
  · obtain ⟨k, hk⟩ := Nat.le.dest (spelled_length hs)
    have := loopW_prefix hw hs (h args [] os (by simp) hs) pass (k + 1) [] (fun p => by simp [parseLoopW, parseLoop]) p
    rw [List.append_nil] at this
    rw [show args.length + 1 = os.length + (k + 1) by omega, this]
  · obtain ⟨k, hk⟩ := Nat.le.dest (spelled_length hs)
    have := loopW_prefix hw hs (h pre rest os rfl hs) pass (k + rest.length + 1) rest (fun p => ?_) p
    · rw [show (pre ++ rest).length + 1 = os.length + (k + rest.length + 1) by simp; omega, this]
    · rw [parseLoopW, parseLoop]
      have : rest ≠ [] := by cases hst <;> simp
      have hz : ¬ ((rest.length : Nat) : Int) = 0 := by
        have := List.length_pos_iff.2 this
        omega
      rw [if_neg hz, if_neg hz, M.bind_apply, M.bind_apply, argumentW_stuck hst, argument_stuck hst]

theorem loadDumpFileW_fits (hw : 32 ≤ w) {p : Prog}
    (h : ∀ d f0 f, p.dump = some d → p.host.files.opens p.host.files.next d = some f0 → ¬ [0x63, 0x43] <+: f0.bytes →
      ¬ asc "6343" <+: f0.bytes → p.host.files.opens (p.host.files.next + 1) d = some f → LogFits f.bytes) :
    loadDumpFileW w p = loadDumpFile p := by
  cases hd : p.dump with
  | none =>
    unfold loadDumpFileW loadDumpFile
    rw [M.bind_ok (show (M.get : M Prog Prog) p = .ok p p from rfl), M.bind_ok (show (M.get : M Prog Prog) p = .ok p p from rfl), hd]
  | some d =>
    unfold loadDumpFileW loadDumpFile
    rw [M.bind_ok (show (M.get : M Prog Prog) p = .ok p p from rfl), M.bind_ok (show (M.get : M Prog Prog) p = .ok p p from rfl), hd]
    simp only [M.bind_apply]
    cases ho : p.host.files.opens p.host.files.next d with
    | none =>
      have hfo : onHost (Host.fopen d) p = .ok none { p with host := peeked p.host } := by
        simp only [onHost, M.zoom_apply, Host.fopen, ho]; rfl
      have hg : getFileType d p = .throw ⟨.file, (asc "Failed to open \"" ++ d ++ asc "\".").take 1023⟩ { p with host := peeked p.host } := by
        unfold getFileType
        rw [M.bind_ok hfo]
        rfl
      rw [hg]
    | some f0 =>
      rw [getFileType_some ho]
      by_cases h1 : [0x63, 0x43] <+: f0.bytes
      · rw [if_pos h1]
      · rw [if_neg h1]
        by_cases h2 : asc "6343" <+: f0.bytes
        · rw [if_pos h2]
        · rw [if_neg h2]
          simp only
          have e : GdbLog.parseW w d (peeked p.host) = GdbLog.parse d (peeked p.host) :=
            GdbLog.parseW_fits hw fun f hf => h d f0 f hd ho h1 h2 hf
          unfold onMemory onHost
          simp only [M.zoom_apply, e]

theorem initBodyW_fits (hw : 32 ≤ w) {args : List Str} {p : Prog} (h1 : WordsFit args) (h2 : DumpFits args p) :
    initBodyW w args.length args p = initBody args.length args p := by
  unfold initBodyW initBody
  rw [argumentsW_fits hw h1, argumentsW_fits hw h1]
  rcases split_args args with ⟨os, hs⟩ | ⟨pre, os, rest, m, rfl, hs, hst⟩
  · rw [M.bind_ok (show clear p = .ok () (cleared p) from rfl), M.bind_ok (show clear p = .ok () (cleared p) from rfl), pass_complete hs,
      M.bind_ok (first_pass os (cleared p)), M.bind_ok (first_pass os (cleared p))]
    show (throwIfRequiredArgumentNotSpecified >>= _) (chosen os p) = (throwIfRequiredArgumentNotSpecified >>= _) (chosen os p)
    cases hn : imageFile os with
    | none => rw [M.bind_throw (required_image (by rw [chosen_image]; exact hn)), M.bind_throw (required_image (by rw [chosen_image]; exact hn))]
    | some n =>
      have hn' : imageName (chosen os p) = some n := by rw [chosen_image]; exact hn
      cases hd : lastDump os with
      | none => rw [M.bind_throw (required_dump hn' (by rw [chosen_dump]; exact hd)), M.bind_throw (required_dump hn' (by rw [chosen_dump]; exact hd))]
      | some d =>
        have hd' : (chosen os p).dump = some d := by rw [chosen_dump]; exact hd
        rw [M.bind_ok (required_ok hn' hd'), M.bind_ok (required_ok hn' hd'),
          M.bind_ok (show initMemory (chosen os p) = .ok () (withMemory (chosen os p)) from rfl),
          M.bind_ok (show initMemory (chosen os p) = .ok () (withMemory (chosen os p)) from rfl), M.bind_apply, M.bind_apply]
        have hq : ∀ u q, loadImageFile (withMemory (chosen os p)) = .ok u q → q.dump = some d ∧ q.host.files.opens = p.host.files.opens ∧
            q.host.files.next = p.host.files.next + 1 := by
          intro u q hq
          rcases loadImageFile_cases (p := withMemory (chosen os p)) rfl (imageName_split hn') with ⟨e, k, h1, -, -⟩ | ⟨f, -, -, h3⟩
          · rw [h1] at hq; cases hq
          · rw [h3] at hq
            cases hx : imageWork (withMemory (chosen os p)) f (bumpHeap (withMemory (chosen os p)).host.mem 1 1) with
            | ub r => rw [hx] at hq; cases hq
            | throw e s => rw [hx] at hq; cases hq
            | ok v s => rw [hx] at hq; cases hq; exact ⟨hd', rfl, rfl⟩
        cases e : loadImageFile (withMemory (chosen os p)) with
        | ub r => rfl
        | throw x q => rfl
        | ok u q =>
          obtain ⟨k1, k2, k3⟩ := hq u q e
          simp only
          rw [M.bind_apply, M.bind_apply, loadDumpFileW_fits hw]
          intro d' f0 f g1 g2 g3 g4 g5
          rw [k1] at g1
          cases g1
          rw [k2, k3] at g2 g5
          exact h2 os d f0 f hs hd g2 g3 g4 g5
  · rw [M.bind_ok (show clear p = .ok () (cleared p) from rfl), M.bind_ok (show clear p = .ok () (cleared p) from rfl), pass_stuck hs hst]
    rw [M.bind_throw (show (do runOpts .first os; M.throw .invalidArgument m : M Prog Unit) (cleared p) = .throw ⟨.invalidArgument, m⟩ (selected os (cleared p)) by
      rw [M.bind_ok (first_pass os (cleared p))]; rfl), M.bind_throw (show (do runOpts .first os; M.throw .invalidArgument m : M Prog Unit) (cleared p) = .throw ⟨.invalidArgument, m⟩ (selected os (cleared p)) by
      rw [M.bind_ok (first_pass os (cleared p))]; rfl)]

theorem initW_fits (hw : 32 ≤ w) {args : List Str} {p : Prog} (h1 : WordsFit args) (h2 : DumpFits args p) :
    startUpW w args p = startUp args p := by
  unfold startUpW startUp initW init
  simp only [M.tryCatch_apply, initBodyW_fits hw h1 h2]

end Verif.CommandLine
