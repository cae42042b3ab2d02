import Verif.Spec.Ctype
import Verif.Lemmas.AnyLog
import Verif.Lemmas.CmdTop
/-
Lemmas about `isspace` with negative characters.
-/
namespace Verif.Libc
open Verif Spec

theorem isspaceC_plain {s : Bool} {c : U8} (h : PlainByte s c) (x : σ) : isspaceC s c x = .ok (isspace c) x := by
  unfold isspaceC
  rw [if_neg]
  · rfl
  · rintro ⟨rfl, h1, h2⟩
    rcases h with h | h | h
    · cases h
    · omega
    · exact h2 h

theorem takeSign_suffix (t : Str) : (takeSign t).2 <:+ t := by
  cases t with
  | nil => exact List.suffix_refl _
  | cons c t =>
    show (if c = 0x2D then (true, t) else if c = 0x2B then (false, t) else (false, c :: t)).2 <:+ c :: t
    by_cases h1 : c = 0x2D
    · rw [if_pos h1]; exact List.suffix_cons c t
    · rw [if_neg h1]
      by_cases h2 : c = 0x2B
      · rw [if_pos h2]; exact List.suffix_cons c t
      · rw [if_neg h2]; exact List.suffix_refl _

theorem takeBase_suffix (t : Str) : (takeBase t).2 <:+ t := by
  unfold takeBase
  split
  · split
    · exact ⟨[_, _], rfl⟩
    · split <;> exact List.suffix_refl _
  · split <;> exact List.suffix_refl _
  · exact List.suffix_refl _

theorem strtoul_suffix (t : Str) : (strtoul t).2 <:+ t := by
  unfold strtoul
  generalize h1 : takeSign (t.dropWhile isspace) = x
  obtain ⟨neg, t2⟩ := x
  generalize h2 : takeBase t2 = y
  obtain ⟨base, t3⟩ := y
  simp only [h2]
  by_cases h : t3.takeWhile (isDigit base) = []
  · rw [if_pos h]; exact List.suffix_refl _
  · rw [if_neg h]
    have e1 := takeSign_suffix (t.dropWhile isspace)
    have e2 := takeBase_suffix t2
    rw [h1] at e1
    rw [h2] at e2
    exact ((List.dropWhile_suffix _).trans e2).trans (e1.trans (List.dropWhile_suffix _))

end Verif.Libc

namespace Verif.GdbLog
open Verif MemSim Spec Libc

variable {s : Bool}

theorem skipWhitespaceC_plain {t : Str} (h : ∀ c ∈ t, PlainByte s c) (o : Obj) : skipWhitespaceC s t o = .ok (skipWhitespace t) o := by
  induction t with
  | nil => rfl
  | cons c t ih =>
    rw [skipWhitespaceC, M.bind_ok (isspaceC_plain (h c List.mem_cons_self) o)]
    unfold skipWhitespace
    rw [List.dropWhile_cons]
    cases isspace c with
    | true => exact ih fun c hc => h c (List.mem_cons_of_mem _ hc)
    | false => rfl

theorem findWhitespaceC_plain {t : Str} (h : ∀ c ∈ t, PlainByte s c) (o : Obj) : findWhitespaceC s t o = .ok (findWhitespace t) o := by
  induction t with
  | nil => rfl
  | cons c t ih =>
    rw [findWhitespaceC, M.bind_ok (isspaceC_plain (h c List.mem_cons_self) o)]
    unfold findWhitespace
    rw [List.dropWhile_cons]
    cases isspace c with
    | true => rfl
    | false => exact ih fun c hc => h c (List.mem_cons_of_mem _ hc)

theorem skipSymbolLoopC_plain {t : Str} (h : ∀ c ∈ t, PlainByte s c) (level : Int) (o : Obj) :
    skipSymbolLoopC s t level o = .ok (skipSymbolLoop t level) o := by
  induction t generalizing level with
  | nil => rfl
  | cons c t ih =>
    have ih := ih fun c hc => h c (List.mem_cons_of_mem _ hc)
    rw [skipSymbolLoopC, skipSymbolLoop]
    by_cases h1 : c = 0x3C
    · rw [if_pos h1, if_pos h1]; exact ih _
    · rw [if_neg h1, if_neg h1]
      by_cases h2 : c = 0x3E
      · rw [if_pos h2, if_pos h2]; exact ih _
      · rw [if_neg h2, if_neg h2, M.bind_ok (isspaceC_plain (h c List.mem_cons_self) o)]
        by_cases h3 : isspace c = true ∧ level = 0
        · rw [if_pos h3, if_pos h3]; rfl
        · rw [if_neg h3, if_neg h3]; exact ih _

theorem skipSymbolLoop_suffix (t : Str) (level : Int) : skipSymbolLoop t level <:+ t := by
  induction t generalizing level with
  | nil => exact List.suffix_refl _
  | cons c t ih =>
    rw [skipSymbolLoop]
    by_cases h1 : c = 0x3C
    · rw [if_pos h1]; exact (ih _).trans (List.suffix_cons c t)
    · rw [if_neg h1]
      by_cases h2 : c = 0x3E
      · rw [if_pos h2]; exact (ih _).trans (List.suffix_cons c t)
      · rw [if_neg h2]
        by_cases h3 : isspace c = true ∧ level = 0
        · rw [if_pos h3]; exact List.suffix_refl _
        · rw [if_neg h3]; exact (ih _).trans (List.suffix_cons c t)

theorem skipSymbol_suffix (t : Str) : skipSymbol t <:+ t := by
  unfold skipSymbol
  by_cases h : t.head? ≠ some 0x3C
  · rw [if_pos h]; exact List.suffix_refl _
  · rw [if_neg h]; exact skipSymbolLoop_suffix _ _

theorem skip_suffix (t : Str) : skipWhitespaceAndSymbol t <:+ t :=
  (List.dropWhile_suffix _).trans ((skipSymbol_suffix _).trans (List.dropWhile_suffix _))

theorem skipC_plain {t : Str} (h : ∀ c ∈ t, PlainByte s c) (o : Obj) : skipWhitespaceAndSymbolC s t o = .ok (skipWhitespaceAndSymbol t) o := by
  unfold skipWhitespaceAndSymbolC
  have h1 : ∀ c ∈ skipWhitespace t, PlainByte s c := fun c hc => h c ((List.dropWhile_suffix _).subset hc)
  have h2 : ∀ c ∈ skipSymbol (skipWhitespace t), PlainByte s c := fun c hc => h1 c ((skipSymbol_suffix _).subset hc)
  have e : skipSymbolC s (skipWhitespace t) o = .ok (skipSymbol (skipWhitespace t)) o := by
    unfold skipSymbolC skipSymbol
    by_cases h : (skipWhitespace t).head? ≠ some 0x3C
    · rw [if_pos h, if_pos h]; rfl
    · rw [if_neg h, if_neg h]; exact skipSymbolLoopC_plain h1 0 o
  rw [M.bind_ok (skipWhitespaceC_plain h o), M.bind_ok e]
  exact skipWhitespaceC_plain h2 o

theorem parseValuesC_plain (fuel : Nat) (vs : List U32) {t : Str} (h : ∀ c ∈ t, PlainByte s c) (o : Obj) :
    parseValuesC s fuel vs t o = parseValues fuel vs t o := by
  induction fuel generalizing vs t with
  | zero => rfl
  | succ fuel ih =>
    rw [parseValuesC, parseValues]
    by_cases hm : areMoreValues vs t = true
    · rw [if_pos hm, if_pos hm]
      unfold parseNextValueC parseNextValue
      rw [M.bind_apply, M.bind_ok (skipC_plain h o), M.bind_apply]
      unfold parseValue
      by_cases hl : vs.length < VALUES_SIZE
      · rw [if_pos hl]
        exact ih _ fun c hc => h c ((skip_suffix t).subset ((strtoul_suffix _).subset hc))
      · rw [if_neg hl]; rfl
    · rw [if_neg hm, if_neg hm]

theorem parseFloatRegisterC_plain {t : Str} (h : ∀ c ∈ t, PlainByte s c) (o : Obj) : parseFloatRegisterC s t o = .ok (parseFloatRegister t) o := by
  unfold parseFloatRegisterC parseFloatRegister
  rw [M.bind_ok (findWhitespaceC_plain h o),
    M.bind_ok (skipWhitespaceC_plain (t := findWhitespace t) (fun c hc => h c ((List.dropWhile_suffix _).subset hc)) o)]
  by_cases hr : strncmpEq (skipWhitespace (findWhitespace t)) (asc "(raw ") 5 = true
  · rw [if_neg (not_not_intro hr)]; simp only [if_neg (not_not_intro hr)]; rfl
  · rw [if_pos hr]; simp only [if_pos hr]; rfl

theorem parseLineC_plain {line : Str} (h : LinePlain s line) (o : Obj) : parseLineC s line o = parseLine line o := by
  by_cases h1 : LikeMemory line
  · unfold parseLineC parseLine
    rw [if_pos (likeMemory_iff.2 h1), if_pos (likeMemory_iff.2 h1)]
    unfold parseMemoryLineC parseMemoryLine
    have hl := h1.1
    rw [if_neg (by omega), if_neg (by omega), M.bind_apply, M.bind_apply, parseValuesC_plain _ _ (h.1 h1)]
  · by_cases h2 : LikeRegister line
    · obtain ⟨r, t, rfl⟩ := h2
      rw [parse_field]
      unfold parseLineC
      rw [notMemory_field, isRegister_field]
      simp only [Bool.false_eq_true, if_false, parseRegisterLineC]
      have hd : (r.field ++ t).drop 15 = t := by
        rw [List.drop_append, field_len, List.drop_of_length_le (by rw [field_len]; omega)]; rfl
      rw [if_neg (by simp [field_len]), (field_facts r (mem_allRegs r)).2.2, hd]
      cases hr : r.isFloat with
      | true =>
        simp only [if_true]
        rw [M.bind_ok (parseFloatRegisterC_plain (h.2 r t hr rfl) o)]
        rfl
      | false => rfl
    · rw [parse_other h1 h2]
      unfold parseLineC
      rw [if_neg (by rw [likeMemory_iff]; exact h1)]
      rw [← likeRegister_iff] at h2
      cases e : isRegisterLine line with
      | none => rfl
      | some x => rw [e] at h2; exact absurd rfl h2

theorem parseLoopC_plain (handler : Results → M Obj Unit) {text : Str} {ps : List Str} (hl : Lines text ps)
    (h : ∀ p ∈ ps, LinePlain s (upToNul p)) (fuel : Nat) (o : Obj) : parseLoopC s handler fuel text o = parseLoop handler fuel text o := by
  induction hl generalizing fuel o with
  | nil => cases fuel <;> rfl
  | @cons p rest ps hf ht ih =>
    cases fuel with
    | zero => rfl
    | succ fuel =>
      obtain ⟨h0, h1, h2, h3⟩ := hf
      rw [parseLoopC, parseLoop, fgets_first (n := LINE_SIZE - 1) h0 h1 h2 h3]
      simp only [M.bind_apply]
      rw [cstr_eq, parseLineC_plain (h p List.mem_cons_self)]
      cases parseLine (upToNul p) o with
      | ub r => rfl
      | throw e o => rfl
      | ok r o =>
        simp only
        cases handler r o with
        | ub r => rfl
        | throw e o => rfl
        | ok u o => exact ih (fun p hp => h p (List.mem_cons_of_mem _ hp)) fuel o

theorem parseLinesC_plain (handler : Results → M Obj Unit) {text : Str} (h : LogPlain s text) :
    parseLinesC s handler text = parseLines handler text := by
  obtain ⟨ps, hl, hf⟩ := h
  funext x
  unfold parseLinesC parseLines
  simp only [M.bind_apply, parseLoopC_plain handler hl hf]
  rfl

theorem parseC_plain {name : Str} {h : Host} (hf : ∀ f, h.files.opens h.files.next name = some f → LogPlain s f.bytes) :
    parseC s name h = parse name h := by
  unfold parseC parse
  rw [M.bind_apply, M.bind_apply]
  unfold Host.fopen
  cases hx : h.files.opens h.files.next name with
  | none => rfl
  | some f =>
    simp only [parseLinesC_plain _ (hf f hx)]

/-! ### Symbols with a negative character -/

theorem isspaceC_bad {c : U8} (h : ¬ PlainByte true c) (x : σ) : isspaceC true c x = .ub .outOfBounds := by
  unfold isspaceC
  rw [if_pos]
  · rfl
  · refine ⟨rfl, ?_, ?_⟩
    · exact Nat.le_of_not_lt fun hc => h (.inr (.inl hc))
    · exact fun hc => h (.inr (.inr hc))

theorem symbol_bad {name rest : Str} (hn : ∀ c ∈ name, c ≠ 0x3E) (hb : ∃ c ∈ name, ¬ PlainByte true c) (level : Int) (hl : 0 < level) (o : Obj) :
    skipSymbolLoopC true (name ++ rest) level o = .ub .outOfBounds := by
  induction name generalizing level with
  | nil => obtain ⟨c, hc, -⟩ := hb; cases hc
  | cons c name ih =>
    have hn' : ∀ c ∈ name, c ≠ 0x3E := fun c hc => hn c (List.mem_cons_of_mem _ hc)
    rw [List.cons_append, skipSymbolLoopC]
    by_cases hc : PlainByte true c
    · have hb' : ∃ c ∈ name, ¬ PlainByte true c := by
        obtain ⟨d, hd, hp⟩ := hb
        rcases List.mem_cons.1 hd with rfl | hd
        · exact absurd hc hp
        · exact ⟨d, hd, hp⟩
      by_cases h1 : c = 0x3C
      · rw [if_pos h1]; exact ih hn' hb' _ (by omega)
      · rw [if_neg h1, if_neg (hn c List.mem_cons_self), M.bind_ok (isspaceC_plain hc o), if_neg (by omega)]
        exact ih hn' hb' _ hl
    · have h1 : c ≠ 0x3C := by rintro rfl; exact hc (.inr (.inl (by decide)))
      rw [if_neg h1, if_neg (hn c List.mem_cons_self), M.bind_apply, isspaceC_bad hc]

theorem spacesC {w u : Str} (hw : AllSpace w) (o : Obj) : skipWhitespaceC s (w ++ 0x3C :: u) o = .ok (0x3C :: u) o := by
  induction w with
  | nil =>
    rw [List.nil_append, skipWhitespaceC, M.bind_ok (isspaceC_plain (.inr (.inl (by decide))) o)]
    rfl
  | cons c w ih =>
    have hc : isspace c = true := hw c List.mem_cons_self
    have hp : PlainByte s c := by
      refine .inr (.inl ?_)
      simp only [isspace, decide_eq_true_eq] at hc
      rcases hc with rfl | hc
      · decide
      · omega
    rw [List.cons_append, skipWhitespaceC, M.bind_ok (isspaceC_plain hp o), if_pos hc]
    exact ih fun c hc => hw c (List.mem_cons_of_mem _ hc)

theorem parseLine_bad {line w name rest : Str} (hm : LikeMemory line) (hl : line.drop 11 = w ++ 0x3C :: (name ++ rest)) (hw : AllSpace w)
    (hn : ∀ c ∈ name, c ≠ 0x3E) (hb : ∃ c ∈ name, ¬ PlainByte true c) (o : Obj) : parseLineC true line o = .ub .outOfBounds := by
  unfold parseLineC
  rw [if_pos (likeMemory_iff.2 hm)]
  unfold parseMemoryLineC
  have h11 := hm.1
  rw [if_neg (by omega), M.bind_apply, hl]
  have hne : w ++ 0x3C :: (name ++ rest) ≠ [] := by simp
  have e : parseValuesC true (VALUES_SIZE + 1) [] (w ++ 0x3C :: (name ++ rest)) o = .ub .outOfBounds := by
    rw [parseValuesC, if_pos (show areMoreValues [] _ = true by unfold areMoreValues; simp [VALUES_SIZE])]
    unfold parseNextValueC skipWhitespaceAndSymbolC
    rw [M.bind_apply, M.bind_apply, M.bind_ok (spacesC hw o), M.bind_apply]
    unfold skipSymbolC
    rw [if_neg (show ¬ (0x3C :: (name ++ rest) : Str).head? ≠ some 0x3C from fun h => h rfl), skipSymbolLoopC, if_pos rfl, symbol_bad hn hb _ (by omega)]
  rw [e]

theorem parseC_bad {name sym w rest line more : Str} {h : Host} {f : File} (hf : h.files.opens h.files.next name = some f)
    (ht : f.bytes = line ++ more) (h1 : FirstLine line more)
    (hm : LikeMemory (upToNul line)) (hl : (upToNul line).drop 11 = w ++ 0x3C :: (sym ++ rest)) (hw : AllSpace w)
    (hn : ∀ c ∈ sym, c ≠ 0x3E) (hb : ∃ c ∈ sym, ¬ PlainByte true c) : parseC true name h = .ub .outOfBounds := by
  unfold parseC
  rw [M.bind_apply]
  unfold Host.fopen
  rw [hf]
  simp only [M.tryCatch_apply, M.bind_apply]
  obtain ⟨g0, g1, g2, g3⟩ := h1
  have e : ∀ x, parseLinesC true firstPassHandler f.bytes x = .ub .outOfBounds := by
    intro x
    unfold parseLinesC
    simp only [M.bind_apply]
    rw [ht, parseLoopC, fgets_first (n := LINE_SIZE - 1) g0 g1 g2 g3]
    simp only [M.bind_apply]
    rw [cstr_eq, parseLine_bad hm hl hw hn hb]
  unfold initPSPandMSP M.modify
  simp only [e]

end Verif.GdbLog

namespace Verif.CommandLine
open Verif MemSim Spec Libc

variable {s : Bool}

theorem loadDumpFileC_plain {p : Prog}
    (h : ∀ d f0 f, p.dump = some d → p.host.files.opens p.host.files.next d = some f0 → ¬ [0x63, 0x43] <+: f0.bytes →
      ¬ asc "6343" <+: f0.bytes → p.host.files.opens (p.host.files.next + 1) d = some f → LogPlain s f.bytes) :
    loadDumpFileC s p = loadDumpFile p := by
  cases hd : p.dump with
  | none =>
    unfold loadDumpFileC loadDumpFile
    rw [M.bind_ok (show (M.get : M Prog Prog) p = .ok p p from rfl), M.bind_ok (show (M.get : M Prog Prog) p = .ok p p from rfl), hd]
  | some d =>
    unfold loadDumpFileC loadDumpFile
    rw [M.bind_ok (show (M.get : M Prog Prog) p = .ok p p from rfl), M.bind_ok (show (M.get : M Prog Prog) p = .ok p p from rfl), hd]
    simp only [M.bind_apply]
    cases ho : p.host.files.opens p.host.files.next d with
    | none =>
      have hfo : onHost (Host.fopen d) p = .ok none { p with host := peeked p.host } := by
        simp only [onHost, M.zoom_apply, Host.fopen, ho]; rfl
      have hg : getFileType d p = .throw ⟨.file, (asc "Failed to open \"" ++ d ++ asc "\".").take 1023⟩ { p with host := peeked p.host } := by
        unfold getFileType
        rw [M.bind_ok hfo]
        rfl
      rw [hg]
    | some f0 =>
      rw [getFileType_some ho]
      by_cases h1 : [0x63, 0x43] <+: f0.bytes
      · rw [if_pos h1]
      · rw [if_neg h1]
        by_cases h2 : asc "6343" <+: f0.bytes
        · rw [if_pos h2]
        · rw [if_neg h2]
          simp only
          have e : GdbLog.parseC s d (peeked p.host) = GdbLog.parse d (peeked p.host) :=
            GdbLog.parseC_plain fun f hf => h d f0 f hd ho h1 h2 hf
          unfold onMemory onHost
          simp only [M.zoom_apply, e]

theorem initBodyC_plain {args : List Str} {p : Prog} (h2 : DumpPlain s args p) :
    initBodyC s args.length args p = initBody args.length args p := by
  unfold initBodyC initBody
  rcases split_args args with ⟨os, hs⟩ | ⟨pre, os, rest, m, rfl, hs, hst⟩
  · rw [M.bind_ok (show clear p = .ok () (cleared p) from rfl), M.bind_ok (show clear p = .ok () (cleared p) from rfl), pass_complete hs,
      M.bind_ok (first_pass os (cleared p)), M.bind_ok (first_pass os (cleared p))]
    show (throwIfRequiredArgumentNotSpecified >>= _) (chosen os p) = (throwIfRequiredArgumentNotSpecified >>= _) (chosen os p)
    cases hn : imageFile os with
    | none => rw [M.bind_throw (required_image (by rw [chosen_image]; exact hn)), M.bind_throw (required_image (by rw [chosen_image]; exact hn))]
    | some n =>
      have hn' : imageName (chosen os p) = some n := by rw [chosen_image]; exact hn
      cases hd : lastDump os with
      | none => rw [M.bind_throw (required_dump hn' (by rw [chosen_dump]; exact hd)), M.bind_throw (required_dump hn' (by rw [chosen_dump]; exact hd))]
      | some d =>
        have hd' : (chosen os p).dump = some d := by rw [chosen_dump]; exact hd
        rw [M.bind_ok (required_ok hn' hd'), M.bind_ok (required_ok hn' hd'),
          M.bind_ok (show initMemory (chosen os p) = .ok () (withMemory (chosen os p)) from rfl),
          M.bind_ok (show initMemory (chosen os p) = .ok () (withMemory (chosen os p)) from rfl), M.bind_apply, M.bind_apply]
        have hq : ∀ u q, loadImageFile (withMemory (chosen os p)) = .ok u q → q.dump = some d ∧ q.host.files.opens = p.host.files.opens ∧
            q.host.files.next = p.host.files.next + 1 := by
          intro u q hq
          rcases loadImageFile_cases (p := withMemory (chosen os p)) rfl (imageName_split hn') with ⟨e, k, h1, -, -⟩ | ⟨f, -, -, h3⟩
          · rw [h1] at hq; cases hq
          · rw [h3] at hq
            cases hx : imageWork (withMemory (chosen os p)) f (bumpHeap (withMemory (chosen os p)).host.mem 1 1) with
            | ub r => rw [hx] at hq; cases hq
            | throw e s => rw [hx] at hq; cases hq
            | ok v s => rw [hx] at hq; cases hq; exact ⟨hd', rfl, rfl⟩
        cases e : loadImageFile (withMemory (chosen os p)) with
        | ub r => rfl
        | throw x q => rfl
        | ok u q =>
          obtain ⟨k1, k2, k3⟩ := hq u q e
          simp only
          rw [M.bind_apply, M.bind_apply, loadDumpFileC_plain]
          intro d' f0 f g1 g2 g3 g4 g5
          rw [k1] at g1
          cases g1
          rw [k2, k3] at g2 g5
          exact h2 os d f0 f hs hd g2 g3 g4 g5
  · rw [M.bind_ok (show clear p = .ok () (cleared p) from rfl), M.bind_ok (show clear p = .ok () (cleared p) from rfl), pass_stuck hs hst]
    rw [M.bind_throw (show (do runOpts .first os; M.throw .invalidArgument m : M Prog Unit) (cleared p) = .throw ⟨.invalidArgument, m⟩ (selected os (cleared p)) by
      rw [M.bind_ok (first_pass os (cleared p))]; rfl), M.bind_throw (show (do runOpts .first os; M.throw .invalidArgument m : M Prog Unit) (cleared p) = .throw ⟨.invalidArgument, m⟩ (selected os (cleared p)) by
      rw [M.bind_ok (first_pass os (cleared p))]; rfl)]

theorem initC_plain {args : List Str} {p : Prog} (h2 : DumpPlain s args p) :
    startUpC s args p = startUp args p := by
  unfold startUpC startUp initC init
  simp only [M.tryCatch_apply, initBodyC_plain h2]

end Verif.CommandLine
