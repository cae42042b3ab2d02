import Verif.Props.Messages
import Verif.Lemmas.PlatReport
import Verif.Spec.Usage
/-
C111: the usage text is right.
-/
namespace Verif.Props
open Verif MemSim Spec Host Main CommandLine

def shownPlaces : List Place :=
  [⟨false, [[asc "--elf", asc "elfFilename"], [asc "--bin", asc "imageFilename", asc "baseAddress"]]⟩,
   ⟨false, [[asc "--dump", asc "dumpFilename"]]⟩,
   ⟨true, [[asc "--alias", asc "baseAddress", asc "size", asc "redirectAddress"]]⟩]

theorem before_eq {c : U8} {pat l t : Str} (h : c ∉ l) : before (c :: pat) (l ++ (c :: pat ++ t)) = l := by
  induction l with
  | nil => simp [before]
  | cons a l ih =>
    have ha : c ≠ a := fun e => h (by simp [e])
    rw [List.cons_append, before, if_neg (by rw [List.cons_prefix_cons]; exact fun k => ha k.1), ih fun k => h (by simp [k])]

theorem usage_split : ∃ t, usage = asc ("Usage: CrashDebug (--elf elfFilename | --bin imageFilename baseAddress)\n" ++
    "                   --dump dumpFilename\n" ++ "                  [--alias baseAddress size redirectAddress]\n") ++ (asc "Where:" ++ t) := by
  unfold usage
  have h : asc "Where: NOTE: The --elf and --bin options are mutually exclusive.  Use one\n" =
      asc "Where:" ++ asc " NOTE: The --elf and --bin options are mutually exclusive.  Use one\n" := by decide +kernel
  simp only [Platform.asc_append, List.append_assoc, h]
  exact ⟨_, rfl⟩

theorem synopsis_usage : synopsis usage = shownPlaces := by
  obtain ⟨t, h⟩ := usage_split
  rw [h]
  unfold synopsis
  rw [show asc "Where:" = 0x57 :: [0x68, 0x65, 0x72, 0x65, 0x3A] by decide +kernel, before_eq (by decide +kernel)]
  decide +kernel

/-- The form in which an option of this kind is shown. -/
def formOf : Kind → List Str
  | .elf => [asc "--elf", asc "elfFilename"]
  | .bin => [asc "--bin", asc "imageFilename", asc "baseAddress"]
  | .dump => [asc "--dump", asc "dumpFilename"]
  | .alias => [asc "--alias", asc "baseAddress", asc "size", asc "redirectAddress"]

theorem formOf_inj : ∀ k k' : Kind, formOf k = formOf k' → k = k' := by
  intro k k'
  cases k <;> cases k' <;> decide +kernel

theorem shown_forms {f : List Str} (h : f ∈ shownPlaces.flatMap Place.forms) : ∃ k, f = formOf k := by
  simp only [shownPlaces, List.flatMap_cons, List.flatMap_nil, List.append_nil, List.cons_append, List.nil_append, List.mem_cons,
    List.not_mem_nil, or_false] at h
  rcases h with rfl | rfl | rfl | rfl
  · exact ⟨.elf, rfl⟩
  · exact ⟨.bin, rfl⟩
  · exact ⟨.dump, rfl⟩
  · exact ⟨.alias, rfl⟩

theorem form_shown (k : Kind) : formOf k ∈ shownPlaces.flatMap Place.forms := by
  cases k <;> simp [shownPlaces, formOf]

theorem form_name (k : Kind) : ∃ ps, formOf k = asc k.name :: ps ∧ ps.length = k.arity := by
  cases k <;> exact ⟨_, rfl, rfl⟩

theorem opt_of (k : Kind) (ps : List Str) (h : ps.length = k.arity) : ∃ o : Opt, o.kind = k ∧ o.params = ps := by
  cases k
  · match ps, h with
    | [a, b], _ => exact ⟨.bin a b, rfl, rfl⟩
  · match ps, h with
    | [a], _ => exact ⟨.elf a, rfl, rfl⟩
  · match ps, h with
    | [a], _ => exact ⟨.dump a, rfl, rfl⟩
  · match ps, h with
    | [a, b, c], _ => exact ⟨.alias a b c, rfl, rfl⟩

theorem params_length (o : Opt) : o.params.length = o.kind.arity := by cases o <;> rfl

theorem follows_spelled {args : List Str} {fs : List (List Str)} (h : Follows (shownPlaces.flatMap Place.forms) args fs) :
    ∃ os, Spelled args os ∧ fs = os.map fun o => formOf o.kind := by
  induction h with
  | nil => exact ⟨[], .nil, rfl⟩
  | cons hf hn hl _ ih =>
    obtain ⟨os, h1, h2⟩ := ih
    obtain ⟨k, hk⟩ := shown_forms hf
    obtain ⟨ps', e1, e2⟩ := form_name k
    rw [e1] at hk
    injection hk with k1 k2
    subst k1 k2
    obtain ⟨o, rfl, rfl⟩ := opt_of k _ (hl.trans e2)
    exact ⟨o :: os, .cons hn h1, by rw [List.map_cons, e1, h2]⟩

theorem spelled_follows {args : List Str} {os : List Opt} (h : Spelled args os) :
    Follows (shownPlaces.flatMap Place.forms) args (os.map fun o => formOf o.kind) := by
  induction h with
  | nil => exact .nil
  | @cons w o ws os hn _ ih =>
    obtain ⟨ps, e1, e2⟩ := form_name o.kind
    rw [List.map_cons, e1]
    exact .cons (by rw [← e1]; exact form_shown _) hn ((params_length o).trans e2.symm) ih

theorem mem_forms {os : List Opt} {k : Kind} : formOf k ∈ (os.map fun o => formOf o.kind) ↔ ∃ o ∈ os, o.kind = k := by
  rw [List.mem_map]
  exact ⟨fun ⟨o, h, e⟩ => ⟨o, h, formOf_inj _ _ e⟩, fun ⟨o, h, e⟩ => ⟨o, h, by rw [e]⟩⟩

theorem last_some {α β : Type} {f : α → Option β} {l : List α} : (l.filterMap f).getLast? ≠ none ↔ ∃ a ∈ l, (f a).isSome := by
  rw [Ne, List.getLast?_eq_none_iff, List.filterMap_eq_nil_iff]
  constructor
  · intro h
    apply Classical.byContradiction
    intro hn
    exact h fun a ha => Option.not_isSome_iff_eq_none.1 fun k => hn ⟨a, ha, k⟩
  · rintro ⟨a, ha, k⟩ h
    rw [h a ha] at k
    cases k

theorem has_elf {os : List Opt} : lastElf os ≠ none ↔ ∃ o ∈ os, o.kind = .elf := by
  unfold lastElf
  rw [last_some]
  refine exists_congr fun o => and_congr_right fun _ => ?_
  cases o <;> simp [Opt.kind]

theorem has_bin {os : List Opt} : lastBin os ≠ none ↔ ∃ o ∈ os, o.kind = .bin := by
  unfold lastBin
  rw [last_some]
  refine exists_congr fun o => and_congr_right fun _ => ?_
  cases o <;> simp [Opt.kind]

theorem has_dump {os : List Opt} : lastDump os ≠ none ↔ ∃ o ∈ os, o.kind = .dump := by
  unfold lastDump
  rw [last_some]
  refine exists_congr fun o => and_congr_right fun _ => ?_
  cases o <;> simp [Opt.kind]

theorem has_image {os : List Opt} : imageFile os ≠ none ↔ ∃ o ∈ os, o.kind = .elf ∨ o.kind = .bin := by
  have : imageFile os ≠ none ↔ lastElf os ≠ none ∨ lastBin os ≠ none := by
    unfold imageFile
    cases lastElf os <;> cases lastBin os <;> simp
  rw [this, has_elf, has_bin]
  constructor
  · rintro (⟨o, h, e⟩ | ⟨o, h, e⟩)
    · exact ⟨o, h, .inl e⟩
    · exact ⟨o, h, .inr e⟩
  · rintro ⟨o, h, e | e⟩
    · exact .inl ⟨o, h, e⟩
    · exact .inr ⟨o, h, e⟩

/-- Command lines as shown are those that the parser understands. -/
theorem asShown_iff (args : List Str) :
    AsShown (synopsis usage) args ↔ ∃ os, Spelled args os ∧ imageFile os ≠ none ∧ lastDump os ≠ none := by
  rw [synopsis_usage]
  constructor
  · rintro ⟨fs, hf, hp⟩
    obtain ⟨os, h1, rfl⟩ := follows_spelled hf
    refine ⟨os, h1, has_image.2 ?_, has_dump.2 ?_⟩
    · obtain ⟨f, k1, k2⟩ := hp _ (.head _) rfl
      simp only [List.mem_cons, List.not_mem_nil, or_false] at k1
      rcases k1 with rfl | rfl
      · obtain ⟨o, h, e⟩ := (mem_forms (k := .elf)).1 k2
        exact ⟨o, h, .inl e⟩
      · obtain ⟨o, h, e⟩ := (mem_forms (k := .bin)).1 k2
        exact ⟨o, h, .inr e⟩
    · obtain ⟨f, k1, k2⟩ := hp _ (.tail _ (.head _)) rfl
      simp only [List.mem_cons, List.not_mem_nil, or_false] at k1
      subst k1
      exact (mem_forms (k := .dump)).1 k2
  · rintro ⟨os, h1, h2, h3⟩
    refine ⟨_, spelled_follows h1, fun p hp hm => ?_⟩
    simp only [shownPlaces, List.mem_cons, List.not_mem_nil, or_false] at hp
    rcases hp with rfl | rfl | rfl
    · obtain ⟨o, h, e | e⟩ := has_image.1 h2
      · exact ⟨formOf .elf, .head _, mem_forms.2 ⟨o, h, e⟩⟩
      · exact ⟨formOf .bin, .tail _ (.head _), mem_forms.2 ⟨o, h, e⟩⟩
    · exact ⟨formOf .dump, .head _, mem_forms.2 (has_dump.1 h3)⟩
    · cases hm

/-- C111. There is one usage text that every failed start-up ends with. Read as usage texts are read, it describes exactly the
command lines that are understood: one that is as shown is never refused for its form, and every other is refused. -/
theorem C111_usage_is_right : ∃ text, (∀ args p e q, startUp args p = .throw e q → text <:+ q.err) ∧
    asc "Usage: CrashDebug " <+: text ∧ ∀ args,
      (AsShown (synopsis text) args → ∀ p e q, startUp args p = .throw e q → e.code ≠ .invalidArgument) ∧
      (¬ AsShown (synopsis text) args → ∀ p, ∃ m q, startUp args p = .throw ⟨.invalidArgument, m⟩ q) := by
  refine ⟨usage, fun args p e q h => ?_, ?_, fun args => ⟨fun hs p e q h => ?_, fun hs p => ?_⟩⟩
  · rw [(C94_start_up h).2]
    exact ⟨_, List.append_assoc _ _ _⟩
  · obtain ⟨t, h⟩ := usage_split
    rw [h]
    exact List.IsPrefix.trans (by decide +kernel) (List.prefix_append _ _)
  · exact (C53_refused_iff args p).2 ((asShown_iff args).1 hs) e q h
  · obtain ⟨m, q, h, -⟩ := (C53_refused_iff args p).1 fun k => hs ((asShown_iff args).2 k)
    exact ⟨m, q, h⟩

/-- `--DUMP d --bin b 0 --bin c 4` is as shown; `--dump d --bin b` is not. -/
example : AsShown (synopsis usage) [asc "--DUMP", [0x64], asc "--bin", [0x62], asc "0", asc "--bin", [0x63], asc "4"] ∧
    ¬ AsShown (synopsis usage) [asc "--dump", [0x64], asc "--bin", [0x62]] := by
  constructor
  · exact (asShown_iff _).2 ⟨[.dump [0x64], .bin [0x62] (asc "0"), .bin [0x63] (asc "4")],
      .cons (o := .dump _) (spells .dump (by decide +kernel)) (.cons (o := .bin _ _) (spells .bin (by decide +kernel))
        (.cons (o := .bin _ _) (spells .bin (by decide +kernel)) .nil)), by decide, by decide⟩
  · intro h
    obtain ⟨q, hq, -⟩ := C53_refused (pre := [asc "--dump", [0x64]]) (rest := [asc "--bin", [0x62]])
      (.cons (o := .dump _) (spells .dump (by decide +kernel)) .nil) (.tooFew .bin (spells .bin (by decide +kernel)) (by decide)) progExample
    exact (C53_refused_iff _ progExample).2 ((asShown_iff _).1 h) _ _ hq rfl

end Verif.Props
