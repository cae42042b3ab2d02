import Verif.Props.Overread
/-
C82: exactly when all runs of the program are defined.
-/
namespace Verif.Props
open Verif MemSim Spec Host Main CommandLine Platform

/-- A debug monitor that answers the first character it receives with the byte at this address. -/
def peekingByte (a : U32) : World where
  mriInit := pure ()
  debugException := do
    let _ ← commReceiveChar
    let (v, n) ← askedRead .w8 a
    commSendChar (if n = 0 then v.toInt else 0x45)
  comm := { poll := fun _ => some true, input := fun n => if n < 2 then .byte 0x24 else .error, fails := fun _ => false }
  buf := { data := [], pos := 0 }
  number := fun _ => 12

theorem peekingByte_by (a : U32) : ByPlatform (peekingByte a).mriInit ∧ ByPlatform (peekingByte a).debugException :=
  ⟨.pure _, .bind .receive fun _ => .bind (.read _ _) fun _ => .send _⟩

theorem peekingByte_broken {name : Str} {words : List Str} {p q : Prog} {a : U32} {u : UB} (h1 : startUp words p = .ok () q)
    (h2 : IMemory.read .w8 a q.host.mem = .ub u) : Runs (peekingByte a) standardStop name words p (.ub u) := by
  refine .broken (by rw [runs_init]; exact h1) (.run (q := atStart _ q) (by rw [prepare_eq]; rfl) (.broken ?_))
  have e : ∀ c, memRead .w8 a { atStart (peekingByte a) q with comm := c } = .ub u := fun c => memRead_ub h2
  have h3 : commReceiveChar (atStart (peekingByte a) q) =
      .ok 0x24 { atStart (peekingByte a) q with comm := { (peekingByte a).comm with connected := true, reads := 1 } } := rfl
  show (commReceiveChar >>= fun _ => (memRead .w8 a >>= _) >>= _) _ = _
  rw [M.bind_ok h3, M.bind_ub (M.bind_ub (e _))]

/-- C82, exactly: for command lines after whose start-up, if it succeeds, loaded memory ends within the address space and no alias
starts inside of another block of memory, every run, with every debug monitor, is defined if and only if start-up is (see
`C71_undefined_iff`) and every alias leads into memory of the image or the dump. (Always with up to 19 522 578 blocks.) -/
theorem C82_defined_iff_partial {words : List Str} {p : Prog}
    (hn : ∀ q, startUp words p = .ok () q → q.host.mem.regions.length ≤ 19522578)
    (hfit : ∀ q, startUp words p = .ok () q → ∀ r ∈ q.host.mem.regions, r.isAlias = false → r.baseAddress.toNat + r.size.toNat ≤ 2 ^ 32)
    (hown : ∀ q, startUp words p = .ok () q → ∀ (k : Nat) (r : Region), q.host.mem.regions[k]? = some r → r.isAlias = true →
      FirstCover q.host.mem.regions r.baseAddress 1 k r) :
    (∀ w name o, ByPlatform w.mriInit → ByPlatform w.debugException → Runs w standardStop name words p o →
        ∃ v q, o = .ok v q ∧ (v = 0 ∨ v = -1)) ↔
      (∀ r, startUp words p ≠ .ub r) ∧ ∀ os q, Spelled words os → startUp words p = .ok () q → AliasesLoaded (aliases os) q.host.mem := by
  constructor
  · intro hdef
    constructor
    · intro r hr
      obtain ⟨v, q, h, -⟩ := hdef (peekingByte 0) [] (.ub r) (peekingByte_by 0).1 (peekingByte_by 0).2
        (.startUpBroken (by rw [runs_init]; exact hr))
      cases h
    · intro os q hs hq
      refine fun x hx => ?_
      obtain ⟨m, -, -, -, h4, -⟩ := started_stage hs hq
      obtain ⟨A, g1, g2, g3⟩ := aliases_regions h4
      obtain ⟨r, hr, hb, hrd⟩ := g3 x hx
      have ha := g2 r hr
      have hm : r ∈ q.host.mem.regions := by rw [g1]; exact List.mem_append_right _ hr
      obtain ⟨k, hk⟩ := List.mem_iff_getElem?.1 hm
      have hres := started_resolved hs hq k r hk
      rw [if_pos ha] at hres
      obtain ⟨k0, y, i, t, -, hy, -⟩ := hres
      cases hya : y.isAlias with
      | false => exact ⟨y, List.mem_of_getElem? hy.1, hya, by rw [← hrd]; exact hy.2.1⟩
      | true =>
        obtain ⟨i, t, -, -, ⟨u, hu⟩, -⟩ := chained_escapes (w := .w8) (started_resolved hs hq) (hfit q hq) (hown q hq k r hk ha) ha hy hya (by decide)
        obtain ⟨v, q', h, -⟩ := hdef (peekingByte r.baseAddress) [] (.ub u) (peekingByte_by _).1 (peekingByte_by _).2
          (peekingByte_broken hq hu)
        cases h
  · rintro ⟨h1, h2⟩ w name o hi hd hr
    exact runs_defined hi hd h1 h2 hn hr

theorem one_outcome {o : Out Prog Unit} {q : Prog} (h : o = .ok () q) : (∀ q', o = .ok () q' → q' = q) ∧ ∀ r, o ≠ .ub r := by
  subst h
  exact ⟨fun q' h => by injection h with _ h; exact h.symm, fun r h => by cases h⟩

/-- The equivalence settles command lines: with an alias of an alias some run is undefined, with an alias of memory none. -/
example : (∃ w name u, ByPlatform w.mriInit ∧ ByPlatform w.debugException ∧ Runs w standardStop name argsChain progExample (.ub u)) ∧
    ∀ w name o, ByPlatform w.mriInit → ByPlatform w.debugException → Runs w standardStop name argsAlias progExample o →
      ∃ v q, o = .ok v q ∧ (v = 0 ∨ v = -1) := by
  refine ⟨⟨peeking 0x60000000, [], .outOfBounds, (peeking_by _).1, (peeking_by _).2, C82_chained_alias_witness []⟩, ?_⟩
  obtain ⟨q, h0, h1, h2, h3⟩ := ownStarts_iff (o := startUp argsAlias progExample) (by decide +kernel)
  have hq := (one_outcome h0).1
  refine (C82_defined_iff_partial (fun q' h => hq q' h ▸ h1) (fun q' h => hq q' h ▸ h2) (fun q' h => hq q' h ▸ h3)).2
    ⟨fun r h => (one_outcome h0).2 r h, fun os q' hs h => ?_⟩
  obtain rfl := hq q' h
  have : os = .alias (asc "0x50") (asc "4") (asc "0x20000000") :: optsElf :=
    spelled_unique hs (.cons (o := .alias _ _ _) (spells .alias (by decide +kernel)) spelledElf)
  subst this
  exact noChain_loaded hs h noChainAlias

end Verif.Props
