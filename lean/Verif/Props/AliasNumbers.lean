import Verif.Lemmas.Session
import Verif.Props.Numbers
/-
C81: the aliases that start-up creates.
-/
namespace Verif.Props
open Verif MemSim CommandLine Spec

/-- `r` is the alias of the numbers `v` (address, size, target), among the regions `rs`: it has the size given, or if this is too
large it ends where the region ends that it leads into. -/
def AliasOf (rs : List Region) (r : Region) (v : U32 × U32 × U32) : Prop :=
  r.isAlias = true ∧ r.baseAddress = v.1 ∧ r.redirectAddress = v.2.2 ∧
    ∃ j t, r.redirect = some j ∧ rs[j]? = some t ∧
      r.size = if v.2.1.toNat ≤ (t.size - (v.2.2 - t.baseAddress)).toNat then v.2.1 else t.size - (v.2.2 - t.baseAddress)

theorem aliasOf_more {rs : List Region} {r x : Region} {v : U32 × U32 × U32} (h : AliasOf rs r v) : AliasOf (rs ++ [x]) r v := by
  obtain ⟨h1, h2, h3, j, t, h4, h5, h6⟩ := h
  refine ⟨h1, h2, h3, j, t, h4, ?_, h6⟩
  rw [List.getElem?_append_left (List.getElem?_eq_some_iff.1 h5).1]; exact h5

theorem forall₂_snoc {R S : α → β → Prop} {xs : List α} {ys : List β} {x : α} {y : β} (h : List.Forall₂ R xs ys)
    (hi : ∀ x y, R x y → S x y) (hx : S x y) : List.Forall₂ S (xs ++ [x]) (ys ++ [y]) := by
  induction h with
  | nil => exact .cons hx .nil
  | cons h _ ih => exact .cons (hi _ _ h) ih

theorem aliases_numbers {todo done : List (U32 × U32 × U32)} : ∀ {s s' : Sim} {m A : List Region}, s.regions = m ++ A →
    List.Forall₂ (AliasOf s.regions) A done → createAliases todo s = .ok () s' →
    ∃ A', s'.regions = m ++ A' ∧ List.Forall₂ (AliasOf s'.regions) A' (done ++ todo) := by
  induction todo generalizing done with
  | nil => intro s s' m A hr hA h; cases h; exact ⟨A, hr, by simpa using hA⟩
  | cons x xs ih =>
    intro s s' m A hr hA h
    change ((M.tryCatch (createAlias x.1 x.2.2 x.2.1) _ : M Sim Unit) >>= fun _ => createAliases xs) s = _ at h
    rw [M.bind_apply, M.tryCatch_apply] at h
    rcases createAlias_cases x.1 x.2.2 x.2.1 s with ⟨k, e⟩ | ⟨k, e, -⟩ | ⟨j, a', t, h1, h2, e⟩ | ⟨u, e, -⟩
    · rw [e] at h; cases h
    · rw [e] at h; cases h
    · rw [e] at h
      have := ih (done := done ++ [x]) (m := m) (A := A ++ [newAlias x.1 x.2.2 x.2.1 j t]) (by simp [hr]) ?_ h
      · simpa using this
      · refine forall₂_snoc hA (fun _ _ h => aliasOf_more h) ⟨rfl, rfl, rfl, j, t, rfl, ?_, ?_⟩
        · show (s.regions ++ [_])[j]? = some t
          rw [List.getElem?_append_left (List.getElem?_eq_some_iff.1 h2).1]; exact h2
        · show (if _ then _ else _) = _
          by_cases hg : x.2.1.toNat ≤ (t.size - (x.2.2 - t.baseAddress)).toNat
          · rw [if_pos hg, if_neg (by omega)]
          · rw [if_neg hg, if_pos (by omega)]
    · rw [e] at h; cases h

/-- C81. After a successful start-up there is exactly one alias for each `--alias` option, in their order, with the address, the size and
the target that the words given mean (but none longer than the memory it leads into). -/
theorem C81_aliases_created {args : List Str} {os : List Opt} {p q : Prog} {vs : List (U32 × U32 × U32)} (h : Spelled args os)
    (hv : List.Forall₂ (fun t v => Means t.1 v.1 ∧ Means t.2.1 v.2.1 ∧ Means t.2.2 v.2.2)
      (os.filterMap fun o => match o with | .alias b s r => some (b, s, r) | _ => none) vs) (hq : startUp args p = .ok () q) :
    List.Forall₂ (AliasOf q.host.mem.regions) (q.host.mem.regions.filter (·.isAlias)) vs := by
  obtain ⟨m, -, -, hn, hc, -⟩ := started_stage h hq
  rw [C81_alias_numbers_any hv] at hc
  obtain ⟨A, h1, h2⟩ := aliases_numbers (done := []) (m := m.regions) (A := []) (by simp) .nil hc
  have hm : m.regions.filter (·.isAlias) = [] := List.filter_eq_nil_iff.2 fun r hr => by simp [hn r hr]
  have hA : A.filter (·.isAlias) = A := by
    refine List.filter_eq_self.2 fun r hr => ?_
    obtain ⟨i, hi⟩ := List.mem_iff_getElem?.1 hr
    clear h1
    generalize ([] ++ vs : List _) = ws at h2
    induction h2 generalizing i with
    | nil => cases hr
    | cons h _ ih =>
      rcases List.mem_cons.1 hr with rfl | hr
      · exact h.1
      · obtain ⟨i, hi⟩ := List.mem_iff_getElem?.1 hr
        exact ih hr i hi
  rw [h1, List.filter_append, hm, hA, ← h1]
  simpa using h2

theorem means_of {t : Str} {v : U32} (h : Libc.strtoul32 t = v) : Means t v := by
  obtain ⟨v', hv⟩ := Libc.means_exists t
  rw [Libc.strtoul32_means hv] at h
  exact h ▸ hv

/-- The alias at 0x50, of 4 bytes, to the memory of the dump at 0x20000000; start-up succeeds. -/
example : ∃ q, startUp argsAlias progExample = .ok () q ∧
    List.Forall₂ (AliasOf q.host.mem.regions) (q.host.mem.regions.filter (·.isAlias)) [(0x50, 4, 0x20000000)] := by
  have h : okReads (startUp argsAlias progExample) 0x50 0x04030201 = true := by decide +kernel
  cases e : startUp argsAlias progExample with
  | ok u q =>
    refine ⟨q, rfl, C81_aliases_created spelledAlias ?_ e⟩
    exact .cons ⟨means_of (by decide +kernel), means_of (by decide +kernel), means_of (by decide +kernel)⟩ .nil
  | throw x q => rw [e] at h; cases h
  | ub r => rw [e] at h; cases h

end Verif.Props
