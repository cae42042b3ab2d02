import Verif.Spec.TryCatch
/-
The macros' global variables against the structured reading of exceptions.
-/
namespace Verif.TryCatch
open Verif Spec

variable {σ : Type} {env : Nat → Cmd σ}

/-- What running any program does to the handler list. -/
def StackOK (s : G σ) : Res σ → Prop
  | .fin s' => s'.handlers = s.handlers
  | .jump t s' => s'.handlers = s.handlers ∧ s.handlers.head? = some t
  | .died s' => s'.handlers = [] ∧ s.handlers = []

theorem doThrow_stack (k : Int) (s s' : G σ) (h : s'.handlers = s.handlers) : StackOK s (doThrow k s') := by
  unfold doThrow setCode
  split
  · rename_i h1
    exact ⟨h1, h ▸ h1⟩
  · rename_i t ts h1
    simp only at h1
    exact ⟨h, by rw [← h, h1]; rfl⟩

theorem Arrives.stack {t : Nat} {r : Res σ} {s s1 : G σ} (h : Arrives t r s1) (hs : StackOK s r) :
    s1.handlers = s.handlers := by
  rcases h with rfl | rfl
  · exact hs
  · exact hs.1

theorem run_stack {p : Cmd σ} {s : G σ} {r : Res σ} (h : Run env p s r) : StackOK s r := by
  induction h with
  | act => rfl
  | @seq p s s1 q r _ _ ih1 ih2 =>
    cases r with
    | fin s' => exact (ih2 : _ = _).trans ih1
    | jump t s' => exact ⟨ih2.1.trans ih1, (congrArg List.head? (ih1 : _ = _)).symm.trans ih2.2⟩
    | died s' => exact ⟨ih2.1, (ih1 : _ = _).symm.trans ih2.2⟩
  | seqJump _ ih => exact ih
  | seqDied _ ih => exact ih
  | iteTrue _ _ ih => exact ih
  | iteFalse _ _ ih => exact ih
  | loopEnd _ => rfl
  | loopGo _ _ ih => exact ih
  | call _ ih => exact ih
  | throw => exact doThrow_stack _ _ _ rfl
  | throwMsg => exact doThrow_stack _ _ _ rfl
  | clear => rfl
  | tryDone _ _ _ _ => rfl
  | tryCaught _ _ _ _ _ ih => exact ih
  | tryPast _ ht ih =>
    have := ih.2
    simp only [enter, List.head?_cons, Option.some.injEq] at this
    exact absurd this.symm ht
  | tryDied _ ih =>
    have := ih.2
    simp [enter] at this

/-- The structured reading of how a run ended. -/
def MatchesDoes (env : Nat → Cmd σ) (p : Cmd σ) (cur : Int) (u : σ) (m : Str) : Res σ → Prop
  | .fin s' => s'.code = 0 ∧ Does env p cur u m (.done s'.user s'.msg)
  | .jump _ s' => 0 < s'.code ∧ Does env p cur u m (.raised s'.code s'.user s'.msg)
  | .died s' => 0 < s'.code ∧ Does env p cur u m (.raised s'.code s'.user s'.msg)

theorem matches_throw {p : Cmd σ} {cur k : Int} {u : σ} {m : Str} {s : G σ} (hk : 0 < k) (hc : s.code ≤ k)
    (h : Does env p cur u m (.raised k s.user s.msg)) : MatchesDoes env p cur u m (doThrow k s) := by
  have e : (setCode k s).code = k := by
    unfold setCode
    split
    · rfl
    · show s.code = k; omega
  unfold doThrow
  split
  · exact ⟨by rw [e]; exact hk, by rw [e]; exact h⟩
  · exact ⟨by rw [e]; exact hk, by rw [e]; exact h⟩

theorem blind_eq {α : Type} {f : Int → σ → α} (h : Blind f) (c c' : Int) : f c = f c' := funext fun u => h c c' u

/-- Everything about a run, by the role the program plays. -/
theorem run_does (he : ∀ n, Plain (env n)) {p : Cmd σ} {s : G σ} {r : Res σ} (h : Run env p s r) :
    (Quiet p → ∃ s', r = .fin s' ∧ s'.code = s.code ∧ Does env p s.code s.user s.msg (.done s'.user s'.msg)) ∧
    (Plain p → s.code = 0 → ∀ cur, MatchesDoes env p cur s.user s.msg r) ∧
    (Handles p → 0 < s.code → MatchesDoes env p s.code s.user s.msg r) ∧
    (Tail p → 0 < s.code → MatchesDoes env p s.code s.user s.msg r) := by
  induction h with
  | @act f s =>
    refine ⟨fun _ => ⟨_, rfl, rfl, .act⟩, fun hp h0 cur => ?_, fun hh => ?_, nofun⟩
    · cases hp with
      | act hb =>
        refine ⟨h0, ?_⟩
        show Does env (.act f) cur s.user s.msg (.done (f s.code s.user) s.msg)
        rw [blind_eq hb s.code cur]
        exact .act
    · cases hh with | tail ht => cases ht
  | @seq p s s1 q r h1 h2 ih1 ih2 =>
    refine ⟨fun hq => ?_, fun hp h0 cur => ?_, fun hh h0 => ?_, fun ht h0 => ?_⟩
    · cases hq with
      | seq hq1 hq2 =>
        obtain ⟨_, e1, c1, d1⟩ := ih1.1 hq1
        cases e1
        obtain ⟨s2, e2, c2, d2⟩ := ih2.1 hq2
        rw [c1] at d2
        exact ⟨s2, e2, c2.trans c1, .seq d1 d2⟩
    · cases hp with
      | seq hp1 hp2 =>
        have m1 := ih1.2.1 hp1 h0 cur
        have m2 := ih2.2.1 hp2 m1.1 cur
        cases r with
        | fin => exact ⟨m2.1, .seq m1.2 m2.2⟩
        | jump => exact ⟨m2.1, .seq m1.2 m2.2⟩
        | died => exact ⟨m2.1, .seq m1.2 m2.2⟩
    · cases hh with
      | seq hq ht =>
        obtain ⟨_, e1, c1, d1⟩ := ih1.1 hq
        cases e1
        have m2 := ih2.2.2.2 ht (by omega)
        rw [c1] at m2
        cases r with
        | fin => exact ⟨m2.1, .seq d1 m2.2⟩
        | jump => exact ⟨m2.1, .seq d1 m2.2⟩
        | died => exact ⟨m2.1, .seq d1 m2.2⟩
      | tail ht =>
        cases ht with
        | clearThen hp =>
          cases h1
          have m2 := ih2.2.1 hp rfl s.code
          cases r with
          | fin => exact ⟨m2.1, .seq .clear m2.2⟩
          | jump => exact ⟨m2.1, .seq .clear m2.2⟩
          | died => exact ⟨m2.1, .seq .clear m2.2⟩
    · cases ht with
      | clearThen hp =>
        cases h1
        have m2 := ih2.2.1 hp rfl s.code
        cases r with
        | fin => exact ⟨m2.1, .seq .clear m2.2⟩
        | jump => exact ⟨m2.1, .seq .clear m2.2⟩
        | died => exact ⟨m2.1, .seq .clear m2.2⟩
  | @seqJump p s t s1 q h1 ih1 =>
    refine ⟨fun hq => ?_, fun hp h0 cur => ?_, fun hh h0 => ?_, fun ht h0 => ?_⟩
    · cases hq with
      | seq hq1 hq2 =>
        obtain ⟨_, e1, _⟩ := ih1.1 hq1
        cases e1
    · cases hp with
      | seq hp1 hp2 =>
        have m1 := ih1.2.1 hp1 h0 cur
        exact ⟨m1.1, .seqRaised m1.2⟩
    · cases hh with
      | seq hq ht =>
        obtain ⟨_, e1, _⟩ := ih1.1 hq
        cases e1
      | tail ht => cases ht; cases h1
    · cases ht; cases h1
  | @seqDied p s s1 q h1 ih1 =>
    refine ⟨fun hq => ?_, fun hp h0 cur => ?_, fun hh h0 => ?_, fun ht h0 => ?_⟩
    · cases hq with
      | seq hq1 hq2 =>
        obtain ⟨_, e1, _⟩ := ih1.1 hq1
        cases e1
    · cases hp with
      | seq hp1 hp2 =>
        have m1 := ih1.2.1 hp1 h0 cur
        exact ⟨m1.1, .seqRaised m1.2⟩
    · cases hh with
      | seq hq ht =>
        obtain ⟨_, e1, _⟩ := ih1.1 hq
        cases e1
      | tail ht => cases ht; cases h1
    · cases ht; cases h1
  | @iteTrue c p s r q hc h1 ih =>
    refine ⟨fun hq => ?_, fun hp h0 cur => ?_, fun hh h0 => ?_, nofun⟩
    · cases hq with
      | ite hq1 hq2 =>
        obtain ⟨s', e, c', d⟩ := ih.1 hq1
        exact ⟨s', e, c', .iteTrue hc d⟩
    · cases hp with
      | ite hb hp1 hp2 =>
        have m1 := ih.2.1 hp1 h0 cur
        have hc' : c cur s.user = true := by rw [hb cur s.code]; exact hc
        cases r with
        | fin => exact ⟨m1.1, .iteTrue hc' m1.2⟩
        | jump => exact ⟨m1.1, .iteTrue hc' m1.2⟩
        | died => exact ⟨m1.1, .iteTrue hc' m1.2⟩
    · cases hh with
      | tail ht => cases ht
      | ite hp1 hp2 =>
        have m1 := ih.2.2.1 hp1 h0
        cases r with
        | fin => exact ⟨m1.1, .iteTrue hc m1.2⟩
        | jump => exact ⟨m1.1, .iteTrue hc m1.2⟩
        | died => exact ⟨m1.1, .iteTrue hc m1.2⟩
  | @iteFalse c q s r p hc h1 ih =>
    refine ⟨fun hq => ?_, fun hp h0 cur => ?_, fun hh h0 => ?_, nofun⟩
    · cases hq with
      | ite hq1 hq2 =>
        obtain ⟨s', e, c', d⟩ := ih.1 hq2
        exact ⟨s', e, c', .iteFalse hc d⟩
    · cases hp with
      | ite hb hp1 hp2 =>
        have m1 := ih.2.1 hp2 h0 cur
        have hc' : c cur s.user = false := by rw [hb cur s.code]; exact hc
        cases r with
        | fin => exact ⟨m1.1, .iteFalse hc' m1.2⟩
        | jump => exact ⟨m1.1, .iteFalse hc' m1.2⟩
        | died => exact ⟨m1.1, .iteFalse hc' m1.2⟩
    · cases hh with
      | tail ht => cases ht
      | ite hp1 hp2 =>
        have m1 := ih.2.2.1 hp2 h0
        cases r with
        | fin => exact ⟨m1.1, .iteFalse hc m1.2⟩
        | jump => exact ⟨m1.1, .iteFalse hc m1.2⟩
        | died => exact ⟨m1.1, .iteFalse hc m1.2⟩
  | @loopEnd c p s hc =>
    refine ⟨fun _ => ⟨_, rfl, rfl, .loopEnd hc⟩, fun hp h0 cur => ?_, fun hh h0 => ?_, nofun⟩
    · cases hp with
      | loop hb hp1 => exact ⟨h0, .loopEnd (by rw [hb cur s.code]; exact hc)⟩
    · cases hh with | tail ht => cases ht
  | @loopGo c p s r hc h1 ih =>
    refine ⟨fun hq => ?_, fun hp h0 cur => ?_, fun hh h0 => ?_, nofun⟩
    · cases hq with
      | loop hq1 =>
        obtain ⟨s', e, c', d⟩ := ih.1 (.seq hq1 (.loop hq1))
        exact ⟨s', e, c', .loopGo hc d⟩
    · cases hp with
      | loop hb hp1 =>
        have m1 := ih.2.1 (.seq hp1 (.loop hb hp1)) h0 cur
        have hc' : c cur s.user = true := by rw [hb cur s.code]; exact hc
        cases r with
        | fin => exact ⟨m1.1, .loopGo hc' m1.2⟩
        | jump => exact ⟨m1.1, .loopGo hc' m1.2⟩
        | died => exact ⟨m1.1, .loopGo hc' m1.2⟩
    · cases hh with | tail ht => cases ht
  | @call f s r h1 ih =>
    refine ⟨nofun, fun hp h0 cur => ?_, fun hh h0 => ?_, nofun⟩
    · have m1 := ih.2.1 (he f) h0 cur
      cases r with
      | fin => exact ⟨m1.1, .call m1.2⟩
      | jump => exact ⟨m1.1, .call m1.2⟩
      | died => exact ⟨m1.1, .call m1.2⟩
    · cases hh with | tail ht => cases ht
  | @throw k s =>
    have tailCase : (∀ c u, 0 < c → c ≤ k c u) → 0 < s.code →
        MatchesDoes env (.throw k) s.code s.user s.msg (doThrow (k s.code s.user) s) := fun hk h0 =>
      matches_throw (by have := hk s.code s.user h0; omega) (hk s.code s.user h0) .throw
    refine ⟨nofun, fun hp h0 cur => ?_, fun hh h0 => ?_, fun ht h0 => ?_⟩
    · cases hp with
      | throw hb hk =>
        have := hk s.code s.user
        refine matches_throw this (by omega) ?_
        rw [hb s.code cur]
        exact .throw
    · cases hh with
      | tail ht => cases ht with | throw hk => exact tailCase hk h0
    · cases ht with | throw hk => exact tailCase hk h0
  | @throwMsg k m s =>
    have tailCase : (∀ c u, 0 < c → c ≤ k c u) → 0 < s.code →
        MatchesDoes env (.throwMsg k m) s.code s.user s.msg
          (doThrow (k s.code s.user) { s with msg := (m s.code s.msg s.user).take 1023 }) := fun hk h0 =>
      matches_throw (by have := hk s.code s.user h0; omega) (hk s.code s.user h0) .throwMsg
    refine ⟨nofun, fun hp h0 cur => ?_, fun hh h0 => ?_, fun ht h0 => ?_⟩
    · cases hp with
      | throwMsg hb hk hm =>
        have := hk s.code s.user
        refine matches_throw this (by show s.code ≤ _; omega) ?_
        rw [hb s.code cur, hm s.code cur]
        exact .throwMsg
    · cases hh with
      | tail ht => cases ht with | throwMsg hk => exact tailCase hk h0
    · cases ht with | throwMsg hk => exact tailCase hk h0
  | clear =>
    exact ⟨nofun, fun _ _ _ => ⟨rfl, .clear⟩, fun _ _ => ⟨rfl, .clear⟩, fun _ _ => ⟨rfl, .clear⟩⟩
  | @tryDone b s r1 s1 h h1 ha hc ih =>
    refine ⟨nofun, fun hp h0 cur => ?_, fun hh h0 => ?_, nofun⟩
    · cases hp with
      | tryCatch hb hh =>
        have m1 := ih.2.1 hb rfl 0
        rcases ha with rfl | rfl
        · exact ⟨hc, .tryDone m1.2⟩
        · have := m1.1; omega
    · cases hh with | tail ht => cases ht
  | @tryCaught b s r1 s1 h r h1 ha hc h2 ih1 ih2 =>
    refine ⟨nofun, fun hp h0 cur => ?_, fun hh h0 => ?_, nofun⟩
    · cases hp with
      | tryCatch hb hh =>
        have m1 := ih1.2.1 hb rfl 0
        rcases ha with rfl | rfl
        · exact absurd m1.1 hc
        · have m2 := ih2.2.2.1 hh m1.1
          cases r with
          | fin => exact ⟨m2.1, .tryCaught m1.2 m2.2⟩
          | jump => exact ⟨m2.1, .tryCaught m1.2 m2.2⟩
          | died => exact ⟨m2.1, .tryCaught m1.2 m2.2⟩
    · cases hh with | tail ht => cases ht
  | @tryPast b s t s1 h h1 ht ih =>
    have := (run_stack h1).2
    simp only [enter, List.head?_cons, Option.some.injEq] at this
    exact absurd this.symm ht
  | @tryDied b s s1 h h1 ih =>
    have := (run_stack h1).2
    simp [enter] at this

theorem shows_throw {k : Int} {u : σ} {m : Str} {s : G σ} (hk : 0 < k) (hc : s.code ≤ k) (hu : s.user = u)
    (hm : s.msg = m) : Shows (.raised k u m) (doThrow k s) := by
  have e : (setCode k s).code = k := by
    unfold setCode
    split
    · rfl
    · show s.code = k; omega
  refine ⟨hk, setCode k s, ?_, e, hu, hm⟩
  unfold doThrow
  split
  · exact .inr rfl
  · exact .inl ⟨_, rfl⟩

/-- The converse of `run_does`. -/
theorem does_run (he : ∀ n, Plain (env n)) {p : Cmd σ} {cur : Int} {u : σ} {m : Str} {e : Effect σ}
    (h : Does env p cur u m e) :
    (Quiet p → ∃ u' m', e = .done u' m' ∧ ∀ s : G σ, s.code = cur → s.user = u → s.msg = m →
      ∃ s', Run env p s (.fin s') ∧ s'.code = cur ∧ s'.user = u' ∧ s'.msg = m') ∧
    (Plain p → ∀ s : G σ, s.code = 0 → s.user = u → s.msg = m → ∃ r, Run env p s r ∧ Shows e r) ∧
    (Handles p → 0 < cur → ∀ s : G σ, s.code = cur → s.user = u → s.msg = m → ∃ r, Run env p s r ∧ Shows e r) ∧
    (Tail p → 0 < cur → ∀ s : G σ, s.code = cur → s.user = u → s.msg = m → ∃ r, Run env p s r ∧ Shows e r) := by
  induction h with
  | @act f cur u m =>
    refine ⟨fun _ => ⟨_, _, rfl, fun s h0 hu hm => ⟨_, .act, h0, ?_, hm⟩⟩, fun hp s h0 hu hm => ?_, fun hh => ?_, nofun⟩
    · show f s.code s.user = _
      rw [h0, hu]
    · cases hp with
      | act hb =>
        refine ⟨_, .act, _, rfl, h0, ?_, hm⟩
        show f s.code s.user = _
        rw [hu, hb s.code cur]
    · cases hh with | tail ht => cases ht
  | @seq p cur u m u1 m1 q e h1 h2 ih1 ih2 =>
    refine ⟨fun hq => ?_, fun hp s h0 hu hm => ?_, fun hh hc s h0 hu hm => ?_, fun ht hc s h0 hu hm => ?_⟩
    · cases hq with
      | seq hq1 hq2 =>
        obtain ⟨_, _, e1, k1⟩ := ih1.1 hq1
        cases e1
        obtain ⟨u2, m2, e2, k2⟩ := ih2.1 hq2
        refine ⟨u2, m2, e2, fun s h0 hu hm => ?_⟩
        obtain ⟨s1, r1, c1, a1, b1⟩ := k1 s h0 hu hm
        obtain ⟨s2, r2, c2, a2, b2⟩ := k2 s1 c1 a1 b1
        exact ⟨s2, .seq r1 r2, c2, a2, b2⟩
    · cases hp with
      | seq hp1 hp2 =>
        obtain ⟨_, r1, s1, rfl, c1, a1, b1⟩ := ih1.2.1 hp1 s h0 hu hm
        obtain ⟨r, r2, k2⟩ := ih2.2.1 hp2 s1 c1 a1 b1
        exact ⟨r, .seq r1 r2, k2⟩
    · cases hh with
      | seq hq ht =>
        obtain ⟨_, _, e1, k1⟩ := ih1.1 hq
        cases e1
        obtain ⟨s1, r1, c1, a1, b1⟩ := k1 s h0 hu hm
        obtain ⟨r, r2, k2⟩ := ih2.2.2.2 ht hc s1 c1 a1 b1
        exact ⟨r, .seq r1 r2, k2⟩
      | tail ht =>
        cases ht with
        | clearThen hp =>
          cases h1
          obtain ⟨r, r2, k2⟩ := ih2.2.1 hp { s with code := 0 } rfl hu hm
          exact ⟨r, .seq .clear r2, k2⟩
    · cases ht with
      | clearThen hp =>
        cases h1
        obtain ⟨r, r2, k2⟩ := ih2.2.1 hp { s with code := 0 } rfl hu hm
        exact ⟨r, .seq .clear r2, k2⟩
  | @seqRaised p cur u m c u1 m1 q h1 ih =>
    refine ⟨fun hq => ?_, fun hp s h0 hu hm => ?_, fun hh hc s h0 hu hm => ?_, fun ht hc s h0 hu hm => ?_⟩
    · cases hq with
      | seq hq1 hq2 =>
        obtain ⟨_, _, e1, _⟩ := ih.1 hq1
        cases e1
    · cases hp with
      | seq hp1 hp2 =>
        obtain ⟨_, r1, hk, s1, (⟨t, rfl⟩ | rfl), k⟩ := ih.2.1 hp1 s h0 hu hm
        · exact ⟨_, .seqJump r1, hk, s1, .inl ⟨t, rfl⟩, k⟩
        · exact ⟨_, .seqDied r1, hk, s1, .inr rfl, k⟩
    · cases hh with
      | seq hq ht =>
        obtain ⟨_, _, e1, _⟩ := ih.1 hq
        cases e1
      | tail ht => cases ht; cases h1
    · cases ht; cases h1
  | @iteTrue b p cur u m e q hc h1 ih =>
    refine ⟨fun hq => ?_, fun hp s h0 hu hm => ?_, fun hh hc' s h0 hu hm => ?_, nofun⟩
    · cases hq with
      | ite hq1 hq2 =>
        obtain ⟨u2, m2, e2, k2⟩ := ih.1 hq1
        refine ⟨u2, m2, e2, fun s h0 hu hm => ?_⟩
        obtain ⟨s2, r2, k⟩ := k2 s h0 hu hm
        exact ⟨s2, .iteTrue (by rw [h0, hu]; exact hc) r2, k⟩
    · cases hp with
      | ite hb hp1 hp2 =>
        obtain ⟨r, r2, k⟩ := ih.2.1 hp1 s h0 hu hm
        exact ⟨r, .iteTrue (by rw [hu, hb s.code cur]; exact hc) r2, k⟩
    · cases hh with
      | tail ht => cases ht
      | ite hp1 hp2 =>
        obtain ⟨r, r2, k⟩ := ih.2.2.1 hp1 hc' s h0 hu hm
        exact ⟨r, .iteTrue (by rw [h0, hu]; exact hc) r2, k⟩
  | @iteFalse b q cur u m e p hc h1 ih =>
    refine ⟨fun hq => ?_, fun hp s h0 hu hm => ?_, fun hh hc' s h0 hu hm => ?_, nofun⟩
    · cases hq with
      | ite hq1 hq2 =>
        obtain ⟨u2, m2, e2, k2⟩ := ih.1 hq2
        refine ⟨u2, m2, e2, fun s h0 hu hm => ?_⟩
        obtain ⟨s2, r2, k⟩ := k2 s h0 hu hm
        exact ⟨s2, .iteFalse (by rw [h0, hu]; exact hc) r2, k⟩
    · cases hp with
      | ite hb hp1 hp2 =>
        obtain ⟨r, r2, k⟩ := ih.2.1 hp2 s h0 hu hm
        exact ⟨r, .iteFalse (by rw [hu, hb s.code cur]; exact hc) r2, k⟩
    · cases hh with
      | tail ht => cases ht
      | ite hp1 hp2 =>
        obtain ⟨r, r2, k⟩ := ih.2.2.1 hp2 hc' s h0 hu hm
        exact ⟨r, .iteFalse (by rw [h0, hu]; exact hc) r2, k⟩
  | @loopEnd b p cur u m hc =>
    refine ⟨fun hq => ⟨_, _, rfl, fun s h0 hu hm => ⟨s, .loopEnd (by rw [h0, hu]; exact hc), h0, hu, hm⟩⟩,
      fun hp s h0 hu hm => ?_, fun hh => ?_, nofun⟩
    · cases hp with
      | loop hb hp1 => exact ⟨_, .loopEnd (by rw [hu, hb s.code cur]; exact hc), s, rfl, h0, hu, hm⟩
    · cases hh with | tail ht => cases ht
  | @loopGo b p cur u m e hc h1 ih =>
    refine ⟨fun hq => ?_, fun hp s h0 hu hm => ?_, fun hh => ?_, nofun⟩
    · cases hq with
      | loop hq1 =>
        obtain ⟨u2, m2, e2, k2⟩ := ih.1 (.seq hq1 (.loop hq1))
        refine ⟨u2, m2, e2, fun s h0 hu hm => ?_⟩
        obtain ⟨s2, r2, k⟩ := k2 s h0 hu hm
        exact ⟨s2, .loopGo (by rw [h0, hu]; exact hc) r2, k⟩
    · cases hp with
      | loop hb hp1 =>
        obtain ⟨r, r2, k⟩ := ih.2.1 (.seq hp1 (.loop hb hp1)) s h0 hu hm
        exact ⟨r, .loopGo (by rw [hu, hb s.code cur]; exact hc) r2, k⟩
    · cases hh with | tail ht => cases ht
  | @call f cur u m e h1 ih =>
    refine ⟨nofun, fun hp s h0 hu hm => ?_, fun hh => ?_, nofun⟩
    · obtain ⟨r, r2, k⟩ := ih.2.1 (he f) s h0 hu hm
      exact ⟨r, .call r2, k⟩
    · cases hh with | tail ht => cases ht
  | @throw k cur u m =>
    have tailCase : (∀ c u, 0 < c → c ≤ k c u) → 0 < cur → ∀ s : G σ, s.code = cur → s.user = u → s.msg = m →
        ∃ r, Run env (.throw k) s r ∧ Shows (.raised (k cur u) u m) r := fun hk hc s h0 hu hm => by
      refine ⟨_, .throw, ?_⟩
      rw [h0, hu]
      have := hk cur u hc
      exact shows_throw (by omega) (by omega) hu hm
    refine ⟨nofun, fun hp s h0 hu hm => ?_, fun hh hc => ?_, fun ht hc => ?_⟩
    · cases hp with
      | throw hb hk =>
        refine ⟨_, .throw, ?_⟩
        rw [hu, hb s.code cur]
        have := hk cur u
        exact shows_throw this (by omega) hu hm
    · cases hh with
      | tail ht => cases ht with | throw hk => exact tailCase hk hc
    · cases ht with | throw hk => exact tailCase hk hc
  | @throwMsg k t cur u m =>
    have tailCase : (∀ c u, 0 < c → c ≤ k c u) → 0 < cur → ∀ s : G σ, s.code = cur → s.user = u → s.msg = m →
        ∃ r, Run env (.throwMsg k t) s r ∧ Shows (.raised (k cur u) u ((t cur m u).take 1023)) r := fun hk hc s h0 hu hm => by
      refine ⟨_, .throwMsg, ?_⟩
      rw [h0, hu, hm]
      have := hk cur u hc
      exact shows_throw (by omega) this rfl rfl
    refine ⟨nofun, fun hp s h0 hu hm => ?_, fun hh hc => ?_, fun ht hc => ?_⟩
    · cases hp with
      | throwMsg hb hk ht =>
        refine ⟨_, .throwMsg, ?_⟩
        rw [hu, hm, hb s.code cur, ht s.code cur]
        have := hk cur u
        exact shows_throw this (by show s.code ≤ _; omega) rfl rfl
    · cases hh with
      | tail ht => cases ht with | throwMsg hk => exact tailCase hk hc
    · cases ht with | throwMsg hk => exact tailCase hk hc
  | clear =>
    exact ⟨nofun, fun _ s _ hu hm => ⟨_, .clear, _, rfl, rfl, hu, hm⟩, fun _ _ s _ hu hm => ⟨_, .clear, _, rfl, rfl, hu, hm⟩,
      fun _ _ s _ hu hm => ⟨_, .clear, _, rfl, rfl, hu, hm⟩⟩
  | @tryDone b u u1 m1 h cur m h1 ih =>
    refine ⟨nofun, fun hp s h0 hu hm => ?_, fun hh => ?_, nofun⟩
    · cases hp with
      | tryCatch hb hh =>
        obtain ⟨_, r1, s1, rfl, c1, a1, b1⟩ := ih.2.1 hb (enter s) rfl hu rfl
        exact ⟨_, .tryDone r1 (.inl rfl) c1, _, rfl, c1, a1, b1⟩
    · cases hh with | tail ht => cases ht
  | @tryCaught b u c u1 m1 h e cur m h1 h2 ih1 ih2 =>
    refine ⟨nofun, fun hp s h0 hu hm => ?_, fun hh => ?_, nofun⟩
    · cases hp with
      | tryCatch hb hh =>
        obtain ⟨_, r1, hk, s1, (⟨t, rfl⟩ | rfl), c1, a1, b1⟩ := ih1.2.1 hb (enter s) rfl hu rfl
        · have ht := (run_stack r1).2
          simp only [enter, List.head?_cons, Option.some.injEq] at ht
          subst ht
          obtain ⟨r, r2, k⟩ := ih2.2.2.1 hh hk (leave s s1) c1 a1 b1
          exact ⟨r, .tryCaught r1 (.inr rfl) (by omega) r2, k⟩
        · have := (run_stack r1).2
          simp [enter] at this
    · cases hh with | tail ht => cases ht

theorem Arrives.unique {t : Nat} {r : Res σ} {s1 s2 : G σ} (h1 : Arrives t r s1) (h2 : Arrives t r s2) : s1 = s2 := by
  rcases h1 with rfl | rfl <;> rcases h2 with h | h <;> cases h <;> rfl

theorem run_det {p : Cmd σ} {s : G σ} {r r' : Res σ} (h : Run env p s r) (h' : Run env p s r') : r = r' := by
  induction h generalizing r' with
  | act => cases h'; rfl
  | seq h1 h2 ih1 ih2 =>
    cases h' with
    | seq k1 k2 => have := ih1 k1; cases this; exact ih2 k2
    | seqJump k1 => have := ih1 k1; cases this
    | seqDied k1 => have := ih1 k1; cases this
  | seqJump h1 ih1 =>
    cases h' with
    | seq k1 k2 => have := ih1 k1; cases this
    | seqJump k1 => exact ih1 k1
    | seqDied k1 => have := ih1 k1; cases this
  | seqDied h1 ih1 =>
    cases h' with
    | seq k1 k2 => have := ih1 k1; cases this
    | seqJump k1 => have := ih1 k1; cases this
    | seqDied k1 => exact ih1 k1
  | iteTrue hc h1 ih =>
    cases h' with
    | iteTrue _ k1 => exact ih k1
    | iteFalse hc' _ => rw [hc] at hc'; cases hc'
  | iteFalse hc h1 ih =>
    cases h' with
    | iteFalse _ k1 => exact ih k1
    | iteTrue hc' _ => rw [hc] at hc'; cases hc'
  | loopEnd hc =>
    cases h' with
    | loopEnd _ => rfl
    | loopGo hc' _ => rw [hc] at hc'; cases hc'
  | loopGo hc h1 ih =>
    cases h' with
    | loopGo _ k1 => exact ih k1
    | loopEnd hc' => rw [hc] at hc'; cases hc'
  | call h1 ih => cases h' with | call k1 => exact ih k1
  | throw => cases h'; rfl
  | throwMsg => cases h'; rfl
  | clear => cases h'; rfl
  | tryDone h1 ha hc ih =>
    cases h' with
    | tryDone k1 ka _ => have := ih k1; subst this; rw [ha.unique ka]
    | tryCaught k1 ka kc _ => have := ih k1; subst this; rw [ha.unique ka] at hc; exact absurd hc kc
    | tryPast k1 kt =>
      have := ih k1
      rcases ha with h | h <;> rw [h] at this <;> cases this
      exact absurd rfl kt
    | tryDied k1 =>
      have := ih k1
      rcases ha with h | h <;> rw [h] at this <;> cases this
  | tryCaught h1 ha hc h2 ih1 ih2 =>
    cases h' with
    | tryDone k1 ka kc => have := ih1 k1; subst this; rw [ha.unique ka] at hc; exact absurd kc hc
    | tryCaught k1 ka _ k2 =>
      have := ih1 k1
      subst this
      have := ha.unique ka
      subst this
      exact ih2 k2
    | tryPast k1 kt =>
      have := ih1 k1
      rcases ha with h | h <;> rw [h] at this <;> cases this
      exact absurd rfl kt
    | tryDied k1 =>
      have := ih1 k1
      rcases ha with h | h <;> rw [h] at this <;> cases this
  | tryPast h1 ht ih =>
    cases h' with
    | tryDone k1 ka kc =>
      have := ih k1
      rcases ka with h | h <;> rw [h] at this <;> cases this
      exact absurd rfl ht
    | tryCaught k1 ka _ k2 =>
      have := ih k1
      rcases ka with h | h <;> rw [h] at this <;> cases this
      exact absurd rfl ht
    | tryPast k1 kt => exact ih k1
    | tryDied k1 => exact ih k1
  | tryDied h1 ih =>
    cases h' with
    | tryDone k1 ka kc =>
      have := ih k1
      rcases ka with h | h <;> rw [h] at this <;> cases this
    | tryCaught k1 ka _ k2 =>
      have := ih k1
      rcases ka with h | h <;> rw [h] at this <;> cases this
    | tryPast k1 kt => exact ih k1
    | tryDied k1 => exact ih k1

/-- Once the body's end is known, so is what the block does. -/
theorem try_iff {b h : Cmd σ} {s s1 : G σ} {r1 : Res σ} (hb : Run env b (enter s) r1) (ha : Arrives s.fresh r1 s1)
    (hc : s1.code ≠ 0) (r : Res σ) : Run env (.tryCatch b h) s r ↔ Run env h (leave s s1) r := by
  constructor
  · intro hr
    cases hr with
    | tryDone k1 ka kc => have := run_det hb k1; subst this; rw [ha.unique ka] at hc; exact absurd kc hc
    | tryCaught k1 ka _ k2 => have := run_det hb k1; subst this; rw [ha.unique ka]; exact k2
    | tryPast k1 kt =>
      have := run_det hb k1
      rcases ha with h | h <;> rw [h] at this <;> cases this
      exact absurd rfl kt
    | tryDied k1 =>
      have := run_det hb k1
      rcases ha with h | h <;> rw [h] at this <;> cases this
  · exact fun k => .tryCaught hb ha hc k

theorem try_done_iff {b h : Cmd σ} {s s1 : G σ} {r1 : Res σ} (hb : Run env b (enter s) r1) (ha : Arrives s.fresh r1 s1)
    (hc : s1.code = 0) (r : Res σ) : Run env (.tryCatch b h) s r ↔ r = .fin (leave s s1) := by
  have k : Run env (.tryCatch b h) s (.fin (leave s s1)) := .tryDone hb ha hc
  exact ⟨fun hr => run_det hr k, fun e => e ▸ k⟩

/-- A jump out of a block's body goes to that block. -/
theorem body_jump {b : Cmd σ} {s s1 : G σ} {t : Nat} (hb : Run env b (enter s) (.jump t s1)) :
    Arrives s.fresh (.jump t s1) s1 := by
  have := (run_stack hb).2
  simp only [enter, List.head?_cons, Option.some.injEq] at this
  exact .inr (by rw [this])

end Verif.TryCatch
