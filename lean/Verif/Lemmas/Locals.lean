import Verif.Model.Locals
/- A check of the variables of a function, and its soundness. -/
namespace Verif.Locals

/-- Bounds for a state, and for all results. -/
structure Abs where
  changed : List Var
  unknown : List Var

structure Bound where
  fin : Option Abs := none
  jump : Option Abs := none
  ret : Bool := false

def join : Option Abs → Option Abs → Option Abs
  | none, o => o
  | o, none => o
  | some a, some b => some ⟨a.changed ++ b.changed, a.unknown ++ b.unknown⟩

def Abs.subset (a b : Abs) : Bool := a.changed.all (b.changed.contains ·) && a.unknown.all (b.unknown.contains ·)

def below : Option Abs → Abs → Bool
  | none, _ => true
  | some a, b => a.subset b

def check (vol : List Var) : Stmt → Abs → Option Bound
  | .set x, a => some { fin := some ⟨x :: a.changed, a.unknown.filter (· ≠ x)⟩ }
  | .change x, a => some { fin := some ⟨x :: a.changed, a.unknown⟩ }
  | .use x, a => if a.unknown.contains x then none else some { fin := some a }
  | .call xs, a => some { fin := some ⟨xs ++ a.changed, a.unknown⟩, jump := some ⟨xs ++ a.changed, a.unknown⟩ }
  | .throw, a => some { jump := some a }
  | .ret, _ => some { ret := true }
  | .skip, a => some { fin := some a }
  | .seq p q, a =>
    match check vol p a with
    | none => none
    | some r => match r.fin with
      | none => some r
      | some b => (check vol q b).map fun r' => ⟨r'.fin, join r.jump r'.jump, r.ret || r'.ret⟩
  | .either p q, a =>
    match check vol p a, check vol q a with
    | some r, some r' => some ⟨join r.fin r'.fin, join r.jump r'.jump, r.ret || r'.ret⟩
    | _, _ => none
  | .loop p, a =>
    match check vol p a with
    | none => none
    | some r => match join (some a) r.fin with
      | none => none
      | some b => match check vol p b with
        | none => none
        | some r' => if below r'.fin b then some ⟨some b, r'.jump, r'.ret⟩ else none
  | .tryCatch p q, a =>
    match check vol p ⟨[], a.unknown⟩ with
    | none => none
    | some r => if r.ret then none else
      let f := r.fin.map fun b => ⟨b.changed ++ a.changed, b.unknown⟩
      let j := r.jump.map fun b => ⟨b.changed ++ a.changed, b.unknown ++ b.changed.filter fun y => !vol.contains y⟩
      match join f j with
      | none => some {}
      | some b => (check vol q b).map fun r' => ⟨join f r'.fin, r'.jump, r'.ret⟩

/-- The state is within the bounds. -/
def Le (s : St) (a : Abs) : Prop := (∀ y, s.changed y → y ∈ a.changed) ∧ ∀ y, s.unknown y → y ∈ a.unknown
def LeO (s : St) (o : Option Abs) : Prop := ∃ a, o = some a ∧ Le s a
def Within : Res → Bound → Prop
  | .fin s, b => LeO s b.fin
  | .jump s, b => LeO s b.jump
  | .ret, b => b.ret = true
  | .bad, _ => False

theorem LeO.left {s : St} {o p : Option Abs} (h : LeO s o) : LeO s (join o p) := by
  obtain ⟨a, rfl, h⟩ := h
  cases p with
  | none => exact ⟨a, rfl, h⟩
  | some b => exact ⟨_, rfl, fun y hy => List.mem_append_left _ (h.1 y hy), fun y hy => List.mem_append_left _ (h.2 y hy)⟩

theorem LeO.right {s : St} {o p : Option Abs} (h : LeO s p) : LeO s (join o p) := by
  obtain ⟨b, rfl, h⟩ := h
  cases o with
  | none => exact ⟨b, rfl, h⟩
  | some a => exact ⟨_, rfl, fun y hy => List.mem_append_right _ (h.1 y hy), fun y hy => List.mem_append_right _ (h.2 y hy)⟩

theorem LeO.below {s : St} {o : Option Abs} {b : Abs} (h : LeO s o) (hb : Locals.below o b = true) : Le s b := by
  obtain ⟨a, rfl, h⟩ := h
  unfold Locals.below Abs.subset at hb
  simp only [Bool.and_eq_true, List.all_eq_true, List.contains_iff_mem] at hb
  exact ⟨fun y hy => hb.1 y (h.1 y hy), fun y hy => hb.2 y (h.2 y hy)⟩

theorem Within.seq {r : Res} {b b' : Bound} (h : Within r b) (hf : ∀ s, r ≠ .fin s) : Within r ⟨b'.fin, join b.jump b'.jump, b.ret || b'.ret⟩ := by
  cases r with
  | fin s => exact (hf s rfl).elim
  | jump s => exact LeO.left h
  | ret => show (b.ret || b'.ret) = true; rw [show b.ret = true from h]; rfl
  | bad => exact h

theorem Within.after {r : Res} {b b' : Bound} (h : Within r b') : Within r ⟨b'.fin, join b.jump b'.jump, b.ret || b'.ret⟩ := by
  cases r with
  | fin s => exact h
  | jump s => exact LeO.right h
  | ret => show (b.ret || b'.ret) = true; rw [show b'.ret = true from h, Bool.or_true]
  | bad => exact h

theorem Within.out {r : Res} {b : Bound} {o : Option Abs} (h : Within r b) (hf : ∀ s, r ≠ .fin s) : Within r ⟨o, b.jump, b.ret⟩ := by
  cases r with
  | fin s => exact (hf s rfl).elim
  | jump s => exact h
  | ret => exact h
  | bad => exact h

/-- The check is sound. -/
theorem check_sound {vol : List Var} {p : Stmt} {s : St} {r : Res} {a : Abs} {b : Bound} (hc : check vol p a = some b) (hs : Le s a)
    (hr : Run vol p s r) : Within r b := by
  induction p generalizing s r a b with
  | set x =>
    cases hr
    cases hc
    refine ⟨_, rfl, ?_, ?_⟩
    · rintro y (rfl | hy)
      · exact List.mem_cons_self
      · exact List.mem_cons_of_mem _ (hs.1 y hy)
    · rintro y ⟨h1, h2⟩
      exact List.mem_filter.2 ⟨hs.2 y h2, by simpa using h1⟩
  | change x =>
    cases hr
    cases hc
    refine ⟨_, rfl, ?_, hs.2⟩
    rintro y (rfl | hy)
    · exact List.mem_cons_self
    · exact List.mem_cons_of_mem _ (hs.1 y hy)
  | use x =>
    unfold check at hc
    split at hc
    · cases hc
    next h =>
      cases hc
      cases hr with
      | use h => exact ⟨_, rfl, hs⟩
      | useBad h' => exact h (List.contains_iff_mem.2 (hs.2 x h'))
  | call xs =>
    cases hc
    cases hr with
    | call h =>
      refine ⟨_, rfl, ?_, hs.2⟩
      rintro y (hy | hy)
      · exact List.mem_append_left _ (h y hy)
      · exact List.mem_append_right _ (hs.1 y hy)
    | callJump h =>
      refine ⟨_, rfl, ?_, hs.2⟩
      rintro y (hy | hy)
      · exact List.mem_append_left _ (h y hy)
      · exact List.mem_append_right _ (hs.1 y hy)
  | throw => cases hc; cases hr; exact ⟨_, rfl, hs⟩
  | ret => cases hc; cases hr; rfl
  | skip => cases hc; cases hr; exact ⟨_, rfl, hs⟩
  | seq p q ihp ihq =>
    rw [check] at hc
    cases e : check vol p a with
    | none => rw [e] at hc; cases hc
    | some b1 =>
      rw [e] at hc
      simp only at hc
      cases hr with
      | seq h1 h2 =>
        obtain ⟨a1, e1, h3⟩ := ihp e hs h1
        rw [e1] at hc
        simp only at hc
        cases e2 : check vol q a1 with
        | none => rw [e2] at hc; cases hc
        | some b2 =>
          rw [e2] at hc
          cases hc
          exact (ihq e2 h3 h2).after
      | seqEnd h1 h2 =>
        have h3 := ihp e hs h1
        cases e1 : b1.fin with
        | none => rw [e1] at hc; cases hc; exact h3
        | some a1 =>
          rw [e1] at hc
          simp only at hc
          cases e2 : check vol q a1 with
          | none => rw [e2] at hc; cases hc
          | some b2 =>
            rw [e2] at hc
            cases hc
            exact h3.seq h2
  | either p q ihp ihq =>
    rw [check] at hc
    cases e1 : check vol p a with
    | none => rw [e1] at hc; cases hc
    | some b1 =>
      cases e2 : check vol q a with
      | none => rw [e1, e2] at hc; cases hc
      | some b2 =>
        rw [e1, e2] at hc
        cases hc
        cases hr with
        | left h =>
          have := ihp e1 hs h
          cases r with
          | fin s => exact LeO.left this
          | jump s => exact LeO.left this
          | ret => show (b1.ret || b2.ret) = true; rw [show b1.ret = true from this]; rfl
          | bad => exact this
        | right h =>
          have := ihq e2 hs h
          cases r with
          | fin s => exact LeO.right this
          | jump s => exact LeO.right this
          | ret => show (b1.ret || b2.ret) = true; rw [show b2.ret = true from this, Bool.or_true]
          | bad => exact this
  | loop p ih =>
    rw [check] at hc
    cases e1 : check vol p a with
    | none => rw [e1] at hc; cases hc
    | some b1 =>
      rw [e1] at hc
      simp only at hc
      obtain ⟨a1, e2, h1⟩ : LeO s (join (some a) b1.fin) := LeO.left ⟨a, rfl, hs⟩
      rw [e2] at hc
      simp only at hc
      cases e3 : check vol p a1 with
      | none => rw [e3] at hc; cases hc
      | some b2 =>
        rw [e3] at hc
        simp only at hc
        split at hc
        next hb =>
          cases hc
          clear e1 e2 hs
          generalize hx : Stmt.loop p = x at hr
          induction hr with
          | loopEnd => exact ⟨_, rfl, h1⟩
          | loopGo g1 g2 _ ih2 =>
            cases hx
            exact ih2 ((ih e3 h1 g1).below hb) rfl
          | loopOut g1 g2 _ =>
            cases hx
            exact (ih e3 h1 g1).out g2
          | _ => cases hx
        · cases hc
  | tryCatch p q ihp ihq =>
    rw [check] at hc
    cases e1 : check vol p ⟨[], a.unknown⟩ with
    | none => rw [e1] at hc; cases hc
    | some b1 =>
      rw [e1] at hc
      simp only at hc
      have h0 : ∀ {s : St}, Le s a → Le ⟨fun _ => False, s.unknown⟩ ⟨[], a.unknown⟩ := fun h => ⟨fun _ h => h.elim, h.2⟩
      by_cases hret : b1.ret = true
      · rw [if_pos hret] at hc; cases hc
      · rw [if_neg hret] at hc
        have hfin : ∀ {s1 : St}, Within (.fin s1) b1 → LeO ⟨fun y => s1.changed y ∨ s.changed y, s1.unknown⟩
            (b1.fin.map fun b => ⟨b.changed ++ a.changed, b.unknown⟩) := by
          rintro s1 ⟨a1, e, h1⟩
          rw [e]
          refine ⟨_, rfl, ?_, h1.2⟩
          rintro y (hy | hy)
          · exact List.mem_append_left _ (h1.1 y hy)
          · exact List.mem_append_right _ (hs.1 y hy)
        have hjump : ∀ {s1 : St}, Within (.jump s1) b1 → LeO ⟨fun y => s1.changed y ∨ s.changed y, fun y => s1.unknown y ∨ (s1.changed y ∧ y ∉ vol)⟩
            (b1.jump.map fun b => ⟨b.changed ++ a.changed, b.unknown ++ b.changed.filter fun y => !vol.contains y⟩) := by
          rintro s1 ⟨a1, e, h1⟩
          rw [e]
          refine ⟨_, rfl, ?_, ?_⟩
          · rintro y (hy | hy)
            · exact List.mem_append_left _ (h1.1 y hy)
            · exact List.mem_append_right _ (hs.1 y hy)
          · rintro y (hy | ⟨hy, hv⟩)
            · exact List.mem_append_left _ (h1.2 y hy)
            · exact List.mem_append_right _ (List.mem_filter.2 ⟨h1.1 y hy, by simpa using hv⟩)
        generalize b1.fin.map (fun b : Abs => (⟨b.changed ++ a.changed, b.unknown⟩ : Abs)) = f at hc hfin
        generalize b1.jump.map (fun b : Abs => (⟨b.changed ++ a.changed, b.unknown ++ b.changed.filter fun y => !vol.contains y⟩ : Abs)) = j at hc hjump
        have hq : ∀ {t : St} {r : Res}, LeO t (join f j) → Run vol q t r → Within r b := by
          rintro t r ⟨a2, e, h2⟩ g
          rw [e] at hc
          simp only at hc
          cases e3 : check vol q a2 with
          | none => rw [e3] at hc; cases hc
          | some b3 =>
            rw [e3] at hc
            cases hc
            have := ihq e3 h2 g
            cases r with
            | fin s => exact LeO.right this
            | jump s => exact this
            | ret => exact this
            | bad => exact this
        cases hr with
        | tryDone g =>
          have h1 := hfin (ihp e1 (h0 hs) g)
          obtain ⟨a2, e, h2⟩ : LeO _ (join f j) := LeO.left h1
          rw [e] at hc
          simp only at hc
          cases e3 : check vol q a2 with
          | none => rw [e3] at hc; cases hc
          | some b3 =>
            rw [e3] at hc
            cases hc
            exact LeO.left h1
        | tryLate g g' => exact hq (LeO.left (hfin (ihp e1 (h0 hs) g))) g'
        | tryCaught g g' => exact hq (LeO.right (hjump (ihp e1 (h0 hs) g))) g'
        | tryRet g => exact (hret (ihp e1 (h0 hs) g)).elim
        | tryBad g => exact (ihp e1 (h0 hs) g : False).elim

theorem fine {f : Fn} (h : (check f.vol f.body ⟨[], f.fresh⟩).isSome = true) {r : Res} (hr : Run f.vol f.body f.entry r) : r ≠ .bad := by
  obtain ⟨b, e⟩ := Option.isSome_iff_exists.1 h
  have := check_sound e (s := f.entry) ⟨fun _ h => h.elim, fun _ h => h⟩ hr
  rintro rfl
  exact this

end Verif.Locals
