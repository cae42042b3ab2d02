import Verif.Lemmas.PlatSafe
import Verif.Spec.Main
/- Code which works by platform calls. -/
namespace Verif.Spec
open Verif MemSim Platform Main

theorem PHist.append {p q r : Plat} {cs ds : List PCall} (h : PHist p cs q) (h' : PHist q ds r) : PHist p (cs ++ ds) r := by
  induction h with
  | nil => exact h'
  | cons hs _ ih => exact .cons hs (ih h')
  | packet b c _ ih => exact .packet b c (ih h')

theorem ByPlatform.pure (a : α) : ByPlatform (Pure.pure a : M Plat α) :=
  fun p h => .inl ⟨[], p, .nil p, .inl ⟨a, rfl⟩, h⟩

theorem ByPlatform.throw (c : Exc) (t : Str) : ByPlatform (M.throw c t : M Plat α) :=
  fun p h => .inl ⟨[], p, .nil p, .inr ⟨_, rfl⟩, h⟩

theorem ByPlatform.bind {m : M Plat α} {f : α → M Plat β} (hm : ByPlatform m) (hf : ∀ a, ByPlatform (f a)) : ByPlatform (m >>= f) := by
  intro p hp
  rcases hm p hp with ⟨cs, q, h1, h2, h3⟩ | ⟨cs, q, c, r, h1, h2, h3, h4⟩
  · rcases h2 with ⟨a, h2⟩ | ⟨e, h2⟩
    · rw [M.bind_ok h2]
      rcases hf a q h3 with ⟨ds, q', k1, k2, k3⟩ | ⟨ds, q', c, r, k1, k2, k3, k4⟩
      · exact .inl ⟨cs ++ ds, q', h1.append k1, k2, k3⟩
      · exact .inr ⟨cs ++ ds, q', c, r, h1.append k1, k2, k3, k4⟩
    · rw [M.bind_throw h2]
      exact .inl ⟨cs, q, h1, .inr ⟨e, rfl⟩, h3⟩
  · rw [M.bind_ub h4]
    exact .inr ⟨cs, q, c, r, h1, h2, h3, rfl⟩

theorem ByPlatform.catch {m : M Plat α} {f : Exn → M Plat α} (hm : ByPlatform m) (hf : ∀ e, ByPlatform (f e)) :
    ByPlatform (M.tryCatch m f) := by
  intro p hp
  rw [M.tryCatch_apply]
  rcases hm p hp with ⟨cs, q, h1, h2, h3⟩ | ⟨cs, q, c, r, h1, h2, h3, h4⟩
  · rcases h2 with ⟨a, h2⟩ | ⟨e, h2⟩
    · rw [h2]
      exact .inl ⟨cs, q, h1, .inl ⟨a, rfl⟩, h3⟩
    · rw [h2]
      rcases hf e q h3 with ⟨ds, q', k1, k2, k3⟩ | ⟨ds, q', c, r, k1, k2, k3, k4⟩
      · exact .inl ⟨cs ++ ds, q', h1.append k1, k2, k3⟩
      · exact .inr ⟨cs ++ ds, q', c, r, h1.append k1, k2, k3, k4⟩
  · rw [h4]
    exact .inr ⟨cs, q, c, r, h1, h2, h3, rfl⟩

/-- A platform call that does not touch the count. -/
theorem ByPlatform.call {m : M Plat α} (c : PCall) (hc : ∀ p, c.run p = (do let _ ← m : M Plat Unit) p) (hk : ∀ p q, Ends (m p) q → q.faults = p.faults) :
    ByPlatform m := by
  intro p hp
  cases e : m p with
  | ok a q =>
    refine .inl ⟨[c], q, .cons (.inl ?_) (.nil q), .inl ⟨a, rfl⟩, ?_⟩
    · rw [hc, M.bind_ok e]; rfl
    · rw [hk p q (.inl ⟨a, e⟩)]; exact hp
  | throw x q =>
    refine .inl ⟨[c], q, .cons (.inr ⟨x, ?_⟩) (.nil q), .inr ⟨x, rfl⟩, ?_⟩
    · rw [hc, M.bind_throw e]
    · rw [hk p q (.inr ⟨x, e⟩)]; exact hp
  | ub r => exact .inr ⟨[], p, c, r, .nil p, hp, by rw [hc, M.bind_ub e], rfl⟩

theorem ByPlatform.receive : ByPlatform commReceiveChar :=
  .call .commReceive (fun _ => rfl) fun p q h => (Keeps.onComm _ p q h).faults

theorem ByPlatform.send (x : Int) : ByPlatform (commSendChar x) :=
  .call (.commSend x) (fun p => by cases e : commSendChar x p <;> simp [PCall.run, e]) fun p q h => (Keeps.onComm _ p q h).faults

/-- Reading memory and asking whether that went well. -/
def askedRead (w : Width) (a : U32) : M Plat (BitVec w.bits × Nat) := do
  let v ← memRead w a
  let n ← wasMemoryFaultEncountered
  pure (v, n)

theorem ByPlatform.read (w : Width) (a : U32) : ByPlatform (askedRead w a) := by
  intro p hp
  cases e : memRead w a p with
  | ok v q =>
    have h1 : askedRead w a p = .ok (v, q.faults) { q with faults := 0 } := by
      simp [askedRead, e, wasMemoryFaultEncountered]
    refine .inl ⟨[.memRead w a, .wasFault], { q with faults := 0 }, ?_, .inl ⟨_, h1⟩, by show 0 + 1 < 2 ^ 31; decide⟩
    exact .cons (p1 := q) (.inl (by simp [PCall.run, e])) (.cons (.inl (by simp [PCall.run, wasMemoryFaultEncountered])) (.nil _))
  | throw x q =>
    exfalso
    unfold memRead at e
    rw [M.bind_apply] at e
    unfold tryMem at e
    cases h : IMemory.read w a p.mem with
    | ok v s => simp only [h] at e; cases e
    | ub r => simp only [h] at e; cases e
    | throw y s => 
      have : p.faults + 1 < 2147483648 := hp
      simp only [h] at e
      simp [countFault, this] at e
  | ub r =>
    refine .inr ⟨[], p, .memRead w a, r, .nil p, hp, by simp [PCall.run, e], by simp [askedRead, e]⟩

end Verif.Spec
