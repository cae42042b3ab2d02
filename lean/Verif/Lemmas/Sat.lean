import Verif.Lemmas.History
import Verif.Spec.Outcome
/- Reasoning about all outcomes of a piece of code at once. -/
namespace Verif
open Verif MemSim Spec

/-- The outcome is defined; `Q` holds after normal return, `E` after an exception. -/
def Sat (Q : α → σ → Prop) (E : Exn → σ → Prop) : Out σ α → Prop
  | .ok a s => Q a s
  | .throw e s => E e s
  | .ub _ => False

theorem Sat.bind {m : M σ α} {f : α → M σ β} {s : σ} {Q1 : α → σ → Prop} {Q : β → σ → Prop} {E : Exn → σ → Prop}
    (h : Sat Q1 E (m s)) (hf : ∀ a s', Q1 a s' → Sat Q E (f a s')) : Sat Q E ((m >>= f) s) := by
  rw [M.bind_apply]
  cases hm : m s with
  | ok a s' => rw [hm] at h; exact hf a s' h
  | throw e s' => rw [hm] at h; exact h
  | ub r => rw [hm] at h; exact h

theorem Sat.mono {o : Out σ α} {Q Q' : α → σ → Prop} {E E' : Exn → σ → Prop} (h : Sat Q E o) (hq : ∀ a s, Q a s → Q' a s)
    (he : ∀ e s, E e s → E' e s) : Sat Q' E' o := by
  cases o with
  | ok a s => exact hq a s h
  | throw e s => exact he e s h
  | ub r => exact h

theorem Sat.catch {b : M σ α} {hd : Exn → M σ α} {s : σ} {E1 : Exn → σ → Prop} {Q : α → σ → Prop} {E : Exn → σ → Prop}
    (h : Sat Q E1 (b s)) (hh : ∀ e s', E1 e s' → Sat Q E (hd e s')) : Sat Q E (M.tryCatch b hd s) := by
  rw [M.tryCatch_apply]
  cases hm : b s with
  | ok a s' => rw [hm] at h; exact h
  | throw e s' => rw [hm] at h; exact hh e s' h
  | ub r => rw [hm] at h; exact h

theorem Sat.zoom {p : τ → σ} {q : σ → τ → τ} {m : M σ α} {t : τ} {Q : α → τ → Prop} {E : Exn → τ → Prop}
    (h : Sat (fun a s => Q a (q s t)) (fun e s => E e (q s t)) (m (p t))) : Sat Q E (M.zoom p q m t) := by
  rw [M.zoom_apply]
  cases hm : m (p t) <;> rw [hm] at h <;> exact h

theorem Sat.ends {o : Out σ α} {P : σ → Prop} (h : Sat (fun _ => P) (fun _ => P) o) {s : σ} (he : Ends o s) : P s := by
  rcases he with ⟨a, rfl⟩ | ⟨e, rfl⟩ <;> exact h

theorem Sat.defined {o : Out σ α} {codes : List Exc} (h : Sat (fun _ _ => True) (fun e _ => e.code ∈ codes) o) : Defined o codes := by
  cases o with
  | ok a s => exact .inl ⟨a, s, rfl⟩
  | throw e s => exact .inr ⟨e, s, rfl, h⟩
  | ub r => exact h.elim

theorem hist_snoc {P : Call → Sim → Prop} {cs : List Call} {s s1 s2 : Sim} {c : Call} (h : HistWith P s cs s1) (hc : P c s1)
    (hs : Step c s1 s2) : HistWith P s (cs ++ [c]) s2 := by
  induction h with
  | nil => exact .cons hc hs (.nil _)
  | cons h1 h2 _ ih => exact .cons h1 h2 (ih hc hs)

theorem hist_append {P : Call → Sim → Prop} {cs cs' : List Call} {s s1 s2 : Sim} (h : HistWith P s cs s1)
    (h' : HistWith P s1 cs' s2) : HistWith P s (cs ++ cs') s2 := by
  induction h with
  | nil => exact h'
  | cons h1 h2 _ ih => exact .cons h1 h2 (ih h')

theorem _root_.Verif.Spec.ByCalls.refl {P : Call → Prop} (s : Sim) : ByCalls P s s := ⟨[], by simp, .nil s⟩

theorem _root_.Verif.Spec.ByCalls.snoc {P : Call → Prop} {s s1 s2 : Sim} {c : Call} (h : ByCalls P s s1) (hp : P c) (hc : Careful c s1)
    (hs : Step c s1 s2) : ByCalls P s s2 := by
  obtain ⟨cs, h1, h2⟩ := h
  refine ⟨cs ++ [c], ?_, hist_snoc h2 hc hs⟩
  intro x hx
  rcases List.mem_append.1 hx with hx | hx
  · exact h1 x hx
  · simp at hx; rw [hx]; exact hp

theorem _root_.Verif.Spec.ByCalls.trans {P : Call → Prop} {s s1 s2 : Sim} (h : ByCalls P s s1) (h' : ByCalls P s1 s2) : ByCalls P s s2 := by
  obtain ⟨cs, h1, h2⟩ := h
  obtain ⟨ds, h3, h4⟩ := h'
  refine ⟨cs ++ ds, ?_, hist_append h2 h4⟩
  intro x hx
  rcases List.mem_append.1 hx with hx | hx
  · exact h1 x hx
  · exact h3 x hx

theorem _root_.Verif.Spec.ByCalls.mono {P Q : Call → Prop} {s s' : Sim} (h : ByCalls P s s') (hpq : ∀ c, P c → Q c) : ByCalls Q s s' := by
  obtain ⟨cs, h1, h2⟩ := h
  exact ⟨cs, fun c hc => hpq c (h1 c hc), h2⟩

theorem _root_.Verif.Spec.ByCalls.sound {P : Call → Prop} {s s' : Sim} (h : ByCalls P s s') (hs : Sound s) : Sound s' := by
  obtain ⟨cs, -, h⟩ := h
  exact hist_sound hs h

/-- What loaders keep: everything was done by API calls, nothing is being watched. -/
def MemInv (P : Call → Prop) (s0 s : Sim) : Prop := Sound s ∧ Unwatched s ∧ ByCalls P s0 s

theorem MemInv.init {P : Call → Prop} {s : Sim} (hs : Sound s) (hu : Unwatched s) : MemInv P s s := ⟨hs, hu, .refl s⟩

theorem MemInv.congr_heap {P : Call → Prop} {s0 s s' : Sim} {c : Call} (h : MemInv P s0 s) (hr : s'.regions = s.regions)
    (hh : s'.hits = s.hits) (hp : P c) (hc : Careful c s) (hs : Step c s s') : MemInv P s0 s' :=
  ⟨Spec.Sound.congr h.1 hr, ⟨fun r hr' => h.2.1.1 r (hr ▸ hr'), by rw [hh]; exact h.2.1.2⟩, h.2.2.snoc hp hc hs⟩

theorem createRegion_inv {P : Call → Prop} {s0 s : Sim} (h : MemInv P s0 s) {b n : U32} (hp : P (.createRegion b n)) :
    Sat (fun _ s' => MemInv P s0 s') (fun e s' => MemInv P s0 s' ∧ e.code = .outOfMemory) (createRegion b n s) := by
  rcases createRegion_cases b n s with ⟨k, e⟩ | e
  · rw [e]
    exact ⟨h.congr_heap (c := .createRegion b n) rfl rfl hp trivial (.inr ⟨_, by simp [Call.run, e]; rfl⟩), rfl⟩
  · rw [e]
    have hst : Step (.createRegion b n) s _ := .inl ⟨(), by simp [Call.run, e]; rfl⟩
    refine ⟨step_sound (c := .createRegion b n) h.1 trivial hst, ⟨?_, h.2.1.2⟩, h.2.2.snoc hp trivial hst⟩
    intro r hr
    rcases List.mem_append.1 hr with hr | hr
    · exact h.2.1.1 r hr
    · simp at hr; rw [hr]; rfl

theorem write_inv {P : Call → Prop} {s0 s : Sim} (h : MemInv P s0 s) {w : Width} {a : U32} {v : BitVec w.bits}
    (hp : P (.write w a v)) :
    Sat (fun _ s' => MemInv P s0 s' ∧ s'.heap = s.heap ∧ s'.regions.length = s.regions.length)
      (fun e s' => s' = s ∧ e = ⟨.busError, []⟩) (IMemory.write w a v s) := by
  by_cases hm : Mapped s a w.bytes
  · obtain ⟨i, r, off, ht⟩ := target_of_mapped h.1 hm
    have hi := ht.info h.1
    have e : IMemory.write w a v s = _ := write_eq.trans (writeN_eq h.1 ht)
    have hw : r.watch = [] := h.2.1.1 r (List.mem_of_getElem? hi.get)
    have h0 : (scanAt r off w.bytes WRITING).1 = 0 := by simp [scanAt, hw, scanWatch]
    rw [h0] at e
    by_cases hro : r.isReadOnly = true
    · rw [e, if_pos hro]
      exact ⟨rfl, rfl⟩
    · rw [if_neg hro, if_neg (by have := h.2.1.2; omega)] at e
      rw [e]
      have hst : Step (.write w a v) s _ := .inl ⟨(), e⟩
      refine ⟨⟨step_sound (c := .write w a v) h.1 trivial hst, ⟨?_, h.2.1.2⟩, h.2.2.snoc hp trivial hst⟩, rfl, by simp⟩
      intro q hq
      rcases List.mem_or_eq_of_mem_set hq with hq | rfl
      · exact h.2.1.1 q hq
      · exact hw
  · rw [write_eq, writeN_unmapped hm]
    exact ⟨rfl, rfl⟩

end Verif
