import Verif.Spec.Strict
import Verif.Lemmas.ElfSafe
import Verif.Lemmas.GdbFile
/-
Code that makes the same accesses, once on a host that is strict about alignment and once on one that is not.
-/
namespace Verif
open Verif MemSim Spec Elf

/-- In states with `I` both do the same, `I` is kept, and what is returned has `Q`. -/
def Ag (I : σ → Prop) (Q : α → Prop) (m' m : M σ α) : Prop :=
  ∀ s, I s → m' s = m s ∧ Pst (fun a t => I t ∧ Q a) (fun _ t => I t) (m s)

namespace Ag
variable {I : σ → Prop}

theorem pure {Q : α → Prop} {a : α} (h : Q a) : Ag I Q (Pure.pure a) (Pure.pure a) := fun _ hi => ⟨rfl, hi, h⟩
theorem throw {Q : α → Prop} (c : Exc) (msg : Str) : Ag I Q (M.throw c msg) (M.throw c msg) := fun _ hi => ⟨rfl, hi⟩
theorem throwMsg {Q : α → Prop} (c : Exc) (msg : Str) : Ag I Q (M.throwMsg c msg) (M.throwMsg c msg) := fun _ hi => ⟨rfl, hi⟩
theorem rethrow {Q : α → Prop} (e : Exn) : Ag I Q (M.rethrow e) (M.rethrow e) := fun _ hi => ⟨rfl, hi⟩
theorem ub {Q : α → Prop} (r : UB) : Ag I Q (M.ub r) (M.ub r) := fun _ _ => ⟨rfl, trivial⟩
theorem get : Ag I I (M.get : M σ σ) M.get := fun _ hi => ⟨rfl, hi, hi⟩
theorem modify {f : σ → σ} (h : ∀ s, I s → I (f s)) : Ag I (fun _ => True) (M.modify f) (M.modify f) := fun s hi => ⟨rfl, h s hi, trivial⟩

theorem bind {Q1 : α → Prop} {Q : β → Prop} {m' m : M σ α} {f' f : α → M σ β} (h : Ag I Q1 m' m)
    (hf : ∀ a, Q1 a → Ag I Q (f' a) (f a)) : Ag I Q (m' >>= f') (m >>= f) := by
  intro s hi
  obtain ⟨h1, h2⟩ := h s hi
  rw [M.bind_apply, M.bind_apply, h1]
  cases e : m s with
  | ok a t => rw [e] at h2; exact hf a h2.2 t h2.1
  | throw x t => rw [e] at h2; exact ⟨rfl, h2⟩
  | ub r => exact ⟨rfl, trivial⟩

theorem catch_ {Q : α → Prop} {b' b : M σ α} {k' k : Exn → M σ α} (h : Ag I Q b' b) (hk : ∀ e, Ag I Q (k' e) (k e)) :
    Ag I Q (M.tryCatch b' k') (M.tryCatch b k) := by
  intro s hi
  obtain ⟨h1, h2⟩ := h s hi
  rw [M.tryCatch_apply, M.tryCatch_apply, h1]
  cases e : b s with
  | ok a t => rw [e] at h2; exact ⟨rfl, h2⟩
  | throw x t => rw [e] at h2; exact hk x t h2
  | ub r => exact ⟨rfl, trivial⟩

theorem weaken {Q Q' : α → Prop} {m' m : M σ α} (h : Ag I Q m' m) (hq : ∀ a, Q a → Q' a) : Ag I Q' m' m :=
  fun s hi => ⟨(h s hi).1, (h s hi).2.mono (fun a _ ht => ⟨ht.1, hq a ht.2⟩) (fun _ _ ht => ht)⟩

theorem any {Q : α → Prop} {m' m : M σ α} (h : Ag I Q m' m) : Ag I (fun _ => True) m' m := h.weaken fun _ _ => trivial

theorem zoom {J : τ → Prop} {Q : α → Prop} {p : τ → σ} {q : σ → τ → τ} {m' m : M σ α} (h : Ag I Q m' m) (hp : ∀ t, J t → I (p t))
    (hq : ∀ t s, J t → I s → J (q s t)) : Ag J Q (M.zoom p q m') (M.zoom p q m) := by
  intro t ht
  obtain ⟨h1, h2⟩ := h (p t) (hp t ht)
  rw [M.zoom_apply, M.zoom_apply, h1]
  cases e : m (p t) with
  | ok a s => rw [e] at h2; exact ⟨rfl, hq t s ht h2.1, h2.2⟩
  | throw x s => rw [e] at h2; exact ⟨rfl, hq t s ht h2⟩
  | ub r => exact ⟨rfl, trivial⟩

theorem ite {Q : α → Prop} {c : Prop} [Decidable c] {a' a b' b : M σ α} (h1 : c → Ag I Q a' a) (h2 : ¬ c → Ag I Q b' b) :
    Ag I Q (if c then a' else b') (if c then a else b) := by
  by_cases h : c
  · rw [if_pos h, if_pos h]; exact h1 h
  · rw [if_neg h, if_neg h]; exact h2 h

/-- Where the strict host checks and the check passes. -/
theorem check {Q : α → Prop} {offset n : Nat} {m' m : M σ α} (h : n ∣ offset) (hm : Ag I Q m' m) : Ag I Q (do aligned offset n; m') m := by
  intro s hi
  have : (aligned offset n : M σ Unit) s = .ok () s := by
    unfold aligned
    rw [if_pos (Nat.mod_eq_zero_of_dvd h)]
    rfl
  rw [M.bind_ok this]
  exact hm s hi

end Ag

namespace MemSim

/-- The words in a region are among these, and it is no alias. -/
def Quad (W : U32 → Prop) (r : Region) : Prop := r.isAlias = false ∧ ∀ j, 4 * j + 4 ≤ r.size.toNat → W (r.baseAddress + BitVec.ofNat 32 (4 * j))
def Quads (W : U32 → Prop) (s : Sim) : Prop := ∀ r ∈ s.regions, Quad W r

variable {k : U32 → Prop}

theorem dvd_cases {n : Nat} (h : n ∣ 4) : n = 1 ∨ n = 2 ∨ n = 4 := by
  have h1 := Nat.le_of_dvd (by omega) h
  match n, h1, h with
  | 0, _, h => simp at h
  | 1, _, _ => simp
  | 2, _, _ => simp
  | 3, _, h => revert h; decide
  | 4, _, _ => simp

theorem Quads.regionAt (i : Nat) : Ag (Quads k) (Quad k) (regionAt i) (regionAt i) := by
  intro s hs
  refine ⟨rfl, ?_⟩
  unfold MemSim.regionAt
  cases e : s.regions[i]? with
  | none => trivial
  | some r => exact ⟨hs, hs r (List.mem_of_getElem? e)⟩

theorem Quads.find (a : U32) (m : Nat) : Ag (Quads k) (fun _ => True) (findMatchingRegion a m) (findMatchingRegion a m) := by
  intro s hs
  refine ⟨rfl, ?_⟩
  unfold findMatchingRegion
  cases e : findFrom 0 s.regions a m with
  | none => exact hs
  | some x =>
    obtain ⟨i, r⟩ := x
    have hr := hs r (List.mem_of_getElem? (findFrom_zero.1 e).1)
    simp only [hr.1, Bool.false_eq_true, if_false]
    exact ⟨hs, trivial⟩

theorem Quads.setRegion (i : Nat) {r : Region} (h : Quad k r) : Ag (Quads k) (fun _ => True) (setRegion i r) (setRegion i r) := by
  refine Ag.modify fun s hs q hq => ?_
  rcases List.mem_or_eq_of_mem_set hq with hq | rfl
  · exact hs q hq
  · exact h

theorem Quads.countRead (i : Nat) {r : Region} (h : Quad k r) (off n : Nat) (type : U32) :
    Ag (Quads k) (fun _ => True) (countRead i r off n type) (countRead i r off n type) := by
  unfold MemSim.countRead
  refine Ag.ite (fun _ => ?_) fun _ => Ag.pure trivial
  cases r.readCounts with
  | none => exact Ag.pure trivial
  | some cs =>
    simp only
    cases cs[off / 2]? with
    | none => exact Ag.ub _
    | some c => exact Quads.setRegion i h

theorem Quads.watch (r : Region) (a : U32) (n : Nat) (type : U32) :
    Ag (Quads k) (fun _ => True) (checkForBreakWatchPoint r a n type) (checkForBreakWatchPoint r a n type) := by
  intro s hs
  refine ⟨rfl, ?_⟩
  unfold checkForBreakWatchPoint
  simp only
  split
  · trivial
  · split
    · exact hs
    · exact ⟨hs, trivial⟩

/-- A word among those that a region has is at a multiple of 4 in it. -/
theorem word_offset (hk : NoPartialOverlap k) {r : Region} (hr : Quad k r) {a : U32} (ha : k a) (hc : Covers r a 4) :
    4 ∣ (a - r.baseAddress).toNat := by
  obtain ⟨h1, h2⟩ := hc
  have hw := hr.2 ((a.toNat - r.baseAddress.toNat) / 4) (by omega)
  have ht : (r.baseAddress + BitVec.ofNat 32 (4 * ((a.toNat - r.baseAddress.toNat) / 4))).toNat =
      r.baseAddress.toNat + 4 * ((a.toNat - r.baseAddress.toNat) / 4) := by
    simp only [BitVec.toNat_add, BitVec.toNat_ofNat]
    omega
  have h3 := hk _ a hw ha
  rw [ht] at h3
  rw [BitVec.toNat_sub]
  omega

theorem Quads.pointer (hk : NoPartialOverlap k) (a : U32) (m : Nat) (type : U32) (check : Bool) :
    Ag (Quads k) (fun p => m = 4 → k a → 4 ∣ p.2) (getDataPointer a m type check) (getDataPointer a m type check) := by
  intro s hs
  refine ⟨rfl, ?_⟩
  unfold getDataPointer
  rw [M.bind_apply]
  unfold findMatchingRegion
  cases e : findFrom 0 s.regions a m with
  | none => exact hs
  | some x =>
    obtain ⟨i, r⟩ := x
    obtain ⟨h1, h2, -⟩ := findFrom_zero.1 e
    have hr := hs r (List.mem_of_getElem? h1)
    simp only [hr.1, Bool.false_eq_true, if_false]
    have he : MemSim.regionAt i s = .ok r s := by unfold MemSim.regionAt; rw [h1]
    rw [M.bind_ok he]
    have hq : m = 4 → k a → 4 ∣ (a - r.baseAddress).toNat := by
      rintro rfl ha
      exact word_offset hk hr ha h2
    have key : ∀ f : M Sim (Nat × Nat), Ag (Quads k) (fun p => m = 4 → k a → 4 ∣ p.2) f f →
        Pst (fun p t => Quads k t ∧ (m = 4 → k a → 4 ∣ p.2)) (fun _ t => Quads k t) (f s) := fun f h => (h s hs).2
    refine key _ ?_
    refine Ag.ite (fun _ => Ag.throw _ _) fun _ => ?_
    refine Ag.bind (Quads.countRead i hr _ _ _) fun _ _ => ?_
    cases check
    · exact Ag.pure hq
    · exact Ag.bind (Quads.watch _ _ _ _) fun _ _ => Ag.pure hq

theorem Quads.hostRead (p : Nat × Nat) (n : Nat) : Ag (Quads k) (fun _ => True) (hostRead p n) (hostRead p n) :=
  Ag.bind (Quads.regionAt _) fun _ _ => Ag.ite (fun _ => Ag.pure trivial) fun _ => Ag.ub _

theorem Quads.hostWrite (p : Nat × Nat) (bs : List U8) : Ag (Quads k) (fun _ => True) (hostWrite p bs) (hostWrite p bs) :=
  Ag.bind (Quads.regionAt _) fun _ hr => Ag.ite (fun _ => Quads.setRegion _ hr) fun _ => Ag.ub _

theorem Quads.write4 (hk : NoPartialOverlap k) {a : U32} (h : k a) (v : Nat) : Ag (Quads k) (fun _ => True) (writeS 4 a v) (writeN 4 a v) :=
  Ag.bind (Quads.pointer hk _ _ _ _) fun p hp => Ag.check (hp rfl h) (Quads.hostWrite p _)

theorem Quads.loadN (hk : NoPartialOverlap k) {a : U32} {bs : List U8} (h : bs.length = 1 ∨ bs.length = 4 ∧ k a) :
    Ag (Quads k) (fun _ => True) (loadS a bs) (loadN a bs) := by
  refine Ag.bind (Quads.pointer hk _ _ _ _) fun p hp => Ag.check ?_ (Quads.hostWrite p _)
  rcases h with h | ⟨h, ha⟩
  · rw [h]; exact Nat.one_dvd _
  · rw [h]; exact hp h ha

theorem Quads.loadBytes (hk : NoPartialOverlap k) (n : Nat) (a : U32) (src : List U8) : Ag (Quads k) (fun _ => True) (loadBytesS n a src) (loadBytes n a src) := by
  induction n generalizing a src with
  | zero => exact Ag.pure trivial
  | succ n ih =>
    cases src with
    | nil => exact Ag.ub _
    | cons b src => exact Ag.bind (Quads.loadN hk (.inl rfl)) fun _ _ => ih _ _

theorem Quads.loadWords (hk : NoPartialOverlap k) (src : List U8) (n : Nat) (a : U32) (h : ∀ j, 4 * j + 4 ≤ n → k (a + BitVec.ofNat 32 (4 * j))) :
    Ag (Quads k) (fun _ => True) (loadWordsS src n a) (loadWords src n a) := by
  fun_induction MemSim.loadWords src n a with
  | case1 b0 b1 b2 b3 rest n a hn ih =>
    rw [loadWordsS, if_pos hn]
    refine Ag.bind (Quads.loadN hk (.inr ⟨rfl, by simpa using h 0 (by omega)⟩)) fun _ _ => ih fun j hj => ?_
    have := h (j + 1) (by omega)
    rw [show 4 * (j + 1) = 4 + 4 * j by omega, BitVec.ofNat_add, ← BitVec.add_assoc] at this
    exact this
  | case2 b0 b1 b2 b3 rest n a hn =>
    rw [loadWordsS, if_neg hn]
    exact Quads.loadBytes hk _ _ _
  | case3 src n a hs hn =>
    rw [loadWordsS, if_pos hn]
    · exact Ag.ub _
    · exact hs
  | case4 src n a hs hn =>
    rw [loadWordsS, if_neg hn]
    · exact Quads.loadBytes hk _ _ _
    · exact hs

theorem Quads.load (hk : NoPartialOverlap k) {a : U32} {source : Nat} {n : U32} (h : ∀ j, 4 * j + 4 ≤ n.toNat → k (a + BitVec.ofNat 32 (4 * j)))
    (hs : 4 ∣ source) (image : List U8) : Ag (Quads k) (fun _ => True) (loadFromFlashImageS a source image n) (loadFromFlashImage a image n) :=
  Ag.check hs (Quads.loadWords hk _ _ _ h)

theorem Quads.heap {m : M Sim α} (h : ∀ s, Pst (fun _ t => t.regions = s.regions) (fun _ t => t.regions = s.regions) (m s)) :
    Ag (Quads k) (fun _ => True) m m :=
  fun s hs => ⟨rfl, (h s).mono (fun _ t ht => ⟨fun r hr => hs r (ht ▸ hr), trivial⟩) fun _ t ht r hr => hs r (ht ▸ hr)⟩

theorem Quads.malloc : Ag (Quads k) (fun _ => True) throwingZeroedMalloc throwingZeroedMalloc := by
  refine Quads.heap fun s => ?_
  unfold throwingZeroedMalloc
  rw [M.bind_apply]
  unfold MemSim.malloc
  cases h : s.heap.fails s.heap.next <;> simp [h] <;> rfl

theorem Quads.free (n : Nat) : Ag (Quads k) (fun _ => True) (free n) (free n) := Quads.heap fun _ => rfl

theorem Quads.create {a n : U32} (h : ∀ j, 4 * j + 4 ≤ n.toNat → k (a + BitVec.ofNat 32 (4 * j))) : Ag (Quads k) (fun _ => True) (createRegion a n) (createRegion a n) := by
  refine Ag.bind Quads.malloc fun _ _ => ?_
  refine Ag.bind (Ag.catch_ Quads.malloc fun e => Ag.bind (Quads.free 1) fun _ _ => Ag.rethrow e) fun _ _ => ?_
  refine Ag.modify fun s hs r hr => ?_
  rcases List.mem_append.1 hr with hr | hr
  · exact hs r hr
  · simp at hr
    subst hr
    exact ⟨rfl, h⟩

theorem Quads.mark (a : U32) : Ag (Quads k) (fun _ => True) (makeRegionReadOnly a) (makeRegionReadOnly a) := by
  refine Ag.bind (Quads.find a 1) ?_
  rintro ⟨i, b⟩ -
  exact Ag.bind (Quads.regionAt i) fun r hr => Ag.bind (Quads.setRegion i hr) fun _ _ => Ag.bind Quads.malloc fun _ _ => Quads.setRegion i hr

end MemSim
end Verif
