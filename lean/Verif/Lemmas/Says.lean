import Verif.Lemmas.Msg
import Verif.Lemmas.CmdTop
import Verif.Lemmas.BadHex
/- Which exceptions have a message, whatever the state. -/
namespace Verif
open Verif MemSim Spec Elf

/-- What this code raises is so. -/
structure Raises (Q : Exn → Prop) (m : M σ α) : Prop where
  all : ∀ s e s', m s = .throw e s' → Q e

namespace Raises
variable {Q : Exn → Prop}

theorem pure (a : α) : Raises Q (Pure.pure a : M σ α) := ⟨fun _ _ _ h => nomatch h⟩
theorem ub (r : UB) : Raises Q (M.ub r : M σ α) := ⟨fun _ _ _ h => nomatch h⟩
theorem get : Raises Q (M.get : M σ σ) := ⟨fun _ _ _ h => nomatch h⟩
theorem modify (f : σ → σ) : Raises Q (M.modify f) := ⟨fun _ _ _ h => nomatch h⟩
theorem throw {c : Exc} {t : Str} (h : Q ⟨c, t⟩) : Raises Q (M.throw c t : M σ α) := by
  refine ⟨fun s e s' he => ?_⟩; cases he; exact h
theorem throwMsg {c : Exc} {t : Str} (h : Q ⟨c, t.take 1023⟩) : Raises Q (M.throwMsg c t : M σ α) := by
  refine ⟨fun s e s' he => ?_⟩; cases he; exact h
theorem rethrow {e : Exn} (h : Q e) : Raises Q (M.rethrow e : M σ α) := by
  refine ⟨fun s e s' he => ?_⟩; cases he; exact h
theorem bind {m : M σ α} {f : α → M σ β} (hm : Raises Q m) (hf : ∀ a, Raises Q (f a)) : Raises Q (m >>= f) := by
  refine ⟨fun s e s' h => ?_⟩
  rw [M.bind_apply] at h
  cases hms : m s with
  | ok a s1 => rw [hms] at h; exact (hf _).all _ _ _ h
  | throw x s1 => rw [hms] at h; cases h; exact hm.all _ _ _ hms
  | ub r => rw [hms] at h; cases h
theorem ite {c : Prop} [Decidable c] {m n : M σ α} (h1 : Raises Q m) (h2 : Raises Q n) : Raises Q (if c then m else n) := by split <;> assumption
theorem handle {m : M σ α} {hd : Exn → M σ α} (hm : Raises Q m) (hh : ∀ e, Q e → Raises Q (hd e)) : Raises Q (M.tryCatch m hd) := by
  refine ⟨fun s e s' h => ?_⟩
  rw [M.tryCatch_apply] at h
  cases hms : m s with
  | ok a s1 => rw [hms] at h; cases h
  | throw x s1 => rw [hms] at h; exact (hh x (hm.all _ _ _ hms)).all _ _ _ h
  | ub r => rw [hms] at h; cases h
theorem catchAny {m : M σ α} {hd : Exn → M σ α} (hh : ∀ e, Raises Q (hd e)) : Raises Q (M.tryCatch m hd) := by
  refine ⟨fun s e s' h => ?_⟩
  rw [M.tryCatch_apply] at h
  cases hms : m s with
  | ok a s1 => rw [hms] at h; cases h
  | throw x s1 => rw [hms] at h; exact (hh x).all _ _ _ h
  | ub r => rw [hms] at h; cases h
theorem zoom {p : τ → σ} {q : σ → τ → τ} {m : M σ α} (h : Raises Q m) : Raises Q (M.zoom p q m) := by
  refine ⟨fun s e s' he => ?_⟩
  rw [M.zoom_apply] at he
  cases hms : m (p s) <;> rw [hms] at he <;> cases he
  exact h.all _ _ _ hms
theorem mono {Q' : Exn → Prop} {m : M σ α} (h : Raises Q m) (hq : ∀ e, Q e → Q' e) : Raises Q' m := ⟨fun s e s' he => hq _ (h.all s e s' he)⟩

end Raises

/-- There is a message. -/
def Says (e : Exn) : Prop := e.msg ≠ []

theorem says_cons {c : Exc} {x : U8} {a b : Str} (h : a = x :: b) (t : Str) : Says ⟨c, a ++ t⟩ := by
  subst h; simp [Says]
theorem says_take {c : Exc} {t : Str} (h : Says ⟨c, t⟩) : Says ⟨c, t.take 1023⟩ := by
  cases t with
  | nil => exact absurd rfl h
  | cons x t => simp [Says]

/-- Messages that begin with a literal. -/
macro "says" : tactic => `(tactic| (
  try apply says_take
  try simp only [List.append_assoc]
  first | exact says_cons rfl _ | (unfold Says; dsimp only; decide +kernel)))

/-! ### ELF -/

namespace Elf

/-- The ELF loader says nothing if the simulator refuses. -/
def Loads (e : Exn) : Prop := Says e ∨ e.code ∈ [Exc.outOfMemory, .busError]

theorem loads_field (p : List U8) (o n : Nat) : Raises Loads (field p o n) := by
  unfold field; exact .ite (.pure ..) (.ub ..)
theorem loads_bytesOf (p : List U8) (n : Nat) : Raises Loads (bytesOf p n) := by
  unfold bytesOf; exact .ite (.pure ..) (.ub ..)
theorem loads_throw {c : Exc} {t : Str} (h : Says ⟨c, t⟩) : Raises Loads (M.throw c t : M σ α) := .throw (.inl h)
theorem loads_create (a n : U32) : Raises Loads (createRegion a n) := by
  refine ⟨fun s e s' h => ?_⟩
  rcases createRegion_cases a n s with ⟨k, h1⟩ | h1 <;> rw [h1] at h <;> cases h
  exact .inr (by simp)
theorem loads_load (a n : U32) (b : List U8) : Raises Loads (loadFromFlashImage a b n) := by
  refine ⟨fun s e s' h => ?_⟩
  rw [loadWords_exn h]
  exact .inr (by simp)
theorem loads_mark (a : U32) : Raises Loads (makeRegionReadOnly a) := by
  refine ⟨fun s e s' h => ?_⟩
  rcases makeRegionReadOnly_cases a s with h1 | ⟨u, h1⟩ | ⟨i, a', r, -, -, ⟨-, h1⟩ | ⟨-, h1⟩⟩ <;> rw [h1] at h <;> cases h <;> exact .inr (by simp)

theorem loads_validate (hdr : List U8) : Raises Loads (validateElfHeaderContents hdr) := by
  unfold validateElfHeaderContents
  exact (loads_bytesOf ..).bind fun _ => .ite (loads_throw (by says)) <| (loads_field ..).bind fun _ => .ite (loads_throw (by says)) <|
    (loads_field ..).bind fun _ => .ite (loads_throw (by says)) <| (loads_field ..).bind fun _ => .ite (loads_throw (by says)) <|
    (loads_field ..).bind fun _ => .ite (loads_throw (by says)) <| (loads_field ..).bind fun _ => .ite (loads_throw (by says)) <|
    (loads_field ..).bind fun _ => .ite (loads_throw (by says)) (.pure ..)

theorem loads_loadable (p : List U8) : Raises Loads (isFlashLoadableEntry p) := by
  unfold isFlashLoadableEntry
  exact (loads_field ..).bind fun _ => .ite ((loads_field ..).bind fun _ => .ite ((loads_field ..).bind fun _ =>
    (loads_field ..).bind fun _ => .pure ..) (.pure ..)) (.pure ..)

theorem loads_entry (b : List U8) (k : Nat) (p : List U8) (c : U32) : Raises Loads (loadIfFlashLoadableEntry b k p c) := by
  unfold loadIfFlashLoadableEntry
  exact (loads_loadable _).bind fun _ => .ite ((loads_field ..).bind fun o => (loads_field ..).bind fun z =>
    (Raises.catchAny fun _ => loads_throw (by says)).bind fun _ => (loads_field ..).bind fun _ => (loads_create ..).bind fun _ =>
    (loads_load ..).bind fun _ => (loads_mark _).bind fun _ => .pure ..) (.pure ..)

theorem loads_entries (b : List U8) (k e n : Nat) : ∀ i o c, Raises Loads (loadEntries b k e n i o c) := by
  induction n with
  | zero => intro i o c; exact .pure ..
  | succ n ih =>
    intro i o c
    exact (Raises.catchAny fun _ => loads_throw (by says)).bind fun _ => (loads_entry ..).bind fun _ => ih _ _ _

theorem loads_fromMemory (b : List U8) (n : Nat) : Raises Loads (fromMemory b n) := by
  unfold fromMemory loadFlashLoadableEntries initLoadObject
  exact (Raises.catchAny fun _ => loads_throw (by says)).bind fun _ => (loads_validate _).bind fun _ =>
    ((loads_field ..).bind fun _ => (loads_field ..).bind fun _ => (loads_field ..).bind fun _ => loads_entries ..).bind fun _ =>
    .ite (loads_throw (by says)) (.pure ..)

end Elf

/-! ### Dumps -/

namespace Dump

theorem pst_readInto {rd : Reader} {F : Str → Prop} (hr : ∀ n t, F t → ∃ bs u, rd n t = .got bs u ∧ F u) {n : Nat} {put : Str → D → D}
    (hput : ∀ bs d, (put bs d).rest = d.rest) {d : D} (h : F d.rest) :
    Pst (fun _ d' => F d'.rest) (fun e _ => Says e) (readInto rd n put d) := by
  obtain ⟨bs, u, h1, h2⟩ := hr n d.rest h
  unfold readInto
  rw [h1]
  show F (put bs { d with rest := u }).rest
  rw [hput]
  exact h2

variable {rd : Reader} {F : Str → Prop}

theorem pst_throw {c : Exc} {t : Str} {d : D} {Q : α → D → Prop} (h : Says ⟨c, t⟩) : Pst Q (fun e _ => Says e) ((M.throw c t : M D α) d) := h

theorem pst_head (hr : ∀ n t, F t → ∃ bs u, rd n t = .got bs u ∧ F u) {d : D} (h : F d.rest) :
    Pst (fun _ d' => F d'.rest) (fun e _ => Says e) ((do
      validateDumpSignature rd
      readFlags rd
      readIntegerRegisters rd
      readFloatingPointRegisters rd : M D Unit) d) := by
  refine Pst.bind (Q1 := fun _ d' => F d'.rest) ?_ fun _ d1 h1 => ?_
  · unfold validateDumpSignature
    refine Pst.bind (pst_readInto hr (by intros; rfl) h) fun bs d1 h1 => ?_
    split
    · exact pst_throw (by says)
    · split
      · exact h1
      · split
        · exact h1
        · exact pst_throw (by says)
  refine Pst.bind (Q1 := fun _ d' => F d'.rest) ?_ fun _ d2 h2 => ?_
  · unfold readFlags
    refine Pst.bind (pst_readInto hr (by intros; rfl) h1) fun bs d1 h1 => ?_
    split
    · exact pst_throw (by says)
    · exact h1
  refine Pst.bind (Q1 := fun _ d' => F d'.rest) ?_ fun _ d3 h3 => ?_
  · have rest : ∀ n (d : D), F d.rest → Pst (fun _ d' => F d'.rest) (fun e _ => Says e) ((do
        let bs ← readInto rd n (fun bs d => d.setCtx fun c => { c with r := overlay c.r bs })
        if bs.length ≠ n then M.throw .fileFormat (asc "The dump file was too short to contain the integer registers.")
        else do
          let bs ← readInto rd 4 (fun bs d => d.setCtx fun c => { c with psr := overlayWord c.psr bs })
          if bs.length ≠ 4 then M.throw .fileFormat (asc "The dump file was too short to contain the exception PSR.")
          else pure () : M D Unit) d) := by
      intro n d h
      refine Pst.bind (pst_readInto hr (by intros; rfl) h) fun bs d1 h1 => ?_
      split
      · exact pst_throw (by says)
      · refine Pst.bind (pst_readInto hr (by intros; rfl) h1) fun bs d1 h1 => ?_
        split
        · exact pst_throw (by says)
        · exact h1
    unfold readIntegerRegisters
    refine Pst.bind (Q1 := fun x d' => x = d2 ∧ d' = d2) ⟨rfl, rfl⟩ ?_
    rintro x d' ⟨rfl, rfl⟩
    dsimp only
    split
    · exact Pst.bind (Q1 := fun _ d' => F d'.rest) (show F _ from h2) fun _ d4 h4 => rest _ d4 h4
    · exact rest _ _ h2
  unfold readFloatingPointRegisters
  refine Pst.bind (Q1 := fun x d' => x = d3 ∧ d' = d3) ⟨rfl, rfl⟩ ?_
  rintro x d' ⟨rfl, rfl⟩
  split
  · exact h3
  · refine Pst.bind (pst_readInto hr (by intros; rfl) h3) fun bs d1 h1 => ?_
    split
    · exact pst_throw (by says)
    · exact h1

theorem pst_zoom {m : M Sim α} {d : D} (h : F d.rest) : Pst (fun _ d' => F d'.rest) (fun _ _ => True) (onMem m d) := by
  unfold onMem
  rw [M.zoom_apply]
  cases m d.host.mem with
  | ok a s => exact h
  | throw e s => trivial
  | ub r => trivial

theorem pst_bytes (hr : ∀ n t, F t → ∃ bs u, rd n t = .got bs u ∧ F u) (n : Nat) : ∀ (a : U32) (d : D), F d.rest →
    Pst (fun _ d' => F d'.rest) (fun _ _ => True) (loadRegionBytes rd n a d) := by
  induction n with
  | zero => intro a d h; exact h
  | succ n ih =>
    intro a d h
    refine Pst.bind ((pst_readInto hr (put := fun _ d => d) (by intros; rfl) h).mono (fun _ _ h => h) (fun _ _ _ => trivial)) fun bs d1 h1 => ?_
    split
    · exact Pst.bind (pst_zoom h1) fun _ d2 h2 => ih _ _ h2
    · trivial

theorem pst_next (hr : ∀ n t, F t → ∃ bs u, rd n t = .got bs u ∧ F u) {d : D} (h : F d.rest) :
    Pst (fun _ d' => F d'.rest) (fun e _ => Says e) (readNextMemoryRegion rd d) := by
  unfold readNextMemoryRegion createAndLoadMemoryRegion
  refine Pst.bind (pst_readInto hr (put := fun _ d => d) (by intros; rfl) h) fun bs d1 h1 => ?_
  split
  · exact pst_throw (by says)
  · split
    · exact h1
    · split
      · exact pst_throw (by says)
      · dsimp only
        refine Pst.bind (Q1 := fun _ d' => F d'.rest) ?_ fun _ d h => (h : F d.rest)
        generalize hlo : BitVec.ofNat 32 (leVal (bs.take 4)) = lo
        generalize hhi : BitVec.ofNat 32 (leVal (bs.drop 4)) = hi
        have key : Pst (fun _ d' => F d'.rest) (fun _ _ => True) ((do
            onMem (createRegion lo (hi - lo))
            loadRegionBytes rd (hi - lo).toNat lo : M D Unit) d1) :=
          Pst.bind (pst_zoom h1) fun _ d2 h2 => pst_bytes hr _ _ _ h2
        rw [M.tryCatch_apply]
        revert key
        generalize ((do
            onMem (createRegion lo (hi - lo))
            loadRegionBytes rd (hi - lo).toNat lo : M D Unit) d1) = o
        intro key
        cases o with
        | ok a d => exact key
        | ub r => trivial
        | throw e d => exact pst_throw (by says)

theorem pst_regions (hr : ∀ n t, F t → ∃ bs u, rd n t = .got bs u ∧ F u) (n : Nat) : ∀ d : D, F d.rest →
    Pst (fun _ d' => F d'.rest) (fun e _ => Says e) (readMemoryRegions rd n d) := by
  induction n with
  | zero => intro d h; trivial
  | succ n ih =>
    intro d h
    refine Pst.bind (pst_next hr h) fun b d1 h1 => ?_
    split
    · exact h1
    · exact ih _ h1

theorem says_file (hr : ∀ n t, F t → ∃ bs u, rd n t = .got bs u ∧ F u) {name : Str} {h h' : Host} {e : Exn}
    (hf : ∀ f, h.files.opens h.files.next name = some f → F f.bytes) (he : readFile rd name h = .throw e h') : Says e := by
  unfold readFile at he
  rw [M.bind_apply] at he
  unfold Host.fopen at he
  cases ho : h.files.opens h.files.next name with
  | none =>
    rw [ho] at he
    cases he
    says
  | some f =>
    rw [ho] at he
    dsimp only at he
    have key : ∀ d : D, F d.rest → Pst (fun _ _ => True) (fun e _ => Says e) (readDump rd d) := by
      intro d hd
      have := pst_head hr hd
      have e1 : readDump rd d = ((do
        validateDumpSignature rd
        readFlags rd
        readIntegerRegisters rd
        readFloatingPointRegisters rd : M D Unit) >>= fun _ => (do
          let d ← M.get
          readMemoryRegions rd (d.rest.length + 1))) d := by
        simp only [readDump, M.bind_apply]
        repeat (split <;> try rfl)
      rw [e1]
      refine Pst.bind this fun _ d1 h1 => ?_
      refine Pst.bind (Q1 := fun x d' => x = d1 ∧ d' = d1) ⟨rfl, rfl⟩ ?_
      rintro x d' ⟨rfl, rfl⟩
      exact (pst_regions hr _ _ h1).mono (fun _ _ _ => trivial) fun _ _ h => h
    generalize hh : ({ h with files := _ } : Host) = hst at he
    have k := key { host := hst, rest := f.bytes } (hf f ho)
    cases hd : readDump rd { host := hst, rest := f.bytes } with
    | ok a d => rw [hd] at he; cases he
    | ub r => rw [hd] at he; cases he
    | throw x d => rw [hd] at he k; cases he; exact k

theorem binary_reads (n : Nat) (t : Str) (_ : True) : ∃ bs u, binaryRead n t = .got bs u ∧ True := ⟨_, _, rfl, trivial⟩

theorem hex_reads (n : Nat) (t : Str) (h : ∃ bs, HexUpToLone t bs) : ∃ bs u, hexRead n t = .got bs u ∧ ∃ bs', HexUpToLone u bs' := by
  obtain ⟨bs, h | ⟨t0, c, nl, rfl, h, hc, hnl⟩⟩ := h
  · by_cases hn : n ≤ bs.length
    · obtain ⟨t', e, ht⟩ := hexRead_app (tail := []) h hn
      rw [List.append_nil, List.append_nil] at e
      exact ⟨_, _, e, _, .inl ht⟩
    · exact ⟨_, _, hexRead_end h (by omega), [], .inl .nil⟩
  · by_cases hn : n ≤ bs.length
    · obtain ⟨t', e, ht⟩ := hexRead_app (tail := c :: nl) h hn
      exact ⟨_, _, e, _, .inr ⟨t', c, nl, rfl, ht, hc, hnl⟩⟩
    · exact ⟨_, _, hexRead_lone h hc hnl (by omega), [], .inl .nil⟩

theorem says_binary {name : Str} {h h' : Host} {e : Exn} (he : readBinary name h = .throw e h') : Says e :=
  says_file binary_reads (fun _ _ => trivial) he

theorem says_hex {name : Str} {h h' : Host} {e : Exn} (he : readHex name h = .throw e h') :
    Says e ∨ ∃ f, h.files.opens h.files.next name = some f ∧ ∃ bytes, Spoiled f.bytes bytes := by
  cases ho : h.files.opens h.files.next name with
  | none => exact .inl (says_file hex_reads (fun f hf => by rw [ho] at hf; cases hf) he)
  | some f =>
    rcases every_text _ f.bytes (Nat.le_refl _) with hb | hb
    · exact .inl (says_file hex_reads (fun f' hf => by rw [ho] at hf; cases hf; exact hb) he)
    · exact .inr ⟨f, rfl, hb⟩

end Dump

/-! ### GDB logs -/

namespace GdbLog

/-- Nothing is said if the simulator refuses. -/
def Parses (e : Exn) : Prop := Says e ∨ e.code ∈ [Exc.outOfMemory, .busError, .hardwareBreakpoint]

theorem parses_create (a n : U32) : Raises Parses (createRegion a n) :=
  (Elf.loads_create a n).mono fun e h => h.imp id fun h => by
    simp only [List.mem_cons, List.not_mem_nil, or_false] at h ⊢
    rcases h with h | h <;> simp [h]

theorem parses_pointer (a : U32) (n : Nat) (t : U32) (c : Bool) : Raises Parses (getDataPointer a n t c) := by
  unfold getDataPointer
  refine Raises.bind ⟨fun s e s' h => ?_⟩ fun p => Raises.bind ⟨fun s e s' h => ?_⟩ fun r => ?_
  · rcases findMatchingRegion_cases a n s with hf | ⟨i, a', hf⟩ | hf <;> rw [hf] at h <;> cases h
    exact .inr (by simp)
  · unfold regionAt at h
    split at h <;> cases h
  dsimp only
  split
  · exact .throw (.inr (by simp))
  · refine Raises.bind ⟨fun s e s' h => ?_⟩ fun _ => ?_
    · unfold countRead at h
      split at h
      · cases hr : r.readCounts with
        | none => rw [hr] at h; cases h
        | some cs =>
          rw [hr] at h
          dsimp only at h
          cases hc : cs[(p.2 - r.baseAddress).toNat / 2]? with
          | none => rw [hc] at h; cases h
          | some c => rw [hc] at h; cases h
      · cases h
    · split
      · refine Raises.bind ⟨fun s e s' h => ?_⟩ fun _ => .pure ..
        unfold checkForBreakWatchPoint at h
        revert h
        generalize scanWatch r.watch p.2 (p.2 + BitVec.ofNat 32 n) n t = x
        obtain ⟨k, b⟩ := x
        dsimp only
        by_cases hk : s.hits + k ≥ 2 ^ 31
        · rw [if_pos hk]; intro h; cases h
        · rw [if_neg hk]
          cases b <;> intro h <;> cases h
          exact .inr (by simp)
      · exact .pure ..

theorem parses_write (a v : U32) : Raises Parses (IMemory.write .w32 a v) := by
  refine Raises.bind (parses_pointer ..) fun p => ?_
  unfold hostWrite
  refine Raises.bind ⟨fun s e s' h => ?_⟩ fun r => .ite (.modify _) (.ub ..)
  unfold regionAt at h
  split at h <;> cases h

theorem parses_values4 (n : Nat) : ∀ vs t, Raises Parses (parseValues n vs t) := by
  induction n with
  | zero => intro vs t; exact .ub ..
  | succ n ih =>
    intro vs t
    unfold parseValues parseNextValue parseValue
    exact .ite ((Raises.ite (.pure ..) (.ub ..)).bind fun _ => ih ..) (.pure ..)

theorem parses_line (line : Str) : Raises Parses (parseLine line) := by
  unfold parseLine parseMemoryLine parseRegisterLine
  refine .ite (.ite (.ub ..) ((parses_values4 ..).bind fun _ => .pure ..)) ?_
  split
  · exact .ite (.ub ..) <| .ite (.pure ..) (.pure ..)
  · exact .pure ..

theorem parses_first (r : Results) : Raises Parses (firstPassHandler r) := by
  cases r with
  | other => exact .pure ..
  | memory a vs =>
    simp only [firstPassHandler]
    unfold firstPassMemoryHandler
    refine Raises.get.bind fun o => ?_
    dsimp only
    exact .ite (.ite ((Raises.zoom (parses_create ..)).bind fun _ => (Raises.modify _).bind fun _ => .modify _)
      ((Raises.modify _).bind fun _ => .modify _)) (.modify _)
  | register o v =>
    have hs : Raises Parses (storeContext o v) := by
      refine ⟨fun s e s' h => ?_⟩
      unfold storeContext at h
      dsimp only at h
      repeat' split at h
      all_goals cases h
    simp only [firstPassHandler, firstPassRegisterHandler]
    exact .ite ((Raises.modify _).bind fun _ => hs) hs

theorem parses_second (r : Results) : Raises Parses (secondPassHandler r) := by
  cases r with
  | memory a vs =>
    simp only [secondPassHandler]
    generalize 0 = i
    induction vs generalizing i with
    | nil => exact .pure ..
    | cons v vs ih => exact (Raises.zoom (parses_write ..)).bind fun _ => ih _
  | _ => exact .pure ..

theorem parses_loop {handler : Results → M Obj Unit} (h : ∀ r, Raises Parses (handler r)) (n : Nat) : ∀ t, Raises Parses (parseLoop handler n t) := by
  induction n with
  | zero => intro t; exact .ub ..
  | succ n ih =>
    intro t
    unfold parseLoop
    split
    · exact .pure ..
    · exact (parses_line _).bind fun _ => (h _).bind fun _ => ih _

theorem parses_lines {handler : Results → M Obj Unit} (h : ∀ r, Raises Parses (handler r)) (bytes : Str) : Raises Parses (parseLines handler bytes) := by
  refine ⟨fun s e s' he => ?_⟩
  unfold parseLines at he
  have : Raises Parses (do
    parseLoop handler (bytes.length + 1) bytes
    let o ← M.get
    if o.regionSize ≠ 0 then onMem (createRegion o.regionStart o.regionSize) else pure ()) :=
    (parses_loop h ..).bind fun _ => Raises.get.bind fun _ => .ite (.zoom (parses_create ..)) (.pure ..)
  have h1 := this.all { host := s }
  dsimp only at he
  revert h1 he
  generalize ((do
    parseLoop handler (bytes.length + 1) bytes
    let o ← M.get
    if o.regionSize ≠ 0 then onMem (createRegion o.regionStart o.regionSize) else pure () : M Obj Unit) { host := s }) = r
  cases r with
  | ok a t => intro h; cases h
  | ub r => intro h; cases h
  | throw x t => intro h h1; cases h; exact h1 _ _ rfl

theorem parses_parse {name : Str} {h h' : Host} {e : Exn} (he : parse name h = .throw e h') :
    Says e ∨ (∃ f, h.files.opens h.files.next name = some f) ∧ e.code ∈ [Exc.outOfMemory, .busError, .hardwareBreakpoint] := by
  unfold parse at he
  rw [M.bind_apply] at he
  unfold Host.fopen at he
  cases ho : h.files.opens h.files.next name with
  | none =>
    rw [ho] at he
    cases he
    exact .inl (by says)
  | some f =>
    rw [ho] at he
    dsimp only at he
    refine (Raises.all (Q := Parses) ?_ _ _ _ he).imp id fun h => ⟨⟨f, rfl⟩, h⟩
    refine .handle ?_ fun _ h => (Raises.modify _).bind fun _ => .rethrow h
    refine (Raises.modify _).bind fun _ => (parses_lines parses_first _).bind fun _ => Raises.bind ?_ fun _ =>
      (parses_lines parses_second _).bind fun _ => .modify _
    unfold rewindLogFile
    exact .ite (.throw (.inl (by says))) (.pure ..)

end GdbLog

/-! ### Start-up -/

namespace CommandLine

theorem says_loadFileBody (name : Str) : Raises Says (loadFileBody name) := by
  unfold loadFileBody
  refine Raises.bind (.zoom (.zoom ⟨fun s e s' h => ?_⟩)) fun f => (Raises.modify _).bind fun _ =>
    .ite (.throwMsg (by says)) <| (Raises.catchAny fun _ => .throwMsg (by says)).bind fun n =>
    (Raises.modify _).bind fun _ => Raises.bind (.zoom (.zoom (.zoom ⟨fun s e s' h => ?_⟩))) fun _ =>
    .ite ((Raises.modify _).bind fun _ => Raises.bind ⟨fun s e s' h => ?_⟩ fun _ => .ite (.throwMsg (by says)) (.zoom (.zoom (.modify _))))
    (.throwMsg (by says))
  · unfold Host.fopen at h
    split at h <;> cases h
  · unfold malloc at h
    split at h <;> cases h
  · unfold freadAll at h
    cases hp : s.pFile <;> rw [hp] at h <;> cases h

theorem says_loadFileData (name : Str) : Raises Says (loadFileData name) := by
  refine ⟨fun p e q h => ?_⟩
  have hb := (says_loadFileBody name).all { prog := p }
  unfold loadFileData at h
  cases hm : loadFileBody name { prog := p } with
  | ok a s => rw [hm] at h; cases h
  | ub r => rw [hm] at h; cases h
  | throw x s =>
    rw [hm] at h
    have key : ∃ t, loadFileCatch (α := FileData) s.pBuffer.isSome s.pFile.isSome x s.prog = .throw x t := by
      unfold loadFileCatch
      cases s.pBuffer.isSome <;> cases s.pFile.isSome <;> exact ⟨_, rfl⟩
    obtain ⟨t, ht⟩ := key
    dsimp only at h
    rw [ht] at h
    cases h
    exact hb _ _ hm

theorem says_freeP {Q : Exn → Prop} : Raises Q freeP := ⟨fun _ _ _ h => nomatch h⟩

theorem loads_image {p q : Prog} {e : Exn} (h : loadImageFile p = .throw e q) : Says e ∨ p.elf.isSome ∧ e.code ∈ [Exc.outOfMemory, .busError] := by
  unfold loadImageFile at h
  rw [M.bind_apply, M.get_apply] at h
  dsimp only at h
  cases he : p.elf with
  | some name =>
    rw [he] at h
    refine (Raises.all (Q := Elf.Loads) ?_ _ _ _ h).imp id fun h => ⟨rfl, h⟩
    refine ((says_loadFileData _).mono fun _ h => .inl h).bind fun fd => .handle (Raises.bind ⟨fun p e q h => ?_⟩ fun _ => says_freeP)
      fun _ h => says_freeP.bind fun _ => .rethrow h
    unfold onMemory at h
    by_cases hm : p.memory
    · rw [if_pos hm] at h
      exact (Raises.zoom (Raises.zoom (Elf.loads_fromMemory ..))).all _ _ _ h
    · rw [if_neg hm] at h; cases h
  | none =>
    rw [he] at h
    dsimp only at h
    cases hb : p.bin with
    | none => rw [hb] at h; cases h
    | some name =>
      rw [hb] at h
      refine .inl (Raises.all (Q := Says) ?_ _ _ _ h)
      refine (says_loadFileData _).bind fun fd => .handle (Raises.bind ?_ fun _ => says_freeP) fun _ h => says_freeP.bind fun _ => .rethrow h
      unfold loadBinFile
      exact Raises.get.bind fun _ => .catchAny fun _ => .throw (by says)

end CommandLine
end Verif
