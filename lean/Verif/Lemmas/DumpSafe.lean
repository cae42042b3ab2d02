import Verif.Lemmas.DumpFile
import Verif.Lemmas.Sat
/- Every outcome of reading a dump file. -/
namespace Verif.Dump
open Verif MemSim Spec

/-- A reader that only consumes input and returns no more bytes than it consumes. -/
structure Consumes (rd : Reader) : Prop where
  got : ∀ n t bs t', rd n t = .got bs t' → bs.length + t'.length ≤ t.length ∧ bs.length ≤ n
  bad : ∀ n t bs t', rd n t = .bad bs t' → t'.length ≤ t.length

theorem binary_consumes : Consumes binaryRead := by
  constructor
  · intro n t bs t' h
    simp only [binaryRead, Rd.got.injEq] at h
    rw [← h.1, ← h.2]; simp; omega
  · intro n t bs t' h
    simp [binaryRead] at h

theorem nextChar_length {t : Str} {c : U8} {t' : Str} (h : nextChar t = some (c, t')) : t'.length < t.length := by
  induction t with
  | nil => cases h
  | cons x t ih =>
    simp only [nextChar] at h
    split at h
    · have := ih h; simp; omega
    · cases h; simp

theorem hex_step {n : Nat} {t t' bs : Str} : (hexRead n t = .got bs t' → bs.length + t'.length ≤ t.length ∧ bs.length ≤ n) ∧
    (hexRead n t = .bad bs t' → t'.length ≤ t.length) := by
  induction n generalizing t bs with
  | zero => constructor <;> intro h <;> simp [hexRead] at h; rw [h.1, h.2]; simp
  | succ n ih =>
    simp only [hexRead]
    cases h1 : nextChar t with
    | none => constructor <;> intro h <;> simp at h; rw [h.1, h.2]; simp
    | some p =>
      obtain ⟨hi, t1⟩ := p
      have l1 := nextChar_length h1
      simp only
      cases h2 : nextChar t1 with
      | none => constructor <;> intro h <;> simp at h; rw [h.1, h.2]; simp
      | some p =>
        obtain ⟨lo, t2⟩ := p
        have l2 := nextChar_length h2
        simp only
        cases h3 : nibbleDigitToVal hi with
        | none => constructor <;> intro h <;> simp at h; rw [← h.2]; omega
        | some x =>
          cases h4 : nibbleDigitToVal lo with
          | none => constructor <;> intro h <;> simp at h; rw [← h.2]; omega
          | some y =>
            simp only
            cases h5 : hexRead n t2 with
            | got bs3 t3 =>
              have := (ih (t := t2) (bs := bs3)).1
              constructor <;> intro h <;> simp at h
              obtain ⟨hb, rfl⟩ := h
              have := this h5
              rw [← hb]; simp; omega
            | bad bs3 t3 =>
              have := (ih (t := t2) (bs := bs3)).2
              constructor <;> intro h <;> simp at h
              obtain ⟨-, rfl⟩ := h
              have := this h5
              omega

theorem hex_consumes : Consumes hexRead := ⟨fun _ _ _ _ => hex_step.1, fun _ _ _ _ => hex_step.2⟩

theorem readInto_sat {rd : Reader} (hrd : Consumes rd) {n : Nat} {put : Str → D → D} {d : D} :
    Sat (fun bs d' => ∃ t, d' = put bs { d with rest := t } ∧ bs.length + t.length ≤ d.rest.length ∧ bs.length ≤ n)
      (fun e d' => e = ⟨.fileFormat, []⟩ ∧ ∃ bs t, d' = put bs { d with rest := t }) (readInto rd n put d) := by
  unfold readInto
  cases h : rd n d.rest with
  | got bs t => exact ⟨t, rfl, hrd.got _ _ _ _ h⟩
  | bad bs t => exact ⟨rfl, bs, t, rfl⟩

/-- What the part before the memory blocks leaves alone: memory, files; and floating point registers unless the flag is
set. -/
def HeadInv (h : Host) (d : D) : Prop :=
  d.host.mem = h.mem ∧ d.host.files = h.files ∧ (hasFloat d.host.ctx.flags = false → d.host.ctx.fpr = h.ctx.fpr)

theorem head_sat {rd : Reader} (hrd : Consumes rd) {d : D} :
    Sat (fun _ d' => HeadInv d.host d') (fun e d' => HeadInv d.host d' ∧ e.code = .fileFormat)
      ((do validateDumpSignature rd; readFlags rd; readIntegerRegisters rd; readFloatingPointRegisters rd) d) := by
  have hv : Sat (fun _ d' => d'.host = d.host) (fun e d' => d'.host = d.host ∧ e.code = .fileFormat) (validateDumpSignature rd d) := by
    unfold validateDumpSignature readBytes
    refine Sat.bind (Q1 := fun _ d' => d'.host = d.host) ((readInto_sat hrd).mono ?_ ?_) ?_
    · rintro bs d' ⟨t, rfl, -⟩; rfl
    · rintro e d' ⟨rfl, bs, t, rfl⟩; exact ⟨rfl, rfl⟩
    · intro sig d' h
      split
      · exact ⟨h, rfl⟩
      · split
        · exact h
        · split
          · exact h
          · exact ⟨h, rfl⟩
  refine Sat.bind (Q1 := fun _ d' => d'.host = d.host) (hv.mono (fun _ _ h => h) ?_) ?_
  · rintro e d' ⟨h, he⟩
    exact ⟨⟨by rw [h], by rw [h], fun _ => by rw [h]⟩, he⟩
  rintro - d1 h1
  let K : D → Prop := fun d' => d'.host.mem = d.host.mem ∧ d'.host.files = d.host.files ∧ d'.host.ctx.fpr = d.host.ctx.fpr
  have kh : ∀ d', K d' → HeadInv d.host d' := fun d' h => ⟨h.1, h.2.1, fun _ => h.2.2⟩
  have k1 : K d1 := ⟨by rw [h1], by rw [h1], by rw [h1]⟩
  have ht : ∀ (e : Exn) (d' : D), K d' ∧ e.code = .fileFormat → HeadInv d.host d' ∧ e.code = .fileFormat :=
    fun e d' h => ⟨kh d' h.1, h.2⟩
  have hput : ∀ {n : Nat} {f : Str → Regs → Regs} {d1 : D}, K d1 → (∀ bs c, (f bs c).fpr = c.fpr) →
      Sat (fun _ d' => K d') (fun e d' => K d' ∧ e.code = .fileFormat) (readInto rd n (fun bs d => d.setCtx (f bs)) d1) := by
    intro n f d1 hk hf
    refine (readInto_sat hrd).mono ?_ ?_
    · rintro bs d' ⟨t, rfl, -⟩; exact ⟨hk.1, hk.2.1, by simp [D.setCtx, hf, hk.2.2]⟩
    · rintro e d' ⟨rfl, bs, t, rfl⟩; exact ⟨⟨hk.1, hk.2.1, by simp [D.setCtx, hf, hk.2.2]⟩, rfl⟩
  have hfl : Sat (fun _ d' => K d') (fun e d' => K d' ∧ e.code = .fileFormat) (readFlags rd d1) := by
    unfold readFlags
    refine Sat.bind (hput k1 fun _ _ => rfl) ?_
    intro bs d' hk
    split
    · exact ⟨hk, rfl⟩
    · exact hk
  refine Sat.bind (hfl.mono (fun _ _ h => h) ht) ?_
  rintro - d2 k2
  have hre : Sat (fun _ d' => K d') (fun e d' => K d' ∧ e.code = .fileFormat) (readIntegerRegisters rd d2) := by
    unfold readIntegerRegisters
    refine Sat.bind (Q1 := fun x d' => x = d2 ∧ d' = d2) ⟨rfl, rfl⟩ ?_
    rintro x d3 ⟨rfl, rfl⟩
    have rest : ∀ (n : Nat) (d3 : D), K d3 → Sat (fun _ d' => K d') (fun e d' => K d' ∧ e.code = .fileFormat) ((do
        let bs ← readInto rd n (fun bs d => d.setCtx fun c => { c with r := overlay c.r bs })
        if bs.length ≠ n then M.throw .fileFormat (asc "The dump file was too short to contain the integer registers.")
        else do
          let bs ← readInto rd 4 (fun bs d => d.setCtx fun c => { c with psr := overlayWord c.psr bs })
          if bs.length ≠ 4 then M.throw .fileFormat (asc "The dump file was too short to contain the exception PSR.")
          else pure ()) d3) := by
      intro n d3 k3
      refine Sat.bind (hput k3 fun _ _ => rfl) ?_
      intro bs d4 k4
      split
      · exact ⟨k4, rfl⟩
      · refine Sat.bind (hput k4 fun _ _ => rfl) ?_
        intro bs d5 k5
        split
        · exact ⟨k5, rfl⟩
        · exact k5
    simp only
    by_cases hv2 : d3.v2 = true
    · rw [if_pos hv2]
      exact Sat.bind (Q1 := fun _ d' => K d') k2 fun _ d4 k4 => rest _ d4 k4
    · rw [if_neg hv2]
      exact rest _ d3 k2
  refine Sat.bind (hre.mono (fun _ _ h => h) ht) ?_
  rintro - d3 k3
  unfold readFloatingPointRegisters
  refine Sat.bind (Q1 := fun x d' => x = d3 ∧ d' = d3) ⟨rfl, rfl⟩ ?_
  rintro x d4 ⟨rfl, rfl⟩
  split
  · exact kh _ k3
  · rename_i hne
    have hflag : hasFloat d4.host.ctx.flags = true := by
      cases hh : hasFloat d4.host.ctx.flags with
      | true => rfl
      | false => exact absurd ((hasFloat_iff _).2 hh) hne
    have hk : ∀ (bs t : Str), HeadInv d.host (D.setCtx { d4 with rest := t } fun c => { c with fpr := overlay c.fpr bs }) :=
      fun bs t => ⟨k3.1, k3.2.1, fun h => by simp only [D.setCtx] at h; rw [hflag] at h; cases h⟩
    refine Sat.bind (Q1 := fun _ d' => HeadInv d.host d') ((readInto_sat hrd).mono ?_ ?_) ?_
    · rintro bs d' ⟨t, rfl, -⟩; exact hk bs t
    · rintro e d' ⟨rfl, bs, t, rfl⟩; exact ⟨hk bs t, rfl⟩
    · intro bs d' h
      split
      · exact ⟨h, rfl⟩
      · exact h

/-- What the memory part keeps. -/
def BodyInv (h : Host) (d : D) : Prop :=
  MemInv createsOrWrites h.mem d.host.mem ∧ d.host.files = h.files ∧ d.host.ctx = h.ctx

/-- The exceptions of the memory part. -/
def bodyCodes : List Exc := [.fileFormat, .stackOverflow, .outOfMemory, .busError]

theorem load_sat {rd : Reader} (hrd : Consumes rd) {h : Host} {n : Nat} {a : U32} {d : D} (hi : BodyInv h d) :
    Sat (fun _ d' => BodyInv h d' ∧ d'.rest.length ≤ d.rest.length) (fun e d' => BodyInv h d' ∧ e.code ∈ bodyCodes)
      (loadRegionBytes rd n a d) := by
  induction n generalizing a d with
  | zero => exact ⟨hi, Nat.le_refl _⟩
  | succ n ih =>
    simp only [loadRegionBytes, readBytes]
    refine Sat.bind (Q1 := fun _ d' => BodyInv h d' ∧ d'.rest.length ≤ d.rest.length) ((readInto_sat hrd).mono ?_ ?_) ?_
    · rintro bs d' ⟨t, rfl, hl, -⟩; exact ⟨hi, by simp only; omega⟩
    · rintro e d' ⟨rfl, bs, t, rfl⟩; exact ⟨hi, by decide⟩
    · rintro bs d1 ⟨h1, l1⟩
      split
      · refine Sat.bind (Q1 := fun _ d' => BodyInv h d' ∧ d'.rest.length ≤ d.rest.length) (Sat.zoom ?_) ?_
        · refine (write_inv h1.1 (by trivial)).mono ?_ ?_
          · rintro - s ⟨hs, -⟩; exact ⟨⟨hs, h1.2⟩, l1⟩
          · rintro e s ⟨rfl, rfl⟩; exact ⟨h1, by decide⟩
        · rintro - d2 ⟨h2, l2⟩
          exact (ih h2).mono (fun _ _ h => ⟨h.1, by omega⟩) (fun _ _ h => h)
      · exact ⟨h1, by decide⟩

theorem next_sat {rd : Reader} (hrd : Consumes rd) {h : Host} {d : D} (hi : BodyInv h d) :
    Sat (fun b d' => BodyInv h d' ∧ (b = false → d'.rest.length < d.rest.length)) (fun e d' => BodyInv h d' ∧ e.code ∈ bodyCodes)
      (readNextMemoryRegion rd d) := by
  unfold readNextMemoryRegion readBytes
  refine Sat.bind (Q1 := fun bs d' => BodyInv h d' ∧ bs.length + d'.rest.length ≤ d.rest.length) ((readInto_sat hrd).mono ?_ ?_) ?_
  · rintro bs d' ⟨t, rfl, hl, -⟩; exact ⟨hi, hl⟩
  · rintro e d' ⟨rfl, bs, t, rfl⟩; exact ⟨hi, by decide⟩
  · rintro bs d1 ⟨h1, l1⟩
    split
    · exact ⟨h1, by decide⟩
    · split
      · exact ⟨h1, by intro h; cases h⟩
      · split
        · exact ⟨h1, by decide⟩
        · rename_i hlen
          simp only [ne_eq, Decidable.not_not] at hlen
          refine Sat.bind (Q1 := fun _ d' => BodyInv h d' ∧ d'.rest.length ≤ d1.rest.length) (Sat.catch
            (E1 := fun e d' => BodyInv h d' ∧ e.code ∈ bodyCodes) ?_ ?_) ?_
          · unfold createAndLoadMemoryRegion
            refine Sat.bind (Q1 := fun _ d' => BodyInv h d' ∧ d'.rest.length ≤ d1.rest.length) (Sat.zoom ?_) ?_
            · refine (createRegion_inv h1.1 (by trivial)).mono ?_ ?_
              · intro _ s hs; exact ⟨⟨hs, h1.2⟩, Nat.le_refl _⟩
              · rintro e s ⟨hs, he⟩; exact ⟨⟨hs, h1.2⟩, by rw [he]; decide⟩
            · rintro - d2 ⟨h2, l2⟩
              exact (load_sat hrd h2).mono (fun _ _ h => ⟨h.1, by omega⟩) (fun _ _ h => h)
          · rintro e d2 ⟨h2, he⟩
            exact ⟨h2, he⟩
          · rintro - d2 ⟨h2, l2⟩
            exact ⟨h2, fun _ => by omega⟩

theorem regions_sat {rd : Reader} (hrd : Consumes rd) {h : Host} {f : Nat} {d : D} (hi : BodyInv h d) (hf : d.rest.length < f) :
    Sat (fun _ d' => BodyInv h d') (fun e d' => BodyInv h d' ∧ e.code ∈ bodyCodes) (readMemoryRegions rd f d) := by
  induction f generalizing d with
  | zero => omega
  | succ f ih =>
    simp only [readMemoryRegions]
    refine Sat.bind (next_sat hrd hi) ?_
    rintro b d1 ⟨h1, l1⟩
    cases b with
    | true => exact h1
    | false =>
      have := l1 rfl
      exact ih h1 (by omega)

/-- Every outcome of reading a dump. -/
theorem dump_sat {rd : Reader} (hrd : Consumes rd) {d : D} (hs : Sound d.host.mem) (hu : Unwatched d.host.mem) :
    Sat (fun _ d' => MemInv createsOrWrites d.host.mem d'.host.mem ∧ d'.host.files = d.host.files ∧
        (hasFloat d'.host.ctx.flags = false → d'.host.ctx.fpr = d.host.ctx.fpr))
      (fun e d' => (MemInv createsOrWrites d.host.mem d'.host.mem ∧ d'.host.files = d.host.files ∧
        (hasFloat d'.host.ctx.flags = false → d'.host.ctx.fpr = d.host.ctx.fpr)) ∧ e.code ∈ bodyCodes) (readDump rd d) := by
  have e : readDump rd d = ((do validateDumpSignature rd; readFlags rd; readIntegerRegisters rd; readFloatingPointRegisters rd) >>=
      fun _ => do
        let d ← M.get
        readMemoryRegions rd (d.rest.length + 1)) d := by
    unfold readDump
    simp only [M.bind_apply]
    cases validateDumpSignature rd d with
    | ok _ d1 =>
      simp only
      cases readFlags rd d1 with
      | ok _ d1 =>
        simp only
        cases readIntegerRegisters rd d1 <;> rfl
      | throw e d1 => rfl
      | ub r => rfl
    | throw e d1 => rfl
    | ub r => rfl
  rw [e]
  refine Sat.bind ((head_sat hrd).mono (fun _ _ h => h) ?_) ?_
  · rintro e d1 ⟨⟨h1, h2, h3⟩, he⟩
    exact ⟨⟨by rw [h1]; exact MemInv.init hs hu, h2, h3⟩, by rw [he]; decide⟩
  · rintro - d1 ⟨h1, h2, h3⟩
    have hb : BodyInv d1.host d1 := ⟨.init (h1 ▸ hs) (h1 ▸ hu), rfl, rfl⟩
    refine Sat.bind (Q1 := fun x d' => x = d1 ∧ d' = d1) ⟨rfl, rfl⟩ ?_
    rintro x d2 ⟨rfl, rfl⟩
    refine (regions_sat hrd hb (Nat.lt_succ_self _)).mono ?_ ?_
    · rintro - d2 ⟨g1, g2, g3⟩
      exact ⟨h1 ▸ g1, g2.trans h2, by rw [g3]; exact h3⟩
    · rintro e d2 ⟨⟨g1, g2, g3⟩, he⟩
      exact ⟨⟨h1 ▸ g1, g2.trans h2, by rw [g3]; exact h3⟩, he⟩

/-- Every outcome of reading a dump file. -/
theorem file_sat {rd : Reader} (hrd : Consumes rd) {h : Host} {name : Str} (hs : Sound h.mem) (hu : Unwatched h.mem) :
    Sat (fun _ h' => MemInv createsOrWrites h.mem h'.mem ∧ h'.files.live = h.files.live ∧
        (hasFloat h'.ctx.flags = false → h'.ctx.fpr = h.ctx.fpr))
      (fun e h' => (MemInv createsOrWrites h.mem h'.mem ∧ h'.files.live = h.files.live ∧
        (hasFloat h'.ctx.flags = false → h'.ctx.fpr = h.ctx.fpr)) ∧ e.code ∈ .file :: bodyCodes) (readFile rd name h) := by
  cases hf : h.files.opens h.files.next name with
  | none =>
    simp only [readFile, Host.fopen, M.bind_apply, hf]
    exact ⟨⟨.init hs hu, rfl, fun _ => rfl⟩, List.mem_cons_self⟩
  | some f =>
    rw [readFile_eq ⟨f, hf, rfl⟩]
    have := dump_sat hrd (d := start h f.bytes) hs hu
    cases hd : readDump rd (start h f.bytes) with
    | ok _ d =>
      rw [hd] at this
      obtain ⟨h1, h2, h3⟩ := this
      exact ⟨h1, by simp [closed, h2, start, opened], h3⟩
    | throw e d =>
      rw [hd] at this
      obtain ⟨⟨h1, h2, h3⟩, he⟩ := this
      exact ⟨⟨h1, by simp [closed, h2, start, opened], h3⟩, List.mem_cons_of_mem _ he⟩
    | ub r => rw [hd] at this; exact this

end Verif.Dump
