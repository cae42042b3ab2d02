import Verif.Lemmas.DumpSafe
import Verif.Lemmas.ElfSafe
import Verif.Lemmas.PlatPacket
/- Reading a dump keeps the number of registers. -/
namespace Verif.Dump
open Verif MemSim Spec Elf

/-- The code keeps the register context complete, whatever its outcome. -/
def WF (m : M D α) : Prop :=
  ∀ d, RegsWF d.host.ctx → Pst (fun _ d' => RegsWF d'.host.ctx) (fun _ d' => RegsWF d'.host.ctx) (m d)

theorem WF.bind {m : M D α} {f : α → M D β} (hm : WF m) (hf : ∀ a, WF (f a)) : WF (m >>= f) :=
  fun d h => Pst.bind (hm d h) fun a d' h' => hf a d' h'

theorem WF.pure (a : α) : WF (Pure.pure a : M D α) := fun _ h => h
theorem WF.throw (c : Exc) (m : Str) : WF (M.throw c m : M D α) := fun _ h => h
theorem WF.ub (r : UB) : WF (M.ub r : M D α) := fun _ _ => trivial
theorem WF.get {f : D → M D α} (h : ∀ d, WF (f d)) : WF (M.get >>= f) := fun d hd => h d d hd
theorem WF.modify {f : D → D} (h : ∀ d, RegsWF d.host.ctx → RegsWF (f d).host.ctx) : WF (M.modify f) := fun d hd => h d hd

theorem WF.ite {c : Prop} [Decidable c] {m m' : M D α} (h : WF m) (h' : WF m') : WF (if c then m else m') := by
  split
  · exact h
  · exact h'

theorem WF.catch {m : M D α} {f : Exn → M D α} (hm : WF m) (hf : ∀ e, WF (f e)) : WF (M.tryCatch m f) := by
  intro d h
  have := hm d h
  rw [M.tryCatch_apply]
  cases e : m d with
  | ok a d' => rw [e] at this; exact this
  | throw x d' => rw [e] at this; exact hf x d' this
  | ub r => trivial

theorem WF.read {rd : Reader} {n : Nat} {put : Str → D → D} (h : ∀ bs d, RegsWF d.host.ctx → RegsWF (put bs d).host.ctx) :
    WF (readInto rd n put) := by
  intro d hd
  unfold readInto
  cases rd n d.rest with
  | got bs t => exact h bs _ hd
  | bad bs t => exact h bs _ hd

theorem WF.bytes (rd : Reader) (n : Nat) : WF (readBytes rd n) := .read fun _ _ h => h

theorem WF.mem (m : M Sim α) : WF (onMem m) := by
  intro d h
  unfold onMem
  rw [M.zoom_apply]
  cases m d.host.mem with
  | ok a s => exact h
  | throw e s => exact h
  | ub r => trivial

theorem WF.loop (rd : Reader) (n : Nat) : ∀ a, WF (loadRegionBytes rd n a) := by
  induction n with
  | zero => exact fun _ => .pure _
  | succ n ih =>
    intro a
    refine .bind (.bytes _ _) fun bs => ?_
    split
    · exact .bind (.mem _) fun _ => ih _
    · exact .throw _ _

theorem WF.next (rd : Reader) : WF (readNextMemoryRegion rd) := by
  unfold readNextMemoryRegion createAndLoadMemoryRegion
  exact .bind (.bytes _ _) fun bs => .ite (.throw _ _) (.ite (.pure _) (.ite (.throw _ _)
    (.bind (.catch (.bind (.mem _) fun _ => .loop _ _ _) fun _ => .throw _ _) fun _ => .pure _)))

theorem WF.regions (rd : Reader) (n : Nat) : WF (readMemoryRegions rd n) := by
  induction n with
  | zero => exact .ub _
  | succ n ih => exact .bind (.next rd) fun b => .ite (.pure _) ih

theorem WF.dump (rd : Reader) : WF (readDump rd) := by
  unfold readDump
  refine .bind ?_ fun _ => .bind ?_ fun _ => .bind ?_ fun _ => .bind ?_ fun _ => .get fun _ => .regions _ _
  · exact .bind (.bytes _ _) fun _ => .ite (.throw _ _) (.ite (.pure _) (.ite (.modify fun _ h => h) (.throw _ _)))
  · exact .bind (.read fun _ _ h => h) fun _ => .ite (.throw _ _) (.pure _)
  · unfold readIntegerRegisters
    refine .get fun d => ?_
    have rest : ∀ n : Nat, WF (do
        let bs ← readInto rd n (fun bs d => d.setCtx fun c => { c with r := overlay c.r bs })
        if bs.length ≠ n then M.throw .fileFormat (asc "The dump file was too short to contain the integer registers.")
        else do
          let bs ← readInto rd 4 (fun bs d => d.setCtx fun c => { c with psr := overlayWord c.psr bs })
          if bs.length ≠ 4 then M.throw .fileFormat (asc "The dump file was too short to contain the exception PSR.")
          else Pure.pure ()) := fun n =>
      .bind (.read fun bs d h => ⟨(Platform.overlay_length _ _).trans h.1, h.2⟩) fun _ => .ite (.throw _ _)
        (.bind (.read fun _ _ h => h) fun _ => .ite (.throw _ _) (.pure _))
    simp only
    by_cases hv : d.v2 = true
    · rw [if_pos hv]
      exact .bind (.modify fun d h => ⟨by simpa [D.setCtx] using h.1, h.2⟩) fun _ => rest _
    · rw [if_neg hv]
      exact rest _
  · exact .get fun d => .ite (.pure _) (.bind (.read fun bs d h => ⟨h.1, (Platform.overlay_length _ _).trans h.2⟩) fun _ => .ite (.throw _ _) (.pure _))

theorem file_wf {rd : Reader} {name : Str} {h h' : Host} (hc : RegsWF h.ctx) (he : Ends (readFile rd name h) h') : RegsWF h'.ctx := by
  unfold readFile at he
  rw [M.bind_apply] at he
  unfold Host.fopen at he
  cases ho : h.files.opens h.files.next name with
  | none =>
    simp only [ho] at he
    rcases he with ⟨a, he⟩ | ⟨e, he⟩
    · cases he
    · cases he; exact hc
  | some f =>
    simp only [ho] at he
    have := WF.dump rd { host := Dump.opened h, rest := f.bytes } hc
    change Ends (match readDump rd { host := Dump.opened h, rest := f.bytes } with
      | .ok _ d => Host.fclose d.host
      | .throw e d => (do Host.fclose; M.rethrow e : M Host Unit) d.host
      | .ub r => .ub r) h' at he
    cases e : readDump rd { host := Dump.opened h, rest := f.bytes } with
    | ok a d =>
      rw [e] at this he
      rcases he with ⟨a, he⟩ | ⟨x, he⟩
      · cases he; exact this
      · cases he
    | throw x d =>
      rw [e] at this he
      rcases he with ⟨a, he⟩ | ⟨x, he⟩
      · cases he
      · cases he; exact this
    | ub r =>
      rw [e] at he
      rcases he with ⟨a, he⟩ | ⟨x, he⟩ <;> cases he

end Verif.Dump
