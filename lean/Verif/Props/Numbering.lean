import Verif.Spec.Numbering
import Verif.Props.Platform
/-
C110: GDB and the program mean the same registers.
-/
namespace Verif.Props
open Verif MemSim Spec Platform

/-- The registers and numbers in the text. -/
def regnums (xml : Str) : List (Str × Option Nat) := (xml.splitOn 0x0A).flatMap regnumsInLine

theorem regnums_line (l t : Str) : regnums (l ++ (0x0A :: t)) = regnums l ++ regnums t := by
  unfold regnums
  rw [List.splitOn_append_cons_self, List.flatMap_append]

theorem regnums_lines (ls : List Str) (h : ∀ l ∈ ls, (0x0A : U8) ∉ l) : regnums (joinLines ls) = ls.flatMap regnumsInLine := by
  induction ls with
  | nil => decide +kernel
  | cons l ls ih =>
    rw [joinLines, List.flatMap_cons, List.append_assoc, List.singleton_append, regnums_line]
    rw [show regnums l = regnumsInLine l by
      unfold regnums; rw [List.splitOn_eq_singleton (h l (by simp))]; simp]
    rw [List.flatMap_cons]
    congr 1
    exact ih fun l hl => h l (by simp [hl])

theorem regnumsInLine_bytes (l : Str) : regnumsInLine l = (quoted [0x3C, 0x72, 0x65, 0x67] 0x3E l).map fun e =>
    ((quoted [0x20, 0x6E, 0x61, 0x6D, 0x65, 0x3D, 0x22] 0x22 e).flatten,
      (quoted [0x20, 0x72, 0x65, 0x67, 0x6E, 0x75, 0x6D, 0x3D, 0x22] 0x22 e).head?.map decimal) := by
  unfold regnumsInLine
  rw [show asc "<reg" = [0x3C, 0x72, 0x65, 0x67] by decide +kernel,
    show asc " name=\"" = [0x20, 0x6E, 0x61, 0x6D, 0x65, 0x3D, 0x22] by decide +kernel,
    show asc " regnum=\"" = [0x20, 0x72, 0x65, 0x67, 0x6E, 0x75, 0x6D, 0x3D, 0x22] by decide +kernel]

/-- What a line numbers. -/
def NumLine (s : String) (r : List (Str × Option Nat)) : Prop := (0x0A : U8) ∉ asc s ∧ regnumsInLine (asc s) = r

theorem numLine {s : String} {l : List Char} {r : List (Str × Option Nat)} (h : s = String.ofList l)
    (h1 : (0x0A : U8) ∉ l.map (fun c => BitVec.ofNat 8 c.toNat))
    (h2 : ((quoted [0x3C, 0x72, 0x65, 0x67] 0x3E (l.map (fun c => BitVec.ofNat 8 c.toNat))).map fun e =>
    ((quoted [0x20, 0x6E, 0x61, 0x6D, 0x65, 0x3D, 0x22] 0x22 e).flatten,
      (quoted [0x20, 0x72, 0x65, 0x67, 0x6E, 0x75, 0x6D, 0x3D, 0x22] 0x22 e).head?.map decimal)) = r) : NumLine s r := by
  subst h
  unfold NumLine
  rw [asc_ofList, regnumsInLine_bytes]
  exact ⟨h1, h2⟩

theorem plainLines_number : List.Forall₂ NumLine plainLines
  [[], [], [], [], [(asc "r0", none)], [(asc "r1", none)], [(asc "r2", none)], [(asc "r3", none)], [(asc "r4", none)],
  [(asc "r5", none)], [(asc "r6", none)], [(asc "r7", none)], [(asc "r8", none)], [(asc "r9", none)], [(asc "r10",
  none)], [(asc "r11", none)], [(asc "r12", none)], [(asc "sp", none)], [(asc "lr", none)], [(asc "pc", none)], [(asc
  "xpsr", some 25)], [], [], [(asc "msp", some 26)], [(asc "psp", some 27)], []] := by
  unfold plainLines
  repeat (refine .cons (numLine rfl (by decide +kernel) (by decide +kernel)) ?_)
  exact .nil

theorem floatLines_number : List.Forall₂ NumLine floatLines
  [[], [(asc "d0", none)], [(asc "d1", none)], [(asc "d2", none)], [(asc "d3", none)], [(asc "d4", none)], [(asc "d5",
  none)], [(asc "d6", none)], [(asc "d7", none)], [(asc "d8", none)], [(asc "d9", none)], [(asc "d10", none)], [(asc
  "d11", none)], [(asc "d12", none)], [(asc "d13", none)], [(asc "d14", none)], [(asc "d15", none)], [(asc "fpscr",
  none)], []] := by
  unfold floatLines
  repeat (refine .cons (numLine rfl (by decide +kernel) (by decide +kernel)) ?_)
  exact .nil

theorem lastLine_numbers : List.Forall₂ NumLine ["</target>"] [[]] :=
  .cons (numLine rfl (by decide +kernel) (by decide +kernel)) .nil

theorem numLines_append {as bs as' bs'} (h : List.Forall₂ NumLine as bs) (h' : List.Forall₂ NumLine as' bs') :
    List.Forall₂ NumLine (as ++ as') (bs ++ bs') := by
  induction h with
  | nil => exact h'
  | cons hr _ ih => exact .cons hr ih

theorem regnums_of_lines {ls : List String} {rs : List (List (Str × Option Nat))} (h : List.Forall₂ NumLine ls rs) :
    regnums (joinLines (ls.map asc)) = rs.flatten := by
  rw [regnums_lines]
  · induction h with
    | nil => rfl
    | cons hr _ ih => rw [List.map_cons, List.flatMap_cons, List.flatten_cons, hr.2, ih]
  · intro l hl
    induction h with
    | nil => simp at hl
    | cons hr _ ih =>
      rcases List.mem_cons.1 hl with rfl | hl
      · exact hr.1
      · exact ih hl

/-- The numbers that GDB gives to the registers. -/
def registerNumbers (float : Bool) : List Nat := List.range 16 ++ [25, 26, 27] ++ if float then (List.range 17).map (28 + ·) else []

theorem numbered_xml {p : Plat} : ∃ xml, getTargetXml p = .ok xml p ∧
    numbered xml = (registerNames (hasFloat p.ctx.flags)).zip (registerNumbers (hasFloat p.ctx.flags)) := by
  unfold getTargetXml
  simp only [M.bind_apply, M.get_apply, hasFPU_eq]
  by_cases hf : hasFloat p.ctx.flags = true
  · simp only [hf, if_true]
    refine ⟨targetFpuXML, rfl, ?_⟩
    show number 0 (regnums targetFpuXML) = _
    rw [targetFpuXML_lines, regnums_of_lines (numLines_append plainLines_number (numLines_append floatLines_number lastLine_numbers))]
    rfl
  · simp only [hf, Bool.false_eq_true, if_false]
    refine ⟨targetXML, rfl, ?_⟩
    show number 0 (regnums targetXML) = _
    rw [targetXML_lines, regnums_of_lines (numLines_append plainLines_number lastLine_numbers)]
    rfl

theorem split_lines (ls : List Str) (h : ∀ l ∈ ls, (0x0A : U8) ∉ l) : (joinLines ls).splitOn 0x0A = ls ++ [[]] := by
  induction ls with
  | nil => decide +kernel
  | cons l ls ih =>
    rw [joinLines, List.flatMap_cons, List.append_assoc, List.singleton_append, List.splitOn_append_cons_self,
      List.splitOn_eq_singleton (h l (by simp)), List.cons_append, List.nil_append, List.cons_append]
    congr 1
    exact ih fun l hl => h l (by simp [hl])

theorem xmlLine_bytes (l : Str) : xmlLine l =
    ⟨(quoted [0x3C, 0x66, 0x65, 0x61, 0x74, 0x75, 0x72, 0x65, 0x20, 0x6E, 0x61, 0x6D, 0x65, 0x3D, 0x22] 0x22 l).head?,
     (quoted [0x3C, 0x72, 0x65, 0x67] 0x3E l).map fun e =>
       ((quoted [0x20, 0x6E, 0x61, 0x6D, 0x65, 0x3D, 0x22] 0x22 e).flatten, (quoted [0x20, 0x74, 0x79, 0x70, 0x65, 0x3D, 0x22] 0x22 e).head?),
     !(quoted [0x3C, 0x2F, 0x66, 0x65, 0x61, 0x74, 0x75, 0x72, 0x65] 0x3E l).isEmpty⟩ := by
  unfold xmlLine
  rw [show asc "<feature name=\"" = [0x3C, 0x66, 0x65, 0x61, 0x74, 0x75, 0x72, 0x65, 0x20, 0x6E, 0x61, 0x6D, 0x65, 0x3D, 0x22] by decide +kernel,
    show asc "<reg" = [0x3C, 0x72, 0x65, 0x67] by decide +kernel,
    show asc " name=\"" = [0x20, 0x6E, 0x61, 0x6D, 0x65, 0x3D, 0x22] by decide +kernel,
    show asc " type=\"" = [0x20, 0x74, 0x79, 0x70, 0x65, 0x3D, 0x22] by decide +kernel,
    show asc "</feature" = [0x3C, 0x2F, 0x66, 0x65, 0x61, 0x74, 0x75, 0x72, 0x65] by decide +kernel]

/-- What a line says. -/
def SaysLine (s : String) (r : XmlLine) : Prop := (0x0A : U8) ∉ asc s ∧ xmlLine (asc s) = r

theorem saysLine {s : String} {l : List Char} {r : XmlLine} (h : s = String.ofList l)
    (h1 : (0x0A : U8) ∉ l.map (fun c => BitVec.ofNat 8 c.toNat))
    (h2 : (⟨(quoted [0x3C, 0x66, 0x65, 0x61, 0x74, 0x75, 0x72, 0x65, 0x20, 0x6E, 0x61, 0x6D, 0x65, 0x3D, 0x22] 0x22 (l.map (fun c => BitVec.ofNat 8 c.toNat))).head?,
     (quoted [0x3C, 0x72, 0x65, 0x67] 0x3E (l.map (fun c => BitVec.ofNat 8 c.toNat))).map fun e =>
       ((quoted [0x20, 0x6E, 0x61, 0x6D, 0x65, 0x3D, 0x22] 0x22 e).flatten, (quoted [0x20, 0x74, 0x79, 0x70, 0x65, 0x3D, 0x22] 0x22 e).head?),
     !(quoted [0x3C, 0x2F, 0x66, 0x65, 0x61, 0x74, 0x75, 0x72, 0x65] 0x3E (l.map (fun c => BitVec.ofNat 8 c.toNat))).isEmpty⟩ : XmlLine) = r) : SaysLine s r := by
  subst h
  unfold SaysLine
  rw [asc_ofList, xmlLine_bytes]
  exact ⟨h1, h2⟩

theorem plainLines_say : List.Forall₂ SaysLine plainLines
  [{}, {}, {}, { begins := some (asc "org.gnu.gdb.arm.m-profile") }, { regs := [(asc "r0", none)] }, { regs := [(asc
  "r1", none)] }, { regs := [(asc "r2", none)] }, { regs := [(asc "r3", none)] }, { regs := [(asc "r4", none)] }, { regs
  := [(asc "r5", none)] }, { regs := [(asc "r6", none)] }, { regs := [(asc "r7", none)] }, { regs := [(asc "r8", none)]
  }, { regs := [(asc "r9", none)] }, { regs := [(asc "r10", none)] }, { regs := [(asc "r11", none)] }, { regs := [(asc
  "r12", none)] }, { regs := [(asc "sp", some (asc "data_ptr"))] }, { regs := [(asc "lr", none)] }, { regs := [(asc
  "pc", some (asc "code_ptr"))] }, { regs := [(asc "xpsr", none)] }, { ends := true }, { begins := some (asc
  "org.gnu.gdb.arm.m-system") }, { regs := [(asc "msp", none)] }, { regs := [(asc "psp", none)] }, { ends := true }] := by
  unfold plainLines
  repeat (refine .cons (saysLine rfl (by decide +kernel) (by decide +kernel)) ?_)
  exact .nil

theorem floatLines_say : List.Forall₂ SaysLine floatLines
  [{ begins := some (asc "org.gnu.gdb.arm.vfp") }, { regs := [(asc "d0", some (asc "ieee_double"))] }, { regs := [(asc
  "d1", some (asc "ieee_double"))] }, { regs := [(asc "d2", some (asc "ieee_double"))] }, { regs := [(asc "d3", some
  (asc "ieee_double"))] }, { regs := [(asc "d4", some (asc "ieee_double"))] }, { regs := [(asc "d5", some (asc
  "ieee_double"))] }, { regs := [(asc "d6", some (asc "ieee_double"))] }, { regs := [(asc "d7", some (asc
  "ieee_double"))] }, { regs := [(asc "d8", some (asc "ieee_double"))] }, { regs := [(asc "d9", some (asc
  "ieee_double"))] }, { regs := [(asc "d10", some (asc "ieee_double"))] }, { regs := [(asc "d11", some (asc
  "ieee_double"))] }, { regs := [(asc "d12", some (asc "ieee_double"))] }, { regs := [(asc "d13", some (asc
  "ieee_double"))] }, { regs := [(asc "d14", some (asc "ieee_double"))] }, { regs := [(asc "d15", some (asc
  "ieee_double"))] }, { regs := [(asc "fpscr", some (asc "int"))] }, { ends := true }] := by
  unfold floatLines
  repeat (refine .cons (saysLine rfl (by decide +kernel) (by decide +kernel)) ?_)
  exact .nil

theorem lastLine_says : List.Forall₂ SaysLine ["</target>"] [{}] :=
  .cons (saysLine rfl (by decide +kernel) (by decide +kernel)) .nil

theorem saysLines_append {as bs as' bs'} (h : List.Forall₂ SaysLine as bs) (h' : List.Forall₂ SaysLine as' bs') :
    List.Forall₂ SaysLine (as ++ as') (bs ++ bs') := by
  induction h with
  | nil => exact h'
  | cons hr _ ih => exact .cons hr ih

theorem described_of_lines {ls : List String} {rs : List XmlLine} (h : List.Forall₂ SaysLine ls rs) :
    described (joinLines (ls.map asc)) = inFeatures none (rs ++ [({} : XmlLine)]) := by
  unfold described
  rw [split_lines, List.map_append]
  · congr 2
    induction h with
    | nil => rfl
    | cons hr _ ih => rw [List.map_cons, List.map_cons, hr.2, ih]
  · intro l hl
    induction h with
    | nil => simp at hl
    | cons hr _ ih =>
      rcases List.mem_cons.1 hl with rfl | hl
      · exact hr.1
      · exact ih hl

/-- C110. The target description declares each register in the feature in which GDB looks for it, the stack pointer and the program
counter as addresses of data and code, and the floating point registers as double precision numbers. -/
theorem C110_features (p : Plat) : ∃ xml, getTargetXml p = .ok xml p ∧ described xml = wanted (hasFloat p.ctx.flags) := by
  unfold getTargetXml
  simp only [M.bind_apply, M.get_apply, hasFPU_eq]
  by_cases hf : hasFloat p.ctx.flags = true
  · simp only [hf, if_true]
    refine ⟨targetFpuXML, rfl, ?_⟩
    rw [targetFpuXML_lines, described_of_lines (saysLines_append plainLines_say (saysLines_append floatLines_say lastLine_says))]
    rfl
  · simp only [hf, Bool.false_eq_true, if_false]
    refine ⟨targetXML, rfl, ?_⟩
    rw [targetXML_lines, described_of_lines (saysLines_append plainLines_say lastLine_says)]
    rfl

/-- C110. By the target description, GDB expects the registers in a `g` packet in the order in which the packet has them: the
registers are declared in the order of their numbers. r0 to r12, sp, lr and pc have the numbers 0 to 15. -/
theorem C110_packet_order (p : Plat) : ∃ xml, getTargetXml p = .ok xml p ∧
    (numbered xml).map Prod.fst = registerNames (hasFloat p.ctx.flags) ∧ (numbered xml).Pairwise (fun a b => a.2 < b.2) ∧
    ∀ k < 16, ((numbered xml)[k]?).map Prod.snd = some k := by
  obtain ⟨xml, h1, h2⟩ := numbered_xml (p := p)
  refine ⟨xml, h1, ?_⟩
  rw [h2]
  cases hasFloat p.ctx.flags
  · exact ⟨rfl, by rw [← List.pairwise_map (f := Prod.snd) (R := (· < ·))]; decide +kernel, by decide +kernel⟩
  · exact ⟨rfl, by rw [← List.pairwise_map (f := Prod.snd) (R := (· < ·))]; decide +kernel, by decide +kernel⟩

theorem flatMap_range {α β : Type} (l : List α) (f : α → List β) :
    (List.range l.length).flatMap (fun k => (l[k]?).elim [] f) = l.flatMap f := by
  induction l with
  | nil => rfl
  | cons x l ih =>
    rw [List.length_cons, List.range_succ_eq_map, List.flatMap_cons, List.flatMap_map, List.flatMap_cons, ← ih]
    rfl

theorem words_float : ((registerNames true).flatMap fun n => (valueWords.lookup n).getD []) = List.range 52 := by decide +kernel
theorem words_plain : ((registerNames false).flatMap fun n => (valueWords.lookup n).getD []) = List.range 19 := by decide +kernel

theorem packet_words {c : Regs} (hc : RegsWF c) : packetBytes c = (registerNames (hasFloat c.flags)).flatMap (valueBytes c) := by
  unfold packetBytes valueBytes
  rw [← List.flatMap_assoc]
  cases hasFloat c.flags with
  | true =>
    rw [words_float, if_pos rfl, ← List.flatMap_append, ← flatMap_range, List.length_append, hc.1, hc.2]
  | false =>
    rw [words_plain, if_neg (by simp), List.append_nil, ← flatMap_range, hc.1]
    rw [List.flatMap_def, List.flatMap_def]
    refine congrArg List.flatten (List.map_congr_left fun k hk => ?_)
    rw [List.getElem?_append_left (by rw [hc.1]; exact List.mem_range.1 hk)]

/-- C110. The packet with all registers has, for each register of the target description in the order of their numbers, its value. -/
theorem C110_packet {p : Plat} (hp : RegsWF p.ctx) (hroom : p.buf.pos + 2 * (packetBytes p.ctx).length ≤ p.buf.data.length) :
    ∃ xml b, getTargetXml p = .ok xml p ∧ copyContextToBuffer p = .ok () { p with buf := b } ∧
      written b = written p.buf ++ hexOf ((numbered xml).flatMap fun x => valueBytes p.ctx x.1) := by
  obtain ⟨xml, h1, h2, -⟩ := C110_packet_order p
  obtain ⟨b, e, w, -⟩ := C60_sent hroom
  refine ⟨xml, b, h1, e, ?_⟩
  rw [w, packet_words hp, ← h2, List.flatMap_map]

example : RegsWF platDemo.ctx ∧ platDemo.buf.pos + 2 * (packetBytes platDemo.ctx).length ≤ platDemo.buf.data.length ∧
    hasFloat platDemo.ctx.flags = true ∧ (packetBytes platDemo.ctx).length = 208 :=
  ⟨platDemo_regs, by decide +kernel, by decide, by decide +kernel⟩

/-- C110. The stop reply gives GDB, by the numbers of the target description, the values of r12, sp, lr and pc, those that the packet
with all registers has for them. -/
theorem C110_stop_reply {p : Plat} (hp : RegsWF p.ctx) (hroom : p.buf.pos + 48 ≤ p.buf.data.length) :
    ∃ xml b t1 t2 t3 t4, getTargetXml p = .ok xml p ∧ writeTResponseRegisters p = .ok () { p with buf := b } ∧
      written b = written p.buf ++ (t1 ++ (t2 ++ (t3 ++ t4))) ∧
      GivesRegister xml p.ctx (asc "r12") t1 ∧ GivesRegister xml p.ctx (asc "sp") t2 ∧ GivesRegister xml p.ctx (asc "lr") t3 ∧
      GivesRegister xml p.ctx (asc "pc") t4 := by
  obtain ⟨xml, h1, h2⟩ := numbered_xml (p := p)
  have hr : ∀ i : Fin 19, ∃ v, p.ctx.r[i.val]? = some v := fun i => ⟨_, List.getElem?_eq_getElem (by rw [hp.1]; exact i.isLt)⟩
  obtain ⟨r12, g1⟩ := hr 12
  obtain ⟨sp, g2⟩ := hr 13
  obtain ⟨lr, g3⟩ := hr 14
  obtain ⟨pc, g4⟩ := hr 15
  obtain ⟨b, e, w, -⟩ := C61_stop_reply g1 g2 g3 g4 hroom
  have hmem : ∀ (k : Nat) (nm : Str), ((registerNames false).zip (registerNumbers false))[k]? = some (nm, k) → (nm, k) ∈ numbered xml := by
    intro k nm h
    rw [h2]
    have hm := List.mem_of_getElem? h
    cases hasFloat p.ctx.flags with
    | false => exact hm
    | true =>
      have : (registerNames true).zip (registerNumbers true) = (registerNames false).zip (registerNumbers false) ++
          ((registerNames true).drop 19).zip ((registerNumbers true).drop 19) := rfl
      rw [this]
      exact List.mem_append_left _ hm
  have fld : ∀ (n : Nat) (s : String) (v : U32), hexOf [BitVec.ofNat 8 n] = asc s → stopField s v = replyField n v := by
    intro n s v h
    unfold stopField replyField
    rw [h]
  exact ⟨xml, b, _, _, _, _, h1, e, w,
    ⟨12, r12, 12, by omega, hmem 12 _ rfl, rfl, g1, fld 12 _ _ (by decide +kernel)⟩,
    ⟨13, sp, 13, by omega, hmem 13 _ rfl, rfl, g2, fld 13 _ _ (by decide +kernel)⟩,
    ⟨14, lr, 14, by omega, hmem 14 _ rfl, rfl, g3, fld 14 _ _ (by decide +kernel)⟩,
    ⟨15, pc, 15, by omega, hmem 15 _ rfl, rfl, g4, fld 15 _ _ (by decide +kernel)⟩⟩

example : RegsWF platDemo.ctx ∧ platDemo.buf.pos + 48 ≤ platDemo.buf.data.length ∧ hasFloat platDemo.ctx.flags = true :=
  ⟨platDemo_regs, by decide +kernel, by decide⟩

end Verif.Props
