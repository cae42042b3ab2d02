import Verif.Lemmas.OrderPacket
import Verif.Props.MemAccess
import Verif.Props.Elf
import Verif.Props.Platform
/- C122: the byte order of the host. -/
namespace Verif.Props
open Verif MemSim Spec Order Platform

/-- C122, little-endian hosts: the accesses are those of the other properties. -/
theorem C122_little (w : Width) (a : U32) (v : BitVec w.bits) :
    IMemory.readO false w a = IMemory.read w a ∧ IMemory.writeO false w a v = IMemory.write w a v :=
  ⟨read_little w a, write_little w a v⟩

/-- C122, hosts with the most significant byte first: a read ends in the same way, in the same state, but its value has the
bytes in the opposite order. -/
theorem C122_big_read (w : Width) (a : U32) (s : Sim) : ReversedEnd (IMemory.read w a s) (IMemory.readO true w a s) := read_big w a s

/-- C122, hosts with the most significant byte first: a write does what writing the value with its bytes in the opposite order
does elsewhere. In particular it is refused in the same cases and changes no other bytes. -/
theorem C122_big_write (w : Width) (a : U32) (v : BitVec w.bits) : ∃ v', Reversed v v' ∧ IMemory.writeO true w a v = IMemory.write w a v' :=
  ⟨swap v, swap_reversed v, write_big (swap_reversed v)⟩

/-- C122. Loading an image into memory stores the same bytes on every host. -/
theorem C122_image (big : Bool) (a : U32) (image : Str) (n : U32) : loadFromFlashImageO big a image n = loadFromFlashImage a image n :=
  load_order big image n.toNat a

theorem reversed_byte {v v' : BitVec Width.w8.bits} (h : Reversed (w := .w8) v v') : v' = v :=
  eq_of_bytes (w := .w8) fun i hi => by
    have : i = 0 := by have : Width.w8.bytes = 1 := rfl; omega
    subst this
    exact h 0 hi

/-- C122. Accesses to single bytes do not depend on the byte order of the host.

Missing: accesses to 16 and 32 bits. For these the property does not hold, see `C122_palindromes` and `C122_witness`. -/
theorem C122_bytes_partial (big : Bool) (a : U32) (v : U8) :
    IMemory.readO big .w8 a = IMemory.read .w8 a ∧ IMemory.writeO big .w8 a v = IMemory.write .w8 a v := by
  cases big with
  | false => exact C122_little .w8 a v
  | true =>
    refine ⟨funext fun s => ?_, ?_⟩
    · have h := read_big .w8 a s
      revert h
      cases IMemory.read .w8 a s with
      | ok x t =>
        cases IMemory.readO true .w8 a s with
        | ok y u => rintro ⟨h1, rfl⟩; rw [reversed_byte h1]
        | throw _ _ => exact False.elim
        | ub _ => exact False.elim
      | throw e t =>
        cases IMemory.readO true .w8 a s with
        | ok y u => exact False.elim
        | throw _ _ => rintro ⟨rfl, rfl⟩; rfl
        | ub _ => exact False.elim
      | ub r =>
        cases IMemory.readO true .w8 a s with
        | ok y u => exact False.elim
        | throw _ _ => exact False.elim
        | ub _ => intro h; rw [show _ = r from h]
    · have h := swap_reversed (w := .w8) v
      rw [write_big h, reversed_byte h]

/-- C122. On every host, what is written is what a read of the same width returns (or a breakpoint is hit). -/
theorem C122_read_back {big : Bool} {s s' : Sim} {w : Width} {a : U32} {v : BitVec w.bits} (hs : Sound s)
    (hw : IMemory.writeO big w a v s = .ok () s') (hroom : HitRoom s') :
    (∃ s'', IMemory.readO big w a s' = .ok v s'') ∨ (w = .w16 ∧ ∃ s'', IMemory.readO big w a s' = .throw ⟨.hardwareBreakpoint, []⟩ s'') := by
  cases big with
  | false =>
    rw [write_little] at hw
    rw [read_little]
    rcases C01_read_returns_written hs hw hroom with h | ⟨h1, h2, -⟩
    · exact .inl h
    · exact .inr ⟨h1, h2⟩
  | true =>
    rw [write_big (swap_reversed v)] at hw
    have hr := read_big w a s'
    rcases C01_read_returns_written hs hw hroom with ⟨t, h⟩ | ⟨h1, ⟨t, h⟩, -⟩
    · rw [h] at hr
      cases e : IMemory.readO true w a s' with
      | ok y u =>
        rw [e] at hr
        refine .inl ⟨u, ?_⟩
        rw [reversed_unique hr.1 (reversed_symm (swap_reversed v))]
      | throw _ _ => rw [e] at hr; exact hr.elim
      | ub _ => rw [e] at hr; exact hr.elim
    · rw [h] at hr
      cases e : IMemory.readO true w a s' with
      | ok y u => rw [e] at hr; exact hr.elim
      | throw _ u => rw [e] at hr; obtain ⟨rfl, -⟩ := hr; exact .inr ⟨h1, u, rfl⟩
      | ub _ => rw [e] at hr; exact hr.elim

/-- C122 is violated: on a host with the most significant byte first, the right value is read only if it is the same
backwards. -/
theorem C122_palindromes {w : Width} {a : U32} {s t : Sim} {v : BitVec w.bits} (h : IMemory.read w a s = .ok v t)
    (hb : ∃ u, IMemory.readO true w a s = .ok v u) : ∀ i < w.bytes, byteOf v i = byteOf v (w.bytes - 1 - i) := by
  obtain ⟨u, hb⟩ := hb
  have hr := read_big w a s
  rw [h, hb] at hr
  exact hr.1

/-- C122 is violated: every ELF header that a little-endian host accepts is refused on the others. -/
theorem C122_elf {hdr : Str} {s t : Sim} (h : Elf.validateElfHeaderContents hdr s = .ok () t) :
    Elf.validateElfHeaderO false hdr s = .ok () t ∧
    Elf.validateElfHeaderO true hdr s = .throw ⟨.elfFormat, asc "ELF header doesn't contain executable flag."⟩ s :=
  ⟨by rw [elf_little]; exact h, elf_big h⟩

/-- The hypothesis of `C122_elf` is met by the header of a file with two segments. -/
example : ∃ t, Elf.validateElfHeaderContents elfExample demo = .ok () t := by
  cases h : Elf.validateElfHeaderContents elfExample demo with
  | ok u t => exact ⟨t, rfl⟩
  | throw e t =>
    have k : (match Elf.validateElfHeaderContents elfExample demo with | .ok _ _ => true | _ => false) = true := by decide +kernel
    rw [h] at k; cases k
  | ub r =>
    have k : (match Elf.validateElfHeaderContents elfExample demo with | .ok _ _ => true | _ => false) = true := by decide +kernel
    rw [h] at k; cases k

/-- C122 is violated: on hosts with the most significant byte first, the register packet and the stop reply are those of a
program whose registers have their bytes in the opposite order. On other hosts they are those of the other properties. -/
theorem C122_packets {p : Plat} {c' : Regs} (h : RegsReversed p.ctx c') :
    SamePacket p.ctx c' (copyContextToBufferO true p) (copyContextToBuffer { p with ctx := c' }) ∧
    SamePacket p.ctx c' (writeTResponseRegistersO true p) (writeTResponseRegisters { p with ctx := c' }) ∧
    copyContextToBufferO false = copyContextToBuffer ∧ writeTResponseRegistersO false = writeTResponseRegisters :=
  ⟨(copyTo_big h).same rfl, (writeT_big h).same rfl, copyTo_little, writeT_little⟩

/-- C122 is violated: likewise, registers set by GDB are stored with their bytes in the opposite order on these hosts. -/
theorem C122_packets_set {p p' : Plat} (h : SessionReversed p p') :
    EndsReversed (copyContextFromBufferO true p) (copyContextFromBuffer p') ∧ copyContextFromBufferO false = copyContextFromBuffer :=
  ⟨copyFrom_big h, copyFrom_little⟩

/-- C122. On every host, GDB gets the registers it has set: if a packet with the text of the registers `c` is received, then the
registers are sent with the bytes of `c`, in target byte order. -/
theorem C122_set_and_sent (big : Bool) {p : Plat} {c : Regs} {t u : Str} {b : Buf} (hp : RegsWF p.ctx) (hc : RegsWF c)
    (hf : hasFloat c.flags = hasFloat p.ctx.flags) (hb : remaining p.buf = t ++ u) (ht : HexPairs t (packetBytes c))
    (hroom : b.pos + 2 * (packetBytes c).length ≤ b.data.length) :
    ∃ q b', copyContextFromBufferO big p = .ok () q ∧ copyContextToBufferO big { q with buf := b } = .ok () { q with buf := b' } ∧
      written b' = written b ++ hexOf (packetBytes c) := by
  have same : ∀ x : Regs, hasFloat c.flags = hasFloat x.flags →
      packetBytes { x with r := c.r, fpr := if hasFloat x.flags then c.fpr else x.fpr } = packetBytes c := by
    intro x hx
    unfold packetBytes
    simp only [hx]
    split
    · rfl
    · rfl
  cases big with
  | false =>
    rw [copyFrom_little, copyTo_little]
    have h1 := C60_received hp hc hf hb ht
    obtain ⟨b', h2, h3, -⟩ := C60_sent (p := { p with ctx := { p.ctx with r := c.r, fpr := if hasFloat p.ctx.flags then c.fpr else p.ctx.fpr }, buf := b })
      (by rw [same _ hf]; exact hroom)
    refine ⟨_, b', h1, h2, ?_⟩
    rw [h3, same _ hf]
  | true =>
    have hr : RegsReversed p.ctx { p.ctx with r := p.ctx.r.map (swap (w := .w32)), fpr := p.ctx.fpr.map (swap (w := .w32)) } :=
      ⟨swap_all _, swap_all _, rfl⟩
    generalize hx : ({ p.ctx with r := p.ctx.r.map (swap (w := .w32)), fpr := p.ctx.fpr.map (swap (w := .w32)) } : Regs) = x at hr
    have hw : RegsWF x := by subst hx; exact ⟨(List.length_map _).trans hp.1, (List.length_map _).trans hp.2⟩
    have hfx : hasFloat c.flags = hasFloat x.flags := by rw [hr.flags]; exact hf
    have h1 := C60_received (p := { p with ctx := x }) hw hc hfx hb ht
    have h2 := copyFrom_big (p := p) ⟨x, rfl, hr⟩
    rw [h1] at h2
    cases e : copyContextFromBufferO true p with
    | throw _ _ => rw [e] at h2; exact h2.elim
    | ub _ => rw [e] at h2; exact h2.elim
    | ok v q =>
      rw [e] at h2
      obtain ⟨y, hy, hq⟩ := h2
      have hyc : y = { x with r := c.r, fpr := if hasFloat x.flags then c.fpr else x.fpr } := (congrArg Plat.ctx hy).symm
      have hby : packetBytes y = packetBytes c := by rw [hyc]; exact same _ hfx
      obtain ⟨b', h3, h4, -⟩ := C60_sent (p := { q with buf := b, ctx := y }) (by rw [hby]; exact hroom)
      rcases copyTo_big hq { q with buf := b } rfl with ⟨w, z, e1, e2, hz⟩ | ⟨w, z, e1, e2, hz⟩ | ⟨w, e1, e2⟩
      · rw [h3] at e2
        have ez : z = { q with buf := b' } := by
          have := (Out.ok.inj e2).2
          cases z; cases q
          simp only [Plat.mk.injEq] at this hz ⊢
          obtain ⟨a1, -, a3, a4, a5, a6, a7, a8⟩ := this
          exact ⟨a1.symm, hz, a3.symm, a4.symm, a5.symm, a6.symm, a7.symm, a8.symm⟩
        refine ⟨q, b', rfl, ?_, ?_⟩
        · rw [e1, ez]
        · rw [h4, hby]
      · rw [h3] at e2; cases e2
      · rw [h3] at e2; cases e2

/-- The hypotheses of `C122_set_and_sent` are met: the registers of `platDemo` (with floating point) are set and fit into the buffer. -/
example : ∃ t u, RegsWF platDemo.ctx ∧ hasFloat platDemo.ctx.flags = true ∧ remaining ({ data := t ++ u } : Buf) = t ++ u ∧
    HexPairs t (packetBytes platDemo.ctx) ∧ platDemo.buf.pos + 2 * (packetBytes platDemo.ctx).length ≤ platDemo.buf.data.length :=
  ⟨_, asc "#00", platDemo_regs, by decide, rfl, hexPairs_hexOf _, by decide +kernel⟩

/-- All registers have a counterpart with the bytes in the opposite order; that of 0x08000101 is 0x01010008. -/
example (c : Regs) : ∃ c', RegsReversed c c' := ⟨{ c with r := _, fpr := _ }, swap_all c.r, swap_all c.fpr, rfl⟩
example (p : Plat) : ∃ p', SessionReversed p p' := ⟨_, { p.ctx with r := _, fpr := _ }, rfl, swap_all p.ctx.r, swap_all p.ctx.fpr, rfl⟩
example : Reversed (w := .w32) (0x08000101 : U32) (0x01010008 : U32) := by
  intro i hi
  have : i = 0 ∨ i = 1 ∨ i = 2 ∨ i = 3 := by have : Width.w32.bytes = 4 := rfl; omega
  rcases this with rfl | rfl | rfl | rfl <;> decide

/-- For evaluating in the kernel. -/
def readsAs (o : Out Sim U32) (v : U32) : Bool := match o with
  | .ok x _ => x == v
  | _ => false

theorem readsAs_iff {o : Out Sim U32} {v : U32} (h : readsAs o v = true) : ∃ s, o = .ok v s := by
  cases o with
  | ok x s => exact ⟨s, by rw [eq_of_beq h]⟩
  | throw e s => cases h
  | ub r => cases h

/-- C122 is violated: the bytes BE BA FE CA are the word 0xCAFEBABE of the crashed program, but are read as 0xBEBAFECA. -/
theorem C122_witness : Sound demo ∧ (∃ t, IMemory.read .w32 0x20000004 demo = .ok (0xCAFEBABE : U32) t) ∧
    ∃ t, IMemory.readO true .w32 0x20000004 demo = .ok (0xBEBAFECA : U32) t :=
  ⟨demo_sound, readsAs_iff (by decide +kernel), readsAs_iff (by decide +kernel)⟩

/-- The hypotheses of `C122_read_back` are met on both kinds of host. -/
example (big : Bool) : ∃ s', Sound demo ∧ IMemory.writeO big .w32 0x20000004 (0x01020304 : U32) demo = .ok () s' ∧ HitRoom s' := by
  cases big
  · exact ⟨_, demo_sound, rfl, by decide⟩
  · exact ⟨_, demo_sound, rfl, by decide⟩

/-- The hypotheses of `C122_palindromes` are met: a word of zeros. -/
example : ∃ t u, IMemory.read .w32 0x20000008 demo = .ok (0 : U32) t ∧ IMemory.readO true .w32 0x20000008 demo = .ok (0 : U32) u := by
  obtain ⟨t, h⟩ := readsAs_iff (o := IMemory.read .w32 0x20000008 demo) (v := 0) (by decide +kernel)
  obtain ⟨u, k⟩ := readsAs_iff (o := IMemory.readO true .w32 0x20000008 demo) (v := 0) (by decide +kernel)
  exact ⟨t, u, h, k⟩

end Verif.Props
