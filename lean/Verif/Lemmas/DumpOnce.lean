import Verif.Lemmas.DumpComplaint
/- A dump can be taken apart in one way only. -/
namespace Verif.Dump
open Verif MemSim Spec

theorem le32_inj {a b : U32} {s t : Str} (h : le32 a ++ s = le32 b ++ t) : a = b ∧ s = t := by
  obtain ⟨h1, h2⟩ := List.append_inj h (by simp)
  refine ⟨?_, h2⟩
  have := congrArg (fun x => BitVec.ofNat 32 (leVal x)) h1
  simpa [leVal_le32] using this

theorem words_inj {xs ys : List U32} {s t : Str} (hl : xs.length = ys.length) (h : xs.flatMap le32 ++ s = ys.flatMap le32 ++ t) :
    xs = ys ∧ s = t := by
  induction xs generalizing ys with
  | nil =>
    cases ys with
    | nil => exact ⟨rfl, h⟩
    | cons y ys => simp at hl
  | cons x xs ih =>
    cases ys with
    | nil => simp at hl
    | cons y ys =>
      rw [List.flatMap_cons, List.flatMap_cons, List.append_assoc, List.append_assoc] at h
      obtain ⟨h1, h2⟩ := le32_inj h
      obtain ⟨h3, h4⟩ := ih (by simpa using hl) h2
      exact ⟨by rw [h1, h3], h4⟩

theorem head_inj {d d' : DumpFile} {s t : Str} (hw : d.WF) (hw' : d'.WF) (h : encodeHead d ++ s = encodeHead d' ++ t) :
    { d with mem := [] } = { d' with mem := [] } ∧ s = t := by
  obtain ⟨v, fl, rs, ps, fp, m⟩ := d
  obtain ⟨v', fl', rs', ps', fp', m'⟩ := d'
  obtain ⟨w1, w2, -⟩ := hw
  obtain ⟨w1', w2', -⟩ := hw'
  simp only at w1 w2 w1' w2'
  unfold encodeHead at h
  simp only [List.append_assoc] at h
  obtain ⟨h1, h0⟩ := List.append_inj h rfl
  clear h
  have hv : v = v' := by
    cases v <;> cases v' <;> first | rfl | (simp at h1)
  subst hv
  obtain ⟨rfl, g1⟩ := le32_inj h0
  obtain ⟨rfl, g2⟩ := words_inj (w1.trans w1'.symm) g1
  obtain ⟨rfl, g3⟩ := le32_inj g2
  obtain ⟨rfl, g4⟩ := words_inj (w2.trans w2'.symm) g3
  exact ⟨rfl, g4⟩

theorem wordOf_le {a : U32} {t : Str} : wordOf (le32 a ++ t) 0 = a := by
  rw [wordOf_zero (by simp), List.take_append_of_le_length (by simp), List.take_of_length_le (by simp), leVal_le32]

theorem wordOf_le4 {a b : U32} {t : Str} : wordOf (le32 a ++ (le32 b ++ t)) 4 = b := by
  rw [wordOf_four (by simp; omega), show (le32 a ++ (le32 b ++ t)).drop 4 = le32 b ++ t by
    rw [List.drop_append_of_le_length (by simp), List.drop_of_length_le (by simp), List.nil_append],
    List.take_append_of_le_length (by simp), List.take_of_length_le (by simp), leVal_le32]

/-- Nothing is wrong where a complete block is. -/
theorem rest_block {r : U32 × List U8} {t : Str} (hl : r.2.length < 2 ^ 32) : restComplaint (encodeBlock r ++ t) = none := by
  have e : encodeBlock r ++ t = le32 r.1 ++ (le32 (r.1 + BitVec.ofNat 32 r.2.length) ++ (r.2 ++ t)) := by
    simp [encodeBlock]
  have hlen : (encodeBlock r ++ t).length = 8 + r.2.length + t.length := by
    rw [e]; simp; omega
  unfold restComplaint
  rw [if_neg (by intro h; rw [h, List.length_nil] at hlen; omega), if_neg (by intro h; rw [h, le32_length] at hlen; omega),
    if_neg (by omega), if_neg]
  rw [e, wordOf_le, wordOf_le4, ← e, sub_len, BitVec.toNat_ofNat, Nat.mod_eq_of_lt hl]
  omega

theorem block_inj {r r' : U32 × List U8} {s t : Str} (hl : r.2.length < 2 ^ 32) (hl' : r'.2.length < 2 ^ 32)
    (h : encodeBlock r ++ s = encodeBlock r' ++ t) : r = r' ∧ s = t := by
  obtain ⟨a, bs⟩ := r
  obtain ⟨a', bs'⟩ := r'
  unfold encodeBlock at h
  simp only [List.append_assoc] at h hl hl'
  obtain ⟨rfl, h0⟩ := le32_inj h
  obtain ⟨h1, h4⟩ := le32_inj h0
  have h2 : BitVec.ofNat 32 bs.length = BitVec.ofNat 32 bs'.length := by
    have := congrArg (fun x => x - a) h1
    simpa [sub_len] using this
  have h3 := congrArg BitVec.toNat h2
  rw [BitVec.toNat_ofNat, BitVec.toNat_ofNat, Nat.mod_eq_of_lt hl, Nat.mod_eq_of_lt hl'] at h3
  obtain ⟨rfl, rfl⟩ := List.append_inj h4 h3
  exact ⟨rfl, rfl⟩

theorem blocks_inj {mem mem' : List (U32 × List U8)} {u u' : Str} (hl : ∀ r ∈ mem, r.2.length < 2 ^ 32)
    (hl' : ∀ r ∈ mem', r.2.length < 2 ^ 32) (hu : u = [] ∨ (restComplaint u).isSome) (hu' : u' = [] ∨ (restComplaint u').isSome)
    (h : mem.flatMap encodeBlock ++ u = mem'.flatMap encodeBlock ++ u') : mem = mem' ∧ u = u' := by
  have key : ∀ {r : U32 × List U8} {t v : Str}, r.2.length < 2 ^ 32 → v = encodeBlock r ++ t → v = [] ∨ (restComplaint v).isSome → False := by
    rintro r t v hr rfl (h | h)
    · have := congrArg List.length h
      unfold encodeBlock at this
      simp at this
    · rw [rest_block hr] at h; cases h
  induction mem generalizing mem' with
  | nil =>
    cases mem' with
    | nil => exact ⟨rfl, h⟩
    | cons r' mem' =>
      rw [List.flatMap_cons, List.append_assoc] at h
      exact (key (hl' r' (by simp)) h hu).elim
  | cons r mem ih =>
    rw [List.flatMap_cons, List.append_assoc] at h
    cases mem' with
    | nil => exact (key (hl r (by simp)) h.symm hu').elim
    | cons r' mem' =>
      rw [List.flatMap_cons, List.append_assoc] at h
      obtain ⟨h1, h2⟩ := block_inj (hl r (by simp)) (hl' r' (by simp)) h
      obtain ⟨h3, h4⟩ := ih (fun q hq => hl q (by simp [hq])) (fun q hq => hl' q (by simp [hq])) h2
      exact ⟨by rw [h1, h3], h4⟩

theorem encode_inj {d d' : DumpFile} {u u' : Str} (hw : d.WF) (hw' : d'.WF) (hu : u = [] ∨ (restComplaint u).isSome)
    (hu' : u' = [] ∨ (restComplaint u').isSome) (h : encode d ++ u = encode d' ++ u') : d = d' ∧ u = u' := by
  unfold encode at h
  rw [List.append_assoc, List.append_assoc] at h
  obtain ⟨h1, h2⟩ := head_inj hw hw' h
  obtain ⟨h3, h4⟩ := blocks_inj hw.mem hw'.mem hu hu' h2
  refine ⟨?_, h4⟩
  obtain ⟨v, fl, rs, ps, fp, m⟩ := d
  obtain ⟨v', fl', rs', ps', fp', m'⟩ := d'
  simp only [DumpFile.mk.injEq] at h1 h3 ⊢
  exact ⟨h1.1, h1.2.1, h1.2.2.1, h1.2.2.2.1, h1.2.2.2.2.1, h3⟩

/-- Nothing is wrong before the blocks of a dump. -/
theorem head_none {d : DumpFile} {t : Str} (hw : d.WF) : headComplaint (encodeHead d ++ t) = none := by
  cases h : headComplaint (encodeHead d ++ t) with
  | none => rfl
  | some m =>
    exfalso
    unfold headComplaint at h
    obtain ⟨v, fl, rs, ps, fp, mem⟩ := d
    obtain ⟨w1, w2, -⟩ := hw
    simp only at w1 w2
    have e : encodeHead ⟨v, fl, rs, ps, fp, mem⟩ ++ t =
        [0x63, 0x43, if v then 2 else 3, 0] ++ (le32 fl ++ (rs.flatMap le32 ++ (le32 ps ++ (fp.flatMap le32 ++ t)))) := by
      unfold encodeHead; simp
    rw [e] at h
    have hf : wordOf ([0x63, 0x43, if v then 2 else 3, 0] ++ (le32 fl ++ (rs.flatMap le32 ++ (le32 ps ++ (fp.flatMap le32 ++ t))))) 4 = fl := by
      rw [wordOf_four (by simp)]
      show BitVec.ofNat 32 (leVal ((le32 fl ++ _).take 4)) = fl
      rw [List.take_append_of_le_length (by simp), List.take_of_length_le (by simp), leVal_le32]
    have hr : registerBytes ([0x63, 0x43, if v then 2 else 3, 0] ++ (le32 fl ++ (rs.flatMap le32 ++ (le32 ps ++ (fp.flatMap le32 ++ t))))) = 4 * rs.length := by
      rw [w1]
      unfold registerBytes
      cases v <;> simp
    have hl : ([0x63, 0x43, if v then 2 else 3, 0] ++ (le32 fl ++ (rs.flatMap le32 ++ (le32 ps ++ (fp.flatMap le32 ++ t))))).length =
        12 + 4 * rs.length + 4 * fp.length + t.length := by
      have e1 : ∀ xs : List U32, (xs.flatMap le32).length = 4 * xs.length := by
        intro xs
        induction xs with
        | nil => rfl
        | cons x xs ih => rw [List.flatMap_cons, List.length_append, ih, le32_length, List.length_cons]; omega
      simp only [List.length_append, le32_length, e1, List.length_cons, List.length_nil]
      omega
    have h4 : ([0x63, 0x43, if v then 2 else 3, 0] ++ (le32 fl ++ (rs.flatMap le32 ++ (le32 ps ++ (fp.flatMap le32 ++ t))))).take 4 =
        [0x63, 0x43, if v then 2 else 3, 0] := rfl
    rw [hf, hr, hl, h4, if_neg (by omega), if_neg (by cases v <;> simp), if_neg (by omega), if_neg (by omega), if_neg (by omega), if_neg] at h
    · cases h
    · rintro ⟨g1, g2⟩
      rw [if_pos g1] at w2
      omega

end Verif.Dump
