import Verif.Props.ConsoleMock
import Verif.Props.PrintfSpy
/-
C100: the channel that the tests use.
-/
namespace Verif.Props
open Verif Spec Doubles

/-! ### Checksums -/

/-- What `copyChecksummedData` writes before the NUL. -/
def sums : Str → U8 → Str
  | [], _ => []
  | c :: cs, sum =>
    if c = 0x24#8 then c :: sums cs 0#8
    else if c = 0x23#8 then c :: nibbleToHexChar ((sum >>> 4) &&& 0xF#8) :: nibbleToHexChar (sum &&& 0xF#8) :: sums cs sum
    else c :: sums cs (sum + c)

theorem sums_cons (c : U8) (cs : Str) (sum : U8) : sums (c :: cs) sum =
    if c = 0x24#8 then c :: sums cs 0#8
    else if c = 0x23#8 then c :: nibbleToHexChar ((sum >>> 4) &&& 0xF#8) :: nibbleToHexChar (sum &&& 0xF#8) :: sums cs sum
    else c :: sums cs (sum + c) := rfl

theorem sums_length (d : Str) (sum : U8) : (sums d sum).length = d.length + 2 * d.countP (· = 0x23#8) := by
  induction d generalizing sum with
  | nil => rfl
  | cons c cs ih =>
    unfold sums
    by_cases h1 : c = 0x24#8
    · subst h1; rw [if_pos rfl]; simp [ih]; omega
    · rw [if_neg h1]
      by_cases h2 : c = 0x23#8
      · subst h2; rw [if_pos rfl]; simp [ih]; omega
      · rw [if_neg h2]; simp [ih, h2]; omega

theorem putIn_ok {len : Nat} {c : U8} {out : Str} (h : out.length < len) : putIn len c out = .ok () (out ++ [c]) := if_pos h

theorem copy_ok {len : Nat} (d : Str) (sum : U8) (out : Str) (h : out.length + (sums (cString d) sum).length + 1 ≤ len) :
    copyChecksummedData len d sum out = .ok () (out ++ sums (cString d) sum ++ [0#8]) := by
  induction d generalizing sum out with
  | nil =>
    simp only [cString, List.takeWhile_nil, sums, List.length_nil, List.append_nil] at h ⊢
    exact putIn_ok (by omega)
  | cons c cs ih =>
    unfold copyChecksummedData
    by_cases h0 : c = 0#8
    · subst h0
      rw [if_pos rfl]
      simp only [cString, ne_eq, not_true_eq_false, decide_false, List.takeWhile_cons, Bool.false_eq_true, if_false, sums, List.length_nil, List.append_nil] at h ⊢
      exact putIn_ok (by omega)
    · rw [if_neg h0]
      have hc : cString (c :: cs) = c :: cString cs := by simp [cString, List.takeWhile_cons, h0]
      rw [hc] at h ⊢
      unfold sums at h ⊢
      by_cases h1 : c = 0x24#8
      · rw [if_pos h1] at h ⊢
        simp only [List.length_cons] at h
        rw [M.bind_ok (putIn_ok (by omega)), if_pos h1, ih 0#8 (out ++ [c]) (by simp only [List.length_append, List.length_cons, List.length_nil]; omega)]
        simp
      · rw [if_neg h1] at h ⊢
        by_cases h2 : c = 0x23#8
        · rw [if_pos h2] at h ⊢
          simp only [List.length_cons] at h
          rw [M.bind_ok (putIn_ok (by omega)), if_neg h1, if_pos h2,
            M.bind_ok (putIn_ok (by simp only [List.length_append, List.length_cons, List.length_nil]; omega)),
            M.bind_ok (putIn_ok (by simp only [List.length_append, List.length_cons, List.length_nil]; omega)),
            ih sum _ (by simp only [List.length_append, List.length_cons, List.length_nil]; omega)]
          simp
        · rw [if_neg h2] at h ⊢
          simp only [List.length_cons] at h
          rw [M.bind_ok (putIn_ok (by omega)), if_neg h1, if_neg h2, ih (sum + c) (out ++ [c]) (by simp only [List.length_append, List.length_cons, List.length_nil]; omega)]
          simp

theorem packetSum_snoc (p : Str) (c : U8) :
    packetSum (p ++ [c]) = if c = 0x24#8 then 0#8 else if c = 0x23#8 then packetSum p else packetSum p + c := by
  unfold packetSum
  rw [List.reverse_append]
  by_cases h1 : c = 0x24#8
  · simp [h1]
  · by_cases h2 : c = 0x23#8
    · simp [h2]
    · simp [h1, h2, BitVec.add_comm]

/-- What `withSums` makes of a character that comes after `p`. -/
def chunk (p : Str) (c : U8) : Str :=
  if c = 0x23#8 then [c, sumDigit ((packetSum p).toNat / 16), sumDigit ((packetSum p).toNat % 16)] else [c]

theorem withSums_snoc (p : Str) (c : U8) : withSums (p ++ [c]) = withSums p ++ chunk p c := by
  unfold withSums
  rw [List.length_append, List.length_singleton, List.range_succ, List.flatMap_append]
  congr 1
  · unfold List.flatMap
    congr 1
    apply List.map_congr_left
    intro i hi
    have hi := List.mem_range.1 hi
    simp only [List.getElem?_append_left hi, List.take_append_of_le_length (Nat.le_of_lt hi)]
  · simp [chunk]

theorem hex_digits : ∀ x : U8, nibbleToHexChar ((x >>> 4) &&& 0xF#8) = sumDigit (x.toNat / 16) ∧ nibbleToHexChar (x &&& 0xF#8) = sumDigit (x.toNat % 16) ∧
    sumDigit (x.toNat / 16) ≠ 0#8 ∧ sumDigit (x.toNat % 16) ≠ 0#8 := by decide +kernel

theorem sums_withSums (p d : Str) : withSums p ++ sums d (packetSum p) = withSums (p ++ d) := by
  induction d generalizing p with
  | nil => simp [sums]
  | cons c cs ih =>
    have := ih (p ++ [c])
    rw [List.append_assoc, List.singleton_append] at this
    rw [← this, withSums_snoc, packetSum_snoc]
    rw [sums_cons]
    unfold chunk
    obtain ⟨e1, e2, -, -⟩ := hex_digits (packetSum p)
    by_cases h1 : c = 0x24#8
    · subst h1; simp
    · by_cases h2 : c = 0x23#8
      · subst h2; simp only [if_true, if_neg h1, e1, e2, List.append_assoc, List.cons_append, List.nil_append]
      · simp [h1, h2]

theorem sums_eq (d : Str) : sums d 0 = withSums d := by
  have := sums_withSums [] d
  simpa [withSums, packetSum] using this

theorem sums_noNul (d : Str) (sum : U8) (h : 0#8 ∉ d) : 0#8 ∉ sums d sum := by
  induction d generalizing sum with
  | nil => exact h
  | cons c cs ih =>
    have h1 : 0#8 ≠ c := fun e => h (e ▸ List.mem_cons_self)
    have h2 : ∀ x, 0#8 ∉ sums cs x := fun x => ih x fun e => h (List.mem_cons_of_mem _ e)
    obtain ⟨e1, e2, e3, e4⟩ := hex_digits sum
    rw [sums_cons]
    split
    · simp only [List.mem_cons, not_or]; exact ⟨h1, h2 _⟩
    · split
      · simp only [List.mem_cons, not_or, e1, e2]; exact ⟨h1, e3.symm, e4.symm, h2 _⟩
      · simp only [List.mem_cons, not_or]; exact ⟨h1, h2 _⟩

theorem cString_noNul (d : Str) : 0#8 ∉ cString d := by
  intro h
  have : ∀ l : Str, 0#8 ∉ l.takeWhile (· ≠ 0#8) := by
    intro l
    induction l with
    | nil => simp
    | cons c cs ih =>
      by_cases hc : c = 0#8
      · simp [List.takeWhile_cons, hc]
      · rw [List.takeWhile_cons_of_pos (by simpa using hc)]
        simp only [List.mem_cons, not_or]
        exact ⟨fun e => hc e.symm, ih⟩
  exact this d h

theorem cString_of_noNul {d : Str} (h : 0#8 ∉ d) (e : Str) : cString (d ++ 0#8 :: e) = d := by
  unfold cString
  rw [List.takeWhile_append_of_pos (by intro x hx; simp; rintro rfl; exact h hx)]
  simp

theorem allocate_ok (d : Str) (s : Chan) :
    allocateAndCopyChecksummedData d s = .ok (withSums (cString d) ++ [0#8]) { s with live := s.live + 1 } := by
  unfold allocateAndCopyChecksummedData
  have := copy_ok (len := (d.takeWhile (· ≠ 0#8)).length + 2 * countPoundSigns d + 1) d 0 [] (by
    rw [sums_length]; simp [cString, countPoundSigns])
  simp only [this, sums_eq, List.nil_append]

theorem checksumData_ok (d : Str) (s : Chan) :
    checksumData d s = .ok (withSums (cString d) ++ [0#8]) { s with allocSum := true, live := s.live + if s.allocSum then 0 else 1 } := by
  unfold checksumData
  simp only [M.bind_apply, M.modify_apply, allocate_ok, M.pure_apply, freed]
  cases h : s.allocSum <;> simp

/-- C100. The text with its checksums: after each `#` two hexadecimal digits are put, and it fits the block allocated for it
exactly. -/
theorem C100_checksums (d : Str) (s : Chan) : ∃ t, checksumData d s = .ok (withSums (cString d) ++ [0#8]) t ∧
    (withSums (cString d) ++ [0#8]).length = (cString d).length + 2 * (cString d).countP (· = 0x23#8) + 1 := by
  refine ⟨_, checksumData_ok d s, ?_⟩
  rw [List.length_append, ← sums_eq, sums_length]; rfl

theorem sums_packet (body : Str) (x : U8) (h : ∀ c ∈ body, c ≠ 0x24#8 ∧ c ≠ 0x23#8) :
    sums (body ++ [0x23#8]) x = body ++ [0x23#8, sumDigit ((x.toNat + (body.map BitVec.toNat).sum) % 256 / 16),
      sumDigit ((x.toNat + (body.map BitVec.toNat).sum) % 16)] := by
  induction body generalizing x with
  | nil =>
    obtain ⟨e1, e2, -, -⟩ := hex_digits x
    have := x.isLt
    simp only [List.nil_append, sums_cons, List.map_nil, List.sum_nil, Nat.add_zero, e1, e2, if_true, Nat.mod_eq_of_lt this]
    rfl
  | cons c cs ih =>
    obtain ⟨h1, h2⟩ := h c List.mem_cons_self
    rw [List.cons_append, sums_cons, if_neg h1, if_neg h2, ih _ (fun c hc => h c (List.mem_cons_of_mem _ hc)), BitVec.toNat_add]
    have e1 : ((x.toNat + c.toNat) % 2 ^ 8 + (cs.map BitVec.toNat).sum) % 256 = (x.toNat + ((c :: cs).map BitVec.toNat).sum) % 256 := by
      simp only [List.map_cons, List.sum_cons]; omega
    have e2 : ((x.toNat + c.toNat) % 2 ^ 8 + (cs.map BitVec.toNat).sum) % 16 = (x.toNat + ((c :: cs).map BitVec.toNat).sum) % 16 := by
      simp only [List.map_cons, List.sum_cons]; omega
    rw [e1, e2]; rfl

/-- C100. A packet gets the checksum of the protocol: the sum of what is between `$` and `#`, modulo 256, in two digits. -/
theorem C100_packet_checksum (body : Str) (h : ∀ c ∈ body, c ≠ 0x24#8 ∧ c ≠ 0x23#8) :
    withSums (0x24#8 :: body ++ [0x23#8]) =
      0x24#8 :: body ++ [0x23#8, sumDigit ((body.map BitVec.toNat).sum % 256 / 16), sumDigit ((body.map BitVec.toNat).sum % 16)] := by
  rw [← sums_eq, List.cons_append, sums_cons, if_pos rfl, sums_packet _ _ h]
  simp

/-! ### What is received -/

/-- What is still to be received. -/
def leftOf (s : Chan) : Str := if s.index = 0 then s.buf0 ++ s.buf1 else if s.index = 1 then s.buf1 else []

theorem hasData_step (s : Chan) : ∃ b t, chanHasData s = .ok b t ∧ leftOf t = leftOf s ∧
    (b = true → t = s ∧ s.index < 2 ∧ s.buf s.index ≠ []) ∧
    (b = false → leftOf s ≠ [] → t.delay.toNat + (2 - t.index) < s.delay.toNat + (2 - s.index)) := by
  unfold chanHasData
  by_cases h1 : s.delay > 0
  · rw [if_pos h1]
    refine ⟨_, _, rfl, rfl, by simp, fun _ _ => ?_⟩
    show (s.delay - 1).toNat + (2 - s.index) < _
    omega
  · rw [if_neg h1]
    by_cases h2 : isReceiveBufferEmpty s = true
    · rw [if_pos h2]
      refine ⟨_, _, rfl, ?_, by simp, fun _ hl => ?_⟩
      · unfold isReceiveBufferEmpty Chan.buf at h2
        unfold leftOf
        by_cases h3 : s.index < 2
        · rw [if_neg (by omega)] at h2
          rcases (by omega : s.index = 0 ∨ s.index = 1) with e | e
          · simp [e] at h2 ⊢; simp [h2]
          · simp [e] at h2 ⊢; simp [h2]
        · rw [if_neg h3]
      · have h3 : s.index < 2 := by
          rcases Nat.lt_or_ge s.index 2 with h | h
          · exact h
          · exact absurd (by unfold leftOf; rw [if_neg (by omega), if_neg (by omega)]) hl
        rw [if_pos h3]
        show s.delay.toNat + (2 - (s.index + 1)) < _
        omega
    · rw [if_neg h2]
      refine ⟨_, _, rfl, rfl, fun _ => ⟨rfl, ?_⟩, by simp⟩
      unfold isReceiveBufferEmpty at h2
      by_cases h3 : 2 ≤ s.index
      · rw [if_pos h3] at h2; exact absurd rfl h2
      · rw [if_neg h3] at h2
        exact ⟨by omega, fun e => h2 (by rw [e]; rfl)⟩

theorem wait_step {fuel : Nat} {s t : Chan} (h : waitForReceiveData fuel s = .ok () t) :
    leftOf t = leftOf s ∧ t.index < 2 ∧ t.buf t.index ≠ [] := by
  induction fuel generalizing s with
  | zero => cases h
  | succ n ih =>
    unfold waitForReceiveData at h
    obtain ⟨b, u, e, h1, h2, -⟩ := hasData_step s
    rw [M.bind_ok e] at h
    cases b with
    | true => obtain ⟨h3, h4, h5⟩ := h2 rfl; cases h; subst h3; exact ⟨rfl, h4, h5⟩
    | false => obtain ⟨a, b, c⟩ := ih h; exact ⟨a.trans h1, b, c⟩

theorem wait_cases (fuel : Nat) (s : Chan) : (∃ t, waitForReceiveData fuel s = .ok () t) ∨ waitForReceiveData fuel s = .ub .outOfFuel := by
  induction fuel generalizing s with
  | zero => exact .inr rfl
  | succ n ih =>
    unfold waitForReceiveData
    obtain ⟨b, u, e, -⟩ := hasData_step s
    rw [M.bind_ok e]
    cases b with
    | true => exact .inl ⟨_, rfl⟩
    | false => exact ih u

theorem wait_ends (s : Chan) (h : leftOf s ≠ []) {fuel : Nat} (hf : s.delay.toNat + (2 - s.index) < fuel) :
    ∃ t, waitForReceiveData fuel s = .ok () t := by
  induction fuel generalizing s with
  | zero => omega
  | succ n ih =>
    unfold waitForReceiveData
    obtain ⟨b, u, e, h1, -, h3⟩ := hasData_step s
    rw [M.bind_ok e]
    cases b with
    | true => exact ⟨_, rfl⟩
    | false => exact ih u (by rw [h1]; exact h) (by have := h3 rfl h; omega)

theorem getNext_step {s : Chan} (h1 : s.index < 2) (h2 : s.buf s.index ≠ []) :
    ∃ c t, getNextChar s = .ok (BitVec.toInt c) t ∧ leftOf s = c :: leftOf t := by
  unfold getNextChar
  rw [if_neg (by omega)]
  cases e : s.buf s.index with
  | nil => exact absurd e h2
  | cons c cs =>
    refine ⟨c, _, rfl, ?_⟩
    unfold Chan.buf at e
    unfold leftOf
    rcases (by omega : s.index = 0 ∨ s.index = 1) with i | i
    · simp [i] at e ⊢; simp [e]
    · simp [i] at e ⊢; simp [e]

theorem receive_cases (fuel : Nat) (s : Chan) :
    (∃ c t, chanReceive fuel s = .ok (BitVec.toInt c) t ∧ leftOf s = c :: leftOf t) ∨ chanReceive fuel s = .ub .outOfFuel := by
  unfold chanReceive
  rcases wait_cases fuel s with ⟨t, h⟩ | h
  · rw [M.bind_ok h]
    obtain ⟨a, b, c⟩ := wait_step h
    obtain ⟨x, u, e, f⟩ := getNext_step b c
    exact .inl ⟨x, u, e, by rw [← a]; exact f⟩
  · rw [M.bind_ub h]; exact .inr rfl

theorem receive_ends (s : Chan) (h : leftOf s ≠ []) {fuel : Nat} (hf : s.delay.toNat + (2 - s.index) < fuel) :
    ∃ c t, chanReceive fuel s = .ok (BitVec.toInt c) t ∧ leftOf s = c :: leftOf t := by
  rcases receive_cases fuel s with e | e
  · exact e
  · obtain ⟨t, ht⟩ := wait_ends s h hf
    obtain ⟨a, b, c⟩ := wait_step ht
    obtain ⟨x, u, e', f⟩ := getNext_step b c
    unfold chanReceive at e
    rw [M.bind_ok ht, e'] at e
    cases e

theorem received_step {o : ChOp} {s t : Chan} (h : o.run s = .ok () t) (ho : incoming o = none) :
    leftOf t = (leftOf s).drop (if o.isReceive then 1 else 0) ∧ (o.isReceive = true → leftOf s ≠ []) := by
  cases o with
  | uninit => cases ho
  | data => cases ho
  | checksummed => cases ho
  | receive fuel =>
    rcases receive_cases fuel s with ⟨c, u, e, f⟩ | e
    · have : t = u := by
        have h' : settled (chanReceive fuel) s = .ok () t := h
        unfold settled at h'; rw [e] at h'; cases h'; rfl
      subst this
      rw [f]; exact ⟨rfl, by simp⟩
    · have h' : settled (chanReceive fuel) s = .ok () t := h
      unfold settled at h'; rw [e] at h'; cases h'
  | poll =>
    obtain ⟨b, u, e, f, -⟩ := hasData_step s
    have h' : settled chanHasData s = .ok () t := h
    unfold settled at h'; rw [e] at h'; cases h'
    exact ⟨f, by simp [ChOp.isReceive]⟩
  | transmitted =>
    have h' : settled getTransmittedData s = .ok () t := h
    unfold settled getTransmittedData at h'
    cases e : s.sent with
    | none => rw [e] at h'; cases h'
    | some b => rw [e] at h'; cases h'; exact ⟨rfl, by simp [ChOp.isReceive]⟩
  | sumOf d =>
    have h' : settled (checksumData d) s = .ok () t := h
    unfold settled at h'; rw [checksumData_ok] at h'; cases h'
    exact ⟨rfl, by simp [ChOp.isReceive]⟩
  | transmit n =>
    have h' : initTransmitDataBuffer n s = .ok () t := h
    unfold initTransmitDataBuffer uninitTransmitDataBuffer freed at h'
    simp only [M.bind_apply, M.modify_apply] at h'
    split at h' <;> (cases h'; exact ⟨rfl, by simp [ChOp.isReceive]⟩)
  | _ => cases h; exact ⟨rfl, by simp [ChOp.isReceive]⟩

theorem received_calls {os : List ChOp} {s t : Chan} (h : Calls ChOp.run s os t) (ho : ∀ o ∈ os, incoming o = none) :
    leftOf t = (leftOf s).drop (os.countP ChOp.isReceive) := by
  induction h with
  | nil => simp
  | @cons s s1 s2 o os h _ ih =>
    rw [ih fun o ho' => ho o (List.mem_cons_of_mem _ ho'), (received_step h (ho o List.mem_cons_self)).1, List.drop_drop, List.countP_cons]
    congr 1; split <;> omega

theorem recvInit_eq (d : Str) : recvInit d = cString d := rfl

theorem recvInit_sums (d : Str) : recvInit (withSums (cString d) ++ [0#8]) = withSums (cString d) := by
  rw [recvInit_eq]
  refine cString_of_noNul ?_ []
  rw [← sums_eq]
  exact sums_noNul _ _ (cString_noNul d)

theorem incoming_left {o : ChOp} {s t : Chan} {d : Str} (h : o.run s = .ok () t) (hd : incoming o = some d) : leftOf t = d := by
  cases o with
  | uninit =>
    cases hd
    have h' : chanUninit s = .ok () t := h
    unfold chanUninit uninitTransmitDataBuffer at h'
    simp only [M.bind_apply, M.modify_apply] at h'
    cases h'
    have : ∀ (p : Bool) (u : Chan), (freed p u).buf0 = u.buf0 ∧ (freed p u).buf1 = u.buf1 := by
      intro p u; unfold freed; split <;> exact ⟨rfl, rfl⟩
    unfold leftOf
    simp [this]
  | data d1 d2 =>
    cases hd; cases h
    cases d2 with
    | none => rfl
    | some d => rfl
  | checksummed d1 d2 =>
    cases hd
    have h' : initReceiveChecksummedData d1 d2 s = .ok () t := h
    unfold initReceiveChecksummedData freeReceiveAllocations at h'
    cases d2 with
    | none =>
      simp only [M.bind_apply, M.modify_apply, allocate_ok] at h'
      cases h'
      simp only [leftOf, if_true, recvInit_sums]
      rfl
    | some d =>
      simp only [M.bind_apply, M.modify_apply, allocate_ok] at h'
      cases h'
      simp only [leftOf, if_true, recvInit_sums]
      rfl
  | _ => cases hd

/-- C100. What is received is what was given, in order: the call number `k` (from 0) since the texts were set gives the
character number `k` of them, whatever else is done between the calls. Such a call never returns if there is none. -/
theorem C100_received {pre os : List ChOp} {o : ChOp} {d : Str} {t : Chan} (h : Calls ChOp.run {} (pre ++ o :: os) t)
    (hd : incoming o = some d) (ho : ∀ p ∈ os, incoming p = none) :
    (∀ c, d[os.countP ChOp.isReceive]? = some c → ∃ n, ∀ fuel, n ≤ fuel → ∃ t', chanReceive fuel t = .ok c.toInt t') ∧
    (d.length ≤ os.countP ChOp.isReceive → ∀ fuel, chanReceive fuel t = .ub .outOfFuel) := by
  obtain ⟨m, -, h2⟩ := calls_append h
  cases h2 with
  | cons h3 h4 =>
    have e := received_calls h4 ho
    rw [incoming_left h3 hd] at e
    constructor
    · intro c hc
      obtain ⟨hk, hc'⟩ := List.getElem?_eq_some_iff.1 hc
      have e' : leftOf t = c :: d.drop (os.countP ChOp.isReceive + 1) := by rw [e, List.drop_eq_getElem_cons hk, hc']
      refine ⟨t.delay.toNat + (2 - t.index) + 1, fun fuel hf => ?_⟩
      obtain ⟨x, u, a, b⟩ := receive_ends t (by rw [e']; simp) (fuel := fuel) (by omega)
      rw [e'] at b
      injection b with b1 _
      exact ⟨u, by rw [b1]; exact a⟩
    · intro hk fuel
      rcases receive_cases fuel t with ⟨x, u, -, b⟩ | b
      · rw [e, List.drop_of_length_le hk] at b; cases b
      · exact b

/-- C100. The channel says that there is something to receive only if a character is left. -/
theorem C100_poll {pre os : List ChOp} {o : ChOp} {d : Str} {t t' : Chan} (h : Calls ChOp.run {} (pre ++ o :: os) t)
    (hd : incoming o = some d) (ho : ∀ p ∈ os, incoming p = none) (hp : chanHasData t = .ok true t') :
    os.countP ChOp.isReceive < d.length := by
  obtain ⟨m, -, h2⟩ := calls_append h
  cases h2 with
  | cons h3 h4 =>
    have e := received_calls h4 ho
    rw [incoming_left h3 hd] at e
    obtain ⟨b, u, e1, -, e2, -⟩ := hasData_step t
    rw [e1] at hp
    injection hp with hb hu
    subst hb
    obtain ⟨-, e3, e4⟩ := e2 rfl
    obtain ⟨c, v, -, e5⟩ := getNext_step e3 e4
    rcases Nat.lt_or_ge (os.countP ChOp.isReceive) d.length with hl | hl
    · exact hl
    · rw [e, List.drop_of_length_le hl] at e5; cases e5

/-! ### What is sent -/

/-- The two states differ at most in what is to be received. -/
structure Same (s t : Chan) : Prop where
  sent : t.sent = s.sent
  stopRun : t.stopRun = s.stopRun
  connected : t.connected = s.connected
  alloc1 : t.alloc1 = s.alloc1
  alloc2 : t.alloc2 = s.alloc2
  allocSum : t.allocSum = s.allocSum
  live : t.live = s.live

theorem Same.trans {s t u : Chan} (h : Same s t) (k : Same t u) : Same s u :=
  ⟨k.1.trans h.1, k.2.trans h.2, k.3.trans h.3, k.4.trans h.4, k.5.trans h.5, k.6.trans h.6, k.7.trans h.7⟩

theorem same_hasData {s t : Chan} {b : Bool} (e : chanHasData s = .ok b t) : Same s t := by
  unfold chanHasData at e
  by_cases h1 : s.delay > 0
  · rw [if_pos h1] at e; cases e; exact ⟨rfl, rfl, rfl, rfl, rfl, rfl, rfl⟩
  · rw [if_neg h1] at e
    by_cases h2 : isReceiveBufferEmpty s = true
    · rw [if_pos h2] at e; injection e with _ e; rw [← e]; split <;> exact ⟨rfl, rfl, rfl, rfl, rfl, rfl, rfl⟩
    · rw [if_neg h2] at e; cases e; exact ⟨rfl, rfl, rfl, rfl, rfl, rfl, rfl⟩

theorem same_wait {f : Nat} {s t : Chan} (h : waitForReceiveData f s = .ok () t) : Same s t := by
  induction f generalizing s with
  | zero => cases h
  | succ f ih =>
    unfold waitForReceiveData at h
    obtain ⟨b, u, e, -⟩ := hasData_step s
    rw [M.bind_ok e] at h
    cases b with
    | true => cases h; exact same_hasData e
    | false => exact (same_hasData e).trans (ih h)

theorem same_receive {fuel : Nat} {s t : Chan} (h : settled (chanReceive fuel) s = .ok () t) : Same s t := by
  rcases settled_ok h with ⟨a, e⟩ | ⟨x, e⟩
  · unfold chanReceive at e
    rcases wait_cases fuel s with ⟨u, hu⟩ | hu
    · rw [M.bind_ok hu] at e
      refine (same_wait hu).trans ?_
      unfold getNextChar at e
      split at e
      · cases e
      · split at e
        · cases e
        · injection e with _ e; rw [← e]; split <;> exact ⟨rfl, rfl, rfl, rfl, rfl, rfl, rfl⟩
    · rw [M.bind_ub hu] at e; cases e
  · rcases receive_cases fuel s with ⟨c, u, e', -⟩ | e' <;> (rw [e'] at e; cases e)

theorem same_poll {s t : Chan} (h : settled chanHasData s = .ok () t) : Same s t := by
  rcases settled_ok h with ⟨a, e⟩ | ⟨x, e⟩
  · exact same_hasData e
  · obtain ⟨b, u, e', -⟩ := hasData_step s
    rw [e'] at e; cases e

theorem transmitted_state {s t : Chan} (h : settled getTransmittedData s = .ok () t) : t = s := by
  unfold settled getTransmittedData at h
  cases e : s.sent with
  | none => rw [e] at h; cases h
  | some b => rw [e] at h; cases h; rfl

theorem sumOf_state {s t : Chan} {d : Str} (h : settled (checksumData d) s = .ok () t) :
    t = { s with allocSum := true, live := s.live + if s.allocSum then 0 else 1 } := by
  unfold settled at h; rw [checksumData_ok] at h; cases h; rfl

theorem transmit_state {s t : Chan} {n : Nat} (h : initTransmitDataBuffer n s = .ok () t) :
    t = { s with sent := some ⟨n, []⟩, live := s.live + if s.sent.isSome then 0 else 1 } := by
  unfold initTransmitDataBuffer uninitTransmitDataBuffer freed at h
  simp only [M.bind_apply, M.modify_apply] at h
  cases e : s.sent <;> (simp only [e, Option.isSome_none, Option.isSome_some, if_true, Bool.false_eq_true, if_false] at h; cases h; simp)

/-- 1 for a block that is on the heap. -/
def one (b : Bool) : Int := if b then 1 else 0

theorem freed_live (p : Bool) (u : Chan) : (freed p u).live = u.live - one p ∧ (freed p u).sent = u.sent ∧ (freed p u).stopRun = u.stopRun ∧
    (freed p u).connected = u.connected ∧ (freed p u).allocSum = u.allocSum ∧ (freed p u).alloc1 = u.alloc1 ∧ (freed p u).alloc2 = u.alloc2 := by
  unfold freed one; split <;> simp

theorem checksummed_state {s t : Chan} {d1 : Str} {d2 : Option Str} (h : initReceiveChecksummedData d1 d2 s = .ok () t) :
    t.sent = s.sent ∧ t.stopRun = s.stopRun ∧ t.connected = s.connected ∧ t.allocSum = s.allocSum ∧ t.alloc1 = true ∧ t.alloc2 = d2.isSome ∧
    t.live = s.live - one s.alloc1 - one s.alloc2 + 1 + one d2.isSome := by
  unfold initReceiveChecksummedData freeReceiveAllocations at h
  cases d2 with
  | none =>
    simp only [M.bind_apply, M.modify_apply, allocate_ok] at h
    cases h
    simp [freed_live, one]
  | some d =>
    simp only [M.bind_apply, M.modify_apply, allocate_ok] at h
    cases h
    simp [freed_live, one]

theorem uninit_state {s t : Chan} (h : chanUninit s = .ok () t) :
    t.sent = none ∧ t.stopRun = s.stopRun ∧ t.connected = true ∧ t.allocSum = false ∧ t.alloc1 = false ∧ t.alloc2 = false ∧
    t.live = s.live - one s.alloc1 - one s.alloc2 - one s.allocSum - one s.sent.isSome := by
  unfold chanUninit uninitTransmitDataBuffer at h
  simp only [M.bind_apply, M.modify_apply] at h
  cases h
  simp [freed_live]

theorem sent_step {o : ChOp} {s t : Chan} (h : o.run s = .ok () t) (ho : o.setsTransmit = false) {n : Nat} {w : Str}
    (hs : s.sent = some ⟨n, w.take n⟩) : t.sent = some ⟨n, (w ++ sentBy [o]).take n⟩ := by
  cases o with
  | uninit => cases ho
  | transmit => cases ho
  | send c => cases h; show Capture.put _ s.sent = _; rw [hs]; exact put_text rfl
  | receive fuel => rw [(same_receive h).sent, hs]; simp [sentBy]
  | poll => rw [(same_poll h).sent, hs]; simp [sentBy]
  | transmitted => rw [transmitted_state h, hs]; simp [sentBy]
  | sumOf d => rw [sumOf_state h]; simp [sentBy, hs]
  | checksummed d1 d2 => rw [(checksummed_state h).1, hs]; simp [sentBy]
  | _ => cases h; simp [sentBy, hs]

theorem sent_calls {os : List ChOp} {s t : Chan} (h : Calls ChOp.run s os t) (ho : ∀ o ∈ os, o.setsTransmit = false) {n : Nat} {w : Str}
    (hs : s.sent = some ⟨n, w.take n⟩) : t.sent = some ⟨n, (w ++ sentBy os).take n⟩ := by
  induction h generalizing w with
  | nil => simpa [sentBy] using hs
  | @cons s s1 s2 o os h _ ih =>
    rw [ih (fun o ho' => ho o (List.mem_cons_of_mem _ ho')) (sent_step h (ho o List.mem_cons_self) hs), List.append_assoc]
    have : sentBy [o] ++ sentBy os = sentBy (o :: os) := by
      unfold sentBy; rw [← List.filterMap_append]; rfl
    rw [this]

/-- C100. The text transmitted is what was sent since the buffer was set up, up to its size. -/
theorem C100_transmitted {pre os : List ChOp} {n : Nat} {t : Chan} (h : Calls ChOp.run {} (pre ++ .transmit n :: os) t)
    (ho : ∀ o ∈ os, o.setsTransmit = false) : getTransmittedData t = .ok ((sentBy os).take n) t := by
  obtain ⟨m, h1, h2⟩ := calls_append h
  cases h2 with
  | @cons _ s1 _ _ _ h3 h4 =>
    have : s1.sent = some ⟨n, ([] : Str).take n⟩ := by
      rw [transmit_state h3]; simp
    unfold getTransmittedData
    rw [sent_calls h4 ho this]
    rfl

/-! ### Delays -/

theorem first_hasData {s : Chan} (h1 : s.index = 0) (h2 : s.buf0 ≠ []) :
    chanHasData s = .ok (decide (s.delay ≤ 0)) { s with delay := if s.delay > 0 then s.delay - 1 else s.delay } := by
  unfold chanHasData
  by_cases h : s.delay > 0
  · rw [if_pos h]; simp [h]
  · rw [if_neg h, if_neg (by simp [isReceiveBufferEmpty, Chan.buf, h1, h2])]
    simp only [if_neg h]
    rw [decide_eq_true (by omega)]

theorem first_wait {s t : Chan} {fuel : Nat} (h1 : s.index = 0) (h2 : s.buf0 ≠ []) (h : waitForReceiveData fuel s = .ok () t) :
    t.index = 0 ∧ t.buf0 = s.buf0 ∧ (s.delay ≤ 0 → t.delay = s.delay) := by
  induction fuel generalizing s with
  | zero => cases h
  | succ n ih =>
    unfold waitForReceiveData at h
    rw [M.bind_ok (first_hasData h1 h2)] at h
    by_cases hd : s.delay ≤ 0
    · rw [if_pos (by simpa using hd)] at h
      cases h
      exact ⟨h1, rfl, fun _ => by simp; omega⟩
    · rw [if_neg (by simpa using hd)] at h
      obtain ⟨a, b, c⟩ := ih (s := { s with delay := if s.delay > 0 then s.delay - 1 else s.delay }) h1 h2 h
      exact ⟨a, b, fun h => absurd h hd⟩

theorem first_step {o : ChOp} {s t : Chan} (h : o.run s = .ok () t) (ho : incoming o = none) (h1 : s.index = 0) (h2 : s.buf0 ≠ []) :
    t.index = 0 ∧ t.buf0 = s.buf0.drop (if o.isReceive then 1 else 0) ∧
    (o.isDelay = false → s.delay ≤ 0 → t.delay = s.delay) ∧
    (o.isDelay = false → o.isReceive = false → t.delay = if o = .poll ∧ s.delay > 0 then s.delay - 1 else s.delay) := by
  cases o with
  | uninit => cases ho
  | data => cases ho
  | checksummed => cases ho
  | receive fuel =>
    have h' : settled (chanReceive fuel) s = .ok () t := h
    rcases settled_ok h' with ⟨a, e⟩ | ⟨x, e⟩
    · unfold chanReceive at e
      rcases wait_cases fuel s with ⟨u, hu⟩ | hu
      · rw [M.bind_ok hu] at e
        obtain ⟨b, c, d⟩ := first_wait h1 h2 hu
        unfold getNextChar at e
        rw [if_neg (by omega)] at e
        simp only [Chan.buf, b, if_true, c] at e
        cases hb : s.buf0 with
        | nil => exact absurd hb h2
        | cons x xs =>
          rw [hb] at e
          injection e with _ e
          rw [← e]
          exact ⟨rfl, rfl, fun _ h => d h, fun _ h => absurd h (by simp [ChOp.isReceive])⟩
      · rw [M.bind_ub hu] at e; cases e
    · rcases receive_cases fuel s with ⟨c, u, e', -⟩ | e' <;> (rw [e'] at e; cases e)
  | poll =>
    have h' : settled chanHasData s = .ok () t := h
    unfold settled at h'
    rw [first_hasData h1 h2] at h'
    cases h'
    refine ⟨h1, rfl, fun _ hd => ?_, fun _ _ => ?_⟩
    · simp; omega
    · simp
  | delay n => cases h; exact ⟨h1, rfl, fun h => absurd h (by simp [ChOp.isDelay]), fun h => absurd h (by simp [ChOp.isDelay])⟩
  | transmitted => rw [transmitted_state h]; exact ⟨h1, rfl, fun _ _ => rfl, fun _ _ => by simp⟩
  | sumOf d => rw [sumOf_state h]; exact ⟨h1, rfl, fun _ _ => rfl, fun _ _ => by simp⟩
  | transmit n => rw [transmit_state h]; exact ⟨h1, rfl, fun _ _ => rfl, fun _ _ => by simp⟩
  | _ => cases h; exact ⟨h1, rfl, fun _ _ => rfl, fun _ _ => by simp⟩

theorem first_calls {os : List ChOp} {s t : Chan} (h : Calls ChOp.run s os t) (ho : ∀ o ∈ os, incoming o = none) (h1 : s.index = 0)
    (h2 : os.countP ChOp.isReceive < s.buf0.length) :
    t.index = 0 ∧ t.buf0 = s.buf0.drop (os.countP ChOp.isReceive) ∧ ((∀ o ∈ os, o.isDelay = false) → s.delay ≤ 0 → t.delay = s.delay) ∧
    ((∀ o ∈ os, o.isDelay = false) → (∀ o ∈ os, o.isReceive = false) → 0 ≤ s.delay →
      t.delay = max 0 (s.delay - os.countP (· = .poll))) := by
  induction h with
  | nil => exact ⟨h1, rfl, fun _ _ => rfl, fun _ _ h => by simp; omega⟩
  | @cons s s1 s2 o os h _ ih =>
    rw [List.countP_cons] at h2
    obtain ⟨a, b, c, d⟩ := first_step h (ho o List.mem_cons_self) h1 (by intro e; rw [e] at h2; simp at h2)
    obtain ⟨a', b', c', d'⟩ := ih (fun o ho' => ho o (List.mem_cons_of_mem _ ho')) a (by
      rw [b, List.length_drop]
      split at h2 <;> simp_all <;> omega)
    refine ⟨a', ?_, fun q hd => ?_, fun q q' hd => ?_⟩
    · rw [b', b, List.drop_drop, List.countP_cons]; congr 1; split <;> omega
    · have e := c (q o List.mem_cons_self) hd
      rw [c' (fun o ho' => q o (List.mem_cons_of_mem _ ho')) (by omega), e]
    · have e := d (q o List.mem_cons_self) (q' o List.mem_cons_self)
      rw [d' (fun o ho' => q o (List.mem_cons_of_mem _ ho')) (fun o ho' => q' o (List.mem_cons_of_mem _ ho')) (by rw [e]; split <;> omega), e,
        List.countP_cons]
      by_cases hp : o = .poll
      · subst hp
        by_cases hd' : s.delay > 0
        · simp only [hd', and_self, if_true, decide_true]; omega
        · simp only [hd', and_false, if_false, decide_true, if_true]; omega
      · simp only [hp, false_and, if_false, decide_false, Bool.false_eq_true]
        simp

theorem first_start {o : ChOp} {s t : Chan} {d : Str} (h : o.run s = .ok () t) (hd : firstText o = some d) :
    t.index = 0 ∧ t.buf0 = d ∧ t.delay = 0 := by
  cases o with
  | data d1 d2 => cases hd; cases h; exact ⟨rfl, rfl, rfl⟩
  | checksummed d1 d2 =>
    cases hd
    have h' : initReceiveChecksummedData d1 d2 s = .ok () t := h
    unfold initReceiveChecksummedData freeReceiveAllocations at h'
    cases d2 with
    | none =>
      simp only [M.bind_apply, M.modify_apply, allocate_ok] at h'
      cases h'
      exact ⟨rfl, recvInit_sums _, rfl⟩
    | some d =>
      simp only [M.bind_apply, M.modify_apply, allocate_ok] at h'
      cases h'
      exact ⟨rfl, recvInit_sums _, rfl⟩
  | _ => cases hd

/-- C100. While the first text is not used up and no delay was asked for since it was given, the channel says that there is something to
receive. -/
theorem C100_no_delay {pre os : List ChOp} {o : ChOp} {d : Str} {t : Chan} (h : Calls ChOp.run {} (pre ++ o :: os) t)
    (hd : firstText o = some d) (ho : ∀ p ∈ os, incoming p = none) (hn : ∀ p ∈ os, p.isDelay = false)
    (hl : os.countP ChOp.isReceive < d.length) : chanHasData t = .ok true t := by
  obtain ⟨m, -, h2⟩ := calls_append h
  cases h2 with
  | cons h3 h4 =>
    obtain ⟨a, b, c⟩ := first_start h3 hd
    obtain ⟨a', b', c', -⟩ := first_calls h4 ho a (by rw [b]; exact hl)
    have e := c' hn (by omega)
    have hne : t.buf0 ≠ [] := by
      intro e; rw [b', b] at e
      have := congrArg List.length e
      rw [List.length_drop] at this
      simp at this; omega
    rw [first_hasData a' hne, if_neg (by omega), decide_eq_true (by omega)]

/-- C100. A delay of `n` makes exactly the next `n` questions be answered with no. -/
theorem C100_delay {pre os ps : List ChOp} {o : ChOp} {d : Str} {n : Int} {t : Chan}
    (h : Calls ChOp.run {} (pre ++ o :: (os ++ .delay n :: ps)) t) (hd : firstText o = some d) (ho : ∀ p ∈ os ++ ps, incoming p = none)
    (hn : ∀ p ∈ ps, p.isDelay = false ∧ p.isReceive = false) (hl : os.countP ChOp.isReceive < d.length) (h0 : 0 ≤ n) :
    ∃ t', chanHasData t = .ok (decide (n ≤ ps.countP (· = .poll))) t' := by
  obtain ⟨m, -, h2⟩ := calls_append h
  cases h2 with
  | cons h3 h4 =>
    obtain ⟨u, h5, h6⟩ := calls_append h4
    obtain ⟨a, b, -⟩ := first_start h3 hd
    obtain ⟨a', b', -⟩ := first_calls h5 (fun p hp => ho p (List.mem_append_left _ hp)) a (by rw [b]; exact hl)
    have hlen : 0 < u.buf0.length := by rw [b', b, List.length_drop]; omega
    cases h6 with
    | cons h7 h8 =>
      cases h7
      have hz : ps.countP ChOp.isReceive = 0 := by
        rw [List.countP_eq_zero]; intro p hp; simp [(hn p hp).2]
      obtain ⟨a2, b2, -, d2⟩ := first_calls h8 (fun p hp => ho p (List.mem_append_right _ hp)) a' (by rw [hz]; exact hlen)
      have e := d2 (fun p hp => (hn p hp).1) (fun p hp => (hn p hp).2) h0
      have hne : t.buf0 ≠ [] := by
        rw [b2, hz, List.drop_zero]; intro e; rw [show u.buf0 = [] from e] at hlen; simp at hlen
      have e2 : decide (t.delay ≤ 0) = decide (n ≤ ps.countP (· = .poll)) := by
        rw [e]; apply decide_eq_decide.2; show max 0 (n - _) ≤ 0 ↔ _; omega
      exact ⟨_, by rw [first_hasData a2 hne, e2]⟩

/-! ### Answers that are set, and what is left on the heap -/

theorem flag_step {o : ChOp} {s t : Chan} (h : o.run s = .ok () t) :
    t.stopRun = stopFlag s.stopRun [o] ∧ t.connected = connectedFlag s.connected [o] := by
  cases o with
  | uninit => obtain ⟨-, a, b, -⟩ := uninit_state h; exact ⟨a, b⟩
  | transmit n => rw [transmit_state h]; exact ⟨rfl, rfl⟩
  | receive fuel => exact ⟨(same_receive h).stopRun, (same_receive h).connected⟩
  | poll => exact ⟨(same_poll h).stopRun, (same_poll h).connected⟩
  | transmitted => rw [transmitted_state h]; exact ⟨rfl, rfl⟩
  | sumOf d => rw [sumOf_state h]; exact ⟨rfl, rfl⟩
  | checksummed d1 d2 => obtain ⟨-, a, b, -⟩ := checksummed_state h; exact ⟨a, b⟩
  | _ => cases h; exact ⟨rfl, rfl⟩

theorem flag_calls {os : List ChOp} {s t : Chan} (h : Calls ChOp.run s os t) :
    t.stopRun = stopFlag s.stopRun os ∧ t.connected = connectedFlag s.connected os := by
  induction h with
  | nil => exact ⟨rfl, rfl⟩
  | @cons s s1 s2 o os h _ ih =>
    obtain ⟨a, b⟩ := flag_step h
    rw [a, b] at ih
    have e1 : stopFlag s.stopRun (o :: os) = stopFlag (stopFlag s.stopRun [o]) os := by cases o <;> rfl
    have e2 : connectedFlag s.connected (o :: os) = connectedFlag (connectedFlag s.connected [o]) os := by cases o <;> rfl
    rw [e1, e2]
    exact ih

/-- C100. Whether the run should stop and whether GDB is connected are answered as last set; `mockIComm_Uninit` sets the second
back to TRUE but not the first. -/
theorem C100_flags {os : List ChOp} {t : Chan} (h : Calls ChOp.run {} os t) :
    chanShouldStop t = .ok (stopFlag true os) t ∧ chanConnected t = .ok (connectedFlag true os) t := by
  obtain ⟨a, b⟩ := flag_calls h
  unfold chanShouldStop chanConnected
  rw [a, b]
  exact ⟨rfl, rfl⟩

theorem live_step {o : ChOp} {s t : Chan} (h : o.run s = .ok () t)
    (hs : s.live = one s.alloc1 + one s.alloc2 + one s.allocSum + one s.sent.isSome) :
    t.live = one t.alloc1 + one t.alloc2 + one t.allocSum + one t.sent.isSome := by
  cases o with
  | uninit =>
    obtain ⟨a, -, -, b, c, d, e⟩ := uninit_state h
    rw [a, b, c, d, e, hs]; simp [one]; omega
  | transmit n => rw [transmit_state h]; simp only [hs]; cases s.sent <;> simp [one]
  | receive fuel => obtain ⟨a, -, -, b, c, d, e⟩ := same_receive h; rw [a, b, c, d, e, hs]
  | poll => obtain ⟨a, -, -, b, c, d, e⟩ := same_poll h; rw [a, b, c, d, e, hs]
  | transmitted => rw [transmitted_state h]; exact hs
  | sumOf d => rw [sumOf_state h]; simp only [hs]; cases s.allocSum <;> simp [one]; omega
  | checksummed d1 d2 =>
    obtain ⟨a, -, -, b, c, d, e⟩ := checksummed_state h
    rw [a, b, c, d, e, hs]; simp only [one, if_true]; omega
  | send c =>
    cases h
    simp only [hs]
    cases s.sent <;> rfl
  | _ => cases h; exact hs

theorem live_calls {os : List ChOp} {s t : Chan} (h : Calls ChOp.run s os t)
    (hs : s.live = one s.alloc1 + one s.alloc2 + one s.allocSum + one s.sent.isSome) :
    t.live = one t.alloc1 + one t.alloc2 + one t.allocSum + one t.sent.isSome := by
  induction h with
  | nil => exact hs
  | cons h _ ih => exact ih (live_step h hs)

/-- C100. Whatever a test did, after `mockIComm_Uninit` nothing is left on the heap. -/
theorem C100_nothing_left {os : List ChOp} {t : Chan} (h : Calls ChOp.run {} os t) : ∃ t', chanUninit t = .ok () t' ∧ t'.live = 0 := by
  have hl := live_calls h rfl
  have hu : ∃ t', chanUninit t = .ok () t' := ⟨_, rfl⟩
  obtain ⟨t', hu⟩ := hu
  refine ⟨t', hu, ?_⟩
  rw [(uninit_state hu).2.2.2.2.2.2, hl]
  omega

/-- Neither the answer on stopping nor a delay is undone by `mockIComm_Uninit`, so a test can see what the test before it set. -/
theorem C100_uninit_keeps_stop_flag_witness :
    ∃ t, Calls ChOp.run {} [.setStop false, .delay 3, .uninit] t ∧ chanShouldStop t = .ok false t ∧ t.delay = 3 :=
  ⟨_, .cons rfl (.cons rfl (.cons rfl (.nil _))), rfl, rfl⟩

/-- The state after the calls, if all of them return. -/
def after (s : Chan) : List ChOp → Option Chan
  | [] => some s
  | o :: os => match o.run s with
    | .ok _ t => after t os
    | _ => none

theorem after_calls {os : List ChOp} {s t : Chan} (h : after s os = some t) : Calls ChOp.run s os t := by
  induction os generalizing s with
  | nil => cases h; exact .nil _
  | cons o os ih =>
    unfold after at h
    split at h
    · next e => exact .cons e (ih h)
    · cases h

example : ∃ t, Calls ChOp.run {} ([.poll, .transmit 2] ++ .checksummed [0x24, 0x67, 0x23] (some [0x2B]) :: [.delay 2, .receive 9, .poll, .send 0x4F, .receive 9]) t := by
  have h : (after {} ([.poll, .transmit 2] ++ .checksummed [0x24, 0x67, 0x23] (some [0x2B]) ::
    [.delay 2, .receive 9, .poll, .send 0x4F, .receive 9])).isSome = true := by decide +kernel
  obtain ⟨t, ht⟩ := Option.isSome_iff_exists.1 h
  exact ⟨t, after_calls ht⟩

example : ∃ t, Calls ChOp.run {} ([.setStop false] ++ .data [0x24, 0x67] none :: ([.receive 1] ++ .delay 2 :: [.poll, .send 0x4F])) t := by
  have h : (after {} ([.setStop false] ++ .data [0x24, 0x67] none :: ([.receive 1] ++ .delay 2 :: [.poll, .send 0x4F]))).isSome = true := by
    decide +kernel
  obtain ⟨t, ht⟩ := Option.isSome_iff_exists.1 h
  exact ⟨t, after_calls ht⟩

example : incoming (.checksummed [0x24, 0x67, 0x23] (some [0x2B])) = some [0x24, 0x67, 0x23, 0x36, 0x37, 0x2B] := by decide +kernel

example : ∃ t, Calls ChOp.run {} ([.transmit 9, .send 0x21] ++ .transmit 2 :: [.send 0x4F, .setConnected false, .send 0x4B, .send 0x2B]) t ∧
    getTransmittedData t = .ok [0x4F, 0x4B] t :=
  ⟨_, .cons rfl (.cons rfl (.cons rfl (.cons rfl (.cons rfl (.cons rfl (.cons rfl (.nil _))))))), rfl⟩

end Verif.Props
