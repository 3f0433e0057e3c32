import Verif.Counter.Spec
/-
Properties of the counter CSRs: C19, C20.
-/
namespace Verif.Counter

variable {w : Nat}

theorem cv_succ (hw : w ≤ 64) (c : BitVec 64) : cv w (c + 1) = cv w c + 1 := by
  unfold cv
  rw [BitVec.setWidth_add c 1 hw]
  congr 1
  apply BitVec.eq_of_toNat_eq
  simp

/-! ### C19 -/

theorem perfStep_get (hw : w ≤ 64) (s : State (Low w)) (o : Op w) :
    (perfStep s o).csr.get (perfStep s o).counter = Spec.retire (s.csr.get s.counter) o := by
  cases o <;> simp only [perfStep, Spec.retire, Low.get, Low.perfSet, Low.set, Low.onException,
    cv_succ hw] <;> grind

/-- **C19 (retirement counters).** For every sequence of instructions, what is read from the counter
is the count of the specification: last written value plus instructions retired since, modulo the
width. `w` is 64 on RV64 and 32 for the low half on RV32. -/
theorem C19_retirement (hw : w ≤ 64) (s : State (Low w)) (l : List (Op w)) :
    (perfRun s l).csr.get (perfRun s l).counter = l.foldl Spec.retire (s.csr.get s.counter) := by
  induction l generalizing s with
  | nil => rfl
  | cons o l ih =>
    show (perfRun (perfStep s o) l).csr.get (perfRun (perfStep s o) l).counter = _
    rw [ih, perfStep_get hw]; rfl

theorem foldl_plain (n : Nat) (v : BitVec w) :
    (List.replicate n (Op.plain (w := w))).foldl Spec.retire v = v + BitVec.ofNat w n := by
  induction n generalizing v with
  | zero => simp
  | succ n ih =>
    rw [List.replicate_succ, List.foldl_cons, ih, Spec.retire, BitVec.ofNat_add]
    have : BitVec.ofNat w 1 = 1 := rfl
    grind

/-- **C19 (written value plus elapsed).** Write `v` after any history, then retire `n` further
instructions: the counter reads `v + n`. -/
theorem C19_written_plus_elapsed (hw : w ≤ 64) (s : State (Low w)) (l : List (Op w)) (v : BitVec w)
    (n : Nat) :
    let t := perfRun s (l ++ .write v :: List.replicate n .plain)
    t.csr.get t.counter = v + BitVec.ofNat w n := by
  intro t
  show (perfRun s _).csr.get (perfRun s _).counter = _
  rw [C19_retirement hw, List.foldl_append, List.foldl_cons, Spec.retire, foldl_plain]

/-- **C19 (event counters).** The same for the plain counters, with writes between events. -/
theorem C19_event (hw : w ≤ 64) (s : State (Low w)) (l : List (Option (BitVec w))) :
    (eventRun s l).csr.get (eventRun s l).counter = l.foldl Spec.event (s.csr.get s.counter) := by
  induction l generalizing s with
  | nil => rfl
  | cons o l ih =>
    show (eventRun (eventStep s o) l).csr.get (eventRun (eventStep s o) l).counter = _
    rw [ih, List.foldl_cons]
    congr 1
    cases o <;> simp only [eventStep, Spec.event, Low.get, Low.set, cv_succ hw] <;> grind

/-- Non-vacuity: a write of 2^64 - 1, one retired, one trapping, one retired instruction. -/
example :
    let s : State (Low 64) := ⟨1000, ⟨7⟩⟩
    s.csr.get s.counter = 1007 ∧
    (perfRun s [.plain, .write 0xffffffffffffffff]).csr.get 1002 = 0xffffffffffffffff ∧
    (perfRun s [.plain, .write 0xffffffffffffffff, .plain, .exception, .plain]).csr.get 1005 = 1 := by
  decide

/-! ### RV32 pairs -/

/-- The 64-bit offset of a pair. -/
def Pair.off (p : Pair) : BitVec 64 := p.offset <<< 32 ||| p.low.offset.setWidth 64

theorem off_toNat (p : Pair) :
    p.off.toNat = (p.offset.toNat % 2 ^ 32) * 2 ^ 32 + p.low.offset.toNat := by
  have h : p.offset <<< 32 &&& p.low.offset.setWidth 64 = 0#64 := by
    apply BitVec.eq_of_getLsbD_eq
    intro i hi
    simp only [BitVec.getLsbD_and, BitVec.getLsbD_shiftLeft, BitVec.getLsbD_setWidth,
      BitVec.getLsbD_zero]
    by_cases h : i < 32
    · simp [h]
    · rw [BitVec.getLsbD_of_ge p.low.offset i (by omega)]; simp
  have h1 := p.low.offset.isLt
  unfold Pair.off
  rw [← BitVec.add_eq_or_of_and_eq_zero _ _ h, BitVec.toNat_add, BitVec.toNat_shiftLeft,
    BitVec.toNat_setWidth, Nat.shiftLeft_eq]
  omega

theorem getHigh_eq (p : Pair) (c : BitVec 64) : p.getHigh c = (c + p.off).extractLsb' 32 32 := by
  unfold Pair.getHigh Pair.off
  apply BitVec.eq_of_toNat_eq
  simp only [BitVec.toNat_setWidth, BitVec.toNat_ushiftRight, BitVec.extractLsb'_toNat]

theorem getLow_eq (p : Pair) (c : BitVec 64) : p.getLow c = (c + p.off).extractLsb' 0 32 := by
  unfold Pair.getLow Low.get cv
  apply BitVec.eq_of_toNat_eq
  simp only [BitVec.toNat_setWidth, BitVec.extractLsb'_toNat, BitVec.toNat_add, off_toNat,
    Nat.shiftRight_zero]
  omega

theorem join_extract (x : BitVec 64) : Spec.join (x.extractLsb' 32 32) (x.extractLsb' 0 32) = x := by
  unfold Spec.join
  apply BitVec.eq_of_getLsbD_eq
  intro i hi
  rw [BitVec.getLsbD_append]
  split
  · rw [BitVec.getLsbD_extractLsb']; simp [*]
  · rw [BitVec.getLsbD_extractLsb', show 32 + (i - 32) = i by omega]
    rw [decide_eq_true (show i - 32 < 32 by omega), Bool.true_and]

theorem value_eq (s : State Pair) : Spec.value s = s.counter + s.csr.off := by
  unfold Spec.value; rw [getHigh_eq, getLow_eq, join_extract]

theorem join_toNat (hi lo : BitVec 32) :
    (Spec.join hi lo).toNat = hi.toNat * 2 ^ 32 + lo.toNat := by
  unfold Spec.join
  rw [BitVec.toNat_append, Nat.shiftLeft_eq, Nat.mul_comm, ← Nat.two_pow_add_eq_or_of_lt lo.isLt]

theorem carry_iff (p : Pair) (c : BitVec 64) :
    p.carry c = true ↔ 2 ^ 32 ≤ c.toNat % 2 ^ 32 + p.low.offset.toNat := by
  unfold Pair.carry
  have := p.low.offset.isLt
  simp only [decide_eq_true_eq, BitVec.le_def, BitVec.toNat_add, BitVec.toNat_setWidth,
    BitVec.toNat_ofNat]
  omega

theorem carry_toNat (p : Pair) (c : BitVec 64) :
    (if p.carry c then (1 : BitVec 64) else 0).toNat =
      (c.toNat % 2 ^ 32 + p.low.offset.toNat) / 2 ^ 32 := by
  have := p.low.offset.isLt
  have h := carry_iff p c
  split
  · next hc => rw [h] at hc; show 1 = _; omega
  · next hc => rw [h] at hc; show 0 = _; omega

/-- A plain write of the high half: the 64-bit value becomes the written half joined to the old low
half. -/
theorem setHigh_value (p : Pair) (c : BitVec 64) (v : BitVec 32) :
    c + (p.setHigh c v).off = Spec.join v ((c + p.off).extractLsb' 0 32) := by
  apply BitVec.eq_of_toNat_eq
  rw [join_toNat]
  simp only [BitVec.toNat_add, off_toNat, Pair.setHigh, BitVec.toNat_sub, carry_toNat,
    BitVec.toNat_setWidth, BitVec.toNat_ushiftRight, BitVec.extractLsb'_toNat, Nat.shiftRight_eq_div_pow]
  have := p.low.offset.isLt
  have := v.isLt
  have := c.isLt
  omega

/-- The performance variant subtracts one from the 64-bit value, to be cancelled by the event of the
writing instruction. -/
theorem perfSetHigh_value (p : Pair) (c : BitVec 64) (v : BitVec 32) :
    c + 1 + (p.perfSetHigh c v).off = Spec.join v ((c + p.off).extractLsb' 0 32) := by
  rw [← setHigh_value p c v]
  have key : (p.setHigh c v).off = (p.perfSetHigh c v).off + 1 := by
    apply BitVec.eq_of_toNat_eq
    simp only [BitVec.toNat_add, off_toNat, Pair.setHigh, Pair.perfSetHigh]
    have := p.low.offset.isLt
    by_cases h0 : p.low.offset = 0
    · rw [if_pos h0, h0]
      generalize v.setWidth 64 - c >>> 32 - _ = x
      have := x.isLt
      simp only [BitVec.toNat_sub]
      show x.toNat % 2 ^ 32 * 2 ^ 32 + 0 = _
      simp
      omega
    · rw [if_neg h0]
      have : p.low.offset.toNat ≠ 0 := fun h => h0 (BitVec.eq_of_toNat_eq (by rw [h]; rfl))
      generalize v.setWidth 64 - c >>> 32 - _ = x
      simp only [BitVec.toNat_sub]
      simp
      omega
  rw [key]; grind

/-! ### C20 -/

/-- **C20 (high half).** Writing the high half sets it to the written value and leaves the low half
alone, for plain counters at once and for performance counters after the event of the writing
instruction. -/
theorem C20_high_write (p : Pair) (c : BitVec 64) (v : BitVec 32) :
    (p.setHigh c v).getHigh c = v ∧ (p.setHigh c v).getLow c = p.getLow c ∧
    (p.perfSetHigh c v).getHigh (c + 1) = v ∧ (p.perfSetHigh c v).getLow (c + 1) = p.getLow c := by
  have e1 : ∀ x y : BitVec 32, (Spec.join x y).extractLsb' 32 32 = x := by
    intro x y
    apply BitVec.eq_of_toNat_eq
    rw [BitVec.extractLsb'_toNat, join_toNat, Nat.shiftRight_eq_div_pow]
    have := x.isLt; have := y.isLt; omega
  have e2 : ∀ x y : BitVec 32, (Spec.join x y).extractLsb' 0 32 = y := by
    intro x y
    apply BitVec.eq_of_toNat_eq
    rw [BitVec.extractLsb'_toNat, join_toNat, Nat.shiftRight_zero]
    have := x.isLt; have := y.isLt; omega
  simp only [getHigh_eq, getLow_eq, setHigh_value, perfSetHigh_value, e1, e2, and_self]

theorem perfSetLow_off (p : Pair) (c : BitVec 64) (v : BitVec 32) (h : v ≠ c.setWidth 32) :
    (p.perfSetLow c v).off + 1 = (p.setLow c v).off := by
  have h0 : (p.setLow c v).low.offset.toNat ≠ 0 := by
    intro h0
    have : v - cv 32 c = 0#32 := BitVec.eq_of_toNat_eq h0
    exact h (by unfold cv at this; grind)
  have hl : (p.perfSetLow c v).low.offset.toNat =
      ((p.setLow c v).low.offset.toNat + (2 ^ 32 - 1)) % 2 ^ 32 := by
    show ((p.setLow c v).low.offset - 1).toNat = _
    rw [BitVec.toNat_sub]; simp; omega
  have ho : (p.perfSetLow c v).offset = (p.setLow c v).offset := rfl
  apply BitVec.eq_of_toNat_eq
  have := (p.setLow c v).low.offset.isLt
  simp only [BitVec.toNat_add, off_toNat, ho, hl]
  simp
  omega

/-- The carry out of the low half of the addition event counter + offset. -/
theorem setLow_high (p : Pair) (c : BitVec 64) (v : BitVec 32)
    (hc : (p.setLow c v).carry c = p.carry c) : (p.setLow c v).getHigh c = p.getHigh c := by
  have h1 := carry_toNat (p.setLow c v) c
  have h2 := carry_toNat p c
  rw [hc, h2] at h1
  rw [getHigh_eq, getHigh_eq]
  apply BitVec.eq_of_toNat_eq
  simp only [BitVec.extractLsb'_toNat, BitVec.toNat_add, off_toNat, Nat.shiftRight_eq_div_pow]
  have ho : (p.setLow c v).offset = p.offset := rfl
  rw [ho]
  have := p.low.offset.isLt
  have := (p.setLow c v).low.offset.isLt
  omega

/-- **C20 (low half).** The low half is set to the written value. The high half is left alone only
if the write does not change the carry out of the low half, and, for performance counters, if the
written value is not the low half of the event counter itself. Missing: the remaining cases, where
the code changes the high half (`C20_low_write_violated`, `C20_exception_violated`). -/
theorem C20_low_write_partial (p : Pair) (c : BitVec 64) (v : BitVec 32) :
    (p.setLow c v).getLow c = v ∧
    ((p.setLow c v).carry c = p.carry c → (p.setLow c v).getHigh c = p.getHigh c) ∧
    (p.perfSetLow c v).getLow (c + 1) = v ∧
    (v ≠ c.setWidth 32 → (p.setLow c v).carry c = p.carry c →
      (p.perfSetLow c v).getHigh (c + 1) = p.getHigh c) := by
  refine ⟨?_, setLow_high p c v, ?_, ?_⟩
  · simp only [Pair.getLow, Pair.setLow, Low.get, Low.set]; grind
  · simp only [Pair.getLow, Pair.perfSetLow, Low.get, Low.perfSet, Low.set,
      cv_succ (w := 32) (by decide)]
    grind
  · intro hv hc
    rw [← setLow_high p c v hc, getHigh_eq, getHigh_eq, ← perfSetLow_off p c v hv]
    congr 1; grind

/-- Non-vacuity: a write that keeps the carry. -/
example :
    let p : Pair := ⟨⟨0xfffffff0⟩, 3⟩
    (p.setLow 0x20 0x7).carry 0x20 = p.carry 0x20 ∧ p.getHigh 0x20 = 4 ∧
    (p.perfSetLow 0x20 7).getHigh 0x21 = 4 ∧ (p.perfSetLow 0x20 7).getLow 0x21 = 7 := by decide

/-- **C20 is violated**: with the event counter at 10 and no offset, writing 5 to the low half makes
the high half read 1, for plain and performance counters alike; and writing the current value to a
performance counter increments the high half. -/
theorem C20_low_write_violated :
    let p : Pair := ⟨⟨0⟩, 0⟩
    p.getHigh 10 = 0 ∧ (p.setLow 10 5).getHigh 10 = 1 ∧ (p.perfSetLow 10 5).getHigh 11 = 1 ∧
    (p.perfSetLow 10 10).getHigh 11 = 1 := by decide

/-- **C20 is violated by exceptions**: from reset, ten instructions and one exception leave
minstreth reading 1 although only ten instructions retired. -/
theorem C20_exception_violated :
    let s := perfRun32 ⟨0, ⟨0⟩, 0⟩ (List.replicate 10 .plain ++ [.exception])
    s.csr.getLow s.counter = 10 ∧ s.csr.getHigh s.counter = 1 := by decide

/-! ### C19 for pairs -/

theorem onException_low (x : Low 32) (c : BitVec 64) : (x.onException c).offset = x.offset - 1 := by
  simp only [Low.onException, Low.perfSet, Low.set, Low.get]; grind

/-- Steps on which the halves of an RV32 counter do behave as one counter. -/
def StepOk (s : State Pair) : Op32 → Prop
  | .plain | .writeHigh _ => True
  | .writeLow v =>
    v ≠ s.counter.setWidth 32 ∧ (s.csr.setLow s.counter v).carry s.counter = s.csr.carry s.counter
  | .exception => s.csr.low.offset ≠ 0

/-- All steps of a history are of that kind. -/
def RunOk (s : State Pair) : List Op32 → Prop
  | [] => True
  | o :: l => StepOk s o ∧ RunOk (perfStep32 s o) l

theorem perfStep32_value (s : State Pair) (o : Op32) (h : StepOk s o) :
    Spec.value (perfStep32 s o) = Spec.retire32 (Spec.value s) o := by
  cases o with
  | plain => rw [value_eq, value_eq]; simp only [perfStep32, Spec.retire32]; grind
  | writeHigh v => rw [value_eq, value_eq]; exact perfSetHigh_value s.csr s.counter v
  | writeLow v =>
    have hp := C20_low_write_partial s.csr s.counter v
    show Spec.join ((s.csr.perfSetLow s.counter v).getHigh (s.counter + 1))
      ((s.csr.perfSetLow s.counter v).getLow (s.counter + 1)) = _
    rw [hp.2.2.1, hp.2.2.2 h.1 h.2, Spec.retire32, value_eq, getHigh_eq]
  | exception =>
    rw [value_eq, value_eq]
    show s.counter + 1 + _ = s.counter + _
    have : (Pair.mk (s.csr.low.onException s.counter) s.csr.offset).off + 1 = s.csr.off := by
      apply BitVec.eq_of_toNat_eq
      have h0 : s.csr.low.offset.toNat ≠ 0 := fun e => h (BitVec.eq_of_toNat_eq (by rw [e]; rfl))
      have := s.csr.low.offset.isLt
      simp only [BitVec.toNat_add, off_toNat, onException_low, BitVec.toNat_sub]
      simp
      omega
    rw [← this]; show s.counter + 1 + (Pair.mk _ _).off = _; grind

/-- **C19 (RV32 pairs).** The two halves behave as one 64-bit counter along every history whose low
writes and exceptions avoid the carry problem of C20. Missing: histories with the other low writes
and exceptions, where the code is wrong. -/
theorem C19_pair_partial (s : State Pair) (l : List Op32) (h : RunOk s l) :
    Spec.value (perfRun32 s l) = l.foldl Spec.retire32 (Spec.value s) := by
  induction l generalizing s with
  | nil => rfl
  | cons o l ih =>
    show Spec.value (perfRun32 (perfStep32 s o) l) = _
    rw [ih _ h.2, perfStep32_value s o h.1]; rfl

theorem runOk_plain (s : State Pair) (n : Nat) : RunOk s (List.replicate n .plain) := by
  induction n generalizing s with
  | zero => trivial
  | succ n ih => exact ⟨trivial, ih _⟩

theorem foldl_plain32 (n : Nat) (v : BitVec 64) :
    (List.replicate n Op32.plain).foldl Spec.retire32 v = v + BitVec.ofNat 64 n := by
  induction n generalizing v with
  | zero => simp
  | succ n ih =>
    rw [List.replicate_succ, List.foldl_cons, ih, Spec.retire32, BitVec.ofNat_add]
    have : BitVec.ofNat 64 1 = 1 := rfl
    grind

/-- **C19 (RV32, initialisation).** After any history whatever, writing the low half and then the
high half makes the counter exact: `n` instructions later the two halves read `hi:lo + n`. -/
theorem C19_low_then_high (s : State Pair) (l : List Op32) (hi lo : BitVec 32) (n : Nat) :
    Spec.value (perfRun32 s (l ++ .writeLow lo :: .writeHigh hi :: List.replicate n .plain)) =
      Spec.join hi lo + BitVec.ofNat 64 n := by
  unfold perfRun32
  rw [List.foldl_append, List.foldl_cons]
  generalize l.foldl perfStep32 s = t
  show Spec.value (perfRun32 (perfStep32 t (.writeLow lo)) (.writeHigh hi :: List.replicate n .plain)) = _
  have ok : RunOk (perfStep32 t (.writeLow lo)) (.writeHigh hi :: List.replicate n .plain) :=
    ⟨trivial, runOk_plain _ n⟩
  rw [C19_pair_partial _ _ ok, List.foldl_cons, foldl_plain32]
  congr 1
  simp only [Spec.retire32]
  rw [value_eq, ← getLow_eq]
  exact congrArg _ (C20_low_write_partial t.csr t.counter lo).2.2.1

/-- Non-vacuity: the 64-bit counter carries from the low into the high half. -/
example :
    Spec.value (perfRun32 ⟨0x12345678, ⟨99⟩, 4⟩ [.plain, .writeLow 0xfffffffe, .writeHigh 6, .plain,
      .plain, .plain]) = 0x0000000700000001 ∧
    RunOk ⟨0x12345678, ⟨99⟩, 4⟩ [.plain, .writeLow 0x23456789, .exception, .writeHigh 6] := by
  refine ⟨by decide, trivial, ⟨by decide, by decide⟩, ?_, trivial, trivial⟩
  show _ ≠ _
  decide

/-! ### C62: the unprivileged counters -/

/-- **C62 (partial).** As long as no instruction traps or writes minstret, instret equals
minstret. Missing: exceptions and writes, after which the code shows different values. -/
theorem C62_instret_partial (s : State (Low 64 × Low 64)) (n : Nat)
    (h : s.csr.1.get s.counter = s.csr.2.get s.counter) :
    let t := viewRun s (List.replicate n .plain)
    t.csr.1.get t.counter = t.csr.2.get t.counter := by
  induction n generalizing s with
  | zero => exact h
  | succ n ih =>
    refine ih (viewStep s .plain) ?_
    simp only [viewStep, perfStep, Low.get, cv_succ (w := 64) (by decide)] at h ⊢
    grind

example : (viewRun ⟨0, ⟨0⟩, ⟨0⟩⟩ (List.replicate 5 .plain)).csr.2.get 5 = 5 := by decide

/-- **C62 is violated**: after one exception instret and minstret differ, and after a write of
minstret too. -/
theorem C62_instret_violated :
    let s : State (Low 64 × Low 64) := ⟨0, ⟨0⟩, ⟨0⟩⟩
    let t := viewRun s [.plain, .exception]
    let u := viewRun s [.plain, .write 77]
    t.csr.1.get t.counter = 1 ∧ t.csr.2.get t.counter = 2 ∧
    u.csr.1.get u.counter = 77 ∧ u.csr.2.get u.counter = 2 := by decide

end Verif.Counter
