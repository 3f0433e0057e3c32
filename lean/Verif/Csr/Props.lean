import Verif.Csr.Spec
namespace Verif.Csr
open SimpleCsr

variable {w : Nat}

/-! ### Lemmas -/

theorem run_masks (c : SimpleCsr w) (ops : List Op) :
    (c.run ops).readMask = c.readMask ∧ (c.run ops).writeMask = c.writeMask := by
  induction ops generalizing c with
  | nil => exact ⟨rfl, rfl⟩
  | cons op ops ih =>
    have h := ih (c.step op)
    have h1 : (c.step op).readMask = c.readMask := by cases op <;> rfl
    have h2 : (c.step op).writeMask = c.writeMask := by cases op <;> rfl
    simpa [SimpleCsr.run, h1, h2] using h

/-- Bit `i` after one write, for an accessor of any width. -/
theorem write_bit (c : SimpleCsr w) {n : Nat} (v : BitVec n) (i : Nat) (hi : i < w) :
    (c.write v).value.getLsbD i =
      if c.writeMask.getLsbD i then v.getLsbD i
      else decide (i < n) && c.value.getLsbD i := by
  simp only [SimpleCsr.write, SimpleCsr.set, SimpleCsr.get, BitVec.getLsbD_setWidth, BitVec.getLsbD_or, BitVec.getLsbD_and,
    BitVec.getLsbD_not, hi, decide_true, Bool.true_and]
  cases c.writeMask.getLsbD i <;> simp

/-- One step agrees with the bit-level specification when the accessor is at least as wide
as the CSR, and for the low `n` bits for a narrower accessor. -/
theorem step_bit (c : SimpleCsr w) (op : Op) (i : Nat) (hi : i < w) (hn : i < op.bits) :
    (c.step op).value.getLsbD i =
      Spec.stepBit (c.writeMask.getLsbD i) op i (c.value.getLsbD i) := by
  cases op <;> simp only [Op.bits] at hn <;>
    simp [SimpleCsr.step, setBits, clearBits, write_bit c _ i hi, Spec.stepBit, Spec.bit, hn,
      SimpleCsr.get]

/-! ### C01 -/

/-- **C01.** After any history of writes, bit-sets and bit-clears through accessors at
least as wide as the CSR, every bit of the CSR has the value prescribed by the masked
register specification. -/
theorem C01_masked_history (c : SimpleCsr w) (ops : List Op)
    (hacc : ∀ op ∈ ops, w ≤ op.bits) (i : Nat) (hi : i < w) :
    (c.run ops).value.getLsbD i =
      Spec.runBit (c.writeMask.getLsbD i) ops i (c.value.getLsbD i) := by
  induction ops generalizing c with
  | nil => rfl
  | cons op ops ih =>
    have h1 : i < op.bits := Nat.lt_of_lt_of_le hi (hacc op (by simp))
    have h2 : (c.step op).writeMask = c.writeMask := by cases op <;> rfl
    have := ih (c.step op) (fun o ho => hacc o (by simp [ho]))
    simp only [SimpleCsr.run, List.foldl_cons, Spec.runBit] at *
    rw [this, h2, step_bit c op i hi h1]

/-- **C01, corollary.** Bits outside the write mask never change, whatever the history. -/
theorem C01_readonly_bits_constant (c : SimpleCsr w) (ops : List Op)
    (hacc : ∀ op ∈ ops, w ≤ op.bits) (i : Nat) (hi : i < w)
    (hro : c.writeMask.getLsbD i = false) :
    (c.run ops).value.getLsbD i = c.value.getLsbD i := by
  rw [C01_masked_history c ops hacc i hi, hro]
  induction ops with
  | nil => rfl
  | cons op ops ih =>
    simpa [Spec.runBit, Spec.stepBit] using ih (fun o ho => hacc o (by simp [ho]))

/-- **C01, reads.** A read through an accessor at least as wide as the CSR shows exactly
the stored bits selected by the read mask (and zero above the CSR's width). -/
theorem C01_read (c : SimpleCsr w) (n : Nat) (hn : w ≤ n) (i : Nat) :
    (c.as n).getLsbD i = (c.value.getLsbD i && c.readMask.getLsbD i) := by
  have hv : n ≤ i → c.value.getLsbD i = false := fun h =>
    BitVec.getLsbD_of_ge _ _ (Nat.le_trans hn h)
  simp only [SimpleCsr.as, SimpleCsr.get, BitVec.getLsbD_and, BitVec.getLsbD_setWidth]
  by_cases h : i < n
  · simp [h]
  · simp [hv (Nat.le_of_not_lt h)]

/-- Non-vacuity: a 32-bit CSR with partial masks and a real history. -/
example :
    let c : SimpleCsr 32 := ⟨0xf0f0, 0xffff, 0x00ff⟩
    let ops := [Op.write32 0x1234, Op.setBits64 0xffffffffff, Op.clearBits32 0x3]
    (∀ op ∈ ops, 32 ≤ op.bits) ∧ (c.run ops).value = 0xf0fc ∧
      (c.run ops).value ≠ c.value := by
  refine ⟨?_, by decide, by decide⟩
  intro op hop; simp at hop; rcases hop with rfl | rfl | rfl <;> decide

/-- A data buffer whose size is neither 4 nor 8 bytes has no effect; otherwise it acts as
the operation of that width. -/
theorem C01_data_buffer (c : SimpleCsr w) (kind : DbKind) (db : Db) :
    (db.size = 4 → c.setDataBuffer kind db = c.step (kind.op32 (db.bits.setWidth 32))) ∧
    (db.size = 8 → c.setDataBuffer kind db = c.step (kind.op64 db.bits)) ∧
    (db.size ≠ 4 → db.size ≠ 8 → c.setDataBuffer kind db = c) := by
  refine ⟨fun h => ?_, fun h => ?_, fun h1 h2 => ?_⟩ <;> simp [setDataBuffer, *]

/-! ### C02 -/

/-- **C02, violated.** A 32-bit write to a 64-bit CSR with a write mask that covers no
upper bit nevertheless clears the upper half. -/
theorem C02_upper_half_violated :
    ∃ (c : SimpleCsr 64) (v : BitVec 32) (i : Nat), 32 ≤ i ∧ i < 64 ∧
      c.writeMask.getLsbD i = false ∧
      (c.step (.write32 v)).value.getLsbD i ≠ c.value.getLsbD i :=
  ⟨⟨0xffffffffffffffff, 0xffffffffffffffff, 0xff⟩, 0, 40, by decide, by decide, by decide,
    by decide⟩

/-- **C02, exact behaviour.** What a 32-bit operation on a 64-bit CSR does: the low half
behaves as a masked register, and every bit of the upper half becomes zero. -/
theorem C02_narrow_access_exact (c : SimpleCsr 64) (op : Op) (h : op.bits = 32) (i : Nat)
    (hi : i < 64) :
    (c.step op).value.getLsbD i =
      if i < 32 then Spec.stepBit (c.writeMask.getLsbD i) op i (c.value.getLsbD i)
      else false := by
  split
  · next hlt => exact step_bit c op i hi (by rw [h]; exact hlt)
  · next hge =>
    have hge : 32 ≤ i := Nat.le_of_not_lt hge
    have hv : ∀ x : BitVec 32, x.getLsbD i = false := fun x => BitVec.getLsbD_of_ge _ _ hge
    cases op <;> simp only [Op.bits, Nat.reduceEqDiff] at h <;>
      simp only [SimpleCsr.step, setBits, clearBits, write_bit c _ i hi, hv,
        Nat.not_lt.mpr hge, decide_false, Bool.false_and, ite_self]

/-- **C02, partial.** The claim holds when the stored upper half is zero and the history
only uses 32-bit accessors. Missing: any state with a nonzero upper half (see
`C02_upper_half_violated`). -/
theorem C02_upper_half_partial (c : SimpleCsr 64) (ops : List Op)
    (h : ∀ op ∈ ops, op.bits = 32) (h0 : ∀ i, 32 ≤ i → c.value.getLsbD i = false)
    (i : Nat) (hi : i < 64) :
    (c.run ops).value.getLsbD i =
      if i < 32 then Spec.runBit (c.writeMask.getLsbD i) ops i (c.value.getLsbD i)
      else c.value.getLsbD i := by
  induction ops generalizing c with
  | nil => split <;> rfl
  | cons op ops ih =>
    have hop := h op (by simp)
    have hm : (c.step op).writeMask = c.writeMask := by cases op <;> rfl
    have hz : ∀ j, 32 ≤ j → (c.step op).value.getLsbD j = false := by
      intro j hj
      by_cases hj64 : j < 64
      · rw [C02_narrow_access_exact c op hop j hj64]; simp [Nat.not_lt.mpr hj]
      · exact BitVec.getLsbD_of_ge _ _ (by omega)
    have := ih (c.step op) (fun o ho => h o (by simp [ho])) hz
    simp only [SimpleCsr.run, List.foldl_cons, Spec.runBit] at *
    rw [this, hm]
    split
    · next hlt => rw [C02_narrow_access_exact c op hop i hi]; simp [hlt]
    · next hge => rw [hz i (by omega), h0 i (by omega)]

example : ∃ c : SimpleCsr 64, (∀ i, 32 ≤ i → c.value.getLsbD i = false) ∧
    (c.step (.write32 0xdeadbeef)).value = 0xdeadbeef :=
  ⟨⟨0x1234, -1, -1⟩, fun i hi => by
    by_cases h : i < 64
    · have : ∀ j : Fin 64, 32 ≤ j.val → (0x1234 : BitVec 64).getLsbD j.val = false := by decide
      exact this ⟨i, h⟩ hi
    · exact BitVec.getLsbD_of_ge _ _ (by omega), by decide⟩

/-! ### C03 -/

theorem shadow_run_masks (s : ShadowCsr w) (ops : List Op) :
    (s.run ops).readMask = s.readMask ∧ (s.run ops).writeMask = s.writeMask ∧
    (s.run ops).csr.writeMask = s.csr.writeMask ∧ (s.run ops).csr.readMask = s.csr.readMask := by
  induction ops generalizing s with
  | nil => exact ⟨rfl, rfl, rfl, rfl⟩
  | cons op ops ih =>
    obtain ⟨h1, h2, h3, h4⟩ := ih (s.step op)
    have key : (s.step op).readMask = s.readMask ∧ (s.step op).writeMask = s.writeMask ∧
        (s.step op).csr.writeMask = s.csr.writeMask ∧
        (s.step op).csr.readMask = s.csr.readMask := by
      cases op <;>
        simp only [ShadowCsr.step, ShadowCsr.write, ShadowCsr.setBits, ShadowCsr.clearBits] <;>
        split <;> exact ⟨rfl, rfl, rfl, rfl⟩
    obtain ⟨k1, k2, k3, k4⟩ := key
    simp only [ShadowCsr.run, List.foldl_cons] at *
    exact ⟨h1.trans k1, h2.trans k2, h3.trans k3, h4.trans k4⟩

theorem shadow_step_bit (s : ShadowCsr w) (op : Op) (i : Nat) (hi : i < w)
    (hn : w ≤ op.bits) :
    (s.step op).csr.value.getLsbD i =
      Spec.stepBit (s.writeMask.getLsbD i && s.csr.writeMask.getLsbD i) op i
        (s.csr.value.getLsbD i) := by
  have key : ∀ {n : Nat} (v : BitVec n), w ≤ n → (s.write v).csr.value.getLsbD i =
      if s.writeMask.getLsbD i && s.csr.writeMask.getLsbD i then v.getLsbD i
      else s.csr.value.getLsbD i := by
    intro n v hwn
    have hin : i < n := Nat.lt_of_lt_of_le hi hwn
    unfold ShadowCsr.write
    split
    · simp only [write_bit _ _ i hi, SimpleCsr.get]
      simp only [BitVec.getLsbD_setWidth, BitVec.getLsbD_or, BitVec.getLsbD_and,
        BitVec.getLsbD_not, hi, hin, decide_true, Bool.true_and]
      cases s.writeMask.getLsbD i <;> cases s.csr.writeMask.getLsbD i <;> simp
    · next h =>
      have h0 : s.writeMask = 0 := by simpa using h
      simp [h0]
  have hin : i < op.bits := Nat.lt_of_lt_of_le hi hn
  cases op <;> simp only [Op.bits] at hn hin <;>
    simp [ShadowCsr.step, ShadowCsr.setBits, ShadowCsr.clearBits, key _ hn, Spec.stepBit, Spec.bit,
      SimpleCsr.get, hin]

/-- **C03, writes.** Any history of operations through a shadow CSR acts on the primary as
on a masked register whose writable bits are those writable in both. In particular no
other bit changes. -/
theorem C03_shadow_history (s : ShadowCsr w) (ops : List Op)
    (hacc : ∀ op ∈ ops, w ≤ op.bits) (i : Nat) (hi : i < w) :
    (s.run ops).csr.value.getLsbD i =
      Spec.runBit (s.writeMask.getLsbD i && s.csr.writeMask.getLsbD i) ops i
        (s.csr.value.getLsbD i) := by
  induction ops generalizing s with
  | nil => rfl
  | cons op ops ih =>
    have hm := shadow_run_masks s [op]
    have := ih (s.step op) (fun o ho => hacc o (by simp [ho]))
    simp only [ShadowCsr.run, List.foldl_cons, List.foldl_nil, Spec.runBit] at *
    rw [this, hm.2.1, hm.2.2.1, shadow_step_bit s op i hi (hacc op (by simp))]

theorem C03_shadow_protects (s : ShadowCsr w) (ops : List Op)
    (hacc : ∀ op ∈ ops, w ≤ op.bits) (i : Nat) (hi : i < w)
    (hro : s.writeMask.getLsbD i = false ∨ s.csr.writeMask.getLsbD i = false) :
    (s.run ops).csr.value.getLsbD i = s.csr.value.getLsbD i := by
  rw [C03_shadow_history s ops hacc i hi]
  have : (s.writeMask.getLsbD i && s.csr.writeMask.getLsbD i) = false := by
    rcases hro with h | h <;> simp [h]
  rw [this]
  clear hacc
  induction ops with
  | nil => rfl
  | cons op ops ih => simpa [Spec.runBit, Spec.stepBit] using ih

/-- **C03, reads.** A read of the shadow is the primary's visible value restricted to the
shadow's read mask. -/
theorem C03_shadow_read (s : ShadowCsr w) (n : Nat) (hn : w ≤ n) (i : Nat) :
    (s.as n).getLsbD i =
      (s.csr.value.getLsbD i && s.csr.readMask.getLsbD i && s.readMask.getLsbD i) := by
  have hw : ¬ i < w → s.csr.value.getLsbD i = false := fun h =>
    BitVec.getLsbD_of_ge _ _ (Nat.le_of_not_lt h)
  have h1 := C01_read s.csr n hn i
  simp only [ShadowCsr.as, BitVec.getLsbD_setWidth, BitVec.getLsbD_and, h1]
  by_cases h : i < w
  · have : i < n := Nat.lt_of_lt_of_le h hn
    simp [h, this]
  · simp [hw h]

example :
    let s : ShadowCsr 64 := ⟨⟨0xf000, -1, 0xfff⟩, 0xff, 0x0f⟩
    (s.run [.write64 0xabcdef, .setBits64 0x30]).csr.value = 0xf00f ∧
    (s.run [.write64 0xabcdef]).as 64 = 0x0f := by decide

end Verif.Csr
