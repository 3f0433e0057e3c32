import Verif.Xip.Spec
import Verif.Csr.Spec
import Verif.Util.Bits
namespace Verif.Xip
open Verif.Csr (Op)
open MIp

/-! ### Lemmas about bit 9 -/

theorem get_bit9 (m : MIp) : m.get.getLsbD 9 = (m.stored.getLsbD 9 || m.ext) := by
  unfold MIp.get extBits
  rw [BitVec.getLsbD_or]
  cases m.ext <;> simp

theorem write64_bit9 (m : MIp) (v : BitVec 64) :
    (m.write64 v).stored.getLsbD 9 = v.getLsbD 9 := by
  simp only [write64, MIp.set]; bits_at
  have : mipWriteMask.getLsbD 9 = true := by decide
  rw [this]; simp

theorem write32_bit9 (m : MIp) (v : BitVec 32) :
    (m.write32 v).stored.getLsbD 9 = v.getLsbD 9 := by
  simp only [write32, MIp.set]; bits_at
  have : mipWriteMask.getLsbD 9 = true := by decide
  rw [this]; simp

theorem setBit_bit9 (m : MIp) (k : Nat) (v : BitVec 64) :
    (m.setBit k v).stored.getLsbD 9 = if k = 9 then v.getLsbD 0 else m.get.getLsbD 9 := by
  simp only [MIp.setBit, MIp.set]; bits_at
  by_cases h : k = 9
  · subst h; simp
  · rw [if_neg h]
    by_cases h2 : 9 < k
    · simp [h2]
    · have h3 : (1 : BitVec 64).getLsbD (9 - k) = false := by
        have : 9 - k ≠ 0 := by omega
        simp [BitVec.getLsbD_one, this]
      simp only [h3]
      simp

/-! ### C08 -/

/-- **C08, read.** SEIP reads as the OR of the stored bit and the line, in every state, through
the register and through `seip()`. -/
theorem C08_seip_reads_or (m : MIp) :
    m.as64.getLsbD 9 = (m.stored.getLsbD 9 || m.ext) ∧
    m.as32.getLsbD 9 = (m.stored.getLsbD 9 || m.ext) ∧
    m.seip = (m.stored.getLsbD 9 || m.ext) := by
  have h : mipReadMask.getLsbD 9 = true := by decide
  refine ⟨?_, ?_, ?_⟩
  · rw [as64, BitVec.getLsbD_and, h, get_bit9]; simp
  · rw [as32, BitVec.getLsbD_setWidth, BitVec.getLsbD_and, h, get_bit9]; simp
  · rw [seip, get_bit9]; cases m.stored.getLsbD 9 <;> cases m.ext <;> rfl

/-- **C08, violated.** With the line high, updating an unrelated bit latches SEIP: after the line
is lowered SEIP still reads 1 although software never wrote it. The update is a timer interrupt
from the interrupt controller. -/
theorem C08_seip_latched_violated :
    ∃ es : List MipEvent,
      (mipRun ⟨0, false⟩ es).as64.getLsbD 9 = true ∧
      (Spec.run ⟨false, false⟩ es).soft = false ∧ (Spec.run ⟨false, false⟩ es).line = false :=
  ⟨[.ext 1, .setBit 7 1, .ext 0], by decide, by decide, by decide⟩

/-- The same with a CSR instruction that sets an unrelated bit (SSIP). -/
theorem C08_seip_latched_csr_violated :
    ∃ es : List MipEvent,
      (mipRun ⟨0, false⟩ es).as64.getLsbD 9 = true ∧
      (Spec.run ⟨false, false⟩ es).soft = false ∧ (Spec.run ⟨false, false⟩ es).line = false :=
  ⟨[.ext 1, .csr (.setBits64 2), .ext 0], by decide, by decide, by decide⟩

/-- **C08, partial.** If, while the line is high, mip is changed only by plain writes, by
`set_seip` or by moving the line, SEIP reads as the specification says at every point of every
history. Missing: updates of other bits while the line is high (see the violations). -/
theorem C08_seip_partial (m : MIp) (es : List MipEvent)
    (hq : Spec.quietWhileHigh m.ext es = true) :
    let r := Spec.run ⟨m.stored.getLsbD 9, m.ext⟩ es
    (mipRun m es).as64.getLsbD 9 = (r.soft || r.line) ∧
    (mipRun m es).stored.getLsbD 9 = r.soft ∧ (mipRun m es).ext = r.line := by
  have key : (mipRun m es).stored.getLsbD 9 = (Spec.run ⟨m.stored.getLsbD 9, m.ext⟩ es).soft ∧
      (mipRun m es).ext = (Spec.run ⟨m.stored.getLsbD 9, m.ext⟩ es).line := by
    induction es generalizing m with
    | nil => exact ⟨rfl, rfl⟩
    | cons e es ih =>
      simp only [Spec.quietWhileHigh, Bool.and_eq_true, Bool.or_eq_true, Bool.not_eq_true'] at hq
      obtain ⟨hq1, hq2⟩ := hq
      have hstep : (mipStep m e).stored.getLsbD 9 =
            (Spec.step ⟨m.stored.getLsbD 9, m.ext⟩ e).soft ∧
          (mipStep m e).ext = (Spec.step ⟨m.stored.getLsbD 9, m.ext⟩ e).line := by
        cases e with
        | csr op =>
          cases op with
          | write32 v => exact ⟨write32_bit9 m v, rfl⟩
          | write64 v => exact ⟨write64_bit9 m v, rfl⟩
          | setBits32 v =>
            have hl : m.ext = false := by simpa [Spec.noReadBack] using hq1
            refine ⟨?_, rfl⟩
            simp only [mipStep, csrOp, write32_bit9, BitVec.getLsbD_or, Spec.step]
            rw [BitVec.getLsbD_setWidth, get_bit9, hl]; simp
          | setBits64 v =>
            have hl : m.ext = false := by simpa [Spec.noReadBack] using hq1
            refine ⟨?_, rfl⟩
            simp only [mipStep, csrOp, write64_bit9, BitVec.getLsbD_or, Spec.step]
            rw [get_bit9, hl]; simp
          | clearBits32 v =>
            have hl : m.ext = false := by simpa [Spec.noReadBack] using hq1
            refine ⟨?_, rfl⟩
            simp only [mipStep, csrOp, write32_bit9, BitVec.getLsbD_and, BitVec.getLsbD_not,
              Spec.step]
            rw [BitVec.getLsbD_setWidth, get_bit9, hl]; simp
          | clearBits64 v =>
            have hl : m.ext = false := by simpa [Spec.noReadBack] using hq1
            refine ⟨?_, rfl⟩
            simp only [mipStep, csrOp, write64_bit9, BitVec.getLsbD_and, BitVec.getLsbD_not,
              Spec.step]
            rw [get_bit9, hl]; simp
        | setBit k v =>
          simp only [mipStep, setBit_bit9, Spec.step]
          by_cases hk : k = 9
          · simp [hk]; rfl
          · have hl : m.ext = false := by simpa [Spec.noReadBack, hk] using hq1
            simp only [hk, if_false, get_bit9]
            exact ⟨by rw [hl]; simp, rfl⟩
        | ext v => exact ⟨rfl, rfl⟩
      have hline : (Spec.step ⟨false, m.ext⟩ e).line = (mipStep m e).ext := by
        rw [hstep.2]
        cases e with
        | csr op => cases op <;> rfl
        | setBit k v => simp only [Spec.step]; split <;> rfl
        | ext v => rfl
      rw [hline] at hq2
      have := ih (mipStep m e) hq2
      rw [hstep.1, hstep.2] at this
      exact this
  refine ⟨?_, key.1, key.2⟩
  rw [(C08_seip_reads_or _).1, key.1, key.2]

/-- Non-vacuity of the hypothesis: the line is high while software writes and clears SEIP. -/
example : Spec.quietWhileHigh false
    [.setBit 7 1, .ext 1, .csr (.write64 0x200), .csr (.write32 0), .ext 0, .csr (.setBits64 2)]
    = true := by decide

/-! ### C09 -/

/-- Exact effect of a 64-bit write to sip on each stored bit of mip. -/
theorem C09_sip_write_exact (mideleg : BitVec 64) (m : MIp) (v : BitVec 64) (i : Nat)
    (hi : i < 64) :
    (sipWrite mideleg m v).stored.getLsbD i =
      if sipWriteMask.getLsbD i then m.get.getLsbD i || v.getLsbD i
      else mideleg.getLsbD i && m.get.getLsbD i := by
  simp only [sipWrite, sipSet, sipGet, MIp.set]; bits_at
  cases m.get.getLsbD i <;> cases v.getLsbD i <;> cases sipWriteMask.getLsbD i <;>
    cases mideleg.getLsbD i <;> cases sipReadMask.getLsbD i <;> simp [hi]

/-- Exact effect of a 64-bit write to sie on each bit of mie. -/
theorem C09_sie_write_exact (mideleg mie v : BitVec 64) (i : Nat) (hi : i < 64) :
    (sieWrite mideleg mie v).getLsbD i =
      if mieMask.getLsbD i then mie.getLsbD i || v.getLsbD i
      else mideleg.getLsbD i && mie.getLsbD i := by
  simp only [sieWrite, sieSet, sieGet]; bits_at
  cases mie.getLsbD i <;> cases v.getLsbD i <;> cases mieMask.getLsbD i <;>
    cases mideleg.getLsbD i <;> simp [hi]

/-- **C09, violated (1).** A supervisor write cannot clear a delegated, writable pending bit
(SSIP). -/
theorem C09_sip_clear_violated :
    ∃ (m : MIp) (v : BitVec 64), v.getLsbD 1 = false ∧ sipWriteMask.getLsbD 1 = true ∧
      (sipWrite 0x222 m v).as64.getLsbD 1 = true :=
  ⟨⟨0x2, false⟩, 0, by decide, by decide, by decide⟩

/-- **C09, violated (2).** A supervisor write to sip clears a pending machine timer interrupt,
which is not writable through sip. -/
theorem C09_sip_preserve_violated :
    ∃ (m : MIp) (v : BitVec 64), sipWriteMask.getLsbD 7 = false ∧
      m.as64.getLsbD 7 = true ∧ (sipWrite 0x222 m v).as64.getLsbD 7 = false :=
  ⟨⟨0x80, false⟩, 0, by decide, by decide, by decide⟩

/-- **C09, violated (3).** A supervisor write to sie cannot disable an interrupt. -/
theorem C09_sie_clear_violated :
    ∃ (mie v : BitVec 64), v.getLsbD 1 = false ∧ mieMask.getLsbD 1 = true ∧
      (sieWrite 0x222 mie v).getLsbD 1 = true :=
  ⟨0x2, 0, by decide, by decide, by decide⟩

/-- **C09, violated (4).** A supervisor write to sie enables a machine-level interrupt that is not
delegated. -/
theorem C09_sie_machine_violated :
    ∃ (mie v : BitVec 64), (0x222 : BitVec 64).getLsbD 7 = false ∧ mie.getLsbD 7 = false ∧
      (sieWrite 0x222 mie v).getLsbD 7 = true :=
  ⟨0, 0x80, by decide, by decide, by decide⟩

/-- **C09, partial.** A supervisor write that only adds bits (every writable bit that is pending is
written as one) in a state with no non-delegated machine bit pending makes each writable bit equal
to the written one and leaves the others unchanged. Missing: clearing bits, and preserving
non-delegated bits (see the violations). -/
theorem C09_sip_write_partial (mideleg : BitVec 64) (m : MIp) (v : BitVec 64)
    (hmono : ∀ i, sipWriteMask.getLsbD i = true → m.get.getLsbD i = true → v.getLsbD i = true)
    (hdel : ∀ i, sipWriteMask.getLsbD i = false → m.get.getLsbD i = true →
      mideleg.getLsbD i = true)
    (i : Nat) (hi : i < 64) :
    (sipWrite mideleg m v).stored.getLsbD i =
      Csr.Spec.stepBit (sipWriteMask.getLsbD i) (.write64 v) i (m.get.getLsbD i) := by
  rw [C09_sip_write_exact mideleg m v i hi, Csr.Spec.stepBit, Csr.Spec.bit]
  split
  · next h =>
    cases hg : m.get.getLsbD i with
    | false => rfl
    | true => rw [hmono i h hg]; rfl
  · next h =>
    cases hg : m.get.getLsbD i with
    | false => simp
    | true => rw [hdel i (by simpa using h) hg]; rfl

/-- **C09, partial (sie).** As above for sie: only additions are honoured. -/
theorem C09_sie_write_partial (mideleg mie v : BitVec 64)
    (hmono : ∀ i, mieMask.getLsbD i = true → mie.getLsbD i = true → v.getLsbD i = true)
    (hsub : ∀ i, mieMask.getLsbD i = false → mie.getLsbD i = false)
    (i : Nat) (hi : i < 64) :
    (sieWrite mideleg mie v).getLsbD i =
      Csr.Spec.stepBit (mieMask.getLsbD i) (.write64 v) i (mie.getLsbD i) := by
  rw [C09_sie_write_exact mideleg mie v i hi, Csr.Spec.stepBit, Csr.Spec.bit]
  split
  · next h =>
    cases hg : mie.getLsbD i with
    | false => rfl
    | true => rw [hmono i h hg]; rfl
  · next h => rw [hsub i (by simpa using h)]; simp

/-- Non-vacuity: a supervisor raising SSIP while SEIP is pending and delegated. -/
example : (sipWrite 0x222 ⟨0x200, false⟩ 0x202).stored = 0x202 ∧
    (sieWrite 0x222 0x200 0x222) = 0x222 := by decide

end Verif.Xip
