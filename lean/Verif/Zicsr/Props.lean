import Verif.Zicsr.Spec
import Verif.Csr.Props
import Verif.Hart.Trap
/-
C17, C18: permission checks and read-modify-write of the CSR instructions.
-/
namespace Verif.Zicsr
open Verif.Csr (SimpleCsr)
open Verif.Hart (Hart)
open Verif.Hart.Hart (trap kIllegal)
variable {w : Nat}

theorem required_eq (a : BitVec 12) : ((a >>> 8) &&& 3).toNat = Spec.minMode a := by
  unfold Spec.minMode
  have : (a >>> 8) &&& 3 = (a.extractLsb' 8 2).setWidth 12 := by
    refine BitVec.eq_of_getLsbD_eq (fun i hi => ?_)
    bits_at
    generalize a.getLsbD (8 + i) = x
    revert x; revert i
    exact allLt (by decide)
  rw [this, BitVec.toNat_setWidth]
  have := (a.extractLsb' 8 2).isLt
  exact Nat.mod_eq_of_lt (by omega)

theorem tvm_eq (m : Machine w) : m.hart.mstatus.getter .tvm ≠ 0 ↔
    m.hart.mstatus.value.getLsbD 20 = true := by
  exact Hart.getter1 m.hart.mstatus .tvm rfl

/-! ### C17 -/

/-- **C17, partial.** A CSR instruction whose CSR needs a higher mode, or that accesses satp in
supervisor mode with TVM set, has exactly the effect of an illegal-instruction exception: no CSR
of the file and no register changes. Missing: writes to read-only CSRs and unknown CSRs
(violations below). -/
theorem C17_privilege_partial (m : Machine w) (i : Insn) (rd rs1 : BitVec 5) (a : BitVec 12)
    (pc : BitVec 64)
    (h : m.hart.mode.toNat < Spec.minMode a ∨
      (m.hart.mode = Hart.S ∧ a = 0x180 ∧ m.hart.mstatus.value.getLsbD 20 = true)) :
    step m i rd rs1 a pc = { m with hart := Hart.step m.hart (.exception 0 2 pc) } := by
  have hr : refused m a pc = some { m with hart := m.hart.trap false 0 kIllegal pc } := by
    unfold refused
    simp only [required_eq]
    by_cases h1 : m.hart.mode.toNat < Spec.minMode a
    · rw [if_pos h1]
    · rw [if_neg h1]
      rcases h with h | ⟨h2, h3, h4⟩
      · exact absurd h h1
      · rw [if_pos ⟨h2, h3, (tvm_eq m).2 h4⟩]
  unfold step exec
  rw [hr]
  rfl

/-- A machine with a writable-mask CSR at a read-only address, for the witnesses. -/
def roMachine : Machine 64 :=
  { hart := Hart.init 64 true
    csrs := fun a => if a = 0xf14 then some ⟨7, -1, -1⟩ else none
    regs := fun _ => 5 }

/-- **C17, violated (read-only).** csrrw to the read-only address 0xf14 raises no exception, and
changes the CSR if its mask allows it. -/
theorem C17_readonly_violated :
    Spec.illegal roMachine .rw 2 0xf14 ∧
    (step roMachine .rw 1 2 0xf14 0x100).hart.mcause = 0 ∧
    (step roMachine .rw 1 2 0xf14 0x100).csrs 0xf14 = some ⟨5, -1, -1⟩ := by
  refine ⟨Or.inr (Or.inl ⟨by decide, by decide⟩), by decide, by decide⟩

/-- **C17, violated (nonexistent).** An unknown CSR raises no exception: the instruction is
silently ignored, for every machine state with sufficient privilege. -/
theorem C17_nonexistent_violated (m : Machine w) (i : Insn) (rd rs1 : BitVec 5) (a : BitVec 12)
    (pc : BitVec 64) (hn : m.csrs a = none) (hm : Spec.minMode a ≤ m.hart.mode.toNat)
    (hs : a ≠ 0x180) : step m i rd rs1 a pc = m := by
  unfold step exec refused
  simp only [required_eq]
  rw [if_neg (by omega), if_neg (fun h => hs h.2.1)]
  simp [hn]

/-- Non-vacuity: user-mode access to a machine CSR is refused with cause 2. -/
example :
    let m : Machine 64 := { roMachine with hart := { Hart.init 64 true with mode := Hart.U } }
    m.hart.mode.toNat < Spec.minMode 0xf14 ∧ (step m .rs 1 0 0xf14 0x100).hart.mcause = 2 ∧
    (step m .rs 1 0 0xf14 0x100).hart.mepc = 0x100 ∧ (step m .rs 1 0 0xf14 0x100).regs 1 = 5 := by
  decide

theorem sem_csrrs {i : Insn} {rd rs1 : BitVec 5} (h : sem i rd rs1 = .csrrs) :
    (i = .rs ∨ i = .rsi) ∧ Spec.writes i rs1 = true := by
  revert h
  cases i <;> simp only [sem, Spec.writes] <;> split <;> simp_all

theorem sem_csrrc {i : Insn} {rd rs1 : BitVec 5} (h : sem i rd rs1 = .csrrc) :
    (i = .rc ∨ i = .rci) ∧ Spec.writes i rs1 = true := by
  revert h
  cases i <;> simp only [sem, Spec.writes] <;> split <;> simp_all

/-! ### C18 -/

/-- **C18.** A permitted access to an existing CSR: rd (unless x0) receives the old visible value,
except that csrrw/csrrwi with rd = x0 read nothing; each bit of the CSR becomes the requested bit
if it is writable and the instruction writes, and is unchanged otherwise; nothing else changes. -/
theorem C18_rmw (m : Machine w) (i : Insn) (rd rs1 : BitVec 5) (a : BitVec 12) (pc : BitVec 64)
    (c : SimpleCsr w) (hc : m.csrs a = some c) (hm : Spec.minMode a ≤ m.hart.mode.toNat)
    (hs : ¬ (m.hart.mode = Hart.S ∧ a = 0x180 ∧ m.hart.mstatus.value.getLsbD 20 = true)) :
    let t := step m i rd rs1 a pc
    (∃ c', t.csrs a = some c' ∧ c'.readMask = c.readMask ∧ c'.writeMask = c.writeMask ∧
      ∀ k, k < w → c'.value.getLsbD k =
        if Spec.writes i rs1 && c.writeMask.getLsbD k then
          Spec.newBit i (c.value.getLsbD k) (Spec.operandBit m i rs1 k)
        else c.value.getLsbD k) ∧
    (rd ≠ 0 → ∀ k, k < w →
      (t.regs rd).getLsbD k = (c.value.getLsbD k && c.readMask.getLsbD k)) ∧
    (∀ r, r ≠ rd ∨ rd = 0 → t.regs r = m.regs r) ∧
    (∀ b, b ≠ a → t.csrs b = m.csrs b) ∧ t.hart = m.hart := by
  have hr : refused m a pc = none := by
    unfold refused; simp only [required_eq]
    rw [if_neg (by omega), if_neg (fun h => hs ⟨h.1, h.2.1, (tvm_eq m).1 h.2.2⟩)]
  have hop : ∀ k, k < w → (operand m i rs1).getLsbD k = Spec.operandBit m i rs1 k := by
    intro k hk
    have hreg : (if rs1 = 0 then 0 else m.regs rs1).getLsbD k =
        (decide (rs1 ≠ 0) && (m.regs rs1).getLsbD k) := by
      by_cases h0 : rs1 = 0
      · rw [if_pos h0]; simp [h0]
      · rw [if_neg h0]; simp only [ne_eq, h0, not_false_eq_true, decide_true, Bool.true_and]
    have himm : (rs1.setWidth w).getLsbD k = rs1.getLsbD k := by
      rw [BitVec.getLsbD_setWidth]; simp [hk]
    cases i
    · exact hreg
    · exact hreg
    · exact hreg
    · exact himm
    · exact himm
    · exact himm
  have hread : ∀ k, k < w →
      (c.as w).getLsbD k = (c.value.getLsbD k && c.readMask.getLsbD k) :=
    fun k _ => Csr.C01_read c w (Nat.le_refl w) k
  have hreg : ∀ (m' : Machine w) v, rd ≠ 0 → (setReg m' rd v).regs rd = v := by
    intro m' v h; simp only [setReg, if_neg h, if_true]
  have hreg' : ∀ v r, r ≠ rd ∨ rd = 0 → (setReg m rd v).regs r = m.regs r := by
    intro v r h; unfold setReg; split
    · rfl
    · next h0 =>
      rcases h with h | h
      · simp [h]
      · exact absurd h h0
  have hrc : ∀ v, (setReg m rd v).csrs = m.csrs ∧ (setReg m rd v).hart = m.hart := by
    intro v; unfold setReg; split <;> exact ⟨rfl, rfl⟩
  have hstep : step m i rd rs1 a pc =
      match sem i rd rs1 with
      | .csrrw => (setReg m rd (c.as w)).setCsr a (c.write (operand m i rs1))
      | .csrrs => (setReg m rd (c.as w)).setCsr a (c.setBits (operand m i rs1))
      | .csrrc => (setReg m rd (c.as w)).setCsr a (c.clearBits (operand m i rs1))
      | .csrrwNr => m.setCsr a (c.write (operand m i rs1))
      | .csrrNw => setReg m rd (c.as w) := by
    unfold step exec; rw [hr, hc]; cases sem i rd rs1 <;> rfl
  have hw : ∀ (v : BitVec w) k, k < w → (c.write v).value.getLsbD k =
      if c.writeMask.getLsbD k then v.getLsbD k else c.value.getLsbD k := by
    intro v k hk; rw [Csr.write_bit c v k hk]; simp [hk]
  have hwb : ∀ (v : BitVec w) k, k < w → (c.setBits v).value.getLsbD k =
      if c.writeMask.getLsbD k then c.value.getLsbD k || v.getLsbD k else c.value.getLsbD k := by
    intro v k hk
    rw [SimpleCsr.setBits, hw _ k hk]
    simp [SimpleCsr.get]
  have hwc : ∀ (v : BitVec w) k, k < w → (c.clearBits v).value.getLsbD k =
      if c.writeMask.getLsbD k then c.value.getLsbD k && !v.getLsbD k else c.value.getLsbD k := by
    intro v k hk
    rw [SimpleCsr.clearBits, hw _ k hk]
    simp [SimpleCsr.get, hk]
  -- the four shapes
  have shape : ∀ (c' : SimpleCsr w) (t : Machine w), t = (setReg m rd (c.as w)).setCsr a c' →
      t.csrs a = some c' ∧ (rd ≠ 0 → t.regs rd = c.as w) ∧
      (∀ r, r ≠ rd ∨ rd = 0 → t.regs r = m.regs r) ∧
      (∀ b, b ≠ a → t.csrs b = m.csrs b) ∧ t.hart = m.hart := by
    rintro c' t rfl
    refine ⟨by simp [Machine.setCsr], fun h => hreg m _ h, fun r h => hreg' _ r h, ?_, (hrc _).2⟩
    intro b hb; simp [Machine.setCsr, hb, (hrc (c.as w)).1]
  intro t
  have ht : t = _ := hstep
  by_cases hnr : sem i rd rs1 = .csrrwNr
  · -- csrrw/csrrwi with rd = x0
    have hi : (i = .rw ∨ i = .rwi) ∧ rd = 0 := by
      cases i <;> simp only [sem] at hnr <;> split at hnr <;> simp_all
    rw [hnr] at ht
    simp only at ht
    rw [ht]
    refine ⟨⟨c.write (operand m i rs1), by simp [Machine.setCsr], rfl, rfl, fun k hk => ?_⟩,
      fun h => absurd hi.2 h, fun r _ => rfl, fun b hb => by simp [Machine.setCsr, hb], rfl⟩
    rw [hw _ k hk, hop k hk]
    rcases hi.1 with rfl | rfl <;> simp [Spec.writes, Spec.newBit]
  · by_cases hnw : sem i rd rs1 = .csrrNw
    · have hi : Spec.writes i rs1 = false := by
        cases i <;> simp only [sem] at hnw <;> split at hnw <;> simp_all [Spec.writes]
      rw [hnw] at ht
      simp only at ht
      rw [ht]
      refine ⟨⟨c, by rw [(hrc _).1]; exact hc, rfl, rfl, fun k _ => by simp [hi]⟩,
        fun h k hk => by rw [hreg m _ h]; exact hread k hk, fun r h => hreg' _ r h,
        fun b _ => by rw [(hrc _).1], (hrc _).2⟩
    · suffices fin : ∃ c', t = (setReg m rd (c.as w)).setCsr a c' ∧
          c'.readMask = c.readMask ∧ c'.writeMask = c.writeMask ∧
          (∀ k, k < w → c'.value.getLsbD k =
            if Spec.writes i rs1 && c.writeMask.getLsbD k then
              Spec.newBit i (c.value.getLsbD k) (Spec.operandBit m i rs1 k)
            else c.value.getLsbD k) by
        obtain ⟨c', h1, h2, h3, h4⟩ := fin
        obtain ⟨s1, s2, s3, s4, s5⟩ := shape c' t h1
        exact ⟨⟨c', s1, h2, h3, h4⟩, fun h k hk => by rw [s2 h]; exact hread k hk, s3, s4, s5⟩
      cases hsem : sem i rd rs1 with
      | csrrwNr => exact absurd hsem hnr
      | csrrNw => exact absurd hsem hnw
      | csrrw =>
        rw [hsem] at ht
        have hi : i = .rw ∨ i = .rwi := by
          cases i <;> simp only [sem] at hsem <;> split at hsem <;> simp_all
        refine ⟨_, ht, rfl, rfl, fun k hk => ?_⟩
        rw [hw _ k hk, hop k hk]
        rcases hi with rfl | rfl <;> simp [Spec.writes, Spec.newBit]
      | csrrs =>
        rw [hsem] at ht
        have hi := sem_csrrs hsem
        refine ⟨_, ht, rfl, rfl, fun k hk => ?_⟩
        rw [hwb _ k hk, hop k hk]
        rw [hi.2, Bool.true_and]
        rcases hi.1 with rfl | rfl <;> rfl
      | csrrc =>
        rw [hsem] at ht
        have hi := sem_csrrc hsem
        refine ⟨_, ht, rfl, rfl, fun k hk => ?_⟩
        rw [hwc _ k hk, hop k hk]
        rw [hi.2, Bool.true_and]
        rcases hi.1 with rfl | rfl <;> rfl

/-- Non-vacuity: csrrc with rd = rs1 on a partly writable CSR. -/
example :
    let m : Machine 64 := { roMachine with
      csrs := fun a => if a = 0x340 then some ⟨0xff, 0xfff, 0x0f⟩ else none }
    Spec.minMode 0x340 ≤ m.hart.mode.toNat ∧
    (step m .rc 3 3 0x340 0).regs 3 = 0xff ∧
    (step m .rc 3 3 0x340 0).csrs 0x340 = some ⟨0xfa, 0xfff, 0x0f⟩ := by decide

end Verif.Zicsr
