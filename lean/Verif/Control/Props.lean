import Verif.Control.Spec
import Verif.Bitmanip.Props
/-
C31: jumps and branches.
-/
namespace Verif.Control
open Verif.Core

variable {w : Nat}

theorem cond_iff (k : Cond) (a b : BitVec w) : cond k a b = true ↔ Spec.taken k a b := by
  cases k
  case eq => simp [cond, Spec.taken, BitVec.toNat_inj]
  case ne => simp [cond, Spec.taken, BitVec.toNat_inj]
  case lt => simp [cond, Spec.taken, BitVec.slt]
  case ltu => simp [cond, Spec.taken, BitVec.ult]
  case ge => simp [cond, Spec.taken, BitVec.slt]
  case geu => simp [cond, Spec.taken, BitVec.ult]

theorem and3 (hw : 2 ≤ w) (t : BitVec w) : (t &&& 3#w).toNat = t.toNat % 4 := by
  rw [BitVec.toNat_and, BitVec.toNat_ofNat]
  have h : 2 ^ 2 ≤ 2 ^ w := Nat.pow_le_pow_right (by decide) hw
  rw [Nat.mod_eq_of_lt (by omega)]
  exact Nat.and_two_pow_sub_one_eq_mod t.toNat 2

theorem misaligned_iff (hw : 2 ≤ w) (c : Core w) (t : BitVec w) :
    misaligned c t = true ↔ Spec.badTarget c.hasC t := by
  unfold misaligned Spec.badTarget
  rw [Bool.and_eq_true, Bool.not_eq_true', decide_eq_true_eq, ← and3 hw t, ne_eq, ← BitVec.toNat_inj]
  simp

theorem clear0 (t : BitVec w) : (t &&& ~~~1#w).toNat = t.toNat / 2 * 2 := by
  have e : t &&& ~~~1#w = (t >>> 1) <<< 1 := by
    refine BitVec.eq_of_getLsbD_eq (fun i hi => ?_)
    rw [BitVec.getLsbD_and, BitVec.getLsbD_not, BitVec.getLsbD_one, BitVec.getLsbD_shiftLeft,
      BitVec.getLsbD_ushiftRight]
    by_cases h : i = 0
    · subst h; simp
    · rw [show 1 + (i - 1) = i by omega]
      simp [hi, h, show ¬ i < 1 by omega]
  rw [e, BitVec.toNat_shiftLeft, BitVec.toNat_ushiftRight, Nat.shiftLeft_eq, Nat.shiftRight_eq_div_pow]
  have := t.isLt
  exact Nat.mod_eq_of_lt (by omega)

theorem wrap64 (hw : w ≤ 64) (x : Nat) : x % 2 ^ 64 % 2 ^ w = x % 2 ^ w :=
  Nat.mod_mod_of_dvd x (Nat.pow_dvd_pow 2 hw)

theorem two_dvd (hw : 0 < w) : 2 ^ w = 2 * 2 ^ (w - 1) := by
  rw [show 2 ^ w = 2 ^ (w - 1 + 1) by rw [show w - 1 + 1 = w by omega], Nat.pow_succ, Nat.mul_comm]

/-- `(x - x % 2)` and reduction modulo 2^w commute. -/
theorem even_mod (hw : 0 < w) (x : Nat) : (x / 2 * 2) % 2 ^ w = x % 2 ^ w / 2 * 2 := by
  rw [two_dvd hw, Nat.mul_comm (x / 2), Nat.mul_mod_mul_left, Nat.mod_mul_right_div_self, Nat.mul_comm]

/-- The target jal computes. -/
theorem jal_target (hw : 0 < w) (hw64 : w ≤ 64) (off : BitVec w) (addr : BitVec 64) :
    (((off.setWidth 64 + addr) &&& ~~~1#64).setWidth w).toNat
      = (addr.toNat + off.toNat) % 2 ^ w / 2 * 2 := by
  rw [BitVec.toNat_setWidth, clear0 _, BitVec.toNat_add, BitVec.toNat_setWidth,
    even_mod hw, wrap64 hw64]
  have := off.isLt
  have h : off.toNat < 2 ^ 64 := Nat.lt_of_lt_of_le this (Nat.pow_le_pow_right (by decide) hw64)
  rw [Nat.mod_eq_of_lt h, Nat.add_comm]

theorem branch_target (hw64 : w ≤ 64) (off : BitVec w) (addr : BitVec 64) :
    ((off.setWidth 64 + addr).setWidth w).toNat = (addr.toNat + off.toNat) % 2 ^ w := by
  rw [BitVec.toNat_setWidth, BitVec.toNat_add, BitVec.toNat_setWidth, wrap64 hw64]
  have := off.isLt
  have h : off.toNat < 2 ^ 64 := Nat.lt_of_lt_of_le this (Nat.pow_le_pow_right (by decide) hw64)
  rw [Nat.mod_eq_of_lt h, Nat.add_comm]

/-- Adding an unsigned reading or a signed reading of the offset is the same modulo 2^w. -/
theorem signed_sum (x : Nat) (off : BitVec w) :
    (((x + off.toNat) % 2 ^ w : Nat) : Int) = ((x : Int) + off.toInt) % 2 ^ w := by
  have h : off.toInt % 2 ^ w = (off.toNat : Int) % 2 ^ w := by
    rw [BitVec.toInt_eq_toNat_bmod]
    have := Int.bmod_emod (x := (off.toNat : Int)) (m := 2 ^ w)
    push_cast at this
    exact this
  rw [Int.add_emod, h, ← Int.add_emod]
  push_cast
  rfl

theorem link_ok (hw64 : w ≤ 64) (addr : BitVec 64) (size : Nat) :
    Spec.IsLink ((addr + BitVec.ofNat 64 size).setWidth w) addr size := by
  show (BitVec.setWidth w _).toNat = _
  rw [BitVec.toNat_setWidth, BitVec.toNat_add, BitVec.toNat_ofNat, Nat.add_mod_mod, wrap64 hw64]

/-- **C31 (jal).** With pc and offset even (as for every encodable jal), the target is pc + offset
modulo 2^xlen. If the extensions allow that target, the pc goes there and rd gets pc + size;
otherwise the misaligned-address exception is raised with the target as trap value, and neither pc
nor rd changes otherwise. -/
theorem C31_jal (hw : 2 ≤ w) (hw64 : w ≤ 64) (c : Core w) (off : BitVec w) (rd : BitVec 5)
    (addr : BitVec 64) (size : Nat) (handled : Bool) (hpc : addr.toNat % 2 = 0) (hoff : off.toNat % 2 = 0) :
    ∃ t : BitVec w, Spec.IsSum t addr.toNat off.toInt
      ∧ (¬ Spec.badTarget c.hasC t →
          Spec.Goes c (jal c off rd addr size handled) t
          ∧ ∃ v : BitVec w, Spec.IsLink v addr size
            ∧ ∀ r, Regs.read (jal c off rd addr size handled).regs r
                = if r = 0#5 then 0#w else if r = rd then v else Regs.read c.regs r)
      ∧ (Spec.badTarget c.hasC t →
          Spec.Raises c (jal c off rd addr size handled) (t.setWidth 64) 0#64 addr handled) := by
  refine ⟨((off.setWidth 64 + addr) &&& ~~~1#64).setWidth w, ?_, ?_, ?_⟩
  · show ((BitVec.toNat _ : Nat) : Int) = _
    rw [jal_target (by omega) hw64, ← signed_sum]
    have : (addr.toNat + off.toNat) % 2 ^ w % 2 = 0 := by
      rw [two_dvd (w := w) (by omega), Nat.mod_mul_right_mod]; omega
    congr 1
    omega
  · intro h
    have hm : ¬ misaligned c (((off.setWidth 64 + addr) &&& ~~~1#64).setWidth w) = true :=
      fun hc => h ((misaligned_iff hw c _).1 hc)
    simp only [jal, if_neg hm]
    exact ⟨⟨rfl, rfl, rfl, rfl⟩, _, link_ok hw64 addr size, fun r => Regs.read_write _ _ _ _⟩
  · intro h
    have hm := (misaligned_iff hw c _).2 h
    simp only [jal, if_pos hm]
    exact ⟨rfl, rfl, rfl, rfl, rfl⟩

/-- **C31 (jalr).** The target is rs1 + offset modulo 2^xlen with bit 0 cleared, with rs1 read before
rd is written. -/
theorem C31_jalr (hw : 2 ≤ w) (hw64 : w ≤ 64) (c : Core w) (rs1 : BitVec 5) (off : BitVec w) (rd : BitVec 5)
    (addr : BitVec 64) (size : Nat) (handled : Bool) :
    ∃ s t : BitVec w, Spec.IsSum s (Regs.read c.regs rs1).toNat off.toInt
      ∧ t.toNat = s.toNat - s.toNat % 2
      ∧ (¬ Spec.badTarget c.hasC t →
          Spec.Goes c (jalr c rs1 off rd addr size handled) t
          ∧ ∃ v : BitVec w, Spec.IsLink v addr size
            ∧ ∀ r, Regs.read (jalr c rs1 off rd addr size handled).regs r
                = if r = 0#5 then 0#w else if r = rd then v else Regs.read c.regs r)
      ∧ (Spec.badTarget c.hasC t →
          Spec.Raises c (jalr c rs1 off rd addr size handled) (t.setWidth 64) 0#64 addr handled) := by
  refine ⟨off + Regs.read c.regs rs1, (off + Regs.read c.regs rs1) &&& ~~~1#w, ?_, ?_, ?_, ?_⟩
  · show ((BitVec.toNat _ : Nat) : Int) = _
    rw [← signed_sum, BitVec.toNat_add, Nat.add_comm]
  · rw [clear0 _]; omega
  · intro h
    have hm : ¬ misaligned c ((off + Regs.read c.regs rs1) &&& ~~~1#w) = true :=
      fun hc => h ((misaligned_iff hw c _).1 hc)
    simp only [jalr, if_neg hm]
    exact ⟨⟨rfl, rfl, rfl, rfl⟩, _, link_ok hw64 addr size, fun r => Regs.read_write _ _ _ _⟩
  · intro h
    have hm := (misaligned_iff hw c _).2 h
    simp only [jalr, if_pos hm]
    exact ⟨rfl, rfl, rfl, rfl, rfl⟩

/-- **C31 (branches)**: direction and target are right, an untaken branch does nothing, a bad target
raises the exception and changes neither registers nor memory. What is missing: the trap value is the
address of the branch, not the target (see `C31_branch_tval_violated`). -/
theorem C31_branch_partial (hw : 2 ≤ w) (hw64 : w ≤ 64) (c : Core w) (k : Cond) (rs1 rs2 : BitVec 5)
    (off : BitVec w) (addr : BitVec 64) (handled : Bool) :
    (¬ Spec.taken k (Regs.read c.regs rs1) (Regs.read c.regs rs2) →
        branch c k rs1 rs2 off addr handled = c)
    ∧ (Spec.taken k (Regs.read c.regs rs1) (Regs.read c.regs rs2) →
        ∃ t : BitVec w, Spec.IsSum t addr.toNat off.toInt
          ∧ (¬ Spec.badTarget c.hasC t →
              Spec.Goes c (branch c k rs1 rs2 off addr handled) t
              ∧ (branch c k rs1 rs2 off addr handled).regs = c.regs)
          ∧ (Spec.badTarget c.hasC t →
              Spec.Raises c (branch c k rs1 rs2 off addr handled) addr 0#64 addr handled)) := by
  constructor
  · intro h
    have : ¬ cond k (Regs.read c.regs rs1) (Regs.read c.regs rs2) = true := fun hc => h ((cond_iff _ _ _).1 hc)
    rw [branch, if_neg this]
  · intro h
    have ht := (cond_iff _ _ _).2 h
    refine ⟨(off.setWidth 64 + addr).setWidth w, ?_, ?_, ?_⟩
    · show ((BitVec.toNat _ : Nat) : Int) = _
      rw [branch_target hw64, ← signed_sum]
    · intro hb
      have hm : ¬ misaligned c ((off.setWidth 64 + addr).setWidth w) = true :=
        fun hc => hb ((misaligned_iff hw c _).1 hc)
      simp only [branch, if_pos ht, if_neg hm]
      exact ⟨⟨rfl, rfl, rfl, rfl⟩, trivial⟩
    · intro hb
      have hm := (misaligned_iff hw c _).2 hb
      simp only [branch, if_pos ht, if_pos hm]
      exact ⟨rfl, rfl, rfl, rfl, rfl⟩

/-- A machine-mode RV64 hart without C. -/
def sample : Core 64 :=
  { hart := Hart.Hart.init 64 true, regs := fun _ => 0#64, mem := fun _ => 0#8,
    limit := 0xffffffffffffff#64, hasC := false }

/-- **C31 violated (trap value).** beq x0, x0, +6 at 0x1000 without C must report the bad target
0x1006 in mtval (as jal does), but reports 0x1000. -/
theorem C31_branch_tval_violated :
    (branch sample .eq 0 0 6#64 0x1000#64).hart.mtval = 0x1000#64
    ∧ (jal sample 6#64 1 0x1000#64 4).hart.mtval = 0x1006#64 := by
  constructor <;> decide

/-! Non-vacuity: a backward jal on RV32 wraps at 32 bits, jalr with rd = rs1. -/
example : (jal { sample with hart := Hart.Hart.init 64 true } (-8#64) 1 0x1000#64 4).hart.pc = 0xff8#64
    ∧ (jal sample (-8#64) 1 0x1000#64 4).regs 1 = 0x1004#64 := by decide
example : ¬ Spec.badTarget sample.hasC 0xff8#64 ∧ Spec.badTarget sample.hasC 0x1006#64 := by
  unfold Spec.badTarget; decide
example : Spec.taken .lt (-1#64) 0#64 ∧ ¬ Spec.taken .ltu (-1#64) 0#64 := by
  unfold Spec.taken; decide

end Verif.Control
