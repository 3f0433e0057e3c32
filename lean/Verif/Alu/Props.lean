import Verif.Alu.Spec
import Verif.Util.Bits
/-
C27: base integer instructions compute the ISA result.
-/
namespace Verif.Alu
open Verif.Regs

theorem and31 (b : BitVec 32) : (b &&& 0x1f#32).toNat = b.toNat % 32 := by
  rw [BitVec.toNat_and]; exact Nat.and_two_pow_sub_one_eq_mod b.toNat 5

theorem and63 (b : BitVec 64) : (b &&& 0x3f#64).toNat = b.toNat % 64 := by
  rw [BitVec.toNat_and]; exact Nat.and_two_pow_sub_one_eq_mod b.toNat 6

theorem toNat_sub_int {w : Nat} (a b : BitVec w) :
    ((a - b).toNat : Int) = ((a.toNat : Int) - b.toNat) % 2 ^ w := by
  rw [BitVec.toNat_sub]
  have ha := a.isLt
  have hb := b.isLt
  push_cast
  rw [Int.ofNat_sub (by omega)]
  push_cast
  rw [show ((2 : Int) ^ w - b.toNat + a.toNat) = ((a.toNat : Int) - b.toNat) + 2 ^ w by omega]
  exact Int.add_emod_right _ _

/-- **C27 (RV32).** Every two-operand instruction writes the ISA result. -/
theorem C27_op32 (o : Op) (a b : BitVec 32) : Spec.result 32 o a b (op32 o a b) := by
  cases o
  case add => simp [Spec.result, op32]
  case sub => exact toNat_sub_int a b
  case slt => simp only [Spec.result, op32, BitVec.slt]; constructor <;> intro h <;> simp [h]
  case sltu => simp only [Spec.result, op32, BitVec.ult]; constructor <;> intro h <;> simp [h]
  case and => simp [Spec.result, op32]
  case or => simp [Spec.result, op32]
  case xor => simp [Spec.result, op32]
  case sll =>
    simp only [Spec.result, op32, BitVec.shiftLeft_eq', BitVec.toNat_shiftLeft, and31, Nat.shiftLeft_eq]
  case srl =>
    simp only [Spec.result, op32, BitVec.ushiftRight_eq', BitVec.toNat_ushiftRight, and31,
      Nat.shiftRight_eq_div_pow]
  case sra =>
    simp only [Spec.result, op32, BitVec.toInt_sshiftRight, and31, Int.shiftRight_eq_div_pow]
    simp
  case czeroEqz =>
    simp only [Spec.result, op32, ← BitVec.toNat_inj]
    split <;> simp_all
  case czeroNez =>
    simp only [Spec.result, op32, ← BitVec.toNat_inj, ne_eq]
    split <;> simp_all

/-- **C27 (RV64).** Every two-operand instruction writes the ISA result. -/
theorem C27_op64 (o : Op) (a b : BitVec 64) : Spec.result 64 o a b (op64 o a b) := by
  cases o
  case add => simp [Spec.result, op64]
  case sub => exact toNat_sub_int a b
  case slt => simp only [Spec.result, op64, BitVec.slt]; constructor <;> intro h <;> simp [h]
  case sltu => simp only [Spec.result, op64, BitVec.ult]; constructor <;> intro h <;> simp [h]
  case and => simp [Spec.result, op64]
  case or => simp [Spec.result, op64]
  case xor => simp [Spec.result, op64]
  case sll =>
    simp only [Spec.result, op64, BitVec.shiftLeft_eq', BitVec.toNat_shiftLeft, and63, Nat.shiftLeft_eq]
  case srl =>
    simp only [Spec.result, op64, BitVec.ushiftRight_eq', BitVec.toNat_ushiftRight, and63,
      Nat.shiftRight_eq_div_pow]
  case sra =>
    simp only [Spec.result, op64, BitVec.toInt_sshiftRight, and63, Int.shiftRight_eq_div_pow]
    simp
  case czeroEqz =>
    simp only [Spec.result, op64, ← BitVec.toNat_inj]
    split <;> simp_all
  case czeroNez =>
    simp only [Spec.result, op64, ← BitVec.toNat_inj, ne_eq]
    split <;> simp_all


theorem word_eq (a : BitVec 64) : Spec.word a = (a.setWidth 32).toInt := by
  unfold Spec.word
  rw [BitVec.toInt_eq_toNat_bmod, BitVec.toNat_setWidth]
  simp

theorem mod32 (b : BitVec 64) : ((b.setWidth 32) &&& 0x1f#32).toNat = b.toNat % 32 := by
  rw [and31, BitVec.toNat_setWidth]; omega

theorem bmod_small {x : Int} (h1 : -2147483648 ≤ x) (h2 : x ≤ 2147483647) : x.bmod (2 ^ 32) = x := by
  apply Int.bmod_eq_of_le <;> simp <;> omega

theorem toInt_bounds (a : BitVec 32) : -2147483648 ≤ a.toInt ∧ a.toInt ≤ 2147483647 := by
  have := a.le_toInt; have := a.toInt_lt; simp at *; omega

theorem sext_toInt (a : BitVec 32) : (a.signExtend 64).toInt = a.toInt :=
  BitVec.toInt_signExtend_of_le (by decide)

/-- **C27 (W forms).** Whenever the C++ computation is defined, a W form writes the ISA result. The
cases in which it is not defined are exactly those of `C27_w_defined`. -/
theorem C27_w_partial (o : OpW) (a b r : BitVec 64) (h : opW o a b = some r) :
    Spec.resultW o a b r := by
  simp only [opW, Option.map_eq_some_iff] at h
  obtain ⟨n, hn, rfl⟩ := h
  cases o
  case addw =>
    simp only [narrow, toInt32?] at hn
    split at hn
    · cases hn
      simp only [Spec.resultW, sext_toInt, BitVec.toInt_ofInt, word_eq]
    · cases hn
  case subw =>
    simp only [narrow, toInt32?] at hn
    split at hn
    · cases hn
      simp only [Spec.resultW, sext_toInt, BitVec.toInt_ofInt, word_eq]
    · cases hn
  case sllw =>
    simp only [narrow, shl32?] at hn
    split at hn
    · cases hn
      simp only [Spec.resultW, sext_toInt, BitVec.toInt_ofInt, word_eq, mod32]
    · cases hn
  case srlw =>
    simp only [narrow] at hn
    cases hn
    simp only [Spec.resultW, sext_toInt]
    simp only [BitVec.toInt_eq_toNat_bmod, BitVec.ushiftRight_eq',
      BitVec.toNat_ushiftRight, mod32, Nat.shiftRight_eq_div_pow, BitVec.toNat_setWidth]
  case sraw =>
    simp only [narrow] at hn
    cases hn
    simp only [Spec.resultW, sext_toInt, BitVec.toInt_sshiftRight, mod32, Int.shiftRight_eq_div_pow,
      word_eq]
    simp

/-- **C27 (W forms, where the code is undefined).** srlw and sraw are always defined; addw and subw
exactly if the signed 32-bit result does not overflow; sllw exactly if the low word is non-negative
and no bit is shifted out of it. -/
theorem C27_w_defined (a b : BitVec 64) :
    ((opW .addw a b).isSome ↔ -2 ^ 31 ≤ Spec.word a + Spec.word b ∧ Spec.word a + Spec.word b < 2 ^ 31) ∧
    ((opW .subw a b).isSome ↔ -2 ^ 31 ≤ Spec.word a - Spec.word b ∧ Spec.word a - Spec.word b < 2 ^ 31) ∧
    ((opW .sllw a b).isSome ↔ 0 ≤ Spec.word a ∧ Spec.word a * 2 ^ (b.toNat % 32) < 2 ^ 32) ∧
    (opW .srlw a b).isSome ∧ (opW .sraw a b).isSome := by
  refine ⟨?_, ?_, ?_, rfl, rfl⟩
  · rw [word_eq, word_eq]; simp only [opW, narrow, toInt32?, Option.isSome_map]
    generalize (a.setWidth 32).toInt = x
    generalize (b.setWidth 32).toInt = y
    split <;> simp <;> omega
  · rw [word_eq, word_eq]; simp only [opW, narrow, toInt32?, Option.isSome_map]
    generalize (a.setWidth 32).toInt = x
    generalize (b.setWidth 32).toInt = y
    split <;> simp <;> omega
  · rw [word_eq]; simp only [opW, narrow, shl32?, mod32, Option.isSome_map]
    split
    · next h => simpa using h
    · next h => simpa using h

/-- **C27 is violated by W forms with signed overflow**: ISA-defined results whose computation is
undefined in the code. -/
theorem C27_w_violated :
    opW .addw 0x7fffffff 1 = none ∧ opW .subw 0xffffffff80000000 1 = none ∧
    opW .sllw 0xffffffffffffffff 1 = none := by decide

theorem low_clear (i : BitVec 20) : (i ++ 0#12) &&& ~~~0xfff#32 = i ++ 0#12 := by
  refine BitVec.eq_of_getLsbD_eq (fun k hk => ?_)
  simp only [BitVec.getLsbD_and, BitVec.getLsbD_not, BitVec.getLsbD_append]
  generalize i.getLsbD (k - 12) = c
  revert k c
  exact allLt (by decide)

theorem lui64_eq (imm : BitVec 32) : lui64 imm = (lui32 imm).signExtend 64 := by
  refine BitVec.eq_of_getLsbD_eq (fun k hk => ?_)
  simp only [lui64, lui32, BitVec.getLsbD_and, BitVec.getLsbD_not, BitVec.getLsbD_signExtend,
    BitVec.msb_eq_getLsbD_last]
  generalize imm.getLsbD k = c
  generalize imm.getLsbD (32 - 1) = d
  revert k c d
  exact allLt (by decide)

/-- **C27 (lui).** -/
theorem C27_lui (i : BitVec 20) :
    (lui32 (i ++ 0#12)).toInt = Spec.imm20 i * 2 ^ 12 ∧ (lui64 (i ++ 0#12)).toInt = Spec.imm20 i * 2 ^ 12 := by
  have ht : (i ++ 0#12).toInt = i.toInt * 2 ^ 12 := by rw [BitVec.toInt_append]; simp [Int.mul_comm]
  refine ⟨?_, ?_⟩
  · rw [lui32, low_clear]; exact ht
  · rw [lui64_eq, lui32, low_clear, sext_toInt]; exact ht

/-- **C27 (auipc).** The result is the pc plus the sign-extended immediate, modulo 2^xlen. -/
theorem C27_auipc (i : BitVec 20) (pc : BitVec 64) :
    ((auipc32 (i ++ 0#12) pc).toNat : Int) = (pc.toNat + Spec.imm20 i * 2 ^ 12) % 2 ^ 32 ∧
    ((auipc64 (i ++ 0#12) pc).toNat : Int) = (pc.toNat + Spec.imm20 i * 2 ^ 12) % 2 ^ 64 := by
  have ht : (i ++ 0#12).toInt = i.toInt * 2 ^ 12 := by rw [BitVec.toInt_append]; simp [Int.mul_comm]
  have hp := pc.isLt
  refine ⟨?_, ?_⟩
  · rw [auipc32, low_clear]
    unfold Spec.imm20
    rw [← ht, BitVec.toInt_eq_toNat_cond]
    generalize (i ++ 0#12) = x
    have hx : x.toNat < 2 ^ 32 := x.isLt
    simp only [BitVec.toNat_setWidth, BitVec.toNat_add]
    split <;> omega
  · rw [auipc64, low_clear]
    unfold Spec.imm20
    rw [← ht]
    have : ((i ++ 0#12 : BitVec 32).signExtend 64).toInt = (i ++ 0#12 : BitVec 32).toInt := sext_toInt _
    rw [← this, BitVec.toInt_eq_toNat_cond]
    generalize ((i ++ 0#12 : BitVec 32).signExtend 64) = x
    have hx : x.toNat < 2 ^ 64 := x.isLt
    simp only [BitVec.toNat_add]
    split <;> omega

/-- **C27 (registers).** A register or immediate instruction changes no register but rd, x0 stays
zero, and the result is that of the operand values before the instruction, whatever the overlap of
rd, rs1 and rs2. -/
theorem C27_exec32 (o : Op) (f : File 32) (rd rs1 : BitVec 5) (s : Src 32) :
    (rd ≠ 0#5 → Spec.result 32 o (read f rs1) (s.value f) (read (exec (op32 o) f rd rs1 s) rd)) ∧
    (∀ r, r ≠ rd → read (exec (op32 o) f rd rs1 s) r = read f r) ∧
    read (exec (op32 o) f rd rs1 s) 0#5 = 0 := by
  unfold exec
  refine ⟨fun h => ?_, fun r h => ?_, ?_⟩
  · rw [read_write, if_neg h, if_pos rfl]; exact C27_op32 o _ _
  · rw [read_write]; simp only [h, if_false]
    split
    · next h0 => subst h0; rfl
    · rfl
  · rfl

theorem C27_exec64 (o : Op) (f : File 64) (rd rs1 : BitVec 5) (s : Src 64) :
    (rd ≠ 0#5 → Spec.result 64 o (read f rs1) (s.value f) (read (exec (op64 o) f rd rs1 s) rd)) ∧
    (∀ r, r ≠ rd → read (exec (op64 o) f rd rs1 s) r = read f r) ∧
    read (exec (op64 o) f rd rs1 s) 0#5 = 0 := by
  unfold exec
  refine ⟨fun h => ?_, fun r h => ?_, ?_⟩
  · rw [read_write, if_neg h, if_pos rfl]; exact C27_op64 o _ _
  · rw [read_write]; simp only [h, if_false]
    split
    · next h0 => subst h0; rfl
    · rfl
  · rfl

/-- Non-vacuity: concrete results at the corners. -/
example : op32 .sra 0x80000000 0xffffffff = 0xffffffff ∧ op32 .slt 0x80000000 1 = 1 ∧
    op32 .sltu 0x80000000 1 = 0 ∧ op64 .srl 0x8000000000000000 63 = 1 ∧
    opW .addw 0x180000000 1 = some 0xffffffff80000001 ∧ opW .sllw 0x40000000 1 = some 0xffffffff80000000 ∧
    lui64 0x80000000 = 0xffffffff80000000 ∧ auipc32 0xfffff000 0x10 = 0xfffff010 := by decide

end Verif.Alu
