import Verif.MulDiv.Spec
import Verif.Alu.Props
/-
C28: multiply/divide instructions compute the ISA result.
-/
namespace Verif.MulDiv
open Verif.Alu (sext_toInt word_eq)

/-- Truncation keeps the value modulo the smaller power of two. -/
theorem toInt_trunc {n v : Nat} (h : v ≤ n) (c : BitVec n) : (c.setWidth v).toInt = c.toInt.bmod (2 ^ v) := by
  rw [BitVec.toInt_setWidth, ← Int.emod_bmod (c.toNat : Int), ← Int.emod_bmod c.toInt]
  congr 1
  have h1 : c.toInt % ((2 ^ n : Nat) : Int) = (c.toNat : Int) % ((2 ^ n : Nat) : Int) := by
    rw [BitVec.toInt_eq_toNat_bmod, Int.bmod_emod]
  have hd : ((2 ^ v : Nat) : Int) ∣ ((2 ^ n : Nat) : Int) :=
    Int.natCast_dvd_natCast.2 (Nat.pow_dvd_pow 2 h)
  rw [← Int.emod_emod_of_dvd c.toInt hd, h1, Int.emod_emod_of_dvd _ hd]

theorem toInt_sext {n v : Nat} (h : n ≤ v) (c : BitVec n) : (c.signExtend v).toInt = c.toInt :=
  BitVec.toInt_signExtend_of_le h

/-- The product of two values below `m` in absolute value. -/
theorem prod_bound (m k : Nat) (x y : Int) (hx : x.natAbs ≤ m) (hy : y.natAbs ≤ k) :
    -((m * k : Nat) : Int) ≤ x * y ∧ x * y ≤ ((m * k : Nat) : Int) := by
  have h1 : (x * y).natAbs ≤ m * k := by
    rw [Int.natAbs_mul]; exact Nat.mul_le_mul hx hy
  omega

theorem bmod32 (x : Int) (h1 : -2147483648 ≤ x) (h2 : x ≤ 2147483647) : x.bmod (2 ^ 32) = x := by
  apply Int.bmod_eq_of_le <;> simp <;> omega

theorem bmod64 (x : Int) (h1 : -9223372036854775808 ≤ x) (h2 : x ≤ 9223372036854775807) :
    x.bmod (2 ^ 64) = x := by
  apply Int.bmod_eq_of_le <;> simp <;> omega

theorem bmod128 (x : Int) (h1 : -170141183460469231731687303715884105728 ≤ x)
    (h2 : x ≤ 170141183460469231731687303715884105727) : x.bmod (2 ^ 128) = x := by
  apply Int.bmod_eq_of_le <;> simp <;> omega

theorem bd32 (a : BitVec 32) : -2147483648 ≤ a.toInt ∧ a.toInt ≤ 2147483647 := by
  have := a.le_toInt; have := a.toInt_lt; simp at *; omega

theorem bd64 (a : BitVec 64) : -9223372036854775808 ≤ a.toInt ∧ a.toInt ≤ 9223372036854775807 := by
  have := a.le_toInt; have := a.toInt_lt; simp at *; omega

theorem zext_toInt32 (b : BitVec 32) : (b.setWidth 64).toInt = b.toNat := by
  rw [BitVec.toInt_setWidth]; apply bmod64 <;> have := b.isLt <;> omega

theorem zext_toInt64 (b : BitVec 64) : (b.setWidth 128).toInt = b.toNat := by
  rw [BitVec.toInt_setWidth]; apply bmod128 <;> have := b.isLt <;> omega

theorem mask32 (c : BitVec 64) : (c &&& 0xffffffff#64).setWidth 32 = c.setWidth 32 := by
  apply BitVec.eq_of_toNat_eq
  rw [BitVec.toNat_setWidth, BitVec.toNat_setWidth, BitVec.toNat_and]
  have : c.toNat &&& 4294967295 = c.toNat % 2 ^ 32 := Nat.and_two_pow_sub_one_eq_mod c.toNat 32
  show (c.toNat &&& 4294967295) % 2 ^ 32 = _
  rw [this]; omega

theorem mask64 (c : BitVec 128) : (c &&& 0xffffffffffffffff#128).setWidth 64 = c.setWidth 64 := by
  apply BitVec.eq_of_toNat_eq
  rw [BitVec.toNat_setWidth, BitVec.toNat_setWidth, BitVec.toNat_and]
  have : c.toNat &&& 18446744073709551615 = c.toNat % 2 ^ 64 := Nat.and_two_pow_sub_one_eq_mod c.toNat 64
  show (c.toNat &&& 18446744073709551615) % 2 ^ 64 = _
  rw [this]; omega

/-- High half of a 64-bit signed product. -/
theorem high32 (c : BitVec 64) : ((c.sshiftRight 32).setWidth 32).toInt = c.toInt / 2 ^ 32 := by
  rw [toInt_trunc (by decide), BitVec.toInt_sshiftRight, Int.shiftRight_eq_div_pow]
  have := bd64 c
  apply bmod32 <;> omega

theorem high64 (c : BitVec 128) : ((c.sshiftRight 64).setWidth 64).toInt = c.toInt / 2 ^ 64 := by
  rw [toInt_trunc (by decide), BitVec.toInt_sshiftRight, Int.shiftRight_eq_div_pow]
  have h1 := c.le_toInt
  have h2 := c.toInt_lt
  simp at h1 h2
  apply bmod64 <;> omega

theorem neg_one32 (b : BitVec 32) : b = -1#32 ↔ b.toInt = -1 := by
  constructor
  · intro h; rw [h]; decide
  · intro h; apply BitVec.eq_of_toInt_eq; rw [h]; decide

theorem zero_iff {w : Nat} (b : BitVec w) : b = 0#w ↔ b.toInt = 0 := by
  constructor
  · intro h; rw [h]; simp
  · intro h; apply BitVec.eq_of_toInt_eq; rw [h]; simp

theorem zero_iff_nat {w : Nat} (b : BitVec w) : b = 0#w ↔ b.toNat = 0 := by
  rw [← BitVec.toNat_inj]; simp

theorem div_spec32 (a b : BitVec 32) :
    (if b = 0#32 then -1#32 else if b = -1#32 ∧ a = 0x80000000#32 then 0x80000000#32
      else a.sdiv b).toInt = Spec.signed 32 (Spec.quot a.toInt b.toInt) := by
  unfold Spec.signed Spec.quot
  by_cases h0 : b = 0#32
  · rw [if_pos h0, if_pos ((zero_iff b).1 h0)]; decide
  rw [if_neg h0, if_neg (fun h => h0 ((zero_iff b).2 h))]
  split
  · next h => rw [h.1, h.2]; decide
  · rw [BitVec.toInt_sdiv]

theorem rem_spec32 (a b : BitVec 32) :
    (if b = 0#32 then a else if b = -1#32 ∧ a = 0x80000000#32 then 0#32 else a.srem b).toInt =
      Spec.remd a.toInt b.toInt := by
  unfold Spec.remd
  by_cases h0 : b = 0#32
  · rw [if_pos h0, if_pos ((zero_iff b).1 h0)]
  rw [if_neg h0, if_neg (fun h => h0 ((zero_iff b).2 h))]
  split
  · next h => rw [h.1, h.2]; decide
  · rw [BitVec.toInt_srem]

/-- **C28 (RV32).** -/
theorem C28_op32 (o : Op) (a b : BitVec 32) : Spec.result 32 o a b (op32 o a b) := by
  have ha := bd32 a
  have hb := bd32 b
  have hbn := b.isLt
  have han := a.isLt
  cases o
  case mul =>
    simp only [Spec.result, op32, mask32]
    rw [toInt_trunc (by decide), BitVec.toInt_mul, toInt_sext (by decide), toInt_sext (by decide)]
    have := prod_bound 2147483648 2147483648 a.toInt b.toInt (by omega) (by omega)
    rw [bmod64 _ (by omega) (by omega)]
    rfl
  case mulh =>
    simp only [Spec.result, op32]
    rw [high32, BitVec.toInt_mul, toInt_sext (by decide), toInt_sext (by decide)]
    have := prod_bound 2147483648 2147483648 a.toInt b.toInt (by omega) (by omega)
    rw [bmod64 _ (by omega) (by omega)]
  case mulhu =>
    simp only [Spec.result, op32, BitVec.toNat_setWidth, BitVec.toNat_ushiftRight, BitVec.toNat_mul,
      Nat.shiftRight_eq_div_pow]
    have : a.toNat * b.toNat ≤ 4294967295 * 4294967295 := Nat.mul_le_mul (by omega) (by omega)
    rw [Nat.mod_eq_of_lt (show a.toNat < 2 ^ 64 by omega), Nat.mod_eq_of_lt (show b.toNat < 2 ^ 64 by omega)]
    omega
  case mulhsu =>
    simp only [Spec.result, op32]
    rw [high32, BitVec.toInt_mul, toInt_sext (by decide), zext_toInt32]
    have := prod_bound 2147483648 4294967295 a.toInt b.toNat (by omega) (by omega)
    rw [bmod64 _ (by omega) (by omega)]
  case div => exact div_spec32 a b
  case divu =>
    simp only [Spec.result, op32, zero_iff_nat]
    split
    · rfl
    · rw [BitVec.toNat_udiv]
  case rem => exact rem_spec32 a b
  case remu =>
    simp only [Spec.result, op32, zero_iff_nat]
    split
    · rfl
    · rw [BitVec.toNat_umod]

theorem mulhsu64_eq (a b : BitVec 64) : (mulhsu64 a b).toInt = a.toInt * b.toNat / 2 ^ 64 := by
  have ha := bd64 a
  have hbn := b.isLt
  unfold mulhsu64
  simp only
  rw [high64]
  have hp := prod_bound 9223372036854775808 18446744073709551615 a.toInt b.toNat (by omega) (by omega)
  congr 1
  have hs : (a.signExtend 128).toInt = a.toInt := toInt_sext (by decide) a
  have hm : (-(a.signExtend 128)).toInt = -a.toInt := by
    rw [BitVec.toInt_neg, hs]; apply bmod128 <;> omega
  by_cases h : a.toInt < 0
  · have hneg : (a.signExtend 128).slt 0#128 = true := by
      rw [BitVec.slt_iff_toInt_lt, hs]; simpa using h
    simp only [hneg, if_true]
    have hc : (-(a.signExtend 128) * b.setWidth 128).toInt = -(a.toInt * b.toNat) := by
      rw [BitVec.toInt_mul, hm, zext_toInt64, Int.neg_mul]
      apply bmod128 <;> omega
    rw [BitVec.toInt_neg, hc, Int.neg_neg]
    apply bmod128 <;> omega
  · have hneg : (a.signExtend 128).slt 0#128 = false := by
      rw [← Bool.not_eq_true, BitVec.slt_iff_toInt_lt, hs]; simpa using h
    simp only [hneg, Bool.false_eq_true, if_false]
    rw [BitVec.toInt_mul, hs, zext_toInt64]
    apply bmod128 <;> omega

/-- **C28 (RV64).** -/
theorem C28_op64 (o : Op) (a b : BitVec 64) : Spec.result 64 o a b (op64 o a b) := by
  have ha := bd64 a
  have hb := bd64 b
  have hbn := b.isLt
  have han := a.isLt
  cases o
  case mul =>
    simp only [Spec.result, op64, mask64]
    rw [toInt_trunc (by decide), BitVec.toInt_mul, toInt_sext (by decide), toInt_sext (by decide)]
    have := prod_bound 9223372036854775808 9223372036854775808 a.toInt b.toInt (by omega) (by omega)
    rw [bmod128 _ (by omega) (by omega)]
    rfl
  case mulh =>
    simp only [Spec.result, op64]
    rw [high64, BitVec.toInt_mul, toInt_sext (by decide), toInt_sext (by decide)]
    have := prod_bound 9223372036854775808 9223372036854775808 a.toInt b.toInt (by omega) (by omega)
    rw [bmod128 _ (by omega) (by omega)]
  case mulhu =>
    simp only [Spec.result, op64, BitVec.toNat_setWidth, BitVec.toNat_ushiftRight, BitVec.toNat_mul,
      Nat.shiftRight_eq_div_pow]
    have : a.toNat * b.toNat ≤ 18446744073709551615 * 18446744073709551615 :=
      Nat.mul_le_mul (by omega) (by omega)
    rw [Nat.mod_eq_of_lt (show a.toNat < 2 ^ 128 by omega), Nat.mod_eq_of_lt (show b.toNat < 2 ^ 128 by omega)]
    omega
  case mulhsu => exact mulhsu64_eq a b
  case div =>
    simp only [Spec.result, op64]
    unfold Spec.signed Spec.quot
    by_cases h0 : b = 0#64
    · rw [if_pos h0, if_pos ((zero_iff b).1 h0)]; decide
    rw [if_neg h0, if_neg (fun h => h0 ((zero_iff b).2 h))]
    split
    · next h => rw [h.1, h.2]; decide
    · rw [BitVec.toInt_sdiv]
  case divu =>
    simp only [Spec.result, op64, zero_iff_nat]
    split
    · rfl
    · rw [BitVec.toNat_udiv]
  case rem =>
    simp only [Spec.result, op64]
    unfold Spec.remd
    by_cases h0 : b = 0#64
    · rw [if_pos h0, if_pos ((zero_iff b).1 h0)]
    rw [if_neg h0, if_neg (fun h => h0 ((zero_iff b).2 h))]
    split
    · next h => rw [h.1, h.2]; decide
    · rw [BitVec.toInt_srem]
  case remu =>
    simp only [Spec.result, op64, zero_iff_nat]
    split
    · rfl
    · rw [BitVec.toNat_umod]

/-- **C28 (W forms).** Whenever the C++ computation is defined (always, except mulw with a signed
overflow: `C28_w_defined`), a W form writes the ISA result. -/
theorem C28_w_partial (o : OpW) (a b r : BitVec 64) (h : opW o a b = some r) :
    Spec.resultW o a b r := by
  unfold opW at h
  cases o
  case mulw =>
    simp only [narrow, Alu.toInt32?] at h
    split at h
    · cases h
      simp only [Spec.resultW, sext_toInt, BitVec.toInt_ofInt, word_eq]
      rfl
    · cases h
  case divw =>
    simp only [narrow] at h
    cases h
    simp only [Spec.resultW, word_eq]
    rw [← div_spec32]
    split
    · decide
    · split
      · rw [sext_toInt]
      · rw [sext_toInt]
  case divuw =>
    simp only [narrow] at h
    cases h
    simp only [Spec.resultW, zero_iff_nat, BitVec.toNat_setWidth]
    split
    · decide
    · rw [sext_toInt, BitVec.toInt_eq_toNat_bmod, BitVec.toNat_udiv, BitVec.toNat_setWidth,
        BitVec.toNat_setWidth]
      rfl
  case remw =>
    simp only [narrow] at h
    cases h
    simp only [Spec.resultW, word_eq]
    rw [← rem_spec32]
    split
    · rw [sext_toInt]
    · split
      · decide
      · rw [sext_toInt]
  case remuw =>
    simp only [narrow] at h
    cases h
    simp only [Spec.resultW, zero_iff_nat, BitVec.toNat_setWidth]
    split
    · rw [sext_toInt, BitVec.toInt_eq_toNat_bmod, BitVec.toNat_setWidth]
      rfl
    · rw [sext_toInt, BitVec.toInt_eq_toNat_bmod, BitVec.toNat_umod, BitVec.toNat_setWidth,
        BitVec.toNat_setWidth]
      rfl

/-- **C28 (W forms, where the code is undefined).** Only mulw, exactly on signed overflow. -/
theorem C28_w_defined (o : OpW) (a b : BitVec 64) :
    (opW o a b).isSome ↔ (o = .mulw →
      -2 ^ 31 ≤ Alu.Spec.word a * Alu.Spec.word b ∧ Alu.Spec.word a * Alu.Spec.word b < 2 ^ 31) := by
  cases o
  case mulw =>
    rw [word_eq, word_eq]; simp only [opW, narrow, Alu.toInt32?, Option.isSome_map]
    generalize (a.setWidth 32).toInt * (b.setWidth 32).toInt = x
    split <;> simp <;> omega
  all_goals simp [opW, narrow]

/-- **C28 is violated by mulw with overflow**: the ISA result is the low word of the product; the C++
product of two `int`s is undefined. -/
theorem C28_mulw_violated : opW .mulw 0x10000 0x10000 = none := by decide

/-- Non-vacuity: the corner cases. -/
example : op32 .div 0x80000000 0xffffffff = 0x80000000 ∧ op32 .div 5 0 = 0xffffffff ∧
    op32 .rem 0x80000000 0xffffffff = 0 ∧ op32 .mulhsu 0xffffffff 0xffffffff = 0xffffffff ∧
    op64 .mulhsu 0x8000000000000000 0xffffffffffffffff = 0x8000000000000000 ∧
    op64 .rem (-7) 2 = -1 ∧ opW .divw 0x80000000 0xffffffff = some 0xffffffff80000000 ∧
    opW .divuw 7 0 = some 0xffffffffffffffff ∧ opW .mulw 3 0xfffffffe = some (-6) := by decide

end Verif.MulDiv
