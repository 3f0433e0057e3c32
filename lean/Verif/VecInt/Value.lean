import Verif.VecInt.Spec
import Verif.VecLoop.Props
/-
Lemmas: what the C++ operations compute on one element.
-/
namespace Verif.VecInt
open Verif.VecState Verif.VecLoop Verif.VecLoop.Spec

theorem eq_ofInt_nat {w : Nat} (x : BitVec w) (k : Nat) (h : x.toNat = k % 2 ^ w) : x = BitVec.ofInt w k := by
  rw [BitVec.ofInt_natCast]
  apply BitVec.eq_of_toNat_eq
  rw [h, BitVec.toNat_ofNat]

theorem eq_ofInt {w : Nat} (x : BitVec w) (k : Int) (h : x.toInt = k.bmod (2 ^ w)) : x = BitVec.ofInt w k := by
  apply BitVec.eq_of_toInt_eq
  rw [h, BitVec.toInt_ofInt]

theorem ofInt_toInt' {w : Nat} (x : BitVec w) (k : Int) (h : x.toInt = k) : x = BitVec.ofInt w k := by
  rw [← h, BitVec.ofInt_toInt]

theorem ofInt_sub {w : Nat} (x y : Int) : BitVec.ofInt w (x - y) = BitVec.ofInt w x - BitVec.ofInt w y := by
  apply BitVec.eq_of_toInt_eq
  rw [BitVec.toInt_sub, BitVec.toInt_ofInt, BitVec.toInt_ofInt, BitVec.toInt_ofInt, Int.sub_bmod_bmod, Int.bmod_sub_bmod]

theorem shift_amount (n : Nat) (hn : n = 1 ∨ n = 2 ∨ n = 4 ∨ n = 8) {w : Nat} (hw : n * 8 ≤ 2 ^ w) (b : BitVec w) :
    (b &&& BitVec.ofNat w (shiftMask n)).toNat = b.toNat % (8 * n) := by
  rw [BitVec.toNat_and, BitVec.toNat_ofNat]
  have hm : shiftMask n = 8 * n - 1 := by rcases hn with rfl | rfl | rfl | rfl <;> rfl
  have hp : ∃ k, 8 * n = 2 ^ k := by
    rcases hn with rfl | rfl | rfl | rfl
    · exact ⟨3, rfl⟩
    · exact ⟨4, rfl⟩
    · exact ⟨5, rfl⟩
    · exact ⟨6, rfl⟩
  obtain ⟨k, hk⟩ := hp
  rw [Nat.mod_eq_of_lt (by omega), hm, hk]
  exact Nat.and_two_pow_sub_one_eq_mod _ _

theorem toInt_trunc {n v : Nat} (h : v ≤ n) (c : BitVec n) : (c.setWidth v).toInt = c.toInt.bmod (2 ^ v) := by
  rw [BitVec.toInt_setWidth, BitVec.toInt_eq_toNat_bmod]
  have : (2 ^ v : Nat) ∣ 2 ^ n := Nat.pow_dvd_pow 2 h
  rw [Int.bmod_bmod_of_dvd this]

theorem bound {w : Nat} (hw : 0 < w) (a : BitVec w) : a.toInt.natAbs ≤ 2 ^ (w - 1) := by
  have h1 := BitVec.le_toInt a
  have h2 := @BitVec.toInt_lt w a
  have : ((2 ^ (w - 1) : Nat) : Int) = 2 ^ (w - 1) := by norm_cast
  omega

theorem wide_exact {w : Nat} (hw : 0 < w) (x y : Int) (m k : Nat) (hx : x.natAbs ≤ m) (hy : y.natAbs ≤ k) (hmk : m * k < 2 ^ (2 * w - 1)) :
    (x * y).bmod (2 ^ (2 * w)) = x * y := by
  have h : (x * y).natAbs ≤ m * k := by rw [Int.natAbs_mul]; exact Nat.mul_le_mul hx hy
  have hp : 2 ^ (2 * w) = 2 * 2 ^ (2 * w - 1) := by
    rw [← Nat.pow_succ']; congr 1; omega
  rw [hp]
  apply Int.bmod_eq_of_le <;> omega

theorem high {w : Nat} (c : BitVec (2 * w)) (k : Int) (h : c.toInt = k) :
    (c.sshiftRight w).setWidth w = BitVec.ofInt w (k / 2 ^ w) := by
  apply eq_ofInt
  rw [toInt_trunc (by omega), BitVec.toInt_sshiftRight, Int.shiftRight_eq_div_pow, h]
  norm_cast

theorem half {w : Nat} (hw : 0 < w) : 2 * 2 ^ (w - 1) = 2 ^ w := by rw [← Nat.pow_succ']; congr 1; omega

theorem zext_toInt {w v : Nat} (h : w < v) (b : BitVec w) : (b.setWidth v).toInt = b.toNat := by
  rw [BitVec.toInt_eq_toNat_of_lt]
  · rw [BitVec.toNat_setWidth, Nat.mod_eq_of_lt (Nat.lt_trans b.isLt (Nat.pow_lt_pow_right (by decide) h))]
  · rw [BitVec.toNat_setWidth]
    have h1 := Nat.mod_le b.toNat (2 ^ v)
    have h2 := b.isLt
    have h3 : 2 * 2 ^ w ≤ 2 ^ v := by
      rw [← Nat.pow_succ']; exact Nat.pow_le_pow_right (by decide) h
    omega

/-- The values of the operations on operands of the same width. -/
theorem same_value (n : Nat) (hn : n = 1 ∨ n = 2 ∨ n = 4 ∨ n = 8) (o : Same) (a b : BitVec (8 * n)) :
    o.fn n a b = BitVec.ofInt (8 * n) (Spec.same a b o) := by
  have hw : 0 < 8 * n := by omega
  have hsm : n * 8 ≤ 2 ^ (8 * n) := by rcases hn with rfl | rfl | rfl | rfl <;> decide
  have hshift := shift_amount n hn hsm b
  have hhalf := half hw
  cases o with
  | add => rw [Same.fn, Spec.same, BitVec.ofInt_add, BitVec.ofInt_toInt, BitVec.ofInt_toInt]
  | sub => rw [Same.fn, Spec.same, ofInt_sub, BitVec.ofInt_toInt, BitVec.ofInt_toInt]
  | rsub => rw [Same.fn, Spec.same, ofInt_sub, BitVec.ofInt_toInt, BitVec.ofInt_toInt]
  | and =>
    apply eq_ofInt_nat
    rw [Same.fn, BitVec.toNat_and, Nat.mod_eq_of_lt (Nat.lt_of_le_of_lt Nat.and_le_left a.isLt)]
  | or =>
    apply eq_ofInt_nat
    rw [Same.fn, BitVec.toNat_or, Nat.mod_eq_of_lt (Nat.or_lt_two_pow a.isLt b.isLt)]
  | xor =>
    apply eq_ofInt_nat
    rw [Same.fn, BitVec.toNat_xor, Nat.mod_eq_of_lt (Nat.xor_lt_two_pow a.isLt b.isLt)]
  | sll =>
    apply eq_ofInt_nat
    rw [Same.fn, hshift, BitVec.toNat_shiftLeft, Nat.shiftLeft_eq]
  | srl =>
    apply eq_ofInt_nat
    rw [Same.fn, hshift, BitVec.toNat_ushiftRight, Nat.shiftRight_eq_div_pow,
      Nat.mod_eq_of_lt (Nat.lt_of_le_of_lt (Nat.div_le_self ..) a.isLt)]
  | sra =>
    apply ofInt_toInt'
    rw [Same.fn, hshift, BitVec.toInt_sshiftRight, Int.shiftRight_eq_div_pow, Spec.same]
    norm_cast
  | minu =>
    apply eq_ofInt_nat
    have h1 := a.isLt
    have h2 := b.isLt
    rw [Same.fn]
    by_cases h : b < a
    · have h' := BitVec.lt_def.1 h
      rw [if_pos h, Nat.min_eq_right (by omega), Nat.mod_eq_of_lt h2]
    · have h' : ¬ b.toNat < a.toNat := fun hh => h (BitVec.lt_def.2 hh)
      rw [if_neg h, Nat.min_eq_left (by omega), Nat.mod_eq_of_lt h1]
  | maxu =>
    apply eq_ofInt_nat
    have h1 := a.isLt
    have h2 := b.isLt
    rw [Same.fn]
    by_cases h : a < b
    · have h' := BitVec.lt_def.1 h
      rw [if_pos h, Nat.max_eq_right (by omega), Nat.mod_eq_of_lt h2]
    · have h' : ¬ a.toNat < b.toNat := fun hh => h (BitVec.lt_def.2 hh)
      rw [if_neg h, Nat.max_eq_left (by omega), Nat.mod_eq_of_lt h1]
  | min =>
    apply ofInt_toInt'
    rw [Same.fn, Spec.same]
    by_cases h : b.slt a = true
    · have h' := BitVec.slt_iff_toInt_lt.1 h
      rw [if_pos h]; omega
    · have h' : ¬ b.toInt < a.toInt := fun hh => h (BitVec.slt_iff_toInt_lt.2 hh)
      rw [if_neg h]; omega
  | max =>
    apply ofInt_toInt'
    rw [Same.fn, Spec.same]
    by_cases h : a.slt b = true
    · have h' := BitVec.slt_iff_toInt_lt.1 h
      rw [if_pos h]; omega
    · have h' : ¬ a.toInt < b.toInt := fun hh => h (BitVec.slt_iff_toInt_lt.2 hh)
      rw [if_neg h]; omega
  | divu =>
    rw [Same.fn, Spec.same]
    by_cases h : b = 0#_
    · subst h
      rw [if_pos rfl, if_pos (by simp)]
      apply BitVec.eq_of_toInt_eq
      rw [BitVec.toInt_ofInt]
      have : (~~~(0#(8 * n))) = BitVec.allOnes _ := by simp
      rw [this, BitVec.toInt_allOnes, if_pos hw]
      symm
      apply Int.bmod_eq_of_le <;> omega
    · have h' : ¬ b.toNat = 0 := fun hh => h (BitVec.eq_of_toNat_eq (by simpa using hh))
      rw [if_neg h, if_neg h']
      apply eq_ofInt_nat
      rw [BitVec.toNat_udiv, Nat.mod_eq_of_lt (Nat.lt_of_le_of_lt (Nat.div_le_self ..) a.isLt)]
  | div =>
    rw [Same.fn, Spec.same]
    by_cases h : b = 0#_
    · subst h
      rw [if_pos rfl, if_pos (by simp)]
      apply BitVec.eq_of_toInt_eq
      rw [BitVec.toInt_ofInt, BitVec.toInt_allOnes, if_pos hw]
      symm
      apply Int.bmod_eq_of_le <;> omega
    · have h' : ¬ b.toInt = 0 := fun hh => h (BitVec.eq_of_toInt_eq (by simpa using hh))
      rw [if_neg h, if_neg h']
      have hsd : a.sdiv b = BitVec.ofInt _ (a.toInt.tdiv b.toInt) := by
        apply eq_ofInt
        exact BitVec.toInt_sdiv a b
      by_cases hov : b = BitVec.allOnes _ ∧ a = BitVec.intMin _
      · rw [if_pos hov, ← hsd, hov.1, hov.2]
        have := @BitVec.intMin_sdiv_neg_one (8 * n)
        rw [BitVec.neg_one_eq_allOnes] at this
        exact this.symm
      · rw [if_neg hov, hsd]
  | remu =>
    rw [Same.fn, Spec.same]
    by_cases h : b = 0#_
    · subst h
      rw [if_pos rfl, if_pos (by simp)]
      apply eq_ofInt_nat
      rw [Nat.mod_eq_of_lt a.isLt]
    · have h' : ¬ b.toNat = 0 := fun hh => h (BitVec.eq_of_toNat_eq (by simpa using hh))
      rw [if_neg h, if_neg h']
      apply eq_ofInt_nat
      rw [BitVec.toNat_umod, Nat.mod_eq_of_lt (Nat.lt_of_le_of_lt (Nat.mod_le ..) a.isLt)]
  | rem =>
    rw [Same.fn, Spec.same]
    by_cases h : b = 0#_
    · subst h
      rw [if_pos rfl, if_pos (by simp), BitVec.ofInt_toInt]
    · have h' : ¬ b.toInt = 0 := fun hh => h (BitVec.eq_of_toInt_eq (by simpa using hh))
      rw [if_neg h, if_neg h']
      apply ofInt_toInt'
      exact BitVec.toInt_srem a b
  | mulhu =>
    apply eq_ofInt_nat
    have h1 := a.isLt
    have h2 := b.isLt
    have hle : 2 ^ (8 * n) ≤ 2 ^ (2 * (8 * n)) := Nat.pow_le_pow_right (by decide) (by omega)
    have hsq : 2 ^ (2 * (8 * n)) = 2 ^ (8 * n) * 2 ^ (8 * n) := by rw [← Nat.pow_add]; congr 1; omega
    have hprod : a.toNat * b.toNat < 2 ^ (2 * (8 * n)) := by rw [hsq]; exact Nat.mul_lt_mul'' h1 h2
    rw [Same.fn, BitVec.toNat_setWidth, BitVec.toNat_ushiftRight, Nat.shiftRight_eq_div_pow, BitVec.toNat_mul,
      BitVec.toNat_setWidth, BitVec.toNat_setWidth, Nat.mod_eq_of_lt (Nat.lt_of_lt_of_le h1 hle),
      Nat.mod_eq_of_lt (Nat.lt_of_lt_of_le h2 hle), Nat.mod_eq_of_lt hprod]
  | mul => rw [Same.fn, Spec.same, BitVec.ofInt_mul, BitVec.ofInt_toInt, BitVec.ofInt_toInt]
  | mulhsu =>
    apply high
    have hz : ((b.toNat : Int)).natAbs ≤ 2 ^ (8 * n) - 1 := by have := b.isLt; omega
    rw [BitVec.toInt_mul, BitVec.toInt_signExtend_of_le (by omega), zext_toInt (by omega)]
    apply wide_exact hw _ _ _ _ (bound hw a) hz
    have h2 : 2 ^ (2 * (8 * n) - 1) = 2 ^ (8 * n - 1) * 2 ^ (8 * n) := by rw [← Nat.pow_add]; congr 1; omega
    rw [h2]
    exact Nat.mul_lt_mul_of_pos_left (by have := Nat.two_pow_pos (8 * n); omega) (Nat.two_pow_pos _)
  | mulh =>
    apply high
    rw [BitVec.toInt_mul, BitVec.toInt_signExtend_of_le (by omega), BitVec.toInt_signExtend_of_le (by omega)]
    apply wide_exact hw _ _ _ _ (bound hw a) (bound hw b)
    have h2 : 2 ^ (2 * (8 * n) - 1) = 2 ^ (8 * n - 1) * 2 ^ (8 * n) := by rw [← Nat.pow_add]; congr 1; omega
    rw [h2]
    exact Nat.mul_lt_mul_of_pos_left (Nat.pow_lt_pow_right (by decide) (by omega)) (Nat.two_pow_pos _)

theorem narrow_value (n : Nat) (hn : n = 1 ∨ n = 2 ∨ n = 4) (o : Narrow) (a : BitVec (8 * (2 * n))) (b : BitVec (8 * n)) :
    o.fn n a b = BitVec.ofInt (8 * n) (Spec.narrow a b o) := by
  have hsm : 2 * n * 8 ≤ 2 ^ (8 * n) := by rcases hn with rfl | rfl | rfl <;> decide
  have hshift := shift_amount (2 * n) (by omega) hsm b
  cases o with
  | nsrl =>
    apply eq_ofInt_nat
    rw [Narrow.fn, hshift, BitVec.toNat_setWidth, BitVec.toNat_ushiftRight, Nat.shiftRight_eq_div_pow]
  | nsra =>
    apply eq_ofInt
    rw [Narrow.fn, hshift, toInt_trunc (by omega), BitVec.toInt_sshiftRight, Int.shiftRight_eq_div_pow, Spec.narrow]
    norm_cast

theorem sext_ofInt {w v : Nat} (h : w ≤ v) (a : BitVec w) : a.signExtend v = BitVec.ofInt v a.toInt :=
  ofInt_toInt' _ _ (BitVec.toInt_signExtend_of_le h)

theorem zext_ofInt {w v : Nat} (h : w < v) (a : BitVec w) : a.setWidth v = BitVec.ofInt v (a.toNat : Int) :=
  ofInt_toInt' _ _ (zext_toInt h a)

theorem wide_value (n : Nat) (hn : 0 < n) (o : Wide) (a b : BitVec (8 * n)) :
    o.fn n a b = BitVec.ofInt (8 * (2 * n)) (Spec.wide a b o) := by
  have hz : ∀ a : BitVec (8 * n), a.setWidth (8 * (2 * n)) = BitVec.ofInt _ (a.toNat : Int) := zext_ofInt (by omega)
  have hs : ∀ a : BitVec (8 * n), a.signExtend (8 * (2 * n)) = BitVec.ofInt _ a.toInt := sext_ofInt (by omega)
  cases o <;> simp only [Wide.fn, Spec.wide, hz, hs, BitVec.ofInt_add, ofInt_sub, BitVec.ofInt_mul]

theorem wideW_value (n : Nat) (hn : 0 < n) (o : WideW) (a : BitVec (8 * (2 * n))) (b : BitVec (8 * n)) :
    o.fn n a b = BitVec.ofInt (8 * (2 * n)) (Spec.wideW a b o) := by
  have hz : b.setWidth (8 * (2 * n)) = BitVec.ofInt _ (b.toNat : Int) := zext_ofInt (by omega) b
  have hs : b.signExtend (8 * (2 * n)) = BitVec.ofInt _ b.toInt := sext_ofInt (by omega) b
  cases o <;> simp only [WideW.fn, Spec.wideW, hz, hs, BitVec.ofInt_add, ofInt_sub, BitVec.ofInt_toInt]

theorem mac_value {w : Nat} (o : Mac) (a b d : BitVec w) : o.fn a b d = BitVec.ofInt w (Spec.mac a b d o) := by
  cases o <;> simp only [Mac.fn, Spec.mac, BitVec.ofInt_add, ofInt_sub, BitVec.ofInt_mul, BitVec.ofInt_toInt] <;> grind

theorem wmac_value (n : Nat) (hn : 0 < n) (o : WMac) (a b : BitVec (8 * n)) (d : BitVec (8 * (2 * n))) :
    o.fn n a b d = BitVec.ofInt (8 * (2 * n)) (Spec.wmac a b d o) := by
  have hz : ∀ a : BitVec (8 * n), a.setWidth (8 * (2 * n)) = BitVec.ofInt _ (a.toNat : Int) := zext_ofInt (by omega)
  have hs : ∀ a : BitVec (8 * n), a.signExtend (8 * (2 * n)) = BitVec.ofInt _ a.toInt := sext_ofInt (by omega)
  cases o <;> simp only [WMac.fn, Spec.wmac, hz, hs, BitVec.ofInt_add, BitVec.ofInt_mul, BitVec.ofInt_toInt] <;> grind

end Verif.VecInt
