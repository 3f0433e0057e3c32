import Verif.FpClass.Model
import Verif.FpClass.Spec
import Verif.Util.Bits
/-
C40: fclass, sign injection, fmin/fmax, comparisons.
-/
namespace Verif.FpClass
open Verif.Fp Spec

variable {f : Fmt}

theorem sign_eq (u : BitVec f.bits) : signBit u = sign u := by
  unfold signBit sign
  rw [BitVec.msb_eq_getLsbD_last]

theorem signNat (u : BitVec f.bits) : u.toNat / 2 ^ (f.bits - 1) ≠ 0 ↔ sign u = true := by
  have hlt := u.isLt
  have hb : f.bits = (f.bits - 1) + 1 := by unfold Fmt.bits; omega
  rw [← sign_eq]
  unfold signBit
  rw [BitVec.getLsbD, Nat.testBit_eq_decide_div_mod_eq, decide_eq_true_iff]
  have h2 : u.toNat / 2 ^ (f.bits - 1) < 2 := by
    apply Nat.div_lt_of_lt_mul
    rw [show 2 ^ (f.bits - 1) * 2 = 2 ^ f.bits by rw [← Nat.pow_succ]; exact congrArg _ (by omega)]
    exact hlt
  generalize u.toNat / 2 ^ (f.bits - 1) = q at h2
  omega

theorem fieldBit (n lo k i : Nat) (hi : i < k) : ((n / 2 ^ lo) % 2 ^ k).testBit i = n.testBit (lo + i) := by
  rw [Nat.testBit_mod_two_pow, Nat.testBit_div_two_pow]
  simp [hi, Nat.add_comm]

theorem field_zero (n lo k : Nat) : (n / 2 ^ lo) % 2 ^ k = 0 ↔ ∀ i, lo ≤ i → i < lo + k → n.testBit i = false := by
  constructor
  · intro h i h1 h2
    have := fieldBit n lo k (i - lo) (by omega)
    rw [h, Nat.zero_testBit, show lo + (i - lo) = i by omega] at this
    exact this.symm
  · intro h
    apply Nat.eq_of_testBit_eq
    intro i
    rw [Nat.zero_testBit]
    by_cases hi : i < k
    · rw [fieldBit _ _ _ _ hi]; exact h _ (by omega) (by omega)
    · rw [Nat.testBit_mod_two_pow]; simp [hi]

theorem field_ones (n lo k : Nat) : (n / 2 ^ lo) % 2 ^ k = 2 ^ k - 1 ↔ ∀ i, lo ≤ i → i < lo + k → n.testBit i = true := by
  constructor
  · intro h i h1 h2
    have := fieldBit n lo k (i - lo) (by omega)
    rw [h, Nat.testBit_two_pow_sub_one, show lo + (i - lo) = i by omega] at this
    rw [← this]; exact decide_eq_true (by omega)
  · intro h
    apply Nat.eq_of_testBit_eq
    intro i
    rw [Nat.testBit_two_pow_sub_one]
    by_cases hi : i < k
    · rw [fieldBit _ _ _ _ hi, h _ (by omega) (by omega)]; exact (decide_eq_true hi).symm
    · rw [Nat.testBit_mod_two_pow]; simp [hi]

theorem expZero_iff (u : BitVec f.bits) : expField u = 0 ↔ ExpZero u := field_zero _ _ _
theorem expOnes_iff (u : BitVec f.bits) : expField u = 2 ^ f.e - 1 ↔ ExpOnes u := field_ones _ _ _
theorem fracZero_iff (u : BitVec f.bits) : sigField u = 0 ↔ FracZero u := by
  have := field_zero u.toNat 0 f.s
  simp only [Nat.pow_zero, Nat.div_one, Nat.zero_le, true_implies, Nat.zero_add] at this
  exact this

theorem quiet_iff (hs : 0 < f.s) (u : BitVec f.bits) : sigField u / 2 ^ (f.s - 1) ≠ 0 ↔ quiet u = true := by
  unfold quiet sigField
  rw [BitVec.getLsbD]
  have h2 : u.toNat % 2 ^ f.s / 2 ^ (f.s - 1) < 2 := by
    apply Nat.div_lt_of_lt_mul
    rw [show 2 ^ (f.s - 1) * 2 = 2 ^ f.s by rw [← Nat.pow_succ]; exact congrArg _ (by omega)]
    exact Nat.mod_lt _ (Nat.two_pow_pos _)
  have : (u.toNat % 2 ^ f.s).testBit (f.s - 1) = u.toNat.testBit (f.s - 1) := by
    rw [Nat.testBit_mod_two_pow]; simp; omega
  rw [← this, Nat.testBit_eq_decide_div_mod_eq, decide_eq_true_iff]
  generalize u.toNat % 2 ^ f.s / 2 ^ (f.s - 1) = q at h2
  omega

/-- **C40 (fclass).** In every format exactly the bit of the operand's IEEE class is set. -/
theorem C40_fclass (he : 0 < f.e) (hs : 0 < f.s) (u : BitVec f.bits) (c : Class) :
    classify u = 2 ^ c.bit ↔ Is u c := by
  have e1 : (u.toNat / 2 ^ f.s) &&& (1 <<< f.e - 1) = expField u := by
    rw [Nat.one_shiftLeft, Nat.and_two_pow_sub_one_eq_mod]; rfl
  have e2 : u.toNat &&& (1 <<< f.s - 1) = sigField u := by
    rw [Nat.one_shiftLeft, Nat.and_two_pow_sub_one_eq_mod]; rfl
  have e3 : (1 : Nat) <<< f.e - 1 = 2 ^ f.e - 1 := by rw [Nat.one_shiftLeft]
  have hne : ¬ (expField u = 0 ∧ expField u = 2 ^ f.e - 1) := by
    have : 1 < 2 ^ f.e := Nat.one_lt_two_pow (by omega)
    omega
  have key : classify u =
      if expField u = 0 then (if sigField u = 0 then (if sign u = true then 8 else 16) else (if sign u = true then 4 else 32))
      else if expField u = 2 ^ f.e - 1 then
        (if sigField u = 0 then (if sign u = true then 1 else 128) else if quiet u = true then 512 else 256)
      else if sign u = true then 2 else 64 := by
    unfold classify
    simp only [e1, e2]
    simp only [e3, signNat, quiet_iff hs]
    rfl
  rw [key]
  have hq := Bool.eq_false_or_eq_true (quiet u)
  have hsg := Bool.eq_false_or_eq_true (sign u)
  by_cases h0 : expField u = 0
  · have h1 : ¬ expField u = 2 ^ f.e - 1 := fun h => hne ⟨h0, h⟩
    rw [if_pos h0]
    have g0 := (expZero_iff u).1 h0
    have g1 := (not_congr (expOnes_iff u)).1 h1
    by_cases hz : sigField u = 0
    · have gz := (fracZero_iff u).1 hz
      rcases hsg with hg | hg <;> cases c <;> simp [Is, Class.bit, g0, g1, gz, hz, hg]
    · have gz := (not_congr (fracZero_iff u)).1 hz
      rcases hsg with hg | hg <;> cases c <;> simp [Is, Class.bit, g0, g1, gz, hz, hg]
  · rw [if_neg h0]
    have g0 := (not_congr (expZero_iff u)).1 h0
    by_cases h1 : expField u = 2 ^ f.e - 1
    · rw [if_pos h1]
      have g1 := (expOnes_iff u).1 h1
      by_cases hz : sigField u = 0
      · have gz := (fracZero_iff u).1 hz
        rcases hsg with hg | hg <;> cases c <;> simp [Is, Class.bit, g0, g1, gz, hz, hg]
      · have gz := (not_congr (fracZero_iff u)).1 hz
        rcases hsg with hg | hg <;> rcases hq with hq | hq <;> cases c <;>
          simp [Is, Class.bit, g0, g1, gz, hz, hg, hq]
    · rw [if_neg h1]
      have g1 := (not_congr (expOnes_iff u)).1 h1
      rcases hsg with hg | hg <;> cases c <;> simp [Is, Class.bit, g0, g1, hg]

/-- Every operand is in exactly one class. -/
theorem C40_fclass_total (he : 0 < f.e) (hs : 0 < f.s) (u : BitVec f.bits) :
    ∃ c, Is u c ∧ ∀ d, Is u d → d = c := by
  have ex : ∃ c, classify u = 2 ^ Class.bit c := by
    unfold classify
    simp only []
    split
    · split <;> split
      · exact ⟨.negZero, rfl⟩
      · exact ⟨.posZero, rfl⟩
      · exact ⟨.negSubnormal, rfl⟩
      · exact ⟨.posSubnormal, rfl⟩
    · split
      · split
        · split
          · exact ⟨.negInf, rfl⟩
          · exact ⟨.posInf, rfl⟩
        · split
          · exact ⟨.qNaN, rfl⟩
          · exact ⟨.sNaN, rfl⟩
      · split
        · exact ⟨.negNormal, rfl⟩
        · exact ⟨.posNormal, rfl⟩
  obtain ⟨c, hc⟩ := ex
  refine ⟨c, (C40_fclass he hs u c).1 hc, fun d hd => ?_⟩
  have := (C40_fclass he hs u d).2 hd
  rw [hc] at this
  have hb : c.bit = d.bit := (Nat.pow_right_inj (by decide)).1 this
  revert hb
  cases c <;> cases d <;> decide

example : classify (f := single) 0xff800000#32 = 1 ∧ classify (f := double) 0x7ff0000000000001#64 = 256 := by decide

theorem classify_lt (u : BitVec f.bits) : classify u < 1024 := by
  unfold classify
  simp only []
  split
  · split <;> split <;> decide
  · split
    · split
      · split <;> decide
      · split <;> decide
    · split <;> decide

/-- **C40 (fclass register write).** All versions but RV64 fclass.s leave exactly the class word. -/
theorem C40_fclass_write {w : Nat} (old : BitVec w) (u : BitVec f.bits) :
    fclassFull old u = BitVec.ofNat w (classify u) := by
  unfold fclassFull writeLow
  have e : BitVec.allOnes w <<< w = 0#w := by
    apply BitVec.eq_of_getLsbD_eq
    intro i hi
    simp [hi]
  rw [e]
  simp

/-- **C40 violated (RV64 fclass.s).** The upper half of rd keeps its old contents; the result is the class
word exactly when that half was zero. -/
theorem C40_fclass_rv64_violated (old : BitVec 64) (u : BitVec single.bits) :
    fclassS64 old u = BitVec.ofNat 64 (classify u) ↔ old.toNat < 2 ^ 32 := by
  have key : (fclassS64 old u = BitVec.ofNat 64 (classify u)) ↔
      (writeLow 32 old (BitVec.ofNat 64 (classify u)) = BitVec.ofNat 64 (classify u)) := Iff.rfl
  have cb : ∀ i, 32 ≤ i → (BitVec.ofNat 64 (classify u)).getLsbD i = false := by
    intro i hi
    rw [BitVec.getLsbD_ofNat]
    have : (classify u).testBit i = false :=
      Nat.testBit_lt_two_pow (Nat.lt_of_lt_of_le (classify_lt u)
        (Nat.le_trans (by decide : 1024 ≤ 2 ^ 32) (Nat.pow_le_pow_right (by decide) hi)))
    simp [this]
  have hbit : ∀ i, i < 64 → (writeLow 32 old (BitVec.ofNat 64 (classify u))).getLsbD i =
      if i < 32 then (BitVec.ofNat 64 (classify u)).getLsbD i else old.getLsbD i := by
    intro i hi
    unfold writeLow
    simp only [BitVec.getLsbD_or, BitVec.getLsbD_and, BitVec.getLsbD_not, BitVec.getLsbD_shiftLeft,
      BitVec.getLsbD_allOnes]
    by_cases h : i < 32
    · simp [h, hi]
    · have : i - 32 < 64 := by omega
      simp [h, hi, this]
  rw [key]
  constructor
  · intro h
    have : ∀ i, 32 ≤ i → old.toNat.testBit i = false := by
      intro i hi
      by_cases h64 : i < 64
      · have h1 := hbit i h64
        rw [h, if_neg (by omega), cb i hi] at h1
        exact h1.symm
      · exact BitVec.getLsbD_of_ge old i (by omega)
    exact Nat.lt_pow_two_of_testBit _ this
  · intro h
    apply BitVec.eq_of_getLsbD_eq
    intro i hi
    rw [hbit i hi]
    by_cases h32 : i < 32
    · rw [if_pos h32]
    · rw [if_neg h32, cb i (by omega)]
      exact Nat.testBit_lt_two_pow (Nat.lt_of_lt_of_le h (Nat.pow_le_pow_right (by decide) (by omega)))

example : fclassS64 0xffffffff00000000#64 (0#32) = 0xffffffff00000010#64 := by decide

/-! ### Sign injection -/

theorem mask_bit (i : Nat) (hi : i < f.bits) : (signMask f).getLsbD i = decide (i = f.bits - 1) := by
  unfold signMask
  rw [BitVec.getLsbD_ofNat, Nat.testBit_two_pow]
  by_cases h : f.bits - 1 = i
  · simp [h, hi]
  · simp [h, Ne.symm h]

/-- **C40 (fsgnj, fsgnjn, fsgnjx).** Only the sign bit changes, and it becomes the sign of the second
operand, its complement, or the exclusive or of the two, for every format and all operands. -/
theorem C40_sgnj (a b : BitVec f.bits) (i : Nat) (hi : i < f.bits) :
    (sgnj a b).getLsbD i = (if i = f.bits - 1 then b.getLsbD i else a.getLsbD i)
    ∧ (sgnjn a b).getLsbD i = (if i = f.bits - 1 then !b.getLsbD i else a.getLsbD i)
    ∧ (sgnjx a b).getLsbD i = (if i = f.bits - 1 then (a.getLsbD i ^^ b.getLsbD i) else a.getLsbD i) := by
  unfold sgnj sgnjn sgnjx
  simp only [BitVec.getLsbD_or, BitVec.getLsbD_and, BitVec.getLsbD_not, BitVec.getLsbD_xor, mask_bit i hi]
  by_cases h : i = f.bits - 1
  · have : i < f.bits := hi
    simp [h]; intro _; omega
  · simp [h, hi]

/-- **C40 violated (half-precision sign injection).** On every NaN the result is the canonical NaN: the
payload is lost and the sign is not injected. -/
theorem C40_half_sgnj_violated (a b : BitVec half.bits) (h : isNaN a = true) :
    sgnjH a b = canonicalNaN half ∧ sgnjnH a b = canonicalNaN half ∧ sgnjxH a b = canonicalNaN half := by
  have key : ∀ r : BitVec half.bits, (∀ i, i < half.bits - 1 → r.getLsbD i = a.getLsbD i) → isNaN r = true := by
    intro r hr
    have hN : isNaN a = true ↔ (ExpOnes a ∧ ¬ FracZero a) := by
      unfold isNaN; simp [← expOnes_iff, ← fracZero_iff]
    have hR : isNaN r = true ↔ (ExpOnes r ∧ ¬ FracZero r) := by
      unfold isNaN; simp [← expOnes_iff, ← fracZero_iff]
    rw [hR]
    obtain ⟨h1, h2⟩ := hN.1 h
    have hb : half.bits - 1 = half.s + half.e := rfl
    refine ⟨fun i h3 h4 => ?_, fun hz => h2 (fun i hi => ?_)⟩
    · rw [hr i (by omega)]; exact h1 i h3 h4
    · rw [← hr i (by omega)]; exact hz i hi
  have k := C40_sgnj a b
  have n1 := key (sgnj a b) (fun i hi => by rw [(k i (by omega)).1, if_neg (by omega)])
  have n2 := key (sgnjn a b) (fun i hi => by rw [(k i (by omega)).2.1, if_neg (by omega)])
  have n3 := key (sgnjx a b) (fun i hi => by rw [(k i (by omega)).2.2, if_neg (by omega)])
  unfold sgnjH sgnjnH sgnjxH canonicalize
  rw [if_pos n1, if_pos n2, if_pos n3]
  exact ⟨rfl, rfl, rfl⟩

/-- fneg.h of a NaN does not change its sign. -/
example : sgnjnH 0x7e01#16 0x7e01#16 = 0x7e00#16 ∧ sgnjn (f := half) 0x7e01#16 0x7e01#16 = 0xfe01#16 := ⟨rfl, rfl⟩

/-- **C40 (half-precision sign injection, partial).** Correct when the first operand is not a NaN. -/
theorem C40_half_sgnj_partial (a b : BitVec half.bits) (h : isNaN a = false) :
    sgnjH a b = sgnj a b ∧ sgnjnH a b = sgnjn a b ∧ sgnjxH a b = sgnjx a b := by
  have key : ∀ r : BitVec half.bits, (∀ i, i < half.bits - 1 → r.getLsbD i = a.getLsbD i) → isNaN r = false := by
    intro r hr
    have hN : isNaN a = true ↔ (ExpOnes a ∧ ¬ FracZero a) := by
      unfold isNaN; simp [← expOnes_iff, ← fracZero_iff]
    have hR : isNaN r = true ↔ (ExpOnes r ∧ ¬ FracZero r) := by
      unfold isNaN; simp [← expOnes_iff, ← fracZero_iff]
    have hb : half.bits - 1 = half.s + half.e := rfl
    rw [Bool.eq_false_iff]
    intro hc
    obtain ⟨h1, h2⟩ := hR.1 hc
    rw [Bool.eq_false_iff] at h
    refine h (hN.2 ⟨fun i h3 h4 => ?_, fun hz => h2 (fun i hi => ?_)⟩)
    · rw [← hr i (by omega)]; exact h1 i h3 h4
    · rw [hr i (by omega)]; exact hz i hi
  have k := C40_sgnj a b
  have n1 := key (sgnj a b) (fun i hi => by rw [(k i (by omega)).1, if_neg (by omega)])
  have n2 := key (sgnjn a b) (fun i hi => by rw [(k i (by omega)).2.1, if_neg (by omega)])
  have n3 := key (sgnjx a b) (fun i hi => by rw [(k i (by omega)).2.2, if_neg (by omega)])
  unfold sgnjH sgnjnH sgnjxH canonicalize
  rw [if_neg (by rw [n1]; decide), if_neg (by rw [n2]; decide), if_neg (by rw [n3]; decide)]
  exact ⟨rfl, rfl, rfl⟩

/-! ### Minimum and maximum -/

theorem isNaN_iff (u : BitVec f.bits) : isNaN u = true ↔ NaN u := by
  unfold isNaN NaN Is
  have := Bool.eq_false_or_eq_true (quiet u)
  simp only [Bool.and_eq_true, beq_iff_eq, bne_iff_ne, ne_eq, expOnes_iff, fracZero_iff]
  constructor
  · rintro ⟨h1, h2⟩
    rcases this with h | h
    · exact .inr ⟨h1, h2, h⟩
    · exact .inl ⟨h1, h2, h⟩
  · rintro (⟨h1, h2, _⟩ | ⟨h1, h2, _⟩) <;> exact ⟨h1, h2⟩

theorem isSNaN_iff (u : BitVec f.bits) : isSNaN u = true ↔ Is u .sNaN := by
  unfold isSNaN isNaN Is quiet
  simp only [Bool.and_eq_true, beq_iff_eq, bne_iff_ne, ne_eq, expOnes_iff, fracZero_iff, Bool.not_eq_true',
    and_assoc]

theorem fixed_eq (u : BitVec f.bits) : fixed u = scaled u := by
  unfold fixed scaled
  rw [sign_eq]; rfl

theorem mag_nonneg (u : BitVec f.bits) : (sign u = true → scaled u ≤ 0) ∧ (sign u = false → 0 ≤ scaled u) := by
  unfold scaled
  simp only []
  have hm : (0 : Int) ≤ (if (u.toNat / 2 ^ f.s) % 2 ^ f.e = 0 then ((u.toNat % 2 ^ f.s : Nat) : Int)
    else ((2 ^ f.s + u.toNat % 2 ^ f.s : Nat) : Int) * 2 ^ ((u.toNat / 2 ^ f.s) % 2 ^ f.e - 1)) := by
    split
    · exact Int.natCast_nonneg _
    · exact Int.mul_nonneg (Int.natCast_nonneg _) (Int.pow_nonneg (by decide))
  constructor <;> intro h <;> rw [h]
  · simp only [if_true]; omega
  · simpa using hm

theorem before_of_lt (a b : BitVec f.bits) (h : scaled a ≤ scaled b) (hz : ¬ (scaled a = 0 ∧ scaled b = 0)) :
    Before a b := by
  by_cases he : scaled a < scaled b
  · exact .inl he
  · refine .inr ⟨by omega, ?_⟩
    cases hs : sign a
    · right
      cases hb : sign b
      · rfl
      · have := (mag_nonneg a).2 hs; have := (mag_nonneg b).1 hb; omega
    · exact .inl rfl

/-- **C40 (fmin, single and double precision; fmin.h has no model because it calls the host's fminf).**
Both operands NaN: canonical NaN.  One NaN: the other operand.  No NaN: one of the operands, and it comes
before both in the order of values with -0 before +0.  NV is raised exactly for a signalling NaN. -/
theorem C40_fmin (a b : BitVec f.bits) :
    (NaN a → NaN b → (fmin a b).1 = canonicalNaN f)
    ∧ (NaN a → ¬ NaN b → (fmin a b).1 = b) ∧ (¬ NaN a → NaN b → (fmin a b).1 = a)
    ∧ (¬ NaN a → ¬ NaN b → ((fmin a b).1 = a ∨ (fmin a b).1 = b) ∧ Before (fmin a b).1 a ∧ Before (fmin a b).1 b)
    ∧ (((fmin a b).2 = 16) ↔ (Is a .sNaN ∨ Is b .sNaN)) ∧ ((fmin a b).2 = 16 ∨ (fmin a b).2 = 0) := by
  simp only [← isNaN_iff, ← isSNaN_iff]
  refine ⟨fun h1 h2 => ?_, fun h1 h2 => ?_, fun h1 h2 => ?_, fun h1 h2 => ?_, ?_, ?_⟩
  · simp only [fmin, h1, h2, if_true]
  · simp only [fmin, h1, if_true, if_neg h2]
  · simp only [fmin, if_neg h1, h2, if_true]
  · have h1' := Bool.eq_false_iff.2 h1
    have h2' := Bool.eq_false_iff.2 h2
    have e : (fmin a b).1 = if scaled a = 0 ∧ scaled b = 0 then (if sign a = true then a else b)
        else if scaled b < scaled a then b else a := by
      simp only [fmin, Bool.false_eq_true, if_false, hostZero, hostLt, h1', h2', Bool.not_false, Bool.true_and, fixed_eq,
        Bool.and_eq_true, decide_eq_true_iff, sign_eq]
    rw [e]
    by_cases hz : scaled a = 0 ∧ scaled b = 0
    · rw [if_pos hz]
      by_cases hs : sign a = true
      · rw [if_pos hs]
        exact ⟨.inl rfl, .inr ⟨rfl, .inl hs⟩, .inr ⟨by omega, .inl hs⟩⟩
      · rw [if_neg hs]
        refine ⟨.inr rfl, .inr ⟨by omega, .inr (Bool.eq_false_iff.2 hs)⟩, .inr ⟨rfl, ?_⟩⟩
        cases sign b
        · exact .inr rfl
        · exact .inl rfl
    · rw [if_neg hz]
      by_cases hl : scaled b < scaled a
      · rw [if_pos hl]
        refine ⟨.inr rfl, .inl hl, .inr ⟨rfl, ?_⟩⟩
        cases sign b
        · exact .inr rfl
        · exact .inl rfl
      · rw [if_neg hl]
        refine ⟨.inl rfl, .inr ⟨rfl, ?_⟩, before_of_lt a b (by omega) hz⟩
        cases sign a
        · exact .inr rfl
        · exact .inl rfl
  · simp only [fmin, kInvalidOp, Bool.or_eq_true]
    split <;> simp_all
  · simp only [fmin, kInvalidOp]
    split
    · exact .inl rfl
    · exact .inr rfl

theorem max_core (a b r : BitVec f.bits)
    (e : r = if scaled a = 0 ∧ scaled b = 0 then (if sign b = true then a else b)
        else if scaled a < scaled b then b else a) :
    (r = a ∨ r = b) ∧ Before a r ∧ Before b r := by
  have rfl' : ∀ u : BitVec f.bits, Before u u := fun u => .inr ⟨rfl, by cases sign u; exact .inr rfl; exact .inl rfl⟩
  rw [e]
  by_cases hz : scaled a = 0 ∧ scaled b = 0
  · rw [if_pos hz]
    by_cases hs : sign b = true
    · rw [if_pos hs]
      exact ⟨.inl rfl, rfl' a, .inr ⟨by omega, .inl hs⟩⟩
    · rw [if_neg hs]
      exact ⟨.inr rfl, .inr ⟨by omega, .inr (Bool.eq_false_iff.2 hs)⟩, rfl' b⟩
  · rw [if_neg hz]
    by_cases hl : scaled a < scaled b
    · rw [if_pos hl]
      exact ⟨.inr rfl, .inl hl, rfl' b⟩
    · rw [if_neg hl]
      exact ⟨.inl rfl, rfl' a, before_of_lt b a (by omega) (fun h => hz ⟨h.2, h.1⟩)⟩

/-- **C40 (fmax.s).** -/
theorem C40_fmax (a b : BitVec f.bits) :
    (NaN a → NaN b → (fmax a b).1 = canonicalNaN f)
    ∧ (NaN a → ¬ NaN b → (fmax a b).1 = b) ∧ (¬ NaN a → NaN b → (fmax a b).1 = a)
    ∧ (¬ NaN a → ¬ NaN b → ((fmax a b).1 = a ∨ (fmax a b).1 = b) ∧ Before a (fmax a b).1 ∧ Before b (fmax a b).1)
    ∧ (((fmax a b).2 = 16) ↔ (Is a .sNaN ∨ Is b .sNaN)) ∧ ((fmax a b).2 = 16 ∨ (fmax a b).2 = 0) := by
  simp only [← isNaN_iff, ← isSNaN_iff]
  refine ⟨fun h1 h2 => ?_, fun h1 h2 => ?_, fun h1 h2 => ?_, fun h1 h2 => ?_, ?_, ?_⟩
  · simp only [fmax, h1, h2, if_true]
  · simp only [fmax, h1, if_true, if_neg h2]
  · simp only [fmax, if_neg h1, h2, if_true]
  · have h1' := Bool.eq_false_iff.2 h1
    have h2' := Bool.eq_false_iff.2 h2
    apply max_core
    simp only [fmax, Bool.false_eq_true, if_false, hostZero, hostLt, h1', h2', Bool.not_false, Bool.true_and, fixed_eq,
        Bool.and_eq_true, decide_eq_true_iff, sign_eq]
  · simp only [fmax, kInvalidOp, Bool.or_eq_true]
    split <;> simp_all
  · simp only [fmax, kInvalidOp]
    split
    · exact .inl rfl
    · exact .inr rfl

/-- **C40 (fmax.d).** -/
theorem C40_dmax (a b : BitVec f.bits) :
    (NaN a → NaN b → (dmax a b).1 = canonicalNaN f)
    ∧ (NaN a → ¬ NaN b → (dmax a b).1 = b) ∧ (¬ NaN a → NaN b → (dmax a b).1 = a)
    ∧ (¬ NaN a → ¬ NaN b → ((dmax a b).1 = a ∨ (dmax a b).1 = b) ∧ Before a (dmax a b).1 ∧ Before b (dmax a b).1)
    ∧ (((dmax a b).2 = 16) ↔ (Is a .sNaN ∨ Is b .sNaN)) ∧ ((dmax a b).2 = 16 ∨ (dmax a b).2 = 0) := by
  simp only [← isNaN_iff, ← isSNaN_iff]
  refine ⟨fun h1 h2 => ?_, fun h1 h2 => ?_, fun h1 h2 => ?_, fun h1 h2 => ?_, ?_, ?_⟩
  · simp only [dmax, h1, h2, if_true]
  · simp only [dmax, h1, if_true, if_neg h2]
  · simp only [dmax, if_neg h1, h2, if_true]
  · have h1' := Bool.eq_false_iff.2 h1
    have h2' := Bool.eq_false_iff.2 h2
    have rfl' : ∀ u : BitVec f.bits, Before u u :=
      fun u => .inr ⟨rfl, by cases sign u; exact .inr rfl; exact .inl rfl⟩
    have e : (dmax a b).1 = if scaled a = 0 ∧ scaled b = 0 then (if sign a = true then b else a)
        else if scaled a < scaled b then b else a := by
      simp only [dmax, Bool.false_eq_true, if_false, hostZero, hostLt, h1', h2', Bool.not_false, Bool.true_and, fixed_eq,
        Bool.and_eq_true, decide_eq_true_iff, sign_eq]
    rw [e]
    by_cases hz : scaled a = 0 ∧ scaled b = 0
    · rw [if_pos hz]
      by_cases hs : sign a = true
      · rw [if_pos hs]
        exact ⟨.inr rfl, .inr ⟨by omega, .inl hs⟩, rfl' b⟩
      · rw [if_neg hs]
        exact ⟨.inl rfl, rfl' a, .inr ⟨by omega, .inr (Bool.eq_false_iff.2 hs)⟩⟩
    · rw [if_neg hz]
      by_cases hl : scaled a < scaled b
      · rw [if_pos hl]
        exact ⟨.inr rfl, .inl hl, rfl' b⟩
      · rw [if_neg hl]
        exact ⟨.inl rfl, rfl' a, before_of_lt b a (by omega) (fun h => hz ⟨h.2, h.1⟩)⟩
  · simp only [dmax, kInvalidOp, Bool.or_eq_true]
    split <;> simp_all
  · simp only [dmax, kInvalidOp]
    split
    · exact .inl rfl
    · exact .inr rfl

example : (fmin (f := single) 0x00000000#32 0x80000000#32).1 = 0x80000000#32
    ∧ (fmax (f := single) 0x3f800000#32 0xbf800000#32).1 = 0x3f800000#32
    ∧ (fmin (f := single) 0x7fc00001#32 0x7f800001#32) = (0x7fc00000#32, 16) := ⟨rfl, rfl, rfl⟩

/-- **C40 (comparisons).** feq/flt/fle compare the values, are false on NaN, and raise NV for signalling
NaNs (feq) or for any NaN (flt, fle). -/
theorem C40_compare (a b : BitVec f.bits) :
    ((feq a b).1 = true ↔ ¬ NaN a ∧ ¬ NaN b ∧ scaled a = scaled b)
    ∧ ((flt a b).1 = true ↔ ¬ NaN a ∧ ¬ NaN b ∧ scaled a < scaled b)
    ∧ ((fle a b).1 = true ↔ ¬ NaN a ∧ ¬ NaN b ∧ scaled a ≤ scaled b)
    ∧ ((feq a b).2 = 16 ↔ Is a .sNaN ∨ Is b .sNaN) ∧ ((feq a b).2 = 16 ∨ (feq a b).2 = 0)
    ∧ ((flt a b).2 = 16 ↔ NaN a ∨ NaN b) ∧ ((flt a b).2 = 16 ∨ (flt a b).2 = 0)
    ∧ (fle a b).2 = (flt a b).2 := by
  have fl : ∀ c : Bool, ((if c then kInvalidOp else 0) = 16 ↔ c = true)
      ∧ ((if c then kInvalidOp else 0) = 16 ∨ (if c then kInvalidOp else 0) = 0) := by decide
  refine ⟨?_, ?_, ?_, ?_, ?_, ?_, ?_, rfl⟩
  · simp [← isNaN_iff, feq, hostEq, fixed_eq, and_assoc]
  · simp [← isNaN_iff, flt, hostLt, fixed_eq, and_assoc]
  · simp [← isNaN_iff, fle, hostLe, fixed_eq, and_assoc]
  · rw [← isSNaN_iff, ← isSNaN_iff, ← Bool.or_eq_true]; exact (fl _).1
  · exact (fl _).2
  · rw [← isNaN_iff, ← isNaN_iff, ← Bool.or_eq_true]; exact (fl _).1
  · exact (fl _).2

end Verif.FpClass
