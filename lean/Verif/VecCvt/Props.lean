import Verif.VecCvt.Model
import Verif.FpConvert.Props

/-!
# C76: vector conversions from floating point to integer

What they must return is the specification of the scalar conversions
(`FpConvert.Spec`): `Value` and `Flags`; mode 1 is rounding towards zero.
-/

namespace Verif.VecCvt

open Verif.Fp Verif.FpConvert Verif.FpConvert.Spec

variable {f : Fmt}

theorem trunc_rounded (u : BitVec f.bits) : Rounded 1 (num u) (den u) (trunc u) := by
  have hd : (0 : Int) < den u := by exact_mod_cast den_pos u
  unfold trunc
  rw [rounded_lin 1 _ _ _ _ rfl]
  simp only
  have h := Int.tmod_add_tdiv_mul (num u) (den u)
  constructor
  · intro hn
    have h1 := Int.tmod_nonneg (den u : Int) hn
    have h2 := Int.tmod_lt_of_pos (num u) hd
    omega
  · intro hn
    have h1 := Int.tmod_nonneg (den u : Int) (a := -num u) (by omega)
    have h2 := Int.tmod_lt_of_pos (-num u) hd
    rw [Int.neg_tmod] at h1 h2
    omega

/-- Facts about the truncated value in product form. -/
theorem trunc_facts (u : BitVec f.bits) :
    (0 ≤ num u → trunc u * den u ≤ num u ∧ num u < trunc u * den u + den u) ∧
    (num u < 0 → trunc u * den u - den u < num u ∧ num u ≤ trunc u * den u) :=
  (rounded_lin 1 _ _ _ _ rfl).1 (trunc_rounded u)

theorem mul_den_lt (u : BitVec f.bits) {a b : Int} : a * den u < b * den u ↔ a < b := by
  have hd : (0 : Int) < den u := by exact_mod_cast den_pos u
  exact ⟨fun h => Int.lt_of_mul_lt_mul_right h (Int.le_of_lt hd), fun h => Int.mul_lt_mul_of_pos_right h hd⟩

theorem special_cases (u : BitVec f.bits) :
    (Special u ↔ isNaN u = true ∨ isInf u = true) ∧
    (NegInf u ↔ isInf u = true ∧ signBit u = true) ∧ (isInf u = true → isNaN u = false) := by
  have hs := special_iff u
  have hm := sign_msb u
  unfold NegInf isNaN isInf
  rw [hs, hm]
  have : u.toNat % 2 ^ f.s = sigField u := rfl
  rw [this]
  by_cases h1 : expField u = 2 ^ f.e - 1 <;> by_cases h2 : sigField u = 0 <;> simp [h1, h2]

theorem cvt_special (t : To) (u : BitVec f.bits) :
    (NegInf u → cvt t u = .done t.kMin NV) ∧ (Special u → ¬ NegInf u → cvt t u = .done t.kMax NV) := by
  obtain ⟨h1, h2, h3⟩ := special_cases u
  constructor
  · intro h
    obtain ⟨hi, hs⟩ := h2.1 h
    unfold cvt above below
    simp [h3 hi, hi, hs]
  · intro h hn
    rcases h1.1 h with h | h
    · unfold cvt; simp [h]
    · have hs : signBit u = false := by
        cases hs : signBit u
        · rfl
        · exact absurd (h2.2 ⟨h, hs⟩) hn
      unfold cvt above
      simp [h3 h, h, hs]

theorem kMax_width (t : To) : t.kMax = 2 ^ width t - 1 := by
  unfold To.kMax width; split <;> rfl

theorem kMaxF_cases (f : Fmt) (t : To) :
    kMaxF f t = t.kMax ∨ (f.s + 1 < width t ∧ kMaxF f t = t.kMax + 1) := by
  unfold kMaxF
  rw [kMax_width]
  split
  · exact Or.inl rfl
  · exact Or.inr ⟨by omega, by omega⟩

/-- What the function does to a finite operand. -/
theorem cvt_finite (t : To) (u : BitVec f.bits) (h : ¬ Special u) :
    cvt t u = if kMaxF f t * den u < num u then .done t.kMax NV
      else if num u < t.kMin * den u then
        if t.signed = false ∧ -(den u : Int) < num u then .done 0 NX else .done t.kMin NV
      else if trunc u ≤ t.kMax then .done (trunc u) 0 else .ub := by
  obtain ⟨h1, _, _⟩ := special_cases u
  have hn : isNaN u = false := by
    cases hx : isNaN u
    · rfl
    · exact absurd (h1.2 (Or.inl hx)) h
  have hi : isInf u = false := by
    cases hx : isInf u
    · rfl
    · exact absurd (h1.2 (Or.inr hx)) h
  have hd : (0 : Int) < den u := by exact_mod_cast den_pos u
  have tf := trunc_facts u
  have hlo := (lo_hi t).1
  unfold cvt above below cast
  simp only [hn, hi, Bool.false_eq_true, if_false, decide_eq_true_eq]
  by_cases c1 : kMaxF f t * den u < num u
  · rw [if_pos c1, if_pos c1]
  rw [if_neg c1, if_neg c1]
  by_cases c2 : num u < t.kMin * den u
  · rw [if_pos c2, if_pos c2]
    have hneg : num u < 0 := by
      have : t.kMin * den u ≤ 0 := Int.mul_nonpos_of_nonpos_of_nonneg hlo (Int.le_of_lt hd)
      omega
    by_cases c3 : t.signed = false ∧ -(den u : Int) < num u
    · rw [if_pos (by simp only [c3.1, Bool.not_false, Bool.true_and, decide_eq_true_eq]; omega), if_pos c3]
      have hz : trunc u = 0 := by
        have h4 := tf.2 hneg
        have h5 : trunc u * den u < 1 * den u := by omega
        have h6 : (-1 : Int) * den u < trunc u * den u := by omega
        rw [mul_den_lt] at h5 h6
        omega
      rw [if_pos hz]
    · rw [if_neg c3, if_neg]
      intro hc
      simp only [Bool.and_eq_true, Bool.not_eq_true', decide_eq_true_eq] at hc
      exact c3 ⟨hc.1, by omega⟩
  · rw [if_neg c2, if_neg c2]
    have hge : t.kMin ≤ trunc u := by
      have h5 : (t.kMin - 1) * den u < trunc u * den u := by
        rw [Int.sub_mul]
        by_cases hs : 0 ≤ num u
        · have := tf.1 hs; omega
        · have := tf.2 (by omega); omega
      rw [mul_den_lt] at h5
      omega
    by_cases c4 : trunc u ≤ t.kMax
    · rw [if_pos ⟨hge, c4⟩, if_pos c4]
    · rw [if_neg (fun hc => c4 hc.2), if_neg c4]

/-- **C76** is violated: the conversion of exactly 2^n to an n-bit type (31, 32, 63 or
64 value bits with a shorter significand) is undefined; everything else is defined. -/
theorem C76_ub_violated (t : To) (u : BitVec f.bits) :
    cvt t u = .ub ↔ f.s + 1 < width t ∧ ¬ Special u ∧ num u = 2 ^ width t * den u := by
  have hd : (0 : Int) < den u := by exact_mod_cast den_pos u
  have tf := trunc_facts u
  have hhi := (lo_hi t).2
  have hlo := (lo_hi t).1
  have hw : (2 : Int) ^ width t = t.kMax + 1 := by rw [kMax_width]; omega
  by_cases hs : Special u
  · have := cvt_special t u
    constructor
    · intro h
      by_cases hn : NegInf u
      · rw [this.1 hn] at h; cases h
      · rw [this.2 hs hn] at h; cases h
    · exact fun h => absurd hs h.2.1
  rw [cvt_finite t u hs, hw]
  constructor
  · intro h
    split at h
    · cases h
    split at h
    · split at h <;> cases h
    split at h
    · cases h
    rename_i c1 c2 c3
    have c3' : (t.kMax + 1) * den u ≤ trunc u * den u :=
      Int.mul_le_mul_of_nonneg_right (by omega) (Int.le_of_lt hd)
    have hpos : 0 ≤ num u := by
      apply Int.le_of_not_gt
      intro hneg
      have h5 := tf.2 hneg
      have h6 : trunc u * den u < 1 * den u := by omega
      rw [mul_den_lt] at h6
      omega
    have h5 := tf.1 hpos
    rcases kMaxF_cases f t with hk | ⟨hk1, hk⟩
    · rw [hk] at c1
      have : (t.kMax + 1) * den u = t.kMax * den u + den u := by rw [Int.add_mul, Int.one_mul]
      omega
    · rw [hk] at c1
      exact ⟨hk1, hs, by omega⟩
  · rintro ⟨h1, _, h2⟩
    have hk : kMaxF f t = t.kMax + 1 := by
      unfold kMaxF; rw [if_neg (by omega), hw]
    have e1 : (t.kMax + 1) * den u = t.kMax * den u + den u := by rw [Int.add_mul, Int.one_mul]
    have e2 : 0 ≤ t.kMax * den u := Int.mul_nonneg hhi (Int.le_of_lt hd)
    have e3 : t.kMin * den u ≤ 0 := Int.mul_nonpos_of_nonpos_of_nonneg hlo (Int.le_of_lt hd)
    rw [if_neg (by rw [hk]; omega), if_neg (by omega), if_neg]
    intro hc
    have h5 := tf.1 (by omega)
    have : t.kMax * den u < trunc u * den u := by omega
    rw [mul_den_lt] at this
    omega

/-- 2^31 in single precision to int32_t. -/
example : cvt (f := single) int32 (0x4f000000#32 : BitVec 32) = .ub := by decide +kernel
example : cvt (f := double) uint64 (0x43f0000000000000#64 : BitVec 64) = .ub := by decide +kernel

theorem clamp_eq (t : To) (u : BitVec f.bits) (hs : ¬ Special u) (v : Int) (fl : Nat)
    (h : cvt t u = .done v fl) : v = max t.kMin (min (trunc u) t.kMax) := by
  have hd : (0 : Int) < den u := by exact_mod_cast den_pos u
  have tf := trunc_facts u
  have hhi := (lo_hi t).2
  have hlo := (lo_hi t).1
  have e2 : 0 ≤ t.kMax * den u := Int.mul_nonneg hhi (Int.le_of_lt hd)
  have e3 : t.kMin * den u ≤ 0 := Int.mul_nonpos_of_nonpos_of_nonneg hlo (Int.le_of_lt hd)
  rw [cvt_finite t u hs] at h
  split at h
  · rename_i c1
    obtain ⟨rfl, -⟩ := Outcome.done.inj h
    have c1' : t.kMax * den u < num u := by
      rcases kMaxF_cases f t with hk | ⟨_, hk⟩
      · rwa [hk] at c1
      · rw [hk, Int.add_mul, Int.one_mul] at c1; omega
    have h5 := tf.1 (by omega)
    have h6 : (t.kMax - 1) * den u < trunc u * den u := by
      rw [Int.sub_mul, Int.one_mul]; omega
    rw [mul_den_lt] at h6
    omega
  rename_i c1
  split at h
  · rename_i c2
    have h5 := tf.2 (by omega)
    have h6 : (trunc u - 1) * den u < t.kMin * den u := by rw [Int.sub_mul, Int.one_mul]; omega
    rw [mul_den_lt] at h6
    split at h
    · rename_i c3
      obtain ⟨rfl, -⟩ := Outcome.done.inj h
      have : t.kMin = 0 := by unfold To.kMin; simp [c3.1]
      omega
    · obtain ⟨rfl, -⟩ := Outcome.done.inj h
      omega
  rename_i c2
  split at h
  · rename_i c3
    obtain ⟨rfl, -⟩ := Outcome.done.inj h
    have h6 : (t.kMin - 1) * den u < trunc u * den u := by
      rw [Int.sub_mul]
      by_cases hs : 0 ≤ num u
      · have := tf.1 hs; omega
      · have := tf.2 (by omega); omega
    rw [mul_den_lt] at h6
    omega
  · cases h

/-- **C76**, in part: a truncating conversion that is defined returns the prescribed
value: the operand without its fraction, clamped to the type; NaN becomes the maximum. -/
theorem C76_rtz_value_partial (t : To) (u : BitVec f.bits) (v : Int) (fl : Nat)
    (h : vfcvtRtz t u = .done v fl) : Value t.bits t.signed 1 u v := by
  unfold vfcvtRtz at h
  obtain ⟨s1, s2⟩ := cvt_special t u
  refine ⟨fun hn => ?_, fun hs hn => ?_, fun hs => ⟨trunc u, trunc_rounded u, clamp_eq t u hs v fl h⟩⟩
  · rw [s1 hn] at h; exact (Outcome.done.inj h).1.symm
  · rw [s2 hs hn] at h; exact (Outcome.done.inj h).1.symm

example : vfcvtRtz (f := single) int32 (0xc0200000#32 : BitVec 32) = .done (-2) 0 := by decide +kernel

/-- **C76**, in part: the flags are right if the operand is special, an integer, out of
range after truncation, or (unsigned types) between -1 and 0. -/
theorem C76_rtz_flags_partial (t : To) (u : BitVec f.bits) (v : Int) (fl : Nat)
    (h : vfcvtRtz t u = .done v fl)
    (hx : Special u ∨ trunc u * den u = num u ∨ trunc u < t.kMin ∨ t.kMax < trunc u ∨
      (t.signed = false ∧ -(den u : Int) < num u ∧ num u < 0)) :
    Flags t.bits t.signed 1 u fl := by
  unfold vfcvtRtz at h
  obtain ⟨s1, s2⟩ := cvt_special t u
  have hd : (0 : Int) < den u := by exact_mod_cast den_pos u
  have tf := trunc_facts u
  have hhi := (lo_hi t).2
  have hlo := (lo_hi t).1
  have e2 : 0 ≤ t.kMax * den u := Int.mul_nonneg hhi (Int.le_of_lt hd)
  have e3 : t.kMin * den u ≤ 0 := Int.mul_nonpos_of_nonpos_of_nonneg hlo (Int.le_of_lt hd)
  refine ⟨fun hs => ?_, fun hs => ⟨trunc u, trunc_rounded u, ?_⟩⟩
  · by_cases hn : NegInf u
    · rw [s1 hn] at h; exact (Outcome.done.inj h).2.symm
    · rw [s2 hs hn] at h; exact (Outcome.done.inj h).2.symm
  rw [← kMin_eq, ← kMax_eq]
  replace hx := hx.resolve_left hs
  rw [cvt_finite t u hs] at h
  split at h
  · rename_i c1
    obtain ⟨-, rfl⟩ := Outcome.done.inj h
    refine ⟨fun _ => rfl, fun ha hb hc => ?_, fun ha hb hc => ?_⟩
    · rcases hx with hx | hx | hx | ⟨_, _, hx⟩
      · exact absurd hx hc
      · omega
      · omega
      · rcases kMaxF_cases f t with hk | ⟨_, hk⟩ <;> rw [hk] at c1
        · omega
        · rw [Int.add_mul, Int.one_mul] at c1; omega
    · have : kMaxF f t * den u < trunc u * den u := by omega
      rw [mul_den_lt] at this
      rcases kMaxF_cases f t with hk | ⟨_, hk⟩ <;> omega
  rename_i c1
  split at h
  · rename_i c2
    have h5 := tf.2 (by omega)
    split at h
    · rename_i c3
      obtain ⟨-, rfl⟩ := Outcome.done.inj h
      have h6 : trunc u * den u < 1 * den u := by omega
      have h7 : (-1 : Int) * den u < trunc u * den u := by omega
      rw [mul_den_lt] at h6 h7
      have hm : t.kMin = 0 := by unfold To.kMin; simp [c3.1]
      have hz : trunc u = 0 := by omega
      refine ⟨fun ha => ?_, fun _ _ _ => rfl, fun ha hb hc => ?_⟩
      · omega
      · rw [hz] at hc; omega
    · rename_i c3
      obtain ⟨-, rfl⟩ := Outcome.done.inj h
      refine ⟨fun _ => rfl, fun ha hb hc => ?_, fun ha hb hc => ?_⟩
      · rcases hx with hx | hx | hx | ⟨h8, h9, _⟩
        · exact absurd hx hc
        · omega
        · omega
        · exact absurd ⟨h8, h9⟩ c3
      · have : trunc u * den u < t.kMin * den u := by omega
        rw [mul_den_lt] at this
        omega
  rename_i c2
  split at h
  · rename_i c3
    obtain ⟨-, rfl⟩ := Outcome.done.inj h
    have h6 : (t.kMin - 1) * den u < trunc u * den u := by
      rw [Int.sub_mul]
      by_cases hs : 0 ≤ num u
      · have := tf.1 hs; omega
      · have := tf.2 (by omega); omega
    rw [mul_den_lt] at h6
    refine ⟨fun ha => ?_, fun ha hb hc => ?_, fun _ _ _ => rfl⟩
    · omega
    · rcases hx with hx | hx | hx | ⟨h8, h9, h10⟩
      · exact absurd hx hc
      · omega
      · omega
      · have hm : t.kMin = 0 := by unfold To.kMin; simp [h8]
        rw [hm] at c2; omega
  · cases h

/-- −0.5 to an unsigned type is inexact; −1 is invalid. -/
example : vfcvtRtz (f := single) uint32 (0xbf000000#32 : BitVec 32) = .done 0 1 ∧
    vfcvtRtz (f := single) uint32 (0xbf800000#32 : BitVec 32) = .done 0 16 := by decide +kernel

/-- **C76** is violated: any other operand with a fraction does not raise inexact, and
the specification demands it. -/
theorem C76_inexact_violated (t : To) (u : BitVec f.bits) (hs : ¬ Special u)
    (hx : trunc u * den u ≠ num u) (h1 : t.kMin ≤ trunc u) (h2 : trunc u ≤ t.kMax)
    (h3 : ¬ (t.signed = false ∧ num u < 0)) :
    (∃ v fl, vfcvtRtz t u = .done v fl ∧ fl ≠ 1) ∧
      (∀ fl, Flags t.bits t.signed 1 u fl → fl = 1) := by
  constructor
  · unfold vfcvtRtz
    rw [cvt_finite t u hs]
    split
    · exact ⟨_, _, rfl, by decide⟩
    split
    · rename_i c2
      rw [if_neg]
      · exact ⟨_, _, rfl, by decide⟩
      · rintro ⟨c3, c4⟩
        have hm : t.kMin = 0 := by unfold To.kMin; simp [c3]
        rw [hm] at c2
        exact h3 ⟨c3, by omega⟩
    exact ⟨_, _, rfl, by decide⟩
  · intro fl hf
    obtain ⟨z, hz, _, h5, _⟩ := hf.2 hs
    have := C38_rounded_unique 1 _ _ _ _ (den_pos u) hz (trunc_rounded u)
    subst this
    exact h5 h1 h2 hx

/-- 2.5 converts to 2 without a flag. -/
example : vfcvtRtz (f := single) int32 (0x40200000#32 : BitVec 32) = .done 2 0 := by decide +kernel
/-- 2147483647.5 is even reported as out of range. -/
example : vfcvtRtz (f := double) int32 (0x41dfffffffe00000#64 : BitVec 64) = .done 2147483647 16 := by
  decide +kernel

/-- **C76**, in part: the conversions that round as frm says are right about the value
when that is towards zero, or when there is nothing to round. -/
theorem C76_mode_value_partial (t : To) (frm : Nat) (u : BitVec f.bits) (v : Int) (fl : Nat)
    (h : vfcvt t frm u = .done v fl)
    (hx : frm = 1 ∨ Special u ∨ trunc u * den u = num u) : Value t.bits t.signed frm u v := by
  unfold vfcvt at h
  split at h
  · cases h
  rename_i hrm
  have key := C76_rtz_value_partial t u v fl h
  rcases hx with rfl | hx | hx
  · exact key
  · exact ⟨key.1, key.2.1, fun hn => absurd hx hn⟩
  · refine ⟨key.1, key.2.1, fun hn => ?_⟩
    obtain ⟨z, hz, hv⟩ := key.2.2 hn
    have := C38_rounded_unique 1 _ _ _ _ (den_pos u) hz (trunc_rounded u)
    subst this
    refine ⟨_, ?_, hv⟩
    have := rounded_exact frm (by omega) (trunc u) (den u) (den_pos u)
    rwa [hx] at this

/-- **C76** is violated: the rounding mode is ignored.  Whenever it asks for another
integer in range, the value is wrong. -/
theorem C76_mode_violated (t : To) (frm : Nat) (u : BitVec f.bits) (hs : ¬ Special u) (z : Int)
    (hz : Rounded frm (num u) (den u) z) (hne : z ≠ trunc u) (h1 : t.kMin ≤ trunc u)
    (h2 : trunc u ≤ t.kMax) (h3 : t.kMin ≤ z) (h4 : z ≤ t.kMax) (v : Int) (fl : Nat)
    (h : vfcvt t frm u = .done v fl) : ¬ Value t.bits t.signed frm u v := by
  unfold vfcvt at h
  split at h
  · cases h
  have hv := clamp_eq t u hs v fl h
  intro hval
  obtain ⟨z', hz', hv'⟩ := hval.2.2 hs
  have := C38_rounded_unique frm _ _ _ _ (den_pos u) hz hz'
  subst this
  rw [← kMin_eq, ← kMax_eq] at hv'
  omega

/-- 1.5 in mode nearest-even must become 2 and becomes 1. -/
example : Rounded 0 (num (f := single) (0x3fc00000#32 : BitVec 32)) (den (f := single) (0x3fc00000#32 : BitVec 32)) 2 ∧
    vfcvt (f := single) int32 0 (0x3fc00000#32 : BitVec 32) = .done 1 0 := by
  constructor
  · rw [rounded_lin 0 _ _ _ _ rfl]; simp only; decide +kernel
  · decide +kernel

end Verif.VecCvt
