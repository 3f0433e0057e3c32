import Verif.VecEst.Model
import Verif.VecEst.Spec
import Verif.FpArith.Props

/-!
# C77: the seven-bit estimates
-/

namespace Verif.VecEst

open Verif.Fp Verif.FpHost.Spec Verif.FpFma Verif.FpFma.Spec Spec

variable {f : Fmt}

/-- The formats concerned. -/
structure Fit (f : Fmt) : Prop where
  s9 : 9 ≤ f.s
  e2 : 2 ≤ f.e
  le : f.s ≤ f.bias

theorem fit_single : Fit single := ⟨by decide, by decide, by decide⟩
theorem fit_double : Fit double := ⟨by decide, by decide, by decide⟩

theorem Fit.ok (ft : Fit f) : Ok f := ⟨by have := ft.e2; omega, by have := ft.s9; omega⟩

/-! ### Normalisation -/

theorem testBit_top {s m : Nat} (hs : 1 ≤ s) (hm : m < 2 ^ s) : m.testBit (s - 1) = decide (2 ^ (s - 1) ≤ m) := by
  have h2 : 2 ^ s = 2 * 2 ^ (s - 1) := by
    rw [← Nat.pow_succ', show (s - 1).succ = s by omega]
  rw [Nat.testBit_eq_decide_div_mod_eq]
  have hp := Nat.two_pow_pos (s - 1)
  generalize 2 ^ (s - 1) = P at *
  by_cases h : P ≤ m
  · have : m / P = 1 := (Nat.div_eq_iff hp).2 ⟨by omega, by omega⟩
    simp [this, h]
  · have : m / P = 0 := Nat.div_eq_of_lt (by omega)
    simp [this, h]

theorem normLoop_spec (s : Nat) (hs : 1 ≤ s) : ∀ (k : Nat) (e : Int) (m : Nat), m < 2 ^ s →
    2 ^ (s - 1) ≤ m * 2 ^ k → ∃ j, j ≤ k ∧ normLoop s k e m = (e - j, m * 2 ^ j) ∧
      2 ^ (s - 1) ≤ m * 2 ^ j ∧ m * 2 ^ j < 2 ^ s := by
  intro k
  induction k with
  | zero =>
    intro e m hm hk
    exact ⟨0, Nat.le_refl _, by simp [normLoop], by simpa using hk, by simpa using hm⟩
  | succ k ih =>
    intro e m hm hk
    unfold normLoop
    rw [testBit_top hs hm]
    by_cases h : 2 ^ (s - 1) ≤ m
    · exact ⟨0, by omega, by simp [h], by simpa using h, by simpa using hm⟩
    · have h2 : 2 ^ s = 2 * 2 ^ (s - 1) := by
        rw [← Nat.pow_succ', show (s - 1).succ = s by omega]
      have e1 : m <<< 1 = m * 2 := by simp [Nat.shiftLeft_eq]
      obtain ⟨j, hj, hr, h3, h4⟩ := ih (e - 1) (m <<< 1) (by rw [e1]; omega) (by
        rw [e1, Nat.mul_assoc, ← Nat.pow_succ']; exact hk)
      rw [e1, Nat.mul_assoc, ← Nat.pow_succ'] at h3 h4
      refine ⟨j + 1, by omega, ?_, h3, h4⟩
      rw [decide_eq_false h, if_neg (by simp), hr, e1, Nat.mul_assoc, ← Nat.pow_succ']
      congr 1
      omega

/-- The function finds the normalised significand, up to its leading bit. -/
theorem normalise_spec (ft : Fit f) (u : BitVec f.bits) (hz : ¬ IsZero u) :
    ∃ M e m, normalise u = (e, m) ∧ Norm u M e ∧ m % 2 ^ f.s = M % 2 ^ f.s ∧
      -(f.s : Int) < e ∧ (e ≤ 0 → expField u = 0) ∧ (0 < e → e = expField u) := by
  have hs9 := ft.s9
  have hsplit := pat_split u
  have hsig : sigField u < 2 ^ f.s := Nat.mod_lt _ (Nat.two_pow_pos _)
  have hp := Nat.two_pow_pos f.s
  unfold normalise
  by_cases he : expField u = 0
  · rw [if_pos he]
    have hpat : pat u = sigField u := by rw [hsplit, he]; simp
    have hm0 : sigField u ≠ 0 := fun h => hz (by unfold IsZero; rw [hpat, h])
    obtain ⟨j, hj, hr, h3, h4⟩ := normLoop_spec f.s (by omega) (f.s - 1) 0 (sigField u) hsig (by
      have : 1 ≤ sigField u := by omega
      exact Nat.le_mul_of_pos_left _ (by omega))
    have hr' : normLoop f.s f.s 0 (sigField u) = (0 - (j : Int), sigField u * 2 ^ j) := by
      obtain ⟨j', hj', hr', h3', h4'⟩ := normLoop_spec f.s (by omega) f.s 0 (sigField u) hsig (by
        have h1 : 2 ^ (f.s - 1) ≤ 2 ^ f.s := Nat.pow_le_pow_right (by decide) (by omega)
        have h2 : 2 ^ f.s ≤ sigField u * 2 ^ f.s := Nat.le_mul_of_pos_left _ (by omega)
        omega)
      have : j' = j := by
        have h2 : 2 ^ f.s = 2 * 2 ^ (f.s - 1) := by
          rw [← Nat.pow_succ', show (f.s - 1).succ = f.s by omega]
        rcases Nat.lt_trichotomy j' j with h | h | h
        · exfalso
          have : sigField u * 2 ^ (j' + 1) ≤ sigField u * 2 ^ j :=
            Nat.mul_le_mul_left _ (Nat.pow_le_pow_right (by decide) h)
          rw [Nat.pow_succ, ← Nat.mul_assoc] at this
          omega
        · exact h
        · exfalso
          have : sigField u * 2 ^ (j + 1) ≤ sigField u * 2 ^ j' :=
            Nat.mul_le_mul_left _ (Nat.pow_le_pow_right (by decide) h)
          rw [Nat.pow_succ, ← Nat.mul_assoc] at this
          omega
      rw [hr', this]
    rw [hr']
    have h2 : 2 ^ f.s = 2 * 2 ^ (f.s - 1) := by
      rw [← Nat.pow_succ', show (f.s - 1).succ = f.s by omega]
    refine ⟨sigField u * 2 ^ (j + 1), 0 - (j : Int), _, rfl, ⟨?_, ?_, ?_⟩, ?_, by omega, fun _ => he, by omega⟩
    · rw [Nat.pow_succ, ← Nat.mul_assoc]; omega
    · rw [Nat.pow_succ, Nat.pow_succ, ← Nat.mul_assoc]; omega
    · have : scaled f (pat u) = sigField u := by
        unfold scaled
        rw [← pat_div, he, if_pos rfl, hpat]
      rw [this, show (1 - (0 - (j : Int))).toNat = j + 1 by omega,
        show (0 - (j : Int) - 1).toNat = 0 by omega]
      simp
    · simp [Nat.shiftLeft_eq, Nat.pow_succ, Nat.mul_assoc]
  · rw [if_neg he]
    refine ⟨2 ^ f.s + sigField u, expField u, _, rfl, ⟨by omega, by rw [Nat.pow_succ]; omega, ?_⟩, ?_, by omega, by omega, fun _ => rfl⟩
    · unfold scaled
      rw [← pat_div, if_neg he, ← pat_mod, show (1 - (expField u : Int)).toNat = 0 by omega,
        show ((expField u : Int) - 1).toNat = expField u - 1 by omega]
      simp
    · simp

theorem norm_unique {u : BitVec f.bits} {M M' : Nat} {e e' : Int} (h : Norm u M e) (h' : Norm u M' e') :
    M = M' ∧ e = e' := by
  obtain ⟨a1, a2, a3⟩ := h
  obtain ⟨b1, b2, b3⟩ := h'
  -- compare M * 2^(e-1) with M' * 2^(e'-1)
  have key : M * 2 ^ (e - 1).toNat * 2 ^ (1 - e').toNat = M' * 2 ^ (e' - 1).toNat * 2 ^ (1 - e).toNat := by
    rw [← a3, ← b3, Nat.mul_assoc, Nat.mul_assoc, Nat.mul_comm (2 ^ _)]
  have gen : ∀ {M M' : Nat} {e e' : Int}, M * 2 ^ (e - 1).toNat * 2 ^ (1 - e').toNat =
      M' * 2 ^ (e' - 1).toNat * 2 ^ (1 - e).toNat → e ≤ e' → M = M' * 2 ^ (e' - e).toNat := by
    intro M M' e e' key hle
    rw [Nat.mul_assoc, Nat.mul_assoc, ← Nat.pow_add, ← Nat.pow_add] at key
    have : (e' - 1).toNat + (1 - e).toNat = (e' - e).toNat + ((e - 1).toNat + (1 - e').toNat) := by omega
    rw [this, Nat.pow_add 2 ((e' - e).toNat), ← Nat.mul_assoc] at key
    exact Nat.eq_of_mul_eq_mul_right (Nat.two_pow_pos _) key
  have pw : (2 : Nat) ^ (f.s + 1) = 2 * 2 ^ f.s := Nat.pow_succ'
  have step : ∀ {M M' : Nat} {d : Nat}, 2 ^ f.s ≤ M' → M < 2 ^ (f.s + 1) → M = M' * 2 ^ d → d = 0 := by
    intro M M' d hb ha hm
    rcases Nat.eq_zero_or_pos d with h | h
    · exact h
    · exfalso
      have : M' * 2 ^ 1 ≤ M' * 2 ^ d := Nat.mul_le_mul_left _ (Nat.pow_le_pow_right (by decide) h)
      omega
  rcases Int.le_total e e' with h | h
  · have h1 := gen key h
    have h2 := step b1 a2 h1
    rw [h2] at h1
    exact ⟨by simpa using h1, by omega⟩
  · have h1 := gen key.symm h
    have h2 := step a1 b2 h1
    rw [h2] at h1
    exact ⟨by simpa using h1.symm, by omega⟩

/-! ### Tables and indices -/

theorem table_rsqrt : ∀ i, i < 128 → i ≠ 88 →
    kRecipSqrtMantissaTable.getD i 0 = rsqrtTable.getD i 0 := by decide +kernel
theorem table_rec : ∀ i, i < 128 → kRecipMantissaTable.getD i 0 = recTable.getD i 0 := by decide +kernel
theorem table_lt : ∀ i, i < 128 → kRecipSqrtMantissaTable.getD i 0 < 128 ∧ kRecipMantissaTable.getD i 0 < 128 := by
  decide +kernel
/-- The error at both ends of the interval of numbers that share an entry. -/
theorem rsqrt_ends : ∀ i, i < 128 →
    127 ^ 2 * 2 ^ (7 + i / 64) < (128 + rsqrtTable.getD i 0) ^ 2 * (64 + i % 64) ∧
    (128 + rsqrtTable.getD i 0) ^ 2 * (65 + i % 64) < 129 ^ 2 * 2 ^ (7 + i / 64) := by decide +kernel
theorem rec_ends : ∀ i, i < 128 → 127 * 2 ^ 8 < (128 + recTable.getD i 0) * (128 + i) ∧
    (128 + recTable.getD i 0) * (129 + i) < 129 * 2 ^ 8 := by decide +kernel

theorem field_eq {s k m M : Nat} (hk : k ≤ s) (h : m % 2 ^ s = M % 2 ^ s) :
    m / 2 ^ (s - k) % 2 ^ k = M / 2 ^ (s - k) % 2 ^ k := by
  have e : 2 ^ s = 2 ^ (s - k) * 2 ^ k := by rw [← Nat.pow_add]; congr 1; omega
  rw [e] at h
  rw [← Nat.mod_mul_right_div_self m, ← Nat.mod_mul_right_div_self M, h]

theorem index_eq {p m s : Nat} (hp : p < 2) :
    p <<< 6 ||| (m >>> (s - 6)) &&& 63 = p * 64 + m / 2 ^ (s - 6) % 64 := by
  rw [Nat.shiftRight_eq_div_pow, Nat.and_two_pow_sub_one_eq_mod _ 6, ← Nat.shiftLeft_add_eq_or_of_lt
    (Nat.mod_lt _ (by decide)), Nat.shiftLeft_eq]

theorem e_mod (e : Int) : (e % 2).toNat < 2 := by omega

theorem rsqrtIndex_lt (f : Fmt) (M : Nat) (e : Int) : rsqrtIndex f M e < 128 := by
  have h := e_mod e
  unfold rsqrtIndex
  have := Nat.mod_lt (M / 2 ^ (f.s - 6)) (show 64 > 0 by decide)
  omega

/-- Where the significand lies, given its leading bits. -/
theorem lead {s k M : Nat} (hk : k ≤ s) (h1 : 2 ^ s ≤ M) (h2 : M < 2 ^ (s + 1)) :
    (2 ^ k + M / 2 ^ (s - k) % 2 ^ k) * 2 ^ (s - k) ≤ M ∧
    M < (2 ^ k + M / 2 ^ (s - k) % 2 ^ k + 1) * 2 ^ (s - k) := by
  have e : 2 ^ s = 2 ^ k * 2 ^ (s - k) := by rw [← Nat.pow_add]; congr 1; omega
  have hp := Nat.two_pow_pos (s - k)
  have hq : M / 2 ^ (s - k) = 2 ^ k + M / 2 ^ (s - k) % 2 ^ k := by
    have a : 2 ^ k ≤ M / 2 ^ (s - k) := (Nat.le_div_iff_mul_le hp).2 (by omega)
    have b : M / 2 ^ (s - k) < 2 ^ k + 2 ^ k := (Nat.div_lt_iff_lt_mul hp).2 (by
      rw [Nat.add_mul, ← e, ← Nat.two_mul, ← Nat.pow_succ']; exact h2)
    rw [Nat.mod_eq_sub_mod a, Nat.mod_eq_of_lt (by omega)]
    omega
  rw [← hq]
  exact ⟨Nat.div_mul_le_self _ _, by
    have := Nat.lt_div_mul_add hp (a := M)
    rw [Nat.add_mul, Nat.one_mul]; exact this⟩

/-! ### The reciprocal square root -/

theorem bias_odd (ft : Fit f) : (f.bias : Int) % 2 = 1 := by
  have := ft.e2
  unfold Fmt.bias
  have h : 2 ^ (f.e - 1) = 2 * 2 ^ (f.e - 2) := by
    rw [← Nat.pow_succ']; congr 1; omega
  have hp := Nat.two_pow_pos (f.e - 2)
  omega

theorem exp_top (ft : Fit f) : 2 ^ f.e - 1 = 2 * f.bias + 1 := by
  have := ft.e2
  unfold Fmt.bias
  have h : 2 ^ f.e = 2 * 2 ^ (f.e - 1) := by
    rw [← Nat.pow_succ']; congr 1; omega
  have hp := Nat.two_pow_pos (f.e - 1)
  omega

/-- A finite number's normalised exponent. -/
theorem norm_range (ft : Fit f) {u : BitVec f.bits} (hn : ¬ NaN u) (hi : ¬ Inf u) {e : Int}
    (he : 0 < e → e = expField u) : e ≤ 2 * f.bias := by
  by_cases h : 0 < e
  · have h1 := he h
    have h2 : expField u ≠ 2 ^ f.e - 1 := by
      intro hc
      have := pat_split u
      rw [hc] at this
      unfold NaN at hn
      unfold Inf at hi
      unfold infPat at *
      omega
    have h3 := expField_le u
    have := exp_top ft
    omega
  · omega

theorem compose {s e' t : Nat} (hs : 7 ≤ s) (ht : t < 128) : e' <<< s ||| t <<< (s - 7) = e' * 2 ^ s + t * 2 ^ (s - 7) := by
  have hlt : t <<< (s - 7) < 2 ^ s := by
    rw [Nat.shiftLeft_eq, show 2 ^ s = 128 * 2 ^ (s - 7) by
      rw [show (128 : Nat) = 2 ^ 7 by rfl, ← Nat.pow_add]; congr 1; omega]
    exact Nat.mul_lt_mul_of_pos_right ht (Nat.two_pow_pos _)
  rw [← Nat.shiftLeft_add_eq_or_of_lt hlt, Nat.shiftLeft_eq, Nat.shiftLeft_eq]

theorem compose_lt {s t : Nat} (hs : 7 ≤ s) (ht : t < 128) : t * 2 ^ (s - 7) < 2 ^ s := by
  rw [show 2 ^ s = 128 * 2 ^ (s - 7) by
    rw [show (128 : Nat) = 2 ^ 7 by rfl, ← Nat.pow_add]; congr 1; omega]
  exact Nat.mul_lt_mul_of_pos_right ht (Nat.two_pow_pos _)

theorem signed_make (neg : Bool) (p : Nat) : signed (f := f) neg p = make f neg p := by
  unfold signed make
  cases neg <;> simp

/-- The pattern the function computes. -/
theorem recipSqrt7_eq (ft : Fit f) {u : BitVec f.bits} (hz : ¬ IsZero u) (hn : ¬ NaN u) (hi : ¬ Inf u)
    {M : Nat} {e : Int} (hM : Norm u M e) :
    recipSqrt7 u = ((3 * f.bias - 1 - e) / 2).toNat * 2 ^ f.s +
      kRecipSqrtMantissaTable.getD (rsqrtIndex f M e) 0 * 2 ^ (f.s - 7) ∧
    1 ≤ ((3 * (f.bias : Int) - 1 - e) / 2).toNat ∧ ((3 * (f.bias : Int) - 1 - e) / 2).toNat ≤ 2 * f.bias := by
  have hs9 := ft.s9
  have hle := ft.le
  obtain ⟨M', e', m, hnorm, hM', hm, h1, _, h3⟩ := normalise_spec ft u hz
  obtain ⟨rfl, rfl⟩ := norm_unique hM hM'
  have hr := norm_range ft hn hi h3
  refine ⟨?_, by omega, by omega⟩
  unfold recipSqrt7
  rw [hnorm]
  simp only
  rw [index_eq (e_mod e), show 64 = 2 ^ 6 from rfl, field_eq (by omega) hm]
  have hidx : (e % 2).toNat * 2 ^ 6 + M / 2 ^ (f.s - 6) % 2 ^ 6 = rsqrtIndex f M e := rfl
  rw [hidx, compose (by omega) (table_lt _ (rsqrtIndex_lt f M e)).1,
    Int.tdiv_eq_ediv_of_nonneg (by omega)]

theorem below_inf (ft : Fit f) {e' t : Nat} (he : e' ≤ 2 * f.bias) (ht : t < 2 ^ f.s) :
    e' * 2 ^ f.s + t < infPat f := by
  unfold infPat
  rw [exp_top ft]
  have : e' * 2 ^ f.s ≤ (2 * f.bias) * 2 ^ f.s := Nat.mul_le_mul_right _ he
  rw [Nat.add_mul, Nat.one_mul]
  omega

theorem rsqrt7_pat (ft : Fit f) {u : BitVec f.bits} (hz : ¬ IsZero u) (hn : ¬ NaN u) (hi : ¬ Inf u)
    (hs : u.msb = false) {M : Nat} {e : Int} (hM : Norm u M e) :
    (vfrsqrt7 u).1.msb = false ∧ pat (vfrsqrt7 u).1 = ((3 * f.bias - 1 - e) / 2).toNat * 2 ^ f.s +
      kRecipSqrtMantissaTable.getD (rsqrtIndex f M e) 0 * 2 ^ (f.s - 7) ∧ (vfrsqrt7 u).2 = 0 := by
  have hs9 := ft.s9
  obtain ⟨h1, h2, h3⟩ := recipSqrt7_eq ft hz hn hi hM
  have hv : vfrsqrt7 u = (make f false (recipSqrt7 u), 0) := by
    unfold vfrsqrt7
    rw [isInf_eq, isNaN_eq, isZero_eq, hs]
    simp [hz, hn, hi, signed_make]
  have hlt : recipSqrt7 u < 2 ^ (f.e + f.s) := by
    rw [h1]
    exact Nat.lt_trans (below_inf ft h3 (compose_lt (by omega) (table_lt _ (rsqrtIndex_lt f M e)).1)) infPat_lt
  rw [hv]
  exact ⟨make_msb hlt, by rw [make_pat hlt, h1], rfl⟩

/-- The numbers whose table entry is wrong: odd exponent, leading bits 011000. -/
def Entry88 (u : BitVec f.bits) : Prop := ∃ M e, Norm u M e ∧ rsqrtIndex f M e = 88

/-- **C77**, in part: vfrsqrt7 returns the prescribed result for every operand that does
not use the table's entry 88. -/
theorem C77_rsqrt_value_partial (ft : Fit f) (u : BitVec f.bits) (h88 : ¬ Entry88 u) :
    RsqrtResult u (vfrsqrt7 u).1 := by
  unfold RsqrtResult
  have inf_eq : infinity f = infPat f := rfl
  by_cases hn : NaN u
  · rw [if_pos hn]
    unfold vfrsqrt7
    rw [isInf_eq, isNaN_eq]
    simp [hn, nan_not_inf hn]
  rw [if_neg hn]
  by_cases hz : IsZero u
  · rw [if_pos hz]
    have : vfrsqrt7 u = (make f u.msb (infPat f), DZ) := by
      unfold vfrsqrt7
      rw [isInf_eq, isNaN_eq, isZero_eq]
      simp [hz, hn, zero_not_inf ft.ok hz, signed_make, inf_eq]
    rw [this]
    exact ⟨make_pat infPat_lt, make_msb infPat_lt⟩
  rw [if_neg hz]
  cases hs : u.msb
  · rw [if_neg (by simp)]
    by_cases hi : Inf u
    · rw [if_pos hi]
      have : vfrsqrt7 u = (make f false 0, NV) := by
        unfold vfrsqrt7
        rw [isInf_eq]
        simp [hi, hs, signed_make]
      rw [this]
      exact ⟨make_pat (Nat.two_pow_pos _), make_msb (Nat.two_pow_pos _)⟩
    · rw [if_neg hi]
      obtain ⟨M, e, m, _, hM, _⟩ := normalise_spec ft u hz
      obtain ⟨h1, h2, _⟩ := rsqrt7_pat ft hz hn hi hs hM
      refine ⟨h1, M, e, hM, ?_⟩
      rw [h2, table_rsqrt _ (rsqrtIndex_lt f M e) (fun h => h88 ⟨M, e, hM, h⟩)]
  · rw [if_pos rfl]
    unfold vfrsqrt7
    rw [isInf_eq, isNaN_eq, isZero_eq, hs]
    by_cases hi : Inf u <;> simp [hi, hn, hz]

/-- `pat = e' * 2^s + t * 2^(s-7)` as a number of units, times 128. -/
theorem scaled_compose {e' t : Nat} (hs : 7 ≤ f.s) (ht : t < 128) (he : 1 ≤ e') :
    128 * scaled f (e' * 2 ^ f.s + t * 2 ^ (f.s - 7)) = (128 + t) * 2 ^ (f.s + e' - 1) := by
  have hp := Nat.two_pow_pos f.s
  have hlt := compose_lt hs ht
  have hd : (e' * 2 ^ f.s + t * 2 ^ (f.s - 7)) / 2 ^ f.s = e' := by
    rw [Nat.mul_comm, Nat.mul_add_div hp, Nat.div_eq_of_lt hlt]; rfl
  have hm : (e' * 2 ^ f.s + t * 2 ^ (f.s - 7)) % 2 ^ f.s = t * 2 ^ (f.s - 7) := by
    rw [Nat.mul_comm, Nat.mul_add_mod, Nat.mod_eq_of_lt hlt]
  unfold scaled
  rw [hd, hm, if_neg (by omega)]
  have e1 : 2 ^ f.s = 128 * 2 ^ (f.s - 7) := by
    rw [show (128 : Nat) = 2 ^ 7 by rfl, ← Nat.pow_add]; congr 1; omega
  have e2 : 2 ^ (f.s + e' - 1) = 2 ^ f.s * 2 ^ (e' - 1) := by rw [← Nat.pow_add]; congr 1; omega
  rw [e2]
  calc 128 * ((2 ^ f.s + t * 2 ^ (f.s - 7)) * 2 ^ (e' - 1))
      = (128 * 2 ^ f.s + t * (128 * 2 ^ (f.s - 7))) * 2 ^ (e' - 1) := by
        rw [← Nat.mul_assoc, Nat.mul_add, Nat.mul_left_comm]
    _ = _ := by rw [← e1, ← Nat.add_mul, Nat.mul_assoc]

/-- The error of an estimate with table value `t`, in terms of the significand. -/
theorem rsqrt_error (ft : Fit f) {x r : BitVec f.bits} {M t : Nat} {e : Int} (hM : Norm x M e)
    (hlo : -(f.s : Int) < e) (hhi : e ≤ 2 * f.bias) (ht : t < 128)
    (hr : pat r = ((3 * f.bias - 1 - e) / 2).toNat * 2 ^ f.s + t * 2 ^ (f.s - 7)) (c : Nat) :
    (c ^ 2 * unit f ^ 3 < 128 ^ 2 * (scaled f (pat r) ^ 2 * scaled f (pat x)) ↔
      c ^ 2 * 2 ^ (f.s + 1 + (e % 2).toNat) < (128 + t) ^ 2 * M) ∧
    (128 ^ 2 * (scaled f (pat r) ^ 2 * scaled f (pat x)) < c ^ 2 * unit f ^ 3 ↔
      (128 + t) ^ 2 * M < c ^ 2 * 2 ^ (f.s + 1 + (e % 2).toNat)) := by
  have hs9 := ft.s9
  have hle := ft.le
  have hodd := bias_odd ft
  obtain ⟨-, -, hx⟩ := hM
  generalize hn' : ((3 * (f.bias : Int) - 1 - e) / 2).toNat = n' at hr
  have hn1 : 1 ≤ n' := by omega
  have hsc := scaled_compose (f := f) (by omega) ht hn1
  rw [← hr] at hsc
  -- 128² r² x = (128+t)² M 2^K and unit³ = 2^(K + s + 1 + p)
  have hK : ∃ K, 128 ^ 2 * (scaled f (pat r) ^ 2 * scaled f (pat x)) = (128 + t) ^ 2 * M * 2 ^ K ∧
      unit f ^ 3 = 2 ^ (f.s + 1 + (e % 2).toNat) * 2 ^ K := by
    refine ⟨2 * f.s + 3 * f.bias - 4 - (e % 2).toNat, ?_, ?_⟩
    · have h1 : 128 ^ 2 * (scaled f (pat r) ^ 2 * scaled f (pat x)) =
          (128 * scaled f (pat r)) ^ 2 * scaled f (pat x) := by rw [Nat.mul_pow, Nat.mul_assoc]
      rw [h1, hsc, Nat.mul_pow, ← Nat.pow_mul, Nat.mul_assoc, Nat.mul_assoc]
      congr 1
      by_cases he : 1 ≤ e
      · rw [show (1 - e).toNat = 0 by omega, Nat.pow_zero, Nat.mul_one] at hx
        rw [hx, Nat.mul_left_comm, ← Nat.pow_add]
        congr 2
        omega
      · rw [show (e - 1).toNat = 0 by omega, Nat.pow_zero, Nat.mul_one] at hx
        rw [← hx, Nat.mul_assoc, ← Nat.pow_add, Nat.mul_comm]
        congr 2
        omega
    · unfold unit
      rw [← Nat.pow_mul, ← Nat.pow_add]
      congr 1
      omega
  obtain ⟨K, k1, k2⟩ := hK
  rw [k1, k2, ← Nat.mul_assoc]
  have hp := Nat.two_pow_pos K
  exact ⟨Nat.mul_lt_mul_right hp, Nat.mul_lt_mul_right hp⟩

theorem idx_parts (f : Fmt) (M : Nat) (e : Int) :
    rsqrtIndex f M e / 64 = (e % 2).toNat ∧ rsqrtIndex f M e % 64 = M / 2 ^ (f.s - 6) % 2 ^ 6 := by
  unfold rsqrtIndex
  have := Nat.mod_lt (M / 2 ^ (f.s - 6)) (show 64 > 0 by decide)
  have h : (2 : Nat) ^ 6 = 64 := rfl
  rw [h]
  omega

theorem two_s6 {s p : Nat} (hs : 6 ≤ s) : 2 ^ (s + 1 + p) = 2 ^ (7 + p) * 2 ^ (s - 6) := by
  rw [← Nat.pow_add]; congr 1; omega

/-- **C77**, in part: outside entry 88 the reciprocal square root of a positive number
is off by less than 2^-7. -/
theorem C77_rsqrt_accuracy_partial (ft : Fit f) (u : BitVec f.bits) (hz : ¬ IsZero u) (hn : ¬ NaN u)
    (hi : ¬ Inf u) (hs : u.msb = false) (h88 : ¬ Entry88 u) : RsqrtClose u (vfrsqrt7 u).1 := by
  have hs9 := ft.s9
  obtain ⟨M, e, m, _, hM, _, h1, _, h3⟩ := normalise_spec ft u hz
  have hrange := norm_range ft hn hi h3
  obtain ⟨_, h2, _⟩ := rsqrt7_pat ft hz hn hi hs hM
  have hix := rsqrtIndex_lt f M e
  rw [table_rsqrt _ hix (fun h => h88 ⟨M, e, hM, h⟩)] at h2
  have ht : rsqrtTable.getD (rsqrtIndex f M e) 0 < 128 := by
    rw [← table_rsqrt _ hix (fun h => h88 ⟨M, e, hM, h⟩)]; exact (table_lt _ hix).1
  have ends := rsqrt_ends _ hix
  obtain ⟨p1, p2⟩ := idx_parts f M e
  rw [p1, p2] at ends
  have hl := lead (k := 6) (by omega) hM.1 hM.2.1
  unfold RsqrtClose
  generalize rsqrtTable.getD (rsqrtIndex f M e) 0 = t at *
  rw [(rsqrt_error ft hM h1 hrange ht h2 127).1, (rsqrt_error ft hM h1 hrange ht h2 129).2,
    two_s6 (by omega)]
  have hp := Nat.two_pow_pos (f.s - 6)
  generalize M / 2 ^ (f.s - 6) % 2 ^ 6 = i at *
  constructor
  · calc 127 ^ 2 * (2 ^ (7 + (e % 2).toNat) * 2 ^ (f.s - 6))
        = 127 ^ 2 * 2 ^ (7 + (e % 2).toNat) * 2 ^ (f.s - 6) := (Nat.mul_assoc _ _ _).symm
      _ < (128 + t) ^ 2 * (64 + i) * 2 ^ (f.s - 6) := Nat.mul_lt_mul_of_pos_right ends.1 hp
      _ = (128 + t) ^ 2 * ((2 ^ 6 + i) * 2 ^ (f.s - 6)) := Nat.mul_assoc _ _ _
      _ ≤ _ := Nat.mul_le_mul_left _ hl.1
  · calc (128 + t) ^ 2 * M
        ≤ (128 + t) ^ 2 * ((2 ^ 6 + i + 1) * 2 ^ (f.s - 6)) := Nat.mul_le_mul_left _ (Nat.le_of_lt hl.2)
      _ = (128 + t) ^ 2 * (65 + i) * 2 ^ (f.s - 6) := by
        rw [← Nat.mul_assoc, show 2 ^ 6 + i + 1 = 65 + i by omega]
      _ < 129 ^ 2 * 2 ^ (7 + (e % 2).toNat) * 2 ^ (f.s - 6) := Nat.mul_lt_mul_of_pos_right ends.2 hp
      _ = _ := Nat.mul_assoc _ _ _

/-- 1.0 does not use entry 88. -/
example : ¬ Entry88 (f := single) (0x3f800000#32 : BitVec 32) := by
  rintro ⟨M, e, hM, h⟩
  have hN : Norm (f := single) (0x3f800000#32 : BitVec 32) (2 ^ 23) 127 :=
    ⟨by decide, by decide, by decide +kernel⟩
  obtain ⟨rfl, rfl⟩ := norm_unique hM hN
  exact absurd h (by decide +kernel)

/-- **C77** is violated: every positive number that uses entry 88 gets a wrong result,
off by more than 2^-7 (by about a fifth). -/
theorem C77_rsqrt_table_violated (ft : Fit f) (u : BitVec f.bits) (hz : ¬ IsZero u) (hn : ¬ NaN u)
    (hi : ¬ Inf u) (hs : u.msb = false) (h88 : Entry88 u) :
    ¬ RsqrtResult u (vfrsqrt7 u).1 ∧ ¬ RsqrtClose u (vfrsqrt7 u).1 := by
  have hs9 := ft.s9
  obtain ⟨M, e, hM, h88⟩ := h88
  obtain ⟨M', e', m, _, hM', _, h1, _, h3⟩ := normalise_spec ft u hz
  obtain ⟨rfl, rfl⟩ := norm_unique hM hM'
  have hrange := norm_range ft hn hi h3
  obtain ⟨_, h2, _⟩ := rsqrt7_pat ft hz hn hi hs hM
  rw [h88] at h2
  have hk : kRecipSqrtMantissaTable.getD 88 0 = 20 := by decide
  rw [hk] at h2
  constructor
  · intro h
    unfold RsqrtResult at h
    rw [if_neg hn, if_neg hz, if_neg (by simp [hs]), if_neg hi] at h
    obtain ⟨_, M', e', hM', h4⟩ := h
    obtain ⟨rfl, rfl⟩ := norm_unique hM hM'
    rw [h88] at h4
    have : rsqrtTable.getD 88 0 = 90 := by decide
    rw [this, h2] at h4
    have hp := Nat.two_pow_pos (f.s - 7)
    omega
  · intro h
    have h5 := (rsqrt_error ft hM h1 hrange (t := 20) (by decide) h2 127).1.1 h.1
    obtain ⟨p1, p2⟩ := idx_parts f M e
    rw [h88] at p1 p2
    have hl := lead (k := 6) (by omega) hM.1 hM.2.1
    rw [← p1, two_s6 (by omega)] at h5
    rw [← p2] at hl
    have hp := Nat.two_pow_pos (f.s - 6)
    have e8 : 88 / 64 = 1 := rfl
    have e9 : 2 ^ 6 + 88 % 64 + 1 = 89 := rfl
    rw [e8] at h5
    rw [e9] at hl
    omega

/-- 0x3fb00000 = 1.375 (odd exponent) uses it. -/
example : Entry88 (f := single) (0x3fb00000#32 : BitVec 32) :=
  ⟨0xb00000, 127, ⟨by decide, by decide, by decide +kernel⟩, by decide +kernel⟩

/-- **C77**, in part: the flags of vfrsqrt7 are right for every operand but +∞ and quiet
NaNs. -/
theorem C77_rsqrt_flags_partial (ft : Fit f) (u : BitVec f.bits) (h1 : ¬ (Inf u ∧ u.msb = false))
    (h2 : NaN u → Signalling u) :
    (rsqrtNV u → (vfrsqrt7 u).2 = 16) ∧ (rsqrtDZ u → (vfrsqrt7 u).2 = 8) ∧
      (¬ rsqrtNV u → ¬ rsqrtDZ u → (vfrsqrt7 u).2 = 0) := by
  unfold rsqrtNV rsqrtDZ
  by_cases hn : NaN u
  · have hv : (vfrsqrt7 u).2 = 16 := by
      unfold vfrsqrt7
      rw [isInf_eq, isNaN_eq]
      simp [hn, nan_not_inf hn, NV]
    exact ⟨fun _ => hv, fun h => absurd hn (zero_not_nan h), fun h => absurd (Or.inl (h2 hn)) h⟩
  by_cases hz : IsZero u
  · have hv : (vfrsqrt7 u).2 = 8 := by
      unfold vfrsqrt7
      rw [isInf_eq, isNaN_eq, isZero_eq]
      simp [hz, hn, zero_not_inf ft.ok hz, DZ]
    refine ⟨?_, fun _ => hv, fun _ h => absurd hz h⟩
    rintro (h | h)
    · exact absurd h.1 hn
    · exact absurd hz h.2.1
  cases hs : u.msb
  · have hi : ¬ Inf u := fun h => h1 ⟨h, hs⟩
    have hv : (vfrsqrt7 u).2 = 0 := by
      unfold vfrsqrt7
      rw [isInf_eq, isNaN_eq, isZero_eq, hs]
      simp [hi, hn, hz]
    refine ⟨?_, fun h => absurd h hz, fun _ _ => hv⟩
    rintro (h | h)
    · exact absurd h.1 hn
    · exact absurd h.2.2 (by simp)
  · have hv : (vfrsqrt7 u).2 = 16 := by
      unfold vfrsqrt7
      rw [isInf_eq, isNaN_eq, isZero_eq, hs]
      by_cases hi : Inf u <;> simp [hi, hn, hz, NV]
    exact ⟨fun _ => hv, fun h => absurd h hz, fun h => absurd (Or.inr ⟨hn, hz, rfl⟩) h⟩

/-- **C77** is violated: +∞ and quiet NaNs raise invalid. -/
theorem C77_rsqrt_flags_violated (u : BitVec f.bits)
    (h : (Inf u ∧ u.msb = false) ∨ (NaN u ∧ ¬ Signalling u)) :
    ¬ rsqrtNV u ∧ (vfrsqrt7 u).2 = 16 := by
  unfold rsqrtNV
  rcases h with ⟨hi, hs⟩ | ⟨hn, hq⟩
  · refine ⟨?_, by unfold vfrsqrt7; rw [isInf_eq]; simp [hi, NV]⟩
    rintro (h | h)
    · exact inf_not_nan hi h.1
    · rw [hs] at h; exact absurd h.2.2 (by simp)
  · refine ⟨?_, by unfold vfrsqrt7; rw [isInf_eq, isNaN_eq]; simp [hn, nan_not_inf hn, NV]⟩
    rintro (h | h)
    · exact hq h
    · exact h.1 hn

example : Inf (f := single) (0x7f800000#32 : BitVec 32) := by unfold Inf; decide +kernel

/-! ### The reciprocal -/

/-- The branches of the function, by the exponent of the result. -/
theorem recip7_eq (ft : Fit f) (rm : Nat) {u : BitVec f.bits} (hz : ¬ IsZero u) {M : Nat} {e : Int}
    (hM : Norm u M e) :
    let t := recTable.getD (recIndex f M) 0
    recip7 rm u =
      if 2 * (f.bias : Int) < 2 * f.bias - 1 - e then
        match rm with
        | 2 => if u.msb then make f true (infPat f) else make f false (infPat f - 1)
        | 1 => if u.msb then make f true (infPat f - 1) else make f false (infPat f - 1)
        | 4 | 0 => if u.msb then make f true (infPat f) else make f false (infPat f)
        | 3 => if u.msb then make f true (infPat f - 1) else make f false (infPat f)
        | _ => canonicalNaN f
      else if 2 * (f.bias : Int) - 1 - e ≤ 0 then
        make f u.msb ((if 2 * (f.bias : Int) - 1 - e < 0 then (t <<< (f.s - 7) >>> 1 ||| 64) >>> 1
          else t <<< (f.s - 7) >>> 1 ||| 64) &&& 127)
      else make f u.msb ((2 * (f.bias : Int) - 1 - e).toNat * 2 ^ f.s + t * 2 ^ (f.s - 7)) := by
  have hs9 := ft.s9
  obtain ⟨M', e', m, hnorm, hM', hm, _⟩ := normalise_spec ft u hz
  obtain ⟨rfl, rfl⟩ := norm_unique hM hM'
  have hix : recIndex f M < 128 := Nat.mod_lt _ (by decide)
  have hidx : (m >>> (f.s - 7)) &&& 127 = recIndex f M := by
    rw [Nat.shiftRight_eq_div_pow, Nat.and_two_pow_sub_one_eq_mod _ 7]
    exact field_eq (by omega) hm
  have inf_eq : infinity f = infPat f := rfl
  have ht := (table_lt _ hix).2
  simp only
  unfold recip7
  rw [hnorm]
  simp only [hidx, inf_eq, signed_make]
  rw [table_rec _ hix] at *
  rw [compose (by omega) ht]
  rfl

/-- What the function does with a finite number other than zero. -/
theorem vfrec7_finite (rm : Nat) {u : BitVec f.bits} (hz : ¬ IsZero u) (hn : ¬ NaN u) (hi : ¬ Inf u) :
    vfrec7 rm u = (recip7 rm u, 0) := by
  unfold vfrec7
  rw [isInf_eq, isNaN_eq, isZero_eq]
  simp [hz, hn, hi]

/-- The number is so large that the estimate of its reciprocal is subnormal. -/
def Huge (u : BitVec f.bits) : Prop := expField u = 2 * f.bias - 1 ∨ expField u = 2 * f.bias

theorem huge_exp (ft : Fit f) {u : BitVec f.bits} {M : Nat} {e : Int} (hM : Norm u M e) (hz : ¬ IsZero u)
    (hn : ¬ NaN u) (hi : ¬ Inf u) : -(f.s : Int) < e ∧ e ≤ 2 * f.bias ∧
      (Huge u ↔ (e = 2 * f.bias - 1 ∨ e = 2 * f.bias)) := by
  obtain ⟨M', e', m, hnorm, hM', hm, h1, h2, h3⟩ := normalise_spec ft u hz
  obtain ⟨rfl, rfl⟩ := norm_unique hM hM'
  have hr := norm_range ft hn hi h3
  have := ft.s9
  have := ft.le
  refine ⟨h1, hr, ?_⟩
  unfold Huge
  by_cases he : 0 < e
  · have := h3 he
    omega
  · have := h2 (by omega)
    omega

theorem rm_cases : ∀ rm : BitVec 3, rm = 0#3 ∨ rm = 1#3 ∨ rm = 2#3 ∨ rm = 3#3 ∨ rm = 4#3 ∨ rvDir rm = none := by
  decide

/-- **C77**, in part: vfrec7 returns the prescribed result for every operand whose
reciprocal is not subnormal, in every rounding mode. -/
theorem C77_rec_value_partial (ft : Fit f) (rm : BitVec 3) (d : Dir) (hd : rvDir rm = some d)
    (u : BitVec f.bits) (hh : ¬ Huge u) : RecResult d u (vfrec7 rm.toNat u).1 := by
  have inf_eq : infinity f = infPat f := rfl
  have hs9 := ft.s9
  unfold RecResult
  by_cases hn : NaN u
  · rw [if_pos hn]
    unfold vfrec7
    rw [isInf_eq, isNaN_eq]
    simp [hn, nan_not_inf hn]
  rw [if_neg hn]
  by_cases hz : IsZero u
  · rw [if_pos hz]
    have : vfrec7 rm.toNat u = (make f u.msb (infPat f), 0) := by
      unfold vfrec7
      rw [isInf_eq, isNaN_eq, isZero_eq]
      simp [hz, hn, zero_not_inf ft.ok hz, signed_make, inf_eq]
    rw [this]
    exact ⟨make_pat infPat_lt, make_msb infPat_lt⟩
  rw [if_neg hz]
  by_cases hi : Inf u
  · rw [if_pos hi]
    have : vfrec7 rm.toNat u = (make f u.msb 0, 0) := by
      unfold vfrec7
      rw [isInf_eq]
      simp [hi, signed_make]
    rw [this]
    exact ⟨make_pat (Nat.two_pow_pos _), make_msb (Nat.two_pow_pos _)⟩
  rw [if_neg hi, vfrec7_finite _ hz hn hi]
  obtain ⟨M, e, m, _, hM, _⟩ := normalise_spec ft u hz
  obtain ⟨h1, h2, h3⟩ := huge_exp ft hM hz hn hi
  have hne : ¬ (e = 2 * f.bias - 1 ∨ e = 2 * f.bias) := fun h => hh (h3.2 h)
  have hix : recIndex f M < 128 := Nat.mod_lt _ (by decide)
  have ht : recTable.getD (recIndex f M) 0 < 128 := by
    rw [← table_rec _ hix]; exact (table_lt _ hix).2
  have heq := recip7_eq ft rm.toNat hz hM
  simp only at heq
  have hI : infPat f - 1 < 2 ^ (f.e + f.s) := by have := infPat_lt (f := f); omega
  by_cases hbig : 2 * (f.bias : Int) < 2 * f.bias - 1 - e
  · rw [if_pos hbig] at heq
    suffices h : (recip7 rm.toNat u).msb = u.msb ∧
        pat (recip7 rm.toNat u) = match mode d u.msb with | .down => infPat f - 1 | _ => infPat f by
      exact ⟨h.1, M, e, hM, fun _ => h.2, by omega, by omega, by omega⟩
    rw [heq]
    rcases rm_cases rm with rfl | rfl | rfl | rfl | rfl | h
    all_goals first
      | (rw [h] at hd; cases hd; done)
      | (have hd' : d = _ := (Option.some.inj hd).symm
         subst hd'
         cases hs : u.msb <;>
           simp [mode, make_msb hI, make_msb infPat_lt, make_pat hI, make_pat infPat_lt])
  · rw [if_neg hbig, if_neg (by omega)] at heq
    have hlt : (2 * (f.bias : Int) - 1 - e).toNat * 2 ^ f.s + recTable.getD (recIndex f M) 0 * 2 ^ (f.s - 7) <
        2 ^ (f.e + f.s) :=
      Nat.lt_trans (below_inf ft (by omega) (compose_lt (by omega) ht)) infPat_lt
    rw [heq]
    refine ⟨make_msb hlt, M, e, hM, by omega, fun _ _ => make_pat hlt, by omega, by omega⟩

/-- **C77**, in part: the estimate of a reciprocal in the range of normal numbers is off
by less than 2^-7. -/
theorem C77_rec_accuracy_partial (ft : Fit f) (rm : Nat) (u : BitVec f.bits) (hz : ¬ IsZero u) (hn : ¬ NaN u)
    (hi : ¬ Inf u) (hh : ¬ Huge u) (hl : ¬ RecTooLarge u) : RecClose u (vfrec7 rm u).1 := by
  have hs9 := ft.s9
  have hle := ft.le
  rw [vfrec7_finite _ hz hn hi]
  obtain ⟨M, e, m, _, hM, _⟩ := normalise_spec ft u hz
  obtain ⟨h1, h2, h3⟩ := huge_exp ft hM hz hn hi
  have hne : ¬ (e = 2 * f.bias - 1 ∨ e = 2 * f.bias) := fun h => hh (h3.2 h)
  have hge : -1 ≤ e := by
    rcases Int.lt_or_le e (-1) with h | h
    · exact absurd ⟨hn, hi, hz, M, e, hM, h⟩ hl
    · exact h
  have hix : recIndex f M < 128 := Nat.mod_lt _ (by decide)
  have ht : recTable.getD (recIndex f M) 0 < 128 := by
    rw [← table_rec _ hix]; exact (table_lt _ hix).2
  have heq := recip7_eq ft rm hz hM
  simp only at heq
  rw [if_neg (by omega), if_neg (by omega)] at heq
  have hlt : (2 * (f.bias : Int) - 1 - e).toNat * 2 ^ f.s + recTable.getD (recIndex f M) 0 * 2 ^ (f.s - 7) <
      2 ^ (f.e + f.s) :=
    Nat.lt_trans (below_inf ft (by omega) (compose_lt (by omega) ht)) infPat_lt
  unfold RecClose
  simp only
  rw [heq, make_pat hlt]
  have ends := rec_ends _ hix
  have hld := lead (k := 7) (by omega) hM.1 hM.2.1
  have hri : recIndex f M = M / 2 ^ (f.s - 7) % 2 ^ 7 := rfl
  rw [← hri] at hld
  generalize recTable.getD (recIndex f M) 0 = t at *
  generalize recIndex f M = i at *
  generalize hn' : (2 * (f.bias : Int) - 1 - e).toNat = n' at *
  have hn1 : 1 ≤ n' := by omega
  have hsc := scaled_compose (f := f) (by omega) ht hn1
  obtain ⟨-, -, hx⟩ := hM
  have hprod : 128 * (scaled f (n' * 2 ^ f.s + t * 2 ^ (f.s - 7)) * scaled f (pat u)) =
      (128 + t) * M * 2 ^ (f.s + 2 * f.bias - 3) := by
    rw [← Nat.mul_assoc, hsc, Nat.mul_assoc, Nat.mul_assoc]
    congr 1
    by_cases he : 1 ≤ e
    · rw [show (1 - e).toNat = 0 by omega, Nat.pow_zero, Nat.mul_one] at hx
      rw [hx, Nat.mul_left_comm, ← Nat.pow_add]
      congr 2
      omega
    · rw [show (e - 1).toNat = 0 by omega, Nat.pow_zero, Nat.mul_one] at hx
      rw [← hx, Nat.mul_assoc, ← Nat.pow_add, Nat.mul_comm]
      congr 2
      omega
  have hu : unit f ^ 2 = 2 ^ 8 * 2 ^ (f.s - 7) * 2 ^ (f.s + 2 * f.bias - 3) := by
    unfold unit
    rw [← Nat.pow_mul, ← Nat.pow_add, ← Nat.pow_add]
    congr 1
    omega
  rw [hprod, hu, ← Nat.mul_assoc, ← Nat.mul_assoc, ← Nat.mul_assoc, ← Nat.mul_assoc]
  have hp := Nat.two_pow_pos (f.s - 7)
  have hp' := Nat.two_pow_pos (f.s + 2 * f.bias - 3)
  constructor
  · refine Nat.mul_lt_mul_of_pos_right ?_ hp'
    calc 127 * 2 ^ 8 * 2 ^ (f.s - 7)
        < (128 + t) * (128 + i) * 2 ^ (f.s - 7) := Nat.mul_lt_mul_of_pos_right ends.1 hp
      _ = (128 + t) * ((2 ^ 7 + i) * 2 ^ (f.s - 7)) := Nat.mul_assoc _ _ _
      _ ≤ _ := Nat.mul_le_mul_left _ hld.1
  · refine Nat.mul_lt_mul_of_pos_right ?_ hp'
    calc (128 + t) * M
        ≤ (128 + t) * ((2 ^ 7 + i + 1) * 2 ^ (f.s - 7)) := Nat.mul_le_mul_left _ (Nat.le_of_lt hld.2)
      _ = (128 + t) * (129 + i) * 2 ^ (f.s - 7) := by
        rw [← Nat.mul_assoc, show 2 ^ 7 + i + 1 = 129 + i by omega]
      _ < _ := Nat.mul_lt_mul_of_pos_right ends.2 hp

/-- 3.0 meets the hypotheses. -/
example : ¬ Huge (f := single) (0x40400000#32 : BitVec 32) ∧ ¬ RecTooLarge (f := single) (0x40400000#32 : BitVec 32) ∧
    (vfrec7 (f := single) 0 (0x40400000#32 : BitVec 32)).1.toNat = 0x3eaa0000 := by
  refine ⟨by unfold Huge; decide +kernel, ?_, by decide +kernel⟩
  rintro ⟨_, _, _, M, e, hM, h⟩
  have hN : Norm (f := single) (0x40400000#32 : BitVec 32) 0xc00000 128 :=
    ⟨by decide, by decide, by decide +kernel⟩
  obtain ⟨rfl, rfl⟩ := norm_unique hM hN
  omega

theorem small_and {t k : Nat} (hk : 7 ≤ k) (c : Nat) : (t <<< k ||| c) &&& 127 = c % 128 := by
  rw [Nat.and_two_pow_sub_one_eq_mod _ 7]
  apply Nat.eq_of_testBit_eq
  intro i
  have h : (128 : Nat) = 2 ^ 7 := rfl
  rw [h, Nat.testBit_mod_two_pow, Nat.testBit_mod_two_pow, Nat.testBit_or, Nat.testBit_shiftLeft]
  by_cases hi : i < 7
  · simp [hi]; omega
  · simp [hi]

/-- **C77** is violated: the reciprocal of every number of the two largest binades comes
out as 64 or 32 units, where at least 2^(s-2) are meant. -/
theorem C77_rec_subnormal_violated (ft : Fit f) (h16 : 16 ≤ f.s) (rm : Nat) (u : BitVec f.bits) (hh : Huge u) :
    (pat (vfrec7 rm u).1 = 64 ∨ pat (vfrec7 rm u).1 = 32) ∧ ∀ d, ¬ RecResult d u (vfrec7 rm u).1 := by
  have hle := ft.le
  have hb := exp_top ft
  have hsplit := pat_split u
  have hsig : sigField u < 2 ^ f.s := Nat.mod_lt _ (Nat.two_pow_pos _)
  have hp := Nat.two_pow_pos f.s
  have hE1 : expField u ≤ 2 * f.bias := by unfold Huge at hh; omega
  have hE0 : 1 ≤ expField u := by unfold Huge at hh; omega
  have hlt : pat u < infPat f := by rw [hsplit]; exact below_inf ft hE1 hsig
  have hge : 2 ^ f.s ≤ pat u := by
    rw [hsplit]
    have : 1 * 2 ^ f.s ≤ expField u * 2 ^ f.s := Nat.mul_le_mul_right _ hE0
    omega
  have hz : ¬ IsZero u := by unfold IsZero; omega
  have hn : ¬ NaN u := by unfold NaN; omega
  have hi : ¬ Inf u := by unfold Inf; omega
  rw [vfrec7_finite _ hz hn hi]
  obtain ⟨M, e, m, _, hM, _⟩ := normalise_spec ft u hz
  obtain ⟨h1, h2, h3⟩ := huge_exp ft hM hz hn hi
  have he := h3.1 hh
  have heq := recip7_eq ft rm hz hM
  simp only at heq
  rw [if_neg (by omega), if_pos (by omega)] at heq
  generalize recTable.getD (recIndex f M) 0 = t at *
  have hsh : t <<< (f.s - 7) >>> 1 = t <<< (f.s - 8) := by
    rw [show f.s - 7 = f.s - 8 + 1 by omega, Nat.shiftLeft_add, Nat.shiftLeft_shiftRight]
  have hsh2 : (t <<< (f.s - 8) ||| 64) >>> 1 = t <<< (f.s - 9) ||| 32 := by
    rw [Nat.shiftRight_or_distrib, show f.s - 8 = f.s - 9 + 1 by omega, Nat.shiftLeft_add, Nat.shiftLeft_shiftRight]
    rfl
  have hbig : 128 < 2 ^ (f.e + f.s) := by
    have : 2 ^ 8 ≤ 2 ^ (f.e + f.s) := Nat.pow_le_pow_right (by decide) (by omega)
    omega
  have h4 : 2 ^ f.s = 4 * 2 ^ (f.s - 2) := by
    rw [show (4 : Nat) = 2 ^ 2 by rfl, ← Nat.pow_add]; congr 1; omega
  have h5 : 2 ^ 14 ≤ 2 ^ (f.s - 2) := Nat.pow_le_pow_right (by decide) (by omega)
  have hv : pat (recip7 rm u) = if e = 2 * f.bias then 32 else 64 := by
    rw [heq]
    rcases he with he | he
    · rw [if_neg (by omega), if_neg (by omega), hsh, small_and (by omega), make_pat (by omega)]
    · rw [if_pos (by omega), if_pos he, hsh, hsh2, small_and (by omega), make_pat (by omega)]
  refine ⟨by rw [hv]; by_cases h : e = 2 * f.bias <;> simp [h], ?_⟩
  intro d h
  unfold RecResult at h
  rw [if_neg hn, if_neg hz, if_neg hi] at h
  obtain ⟨_, M', e', hM', hr⟩ := h
  obtain ⟨rfl, rfl⟩ := norm_unique hM hM'
  obtain ⟨-, -, hr0, hr1⟩ := hr
  simp only at hr0 hr1
  rw [hv] at hr0 hr1
  rcases he with he | he
  · have := hr0 (by omega)
    rw [if_neg (by omega)] at this
    omega
  · have := hr1 (by omega)
    rw [if_pos he] at this
    omega

/-- The largest single-precision number: 32 units, not 2^21. -/
example : Huge (f := single) (0x7f7fffff#32 : BitVec 32) ∧
    (vfrec7 (f := single) 0 (0x7f7fffff#32 : BitVec 32)).1.toNat = 0x20 :=
  ⟨by unfold Huge; decide +kernel, by decide +kernel⟩

/-- **C77** is violated: vfrec7 never sets a flag, so the flags are right exactly for
the operands that raise none. -/
theorem C77_rec_flags_violated (rm : Nat) (u : BitVec f.bits) :
    RecFlags u (vfrec7 rm u).2 ↔ ¬ Signalling u ∧ ¬ IsZero u ∧ ¬ RecTooLarge u := by
  have h : (vfrec7 rm u).2 = 0 := by
    unfold vfrec7
    split
    · rfl
    · split
      · rfl
      · split <;> rfl
  rw [h]
  unfold RecFlags
  simp

/-- 1 / 0 sets no flag; nor does the reciprocal of the least positive number. -/
example : ¬ RecFlags (f := single) (0#32 : BitVec 32) (vfrec7 (f := single) 0 (0#32 : BitVec 32)).2 := by
  intro h
  exact ((C77_rec_flags_violated (f := single) 0 (0#32 : BitVec 32)).1 h).2.1 (by unfold IsZero; decide +kernel)
example : RecTooLarge (f := single) (1#32 : BitVec 32) :=
  ⟨by unfold NaN; decide +kernel, by unfold Inf; decide +kernel, by unfold IsZero; decide +kernel,
    2 ^ 23, -22, ⟨by decide, by decide, by decide +kernel⟩, by decide⟩

end Verif.VecEst
