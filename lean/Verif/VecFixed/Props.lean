import Verif.VecFixed.Model
import Verif.VecFixed.Spec
namespace Verif.VecFixed
open Spec

/-! ### Rounding -/

theorem bitAt_eq {m : Nat} (b : BitVec m) (k : Nat) : bitAt b k = (decide (b.toNat / 2 ^ k % 2 = 1)) := by
  unfold bitAt
  rcases Nat.eq_zero_or_pos m with rfl | hm
  · have : b.toNat = 0 := by have := b.isLt; omega
    simp [this]
  · have h1 : ((b >>> k) &&& 1#m).toNat = b.toNat / 2 ^ k % 2 := by
      rw [BitVec.toNat_and, BitVec.toNat_ushiftRight, Nat.shiftRight_eq_div_pow, BitVec.toNat_ofNat,
        Nat.mod_eq_of_lt (Nat.one_lt_two_pow (by omega)), Nat.and_one_is_mod]
    have h2 : ((b >>> k) &&& 1#m) ≠ 0#m ↔ b.toNat / 2 ^ k % 2 = 1 := by
      rw [ne_eq, ← BitVec.toNat_inj, h1]
      simp
    exact decide_eq_decide.2 h2

theorem low_toNat {m : Nat} (b : BitVec m) (k : Nat) (hk : k ≤ m) : (b &&& ~~~(BitVec.allOnes m <<< k)).toNat = b.toNat % 2 ^ k := by
  have : (b &&& ~~~(BitVec.allOnes m <<< k)) = (b.setWidth k).setWidth m := by
    apply BitVec.eq_of_getLsbD_eq
    intro i hi
    simp only [BitVec.getLsbD_and, BitVec.getLsbD_not, BitVec.getLsbD_shiftLeft, BitVec.getLsbD_allOnes, BitVec.getLsbD_setWidth, hi,
      decide_true, Bool.true_and]
    by_cases h : i < k
    · simp [h]
    · have : i - k < m := by omega
      simp [h, this]
  rw [this, BitVec.toNat_setWidth, BitVec.toNat_setWidth]
  apply Nat.mod_eq_of_lt
  exact Nat.lt_of_lt_of_le (Nat.mod_lt _ (Nat.two_pow_pos k)) (Nat.pow_le_pow_right (by decide) hk)

theorem lowNonzero_eq {m : Nat} (b : BitVec m) (k : Nat) (hk : k ≤ m) : lowNonzero b k = decide (b.toNat % 2 ^ k ≠ 0) := by
  unfold lowNonzero
  apply decide_eq_decide.2
  rw [ne_eq, ← BitVec.toNat_inj, low_toNat b k hk]
  simp

/-- The rounding bit, in terms of the number's low bits. -/
theorem roundingBit_spec {m : Nat} (rm : BitVec 2) (b : BitVec m) (d : Nat) (hd : d < m) (v : Int)
    (hv : v % 2 ^ (d + 1) = ((b.toNat % 2 ^ (d + 1) : Nat) : Int)) :
    Rounds rm v d (v / 2 ^ d + (if getRoundingBit rm b (d + 1) then 1 else 0)) := by
  -- the quotient, the parity and the remainder
  have hp : (0 : Int) < 2 ^ d := Int.pow_pos (by decide)
  have hpn : 0 < 2 ^ d := Nat.two_pow_pos d
  have hcast : ((2 ^ d : Nat) : Int) = 2 ^ d := by norm_cast
  generalize hQ : v / 2 ^ d = Q
  generalize hR : v % 2 ^ d = R
  have hvq : v = Q * 2 ^ d + R := by rw [← hQ, ← hR]; have := Int.mul_ediv_add_emod v (2 ^ d); rw [Int.mul_comm] at this; exact this.symm
  have hR0 : 0 ≤ R := by rw [← hR]; exact Int.emod_nonneg _ (by omega)
  have hR1 : R < 2 ^ d := by rw [← hR]; exact Int.emod_lt_of_pos _ hp
  -- relation with the bits
  have hlow : (b.toNat % 2 ^ d : Nat) = R.toNat := by
    have e1 : v % 2 ^ (d + 1) % 2 ^ d = v % 2 ^ d := Int.emod_emod_of_dvd _ ⟨2, by rw [Int.pow_succ]⟩
    have e2 : b.toNat % 2 ^ (d + 1) % 2 ^ d = b.toNat % 2 ^ d := Nat.mod_mod_of_dvd _ ⟨2, by rw [Nat.pow_succ]⟩
    rw [hv, hR] at e1
    rw [← e2, ← e1, ← hcast]
    exact (Int.toNat_natCast _).symm
  have hpar : (b.toNat / 2 ^ d % 2 : Nat) = (Q % 2).toNat := by
    have e1 : b.toNat % 2 ^ (d + 1) = b.toNat % 2 ^ d + 2 ^ d * (b.toNat / 2 ^ d % 2) := by rw [Nat.pow_succ, Nat.mod_mul]
    have hpar2 : b.toNat / 2 ^ d % 2 < 2 := Nat.mod_lt _ (by decide)
    generalize b.toNat / 2 ^ d % 2 = par at e1 hpar2 ⊢
    have e2 : v = 2 ^ (d + 1) * (v / 2 ^ (d + 1)) + v % 2 ^ (d + 1) := (Int.mul_ediv_add_emod v _).symm
    rw [hv, e1] at e2
    generalize v / 2 ^ (d + 1) = k at e2
    have e3 : v = ((b.toNat % 2 ^ d : Nat) : Int) + (2 * k + par) * 2 ^ d := by
      rw [e2]
      have : ((b.toNat % 2 ^ d + 2 ^ d * par : Nat) : Int) = ((b.toNat % 2 ^ d : Nat) : Int) + 2 ^ d * (par : Int) := by
        rw [Int.natCast_add, Int.natCast_mul, hcast]
      rw [this, Int.pow_succ]
      grind
    have e4 : Q = 2 * k + par := by
      rw [← hQ, e3, Int.add_mul_ediv_right _ _ (by omega)]
      have : ((b.toNat % 2 ^ d : Nat) : Int) / 2 ^ d = 0 := by
        apply Int.ediv_eq_zero_of_lt (by omega)
        have := Nat.mod_lt b.toNat hpn
        omega
      omega
    omega
  -- the three tests of the code
  have ht : bitAt b d = decide (Q % 2 = 1) := by
    rw [bitAt_eq, hpar]; apply decide_eq_decide.2; omega
  have hz : lowNonzero b d = decide (R ≠ 0) := by
    rw [lowNonzero_eq b d (by omega), hlow]; apply decide_eq_decide.2; omega
  rcases Nat.eq_zero_or_pos d with rfl | hd0
  · -- nothing is shifted out
    have hR00 : R = 0 := by omega
    have hg : getRoundingBit rm b (0 + 1) = false := by
      unfold getRoundingBit
      split <;> simp
    rw [hg]
    unfold Rounds
    subst hR00
    simp only [Int.pow_zero, Int.mul_one, Bool.false_eq_true, if_false, Int.add_zero] at hvq ⊢
    subst hvq
    simp
    omega
  · obtain ⟨e, rfl⟩ : ∃ e, d = e + 1 := ⟨d - 1, by omega⟩
    -- the first bit shifted out, and the rest
    have hP : (2 : Int) ^ (e + 1) = 2 * 2 ^ e := by rw [Int.pow_succ]; omega
    have hPn : 2 ^ (e + 1) = 2 * 2 ^ e := by rw [Nat.pow_succ]; omega
    have hce : ((2 ^ e : Nat) : Int) = 2 ^ e := by norm_cast
    have hlow2 : b.toNat % 2 ^ (e + 1) = b.toNat % 2 ^ e + 2 ^ e * (b.toNat / 2 ^ e % 2) := by rw [Nat.pow_succ, Nat.mod_mul]
    have hle := Nat.mod_lt b.toNat (Nat.two_pow_pos e)
    have hh : bitAt b e = decide (2 ^ e ≤ R) := by
      rw [bitAt_eq]
      apply decide_eq_decide.2
      rw [hlow] at hlow2
      rcases (by omega : b.toNat / 2 ^ e % 2 = 0 ∨ b.toNat / 2 ^ e % 2 = 1) with h | h <;> rw [h] at hlow2 ⊢ <;> omega
    have hl : lowNonzero b e = decide (R ≠ 0 ∧ R ≠ 2 ^ e) := by
      rw [lowNonzero_eq b e (by omega)]
      apply decide_eq_decide.2
      rw [hlow] at hlow2
      rcases (by omega : b.toNat / 2 ^ e % 2 = 0 ∨ b.toNat / 2 ^ e % 2 = 1) with h | h <;> rw [h] at hlow2 <;> omega
    have hl0 : ¬ (e + 1 + 1 < 3) ∨ (e = 0) := by omega
    have hd20 : (if e + 1 + 1 < 3 then false else lowNonzero b e) = decide (R ≠ 0 ∧ R ≠ 2 ^ e) := by
      split
      · obtain rfl : e = 0 := by omega
        simp at *; omega
      · exact hl
    have n2 : ¬ (e + 1 + 1 < 2) := by omega
    have n0 : ¬ (e + 1 + 1 = 0) := by omega
    unfold getRoundingBit Rounds
    simp only [Nat.add_sub_cancel, show e + 1 + 1 - 2 = e by omega, if_neg n2, if_neg n0, ht, hz, hh, hd20]
    have hq1 : ∀ c : Int, (Q + c) * 2 ^ (e + 1) = Q * 2 ^ (e + 1) + c * 2 ^ (e + 1) := fun c => Int.add_mul ..
    have hP0 : (0 : Int) < 2 ^ e := Int.pow_pos (by decide)
    clear hlow2 hle hh hl hd20 hlow hpar ht hz hv hQ hR hce hPn hcast hpn hp
    simp only [hq1]
    rw [hP] at hvq hR1 ⊢
    rw [hvq]
    generalize (2 : Int) ^ e = P at *
    generalize Q * (2 * P) = A
    split
    · split <;> simp at * <;> omega
    · split
      · split <;> simp at * <;> omega
      · split
        · simp; omega
        · split <;> simp at * <;> omega

theorem roundingBit_zero {m : Nat} (rm : BitVec 2) (b : BitVec m) : getRoundingBit rm b 1 = false := by
  unfold getRoundingBit
  split <;> simp

theorem num_emod {m : Nat} (sgn : Bool) (b : BitVec m) (j : Nat) (hj : j ≤ m) : num sgn b % 2 ^ j = ((b.toNat % 2 ^ j : Nat) : Int) := by
  cases sgn with
  | false => simp only [num]; norm_cast
  | true =>
    simp only [num, if_true]
    have hd : ((2 : Int) ^ j) ∣ (2 ^ m : Nat) := by
      have := Nat.pow_dvd_pow 2 hj
      exact_mod_cast this
    rw [BitVec.toInt_eq_toNat_bmod, ← Int.emod_emod_of_dvd _ hd, Int.bmod_emod, Int.emod_emod_of_dvd _ hd]
    norm_cast

/-- A right shift by `d` of the element, arithmetic for signed types. -/
def shr {m : Nat} (sgn : Bool) (x : BitVec m) (d : Nat) : BitVec m := if sgn then x.sshiftRight d else x >>> d

theorem num_shr {m : Nat} (sgn : Bool) (x : BitVec m) (d : Nat) : num sgn (shr sgn x d) = num sgn x / 2 ^ d := by
  cases sgn with
  | false => simp only [num, shr, Bool.false_eq_true, if_false, BitVec.toNat_ushiftRight, Nat.shiftRight_eq_div_pow]; norm_cast
  | true =>
    simp only [num, shr, if_true, BitVec.toInt_sshiftRight, Int.shiftRight_eq_div_pow]
    norm_cast

theorem num_bounds {m : Nat} (sgn : Bool) (x : BitVec m) (hm : 0 < m) : lo sgn m ≤ num sgn x ∧ num sgn x ≤ hi sgn m := by
  cases sgn with
  | false =>
    have := x.isLt
    simp only [lo, num, hi, Bool.false_eq_true, if_false]
    have h : ((2 ^ m : Nat) : Int) = 2 ^ m := by norm_cast
    omega
  | true =>
    have h1 := x.le_toInt
    have h2 := x.toInt_lt
    simp only [lo, num, hi, if_true]
    omega

theorem num_eq_of {m : Nat} (sgn : Bool) (x : BitVec m) (v : Int) (hm : 0 < m) (h : num sgn x % 2 ^ m = v % 2 ^ m) (h1 : lo sgn m ≤ v)
    (h2 : v ≤ hi sgn m) : num sgn x = v := by
  have hb := num_bounds sgn x hm
  have hp : (2 : Int) ^ m = 2 * 2 ^ (m - 1) := by
    obtain ⟨e, rfl⟩ : ∃ e, m = e + 1 := ⟨m - 1, by omega⟩
    rw [Int.pow_succ, Nat.add_sub_cancel]; omega
  have hpos : (0 : Int) < 2 ^ (m - 1) := Int.pow_pos (by decide)
  have hd := Int.emod_emod_of_dvd
  have hz : (num sgn x - v) % 2 ^ m = 0 := Int.emod_eq_emod_iff_emod_sub_eq_zero.1 h
  have hlt : -(2 ^ m) < num sgn x - v ∧ num sgn x - v < 2 ^ m := by
    cases sgn <;> simp only [lo, hi, Bool.false_eq_true, if_false, if_true] at * <;> omega
  obtain ⟨k, hk⟩ := Int.dvd_of_emod_eq_zero hz
  have hk0 : k = 0 := by
    rcases Int.lt_trichotomy k 0 with hneg | h0 | hpos'
    · have : (2 ^ m : Int) * k ≤ 2 ^ m * (-1) := Int.mul_le_mul_of_nonneg_left (by omega) (by omega)
      omega
    · exact h0
    · have : (2 ^ m : Int) * 1 ≤ 2 ^ m * k := Int.mul_le_mul_of_nonneg_left (by omega) (by omega)
      omega
  subst hk0
  omega

theorem toNat_eq_num_mod {m : Nat} (sgn : Bool) (x : BitVec m) : num sgn x % 2 ^ m = x.toNat := by
  rw [num_emod sgn x m (Nat.le_refl m), Nat.mod_eq_of_lt x.isLt]

theorem num_add_mod {m : Nat} (sgn : Bool) (x y : BitVec m) : num sgn (x + y) % 2 ^ m = (num sgn x + num sgn y) % 2 ^ m := by
  rw [toNat_eq_num_mod, Int.add_emod, toNat_eq_num_mod, toNat_eq_num_mod, BitVec.toNat_add]
  norm_cast

theorem num_sub_mod {m : Nat} (sgn : Bool) (x y : BitVec m) : num sgn (x - y) % 2 ^ m = (num sgn x - num sgn y) % 2 ^ m := by
  have h := num_add_mod sgn (x - y) y
  rw [BitVec.sub_add_cancel] at h
  have h2 : (num sgn x - num sgn y) % 2 ^ m = (num sgn (x - y) + num sgn y - num sgn y) % 2 ^ m := by
    rw [Int.sub_emod, h, ← Int.sub_emod]
  rw [h2, Int.add_sub_cancel]

theorem num_mul_mod {m : Nat} (sgn : Bool) (x y : BitVec m) : num sgn (x * y) % 2 ^ m = (num sgn x * num sgn y) % 2 ^ m := by
  rw [toNat_eq_num_mod, Int.mul_emod, toNat_eq_num_mod, toNat_eq_num_mod, BitVec.toNat_mul]
  norm_cast

/-- Shift and add the rounding bit: no overflow, the value is the rounded quotient. -/
theorem shiftRound {m : Nat} (sgn : Bool) (rm : BitVec 2) (x rb : BitVec m) (d : Nat) (hm : 1 < m) (hd : d < m)
    (hrb : rb.toNat % 2 ^ (d + 1) = x.toNat % 2 ^ (d + 1)) :
    Rounds rm (num sgn x) d (num sgn (shr sgn x d + bit m (getRoundingBit rm rb (d + 1)))) := by
  have hr := roundingBit_spec rm rb d hd (num sgn x) (by rw [hrb]; exact num_emod sgn x (d + 1) (by omega))
  have hb := num_bounds sgn x (by omega)
  have e : num sgn (shr sgn x d + bit m (getRoundingBit rm rb (d + 1))) = num sgn x / 2 ^ d + (if getRoundingBit rm rb (d + 1) then 1 else 0) := by
    rcases Nat.eq_zero_or_pos d with rfl | hd0
    · rw [roundingBit_zero]
      simp only [bit, Bool.false_eq_true, if_false, BitVec.add_zero, num_shr, Int.add_zero]
    · have hbit : num sgn (bit m (getRoundingBit rm rb (d + 1))) % 2 ^ m = (if getRoundingBit rm rb (d + 1) then 1 else 0 : Int) % 2 ^ m := by
        rw [toNat_eq_num_mod]
        cases getRoundingBit rm rb (d + 1) <;> simp [bit]
      generalize getRoundingBit rm rb (d + 1) = g at hbit ⊢
      have hlh : lo sgn m ≤ 0 ∧ 0 < hi sgn m := by
        have h1 : (2 : Int) ≤ 2 ^ (m - 1) := by
          obtain ⟨e, rfl⟩ : ∃ e, m = e + 2 := ⟨m - 2, by omega⟩
          rw [show e + 2 - 1 = e + 1 by omega, Int.pow_succ]
          have : (0 : Int) < 2 ^ e := Int.pow_pos (by decide)
          omega
        have h2 : (2 : Int) ≤ 2 ^ m := by
          obtain ⟨e, rfl⟩ : ∃ e, m = e + 1 := ⟨m - 1, by omega⟩
          rw [Int.pow_succ]
          have : (0 : Int) < 2 ^ e := Int.pow_pos (by decide)
          omega
        cases sgn <;> simp only [lo, hi, Bool.false_eq_true, if_false, if_true] <;> omega
      have hd2 : (2 : Int) ≤ 2 ^ d := by
        obtain ⟨e, rfl⟩ : ∃ e, d = e + 1 := ⟨d - 1, by omega⟩
        rw [Int.pow_succ]
        have : (0 : Int) < 2 ^ e := Int.pow_pos (by decide)
        omega
      have hup : num sgn x / 2 ^ d < hi sgn m := by
        apply Int.ediv_lt_of_lt_mul (by omega)
        have : hi sgn m * 2 ≤ hi sgn m * 2 ^ d := Int.mul_le_mul_of_nonneg_left hd2 (by omega)
        omega
      have hdn : lo sgn m ≤ num sgn x / 2 ^ d := by
        apply Int.le_ediv_of_mul_le (by omega)
        have : lo sgn m * 2 ^ d ≤ lo sgn m * 1 := Int.mul_le_mul_of_nonpos_left hlh.1 (by omega)
        omega
      apply num_eq_of sgn _ _ (by omega)
      · rw [num_add_mod, Int.add_emod, hbit, ← Int.add_emod, num_shr]
      · split <;> omega
      · split <;> omega
  rw [e]; exact hr

/-- The shift amount is the low bits of the operand. -/
theorem and_mask {n : Nat} (x : BitVec n) (k : Nat) (hk : k ≤ n) : (x &&& BitVec.ofNat n (2 ^ k - 1)).toNat = x.toNat % 2 ^ k := by
  have h1 : 2 ^ k ≤ 2 ^ n := Nat.pow_le_pow_right (by decide) hk
  have h0 := Nat.two_pow_pos k
  rw [BitVec.toNat_and, BitVec.toNat_ofNat, Nat.mod_eq_of_lt (by omega), Nat.and_two_pow_sub_one_eq_mod]

theorem low_mod {m : Nat} (x : BitVec m) (d : Nat) (hd : d + 1 ≤ m) :
    (x &&& ~~~(BitVec.allOnes m <<< (d + 1))).toNat % 2 ^ (d + 1) = x.toNat % 2 ^ (d + 1) := by
  rw [low_toNat x _ hd, Nat.mod_mod]

theorem lt_two_pow_self' (k : Nat) : k < 2 ^ k := Nat.lt_two_pow_self

/-- C45, scaling shifts: `vssrl`/`vssra` return the operand divided by the power of two given by the low bits of the
shift operand, rounded by vxrm. -/
theorem C45_vssr {k m : Nat} (hm : m = 2 ^ k) (hk : 0 < k) (sgn : Bool) (rm : BitVec 2) (vs2 vs1 : BitVec m) :
    Rounds rm (num sgn vs2) (vs1.toNat % m) (num sgn (vssr sgn rm vs2 vs1)) := by
  have hkm : k < m := by rw [hm]; exact Nat.lt_two_pow_self
  have hsh : (vs1 &&& BitVec.ofNat m (m - 1)).toNat = vs1.toNat % m := by
    have := and_mask vs1 k (by omega)
    rw [← hm] at this
    exact this
  unfold vssr
  simp only [hsh]
  have hd : vs1.toNat % m < m := Nat.mod_lt _ (by omega)
  generalize vs1.toNat % m = d at hd ⊢
  apply shiftRound sgn rm vs2 _ d (by omega) hd
  split
  · exact low_mod vs2 d (by omega)
  · rfl

theorem saturate_spec {m n : Nat} (sgn : Bool) (b : BitVec m) (hn : 0 < n) (hnm : n ≤ m) :
    num sgn (saturate sgn n b).1 = clamp (lo sgn n) (hi sgn n) (num sgn b)
    ∧ ((saturate sgn n b).2 = true ↔ num sgn b < lo sgn n ∨ hi sgn n < num sgn b) := by
  have hv : val sgn b = num sgn b := rfl
  have hM : maxVal sgn n = hi sgn n := rfl
  have hm : minVal sgn n = lo sgn n := rfl
  unfold saturate clamp
  rw [hv, hM, hm]
  have hlh : lo sgn n ≤ 0 ∧ 0 ≤ hi sgn n := by
    have h1 : (0 : Int) < 2 ^ (n - 1) := Int.pow_pos (by decide)
    have h2 : (0 : Int) < 2 ^ n := Int.pow_pos (by decide)
    cases sgn <;> simp only [lo, hi, Bool.false_eq_true, if_false, if_true] <;> omega
  have hof : ∀ v : Int, lo sgn n ≤ v → v ≤ hi sgn n → num sgn (BitVec.ofInt n v) = v := by
    intro v h1 h2
    apply num_eq_of sgn _ v hn _ h1 h2
    rw [toNat_eq_num_mod, BitVec.toNat_ofInt]
    have : (0 : Int) < 2 ^ n := Int.pow_pos (by decide)
    have hc : ((2 ^ n : Nat) : Int) = 2 ^ n := by norm_cast
    rw [hc, Int.toNat_of_nonneg (Int.emod_nonneg _ (by omega))]
  by_cases c1 : num sgn b > hi sgn n
  · have c0 : ¬ num sgn b < lo sgn n := by omega
    simp only [if_pos c1, if_neg c0]
    exact ⟨hof _ (by omega) (by omega), by simp; omega⟩
  · by_cases c0 : num sgn b < lo sgn n
    · simp only [if_neg c1, if_pos c0]
      exact ⟨hof _ (by omega) (by omega), by simp; omega⟩
    · simp only [if_neg c1, if_neg c0]
      refine ⟨?_, by simp; omega⟩
      apply num_eq_of sgn _ _ hn _ (by omega) (by omega)
      rw [toNat_eq_num_mod, num_emod sgn b n hnm, BitVec.toNat_setWidth]

/-- C45, narrowing clips: `vnclipu`/`vnclip` divide the double-width operand by the power of two given by the low bits of
the shift operand, round by vxrm and clamp to the narrow type; vxsat is set exactly when clamping changed the value. -/
theorem C45_vnclip {k n : Nat} (hn : n = 2 ^ k) (hk : 1 < k) (sgn : Bool) (rm : BitVec 2) (vs2 : BitVec (2 * n)) (vs1 : BitVec n) :
    ∃ q : Int, Rounds rm (num sgn vs2) (vs1.toNat % (2 * n)) q
      ∧ num sgn (vnclip sgn rm vs2 vs1).1 = clamp (lo sgn n) (hi sgn n) q
      ∧ ((vnclip sgn rm vs2 vs1).2 = true ↔ q < lo sgn n ∨ hi sgn n < q) := by
  have hkn : k < n := by rw [hn]; exact Nat.lt_two_pow_self
  have hsh : (vs1 &&& BitVec.ofNat n (2 * n - 1)).toNat = vs1.toNat % (2 * n) := by
    have := and_mask vs1 (k + 1) (by omega)
    rw [show (2 : Nat) ^ (k + 1) = 2 * n by rw [Nat.pow_succ, hn]; omega] at this
    exact this
  unfold vnclip
  simp only [hsh]
  have hd : vs1.toNat % (2 * n) < 2 * n := Nat.mod_lt _ (by omega)
  generalize vs1.toNat % (2 * n) = d at hd ⊢
  refine ⟨_, shiftRound sgn rm vs2 (vs2 &&& if d < 2 * n - 1 then ~~~(BitVec.allOnes (2 * n) <<< (d + 1)) else vs2) d (by omega) hd ?_, ?_⟩
  · split
    · exact low_mod vs2 d (by omega)
    · rw [BitVec.and_self]
  · exact saturate_spec sgn _ (by omega) (by omega)

theorem num_widen {n : Nat} (sgn : Bool) (x : BitVec n) : num sgn (widen sgn x) = num sgn x := by
  cases sgn with
  | false =>
    simp only [num, widen, Bool.false_eq_true, if_false, BitVec.toNat_setWidth]
    rw [Nat.mod_eq_of_lt]
    exact Nat.lt_of_lt_of_le x.isLt (Nat.pow_le_pow_right (by decide) (by omega))
  | true =>
    simp only [num, widen, if_true]
    exact BitVec.toInt_signExtend_of_le (by omega)

theorem half_pow (n : Nat) (hn : 0 < n) : (2 : Int) ^ n = 2 * 2 ^ (n - 1) := by
  obtain ⟨e, rfl⟩ : ∃ e, n = e + 1 := ⟨n - 1, by omega⟩
  rw [Int.pow_succ, Nat.add_sub_cancel]; omega

/-- The wide range contains the sums, differences and products of narrow values. -/
theorem wide_range (n : Nat) (hn : 0 < n) : (2 : Int) ^ (2 * n) = 2 ^ n * 2 ^ n ∧ (2 : Int) ^ (2 * n - 1) = 2 ^ n * 2 ^ (n - 1) := by
  constructor
  · rw [← Int.pow_add]; congr 1; omega
  · rw [← Int.pow_add]; congr 1; omega

/-- C45, fractional multiplication: `vsmul` returns the product divided by 2^(SEW-1), rounded by vxrm and clamped;
vxsat is set exactly when clamping changed the value. -/
theorem C45_vsmul {k n : Nat} (hn : n = 2 ^ k) (hk : 1 < k) (rm : BitVec 2) (vs2 vs1 : BitVec n) :
    ∃ q : Int, Rounds rm (vs2.toInt * vs1.toInt) (n - 1) q
      ∧ (vsmul rm vs2 vs1).1.toInt = clamp (-2 ^ (n - 1)) (2 ^ (n - 1) - 1) q
      ∧ ((vsmul rm vs2 vs1).2 = true ↔ q < -2 ^ (n - 1) ∨ 2 ^ (n - 1) - 1 < q) := by
  have hkn : k < n := by rw [hn]; exact Nat.lt_two_pow_self
  have hn0 : 0 < n := by omega
  have hprod : num true (widen true vs2 * widen true vs1) = vs2.toInt * vs1.toInt := by
    apply num_eq_of true _ _ (by omega)
    · rw [num_mul_mod, num_widen, num_widen]; rfl
    · have h1 : (-2 ^ (n * 2 - 2) : Int) ≤ vs2.toInt * vs1.toInt := BitVec.le_toInt_mul_toInt
      have h2 := half_pow (2 * n - 1) (by omega)
      have h3 : (0 : Int) < 2 ^ (2 * n - 1 - 1) := Int.pow_pos (by decide)
      rw [show n * 2 - 2 = 2 * n - 1 - 1 by omega] at h1
      simp only [lo, if_true]; omega
    · have h1 : vs2.toInt * vs1.toInt ≤ (2 ^ (n * 2 - 2) : Int) := BitVec.toInt_mul_toInt_le
      have h2 := half_pow (2 * n - 1) (by omega)
      have h3 : (0 : Int) < 2 ^ (2 * n - 1 - 1) := Int.pow_pos (by decide)
      rw [show n * 2 - 2 = 2 * n - 1 - 1 by omega] at h1
      simp only [hi, if_true]; omega
  have h2 : 2 * n = 2 ^ (k + 1) := by rw [Nat.pow_succ, hn]; omega
  have h := C45_vssr h2 (by omega) true rm (widen true vs2 * widen true vs1) (BitVec.ofNat (2 * n) (n - 1))
  have hs : (BitVec.ofNat (2 * n) (n - 1)).toNat % (2 * n) = n - 1 := by
    rw [BitVec.toNat_ofNat, Nat.mod_eq_of_lt (a := n - 1), Nat.mod_eq_of_lt (by omega)]
    have : 2 * n < 2 ^ (2 * n) := Nat.lt_two_pow_self
    omega
  rw [hs, hprod] at h
  exact ⟨_, h, saturate_spec true _ hn0 (by omega)⟩

theorem num_sum {n : Nat} (sgn : Bool) (hn : 1 < n) (a b : BitVec n) (e : Int) (x : BitVec (2 * n))
    (he : e = num sgn a + num sgn b ∨ (sgn = true ∧ e = num sgn a - num sgn b)) (hx : num sgn x % 2 ^ (2 * n) = e % 2 ^ (2 * n)) : num sgn x = e := by
  have ha := num_bounds sgn a (by omega)
  have hb := num_bounds sgn b (by omega)
  apply num_eq_of sgn x e (by omega) hx
  all_goals
    have w := wide_range n (by omega)
    have p1 := half_pow n (by omega)
    have p2 : (0 : Int) < 2 ^ (n - 1) := Int.pow_pos (by decide)
    have p3 : (2 : Int) ≤ 2 ^ (n - 1) := by
      have := half_pow (n - 1) (by omega)
      have : (0 : Int) < 2 ^ (n - 1 - 1) := Int.pow_pos (by decide)
      omega
    have p4 : (2 : Int) * 2 ^ n ≤ 2 ^ n * 2 ^ n := Int.mul_le_mul_of_nonneg_right (by omega) (by omega)
    have p5 : (2 : Int) * 2 ^ (n - 1) ≤ 2 ^ n * 2 ^ (n - 1) := Int.mul_le_mul_of_nonneg_right (by omega) (by omega)
    cases sgn <;> simp only [lo, hi, Bool.false_eq_true, if_false, if_true, false_and, or_false, true_and] at * <;> omega

theorem num_roundOff {m : Nat} (sgn : Bool) (rm : BitVec 2) (x : BitVec m) (hm : 1 < m) :
    Rounds rm (num sgn x) 1 (num sgn (roundOff sgn rm x 1)) :=
  shiftRound sgn rm x x 1 hm hm rfl

/-- Halving never leaves the range of the operands. -/
theorem rounds_one {rm : BitVec 2} {v q : Int} (h : Rounds rm v 1 q) : 2 * q - v ≤ 1 ∧ v - 2 * q ≤ 1 := by
  unfold Rounds at h
  simp only [Int.pow_one] at h
  split at h
  · omega
  · split at h
    · omega
    · split at h <;> omega

/-- C45, averaging addition: `vaaddu`/`vaadd` return half the exact sum, rounded by vxrm. -/
theorem C45_vaadd {n : Nat} (hn : 1 < n) (sgn : Bool) (rm : BitVec 2) (vs2 vs1 : BitVec n) :
    Rounds rm (num sgn vs2 + num sgn vs1) 1 (num sgn (vaadd sgn rm vs2 vs1)) := by
  have hs : num sgn (widen sgn vs2 + widen sgn vs1) = num sgn vs2 + num sgn vs1 := by
    apply num_sum sgn hn vs2 vs1 _ _ (Or.inl rfl)
    rw [num_add_mod, num_widen, num_widen]
  have h := num_roundOff sgn rm (widen sgn vs2 + widen sgn vs1) (by omega)
  rw [hs] at h
  have hr := rounds_one h
  have ha := num_bounds sgn vs2 (by omega)
  have hb := num_bounds sgn vs1 (by omega)
  have e : num sgn (vaadd sgn rm vs2 vs1) = num sgn (roundOff sgn rm (widen sgn vs2 + widen sgn vs1) 1) := by
    apply num_eq_of sgn _ _ (by omega) _ (by omega) (by omega)
    unfold vaadd
    rw [toNat_eq_num_mod, num_emod sgn _ n (by omega), BitVec.toNat_setWidth]
  rw [e]; exact h

/-- Moving the operand by a multiple of 4 moves the rounded half by the multiple of 2. -/
theorem rounds_shift {rm : BitVec 2} {v q c : Int} (h : Rounds rm (v + 4 * c) 1 q) : Rounds rm v 1 (q - 2 * c) := by
  unfold Rounds at h ⊢
  simp only [Int.pow_one] at h ⊢
  by_cases c0 : rm = 0#2
  · rw [if_pos c0] at h ⊢; omega
  · rw [if_neg c0] at h ⊢
    by_cases c1 : rm = 1#2
    · rw [if_pos c1] at h ⊢; omega
    · rw [if_neg c1] at h ⊢
      by_cases c2 : rm = 2#2
      · rw [if_pos c2] at h ⊢; omega
      · rw [if_neg c2] at h ⊢; omega

/-- C45, averaging subtraction: `vasubu`/`vasub` return half the exact difference, rounded by vxrm, modulo 2^SEW. -/
theorem C45_vasub {n : Nat} (hn : 1 < n) (sgn : Bool) (rm : BitVec 2) (vs2 vs1 : BitVec n) :
    ∃ q : Int, Rounds rm (num sgn vs2 - num sgn vs1) 1 q ∧ vasub sgn rm vs2 vs1 = BitVec.ofInt n q := by
  have h := num_roundOff sgn rm (widen sgn vs2 - widen sgn vs1) (by omega)
  have hm : num sgn (widen sgn vs2 - widen sgn vs1) % 2 ^ (2 * n) = (num sgn vs2 - num sgn vs1) % 2 ^ (2 * n) := by
    rw [num_sub_mod, num_widen, num_widen]
  obtain ⟨c, hc⟩ := Int.dvd_of_emod_eq_zero (Int.emod_eq_emod_iff_emod_sub_eq_zero.1 hm)
  obtain ⟨e, he⟩ : ∃ e, n = e + 2 := ⟨n - 2, by omega⟩
  have hp : (2 : Int) ^ (2 * n) = 4 * (2 ^ e * 2 ^ n) := by
    rw [show 2 * n = 2 + (e + n) by omega, Int.pow_add, Int.pow_add]
    rfl
  have hv : num sgn (widen sgn vs2 - widen sgn vs1) = num sgn vs2 - num sgn vs1 + 4 * (2 ^ e * 2 ^ n * c) := by
    rw [hp] at hc
    grind
  rw [hv] at h
  refine ⟨_, rounds_shift h, ?_⟩
  apply BitVec.eq_of_toNat_eq
  unfold vasub
  rw [BitVec.toNat_setWidth, BitVec.toNat_ofInt]
  have hd : ((2 ^ n : Nat) : Int) = 2 ^ n := by norm_cast
  have h3 := num_emod sgn (roundOff sgn rm (widen sgn vs2 - widen sgn vs1) 1) n (by omega)
  generalize roundOff sgn rm (widen sgn vs2 - widen sgn vs1) 1 = r at h3 ⊢
  rw [hd, show num sgn r - 2 * (2 ^ e * 2 ^ n * c) = num sgn r + 2 ^ n * (-2 * 2 ^ e * c) by grind, Int.add_mul_emod_self_left, h3]
  rfl

/-! ### Saturating addition and subtraction -/

/-- C46, unsigned addition. -/
theorem C46_vsaddu {n : Nat} (a b : BitVec n) :
    num false (vsaddu a b).1 = clamp (lo false n) (hi false n) (num false a + num false b)
    ∧ ((vsaddu a b).2 = true ↔ hi false n < num false a + num false b) := by
  have ha := a.isLt
  have hb := b.isLt
  have hc : ((2 ^ n : Nat) : Int) = 2 ^ n := by norm_cast
  simp only [vsaddu, num, lo, hi, clamp, Bool.false_eq_true, if_false]
  rw [BitVec.toNat_add]
  by_cases h : a.toNat + b.toNat < 2 ^ n
  · rw [Nat.mod_eq_of_lt h, if_neg (by omega), BitVec.toNat_add, Nat.mod_eq_of_lt h, if_neg (by omega), if_neg (by omega)]
    simp; omega
  · have hm : (a.toNat + b.toNat) % 2 ^ n = a.toNat + b.toNat - 2 ^ n := by
      rw [Nat.mod_eq_sub_mod (by omega), Nat.mod_eq_of_lt (by omega)]
    rw [hm, if_pos (by omega), BitVec.toNat_allOnes, if_neg (by omega), if_pos (by omega)]
    simp; omega

/-- C46, unsigned subtraction. -/
theorem C46_vssubu {n : Nat} (a b : BitVec n) :
    num false (vssubu a b).1 = clamp (lo false n) (hi false n) (num false a - num false b)
    ∧ ((vssubu a b).2 = true ↔ num false a - num false b < lo false n) := by
  have ha := a.isLt
  have hb := b.isLt
  have hc : ((2 ^ n : Nat) : Int) = 2 ^ n := by norm_cast
  simp only [vssubu, num, lo, hi, clamp, Bool.false_eq_true, if_false]
  by_cases h : a.toNat < b.toNat
  · rw [if_pos h, if_pos (by omega)]
    simp; omega
  · rw [if_neg h, if_neg (by omega), if_neg (by omega), BitVec.toNat_sub_of_le (by rw [BitVec.le_def]; omega)]
    simp; omega

theorem xor_neg {n : Nat} (a b : BitVec n) : (a ^^^ b).toInt < 0 ↔ ¬ (a.toInt < 0 ↔ b.toInt < 0) := by
  have h := BitVec.msb_xor (x := a) (y := b)
  rw [BitVec.msb_eq_toInt, BitVec.msb_eq_toInt, BitVec.msb_eq_toInt] at h
  by_cases h1 : a.toInt < 0 <;> by_cases h2 : b.toInt < 0 <;> simp [h1, h2] at h ⊢ <;> omega

theorem num_ofInt {n : Nat} (sgn : Bool) (hn : 0 < n) (v : Int) (h1 : lo sgn n ≤ v) (h2 : v ≤ hi sgn n) : num sgn (BitVec.ofInt n v) = v := by
  apply num_eq_of sgn _ v hn _ h1 h2
  rw [toNat_eq_num_mod, BitVec.toNat_ofInt]
  have : (0 : Int) < 2 ^ n := Int.pow_pos (by decide)
  have hc : ((2 ^ n : Nat) : Int) = 2 ^ n := by norm_cast
  rw [hc, Int.toNat_of_nonneg (Int.emod_nonneg _ (by omega))]

/-- The wrapped result is off by 2^n, in at most one direction. -/
theorem wraps {n : Nat} (hn : 0 < n) (x : BitVec n) (v : Int) (h : num true x % 2 ^ n = v % 2 ^ n) (h1 : -2 ^ n ≤ v) (h2 : v ≤ 2 ^ n) :
    x.toInt = v ∨ x.toInt = v + 2 ^ n ∨ x.toInt = v - 2 ^ n := by
  have hb := num_bounds true x hn
  have hp := half_pow n hn
  have hpos : (0 : Int) < 2 ^ (n - 1) := Int.pow_pos (by decide)
  obtain ⟨c, hc⟩ := Int.dvd_of_emod_eq_zero (Int.emod_eq_emod_iff_emod_sub_eq_zero.1 h)
  simp only [num, lo, hi, if_true] at hc hb
  have hc1 : c < 2 := by
    rcases Int.lt_or_le c 2 with h | h
    · exact h
    · have : (2 ^ n : Int) * 2 ≤ 2 ^ n * c := Int.mul_le_mul_of_nonneg_left h (by omega)
      omega
  have hc2 : -2 < c := by
    rcases Int.lt_or_le (-2) c with h | h
    · exact h
    · have : (2 ^ n : Int) * c ≤ 2 ^ n * (-2) := Int.mul_le_mul_of_nonneg_left h (by omega)
      omega
  rcases (by omega : c = -1 ∨ c = 0 ∨ c = 1) with rfl | rfl | rfl <;> omega

/-- C46, signed addition. -/
theorem C46_vsadd {n : Nat} (hn : 0 < n) (a b : BitVec n) :
    num true (vsadd a b).1 = clamp (lo true n) (hi true n) (num true a + num true b)
    ∧ ((vsadd a b).2 = true ↔ num true a + num true b < lo true n ∨ hi true n < num true a + num true b) := by
  have ha := num_bounds true a hn
  have hb := num_bounds true b hn
  have hs := num_bounds true (a + b) hn
  have hp := half_pow n hn
  have hpos : (0 : Int) < 2 ^ (n - 1) := Int.pow_pos (by decide)
  have hw := wraps hn (a + b) (a.toInt + b.toInt) (num_add_mod true a b)
  have hlh : lo true n ≤ hi true n := by simp only [lo, hi, if_true]; omega
  have hM := num_ofInt true hn (hi true n) hlh (Int.le_refl _)
  have hm := num_ofInt true hn (lo true n) (Int.le_refl _) hlh
  unfold vsadd clamp
  have e1 := xor_neg a b
  have e2 := xor_neg (a + b) a
  have hMv : maxVal true n = hi true n := rfl
  have hmv : minVal true n = lo true n := rfl
  rw [hMv, hmv]
  simp only [num, if_true] at *
  simp only [lo, hi, if_true] at *
  split
  · rename_i c
    have hw := hw (by omega) (by omega)
    split
    · rw [hM, if_neg (by omega), if_pos (by omega)]; simp; omega
    · rw [hm, if_pos (by omega)]; simp; omega
  · rename_i c
    have hw := hw (by omega) (by omega)
    rw [if_neg (by omega), if_neg (by omega)]
    exact ⟨by show (a + b).toInt = _; omega, by simp only [Bool.false_eq_true, false_iff]; omega⟩

/-- C46, signed subtraction. -/
theorem C46_vssub {n : Nat} (hn : 0 < n) (a b : BitVec n) :
    num true (vssub a b).1 = clamp (lo true n) (hi true n) (num true a - num true b)
    ∧ ((vssub a b).2 = true ↔ num true a - num true b < lo true n ∨ hi true n < num true a - num true b) := by
  have ha := num_bounds true a hn
  have hb := num_bounds true b hn
  have hs := num_bounds true (a - b) hn
  have hp := half_pow n hn
  have hpos : (0 : Int) < 2 ^ (n - 1) := Int.pow_pos (by decide)
  have hw := wraps hn (a - b) (a.toInt - b.toInt) (num_sub_mod true a b)
  have hlh : lo true n ≤ hi true n := by simp only [lo, hi, if_true]; omega
  have hM := num_ofInt true hn (hi true n) hlh (Int.le_refl _)
  have hm := num_ofInt true hn (lo true n) (Int.le_refl _) hlh
  unfold vssub clamp
  have e1 := xor_neg a b
  have e2 := xor_neg (a - b) b
  have hMv : maxVal true n = hi true n := rfl
  have hmv : minVal true n = lo true n := rfl
  rw [hMv, hmv]
  simp only [num, if_true] at *
  simp only [lo, hi, if_true] at *
  split
  · rename_i c
    have hw := hw (by omega) (by omega)
    split
    · rw [hM, if_neg (by omega), if_pos (by omega)]; simp; omega
    · rw [hm, if_pos (by omega)]; simp; omega
  · rename_i c
    have hw := hw (by omega) (by omega)
    rw [if_neg (by omega), if_neg (by omega)]
    exact ⟨by show (a - b).toInt = _; omega, by simp only [Bool.false_eq_true, false_iff]; omega⟩

/-! ### Carries and borrows -/

theorem bit_toNat {m : Nat} (hm : 0 < m) (c : Bool) : (bit m c).toNat = if c then 1 else 0 := by
  have : 1 < 2 ^ m := Nat.one_lt_two_pow (by omega)
  cases c <;> simp [bit]
  omega

/-- C47: `vadc`/`vsbc` add or subtract the carry. -/
theorem C47_vadc {n : Nat} (hn : 0 < n) (a b : BitVec n) (c : Bool) :
    (vadc a b c).toNat = (a.toNat + b.toNat + (if c then 1 else 0)) % 2 ^ n := by
  unfold vadc
  rw [BitVec.toNat_add, BitVec.toNat_add, bit_toNat hn]
  simp

theorem C47_vsbc {n : Nat} (hn : 0 < n) (a b : BitVec n) (c : Bool) :
    ((vsbc a b c).toNat : Int) = ((a.toNat : Int) - b.toNat - (if c then 1 else 0)) % 2 ^ n := by
  have h := num_sub_mod false (a - b) (bit n c)
  have h2 := num_sub_mod false a b
  rw [toNat_eq_num_mod] at h
  unfold vsbc
  rw [h, Int.sub_emod, h2, ← Int.sub_emod]
  simp only [num, Bool.false_eq_true, if_false, bit_toNat hn]
  cases c <;> rfl

/-- C47: `vmadc` on 8, 16 and 32 bit elements is the carry out of the addition. -/
theorem C47_vmadc {n : Nat} (hn : 0 < n) (a b : BitVec n) (c : Bool) :
    vmadc a b c = true ↔ 2 ^ n ≤ a.toNat + b.toNat + (if c then 1 else 0) := by
  have ha := a.isLt
  have hb := b.isLt
  have h1 : 2 ^ (2 * n) = 2 ^ n * 2 ^ n := by rw [← Nat.pow_add]; congr 1; omega
  have h2 : 2 ≤ 2 ^ n := Nat.one_lt_two_pow (by omega)
  have h3 : 2 * 2 ^ n ≤ 2 ^ n * 2 ^ n := Nat.mul_le_mul_right _ h2
  have hs : (a.setWidth (2 * n) + b.setWidth (2 * n) + bit (2 * n) c).toNat = a.toNat + b.toNat + (if c then 1 else 0) := by
    rw [BitVec.toNat_add, BitVec.toNat_add, bit_toNat (by omega), BitVec.toNat_setWidth, BitVec.toNat_setWidth, Nat.mod_eq_of_lt (a := a.toNat) (by omega),
      Nat.mod_eq_of_lt (a := b.toNat) (by omega), Nat.mod_eq_of_lt (a := a.toNat + b.toNat) (by omega), Nat.mod_eq_of_lt]
    split <;> omega
  unfold vmadc
  rw [decide_eq_true_eq, ne_eq, ← BitVec.toNat_inj, BitVec.toNat_ushiftRight, hs, Nat.shiftRight_eq_div_pow]
  simp only [BitVec.toNat_ofNat, Nat.zero_mod]
  rw [Nat.div_eq_zero_iff]
  omega

/-- C47: `vmsbc` on 8, 16 and 32 bit elements is the borrow of the subtraction. -/
theorem C47_vmsbc {n : Nat} (hn : 0 < n) (a b : BitVec n) (c : Bool) :
    vmsbc a b c = true ↔ a.toNat < b.toNat + (if c then 1 else 0) := by
  have ha := a.isLt
  have hb := b.isLt
  have h1 : 2 ^ (2 * n) = 2 ^ n * 2 ^ n := by rw [← Nat.pow_add]; congr 1; omega
  have h2 : 2 ≤ 2 ^ n := Nat.one_lt_two_pow (by omega)
  have h3 : 2 * 2 ^ n ≤ 2 ^ n * 2 ^ n := Nat.mul_le_mul_right _ h2
  unfold vmsbc
  rw [decide_eq_true_eq, BitVec.toNat_add, bit_toNat (by omega), BitVec.toNat_setWidth, BitVec.toNat_setWidth, Nat.mod_eq_of_lt (a := a.toNat) (by omega),
      Nat.mod_eq_of_lt (a := b.toNat) (by omega), Nat.mod_eq_of_lt]
  · split <;> omega
  · split <;> omega

/-- C47: `vmsbc` on 64 bit elements. -/
theorem C47_vmsbc64 (a b : BitVec 64) (c : Bool) :
    vmsbc64 a b c = true ↔ a.toNat < b.toNat + (if c then 1 else 0) := by
  unfold vmsbc64
  have h : a = b ↔ a.toNat = b.toNat := BitVec.toNat_inj.symm
  split
  · simp only [true_iff]; split <;> omega
  · by_cases e : a = b
    · have := h.1 e
      rw [if_pos e]
      cases c <;> simp <;> omega
    · have : a.toNat ≠ b.toNat := fun e1 => e (h.2 e1)
      rw [if_neg e]
      simp only [Bool.false_eq_true, false_iff]; split <;> omega

/-- What `vmadc` computes on 64 bit elements without a carry-in: the carry out of the upper 56 bits only. -/
theorem vmadc64_eq (a b : BitVec 64) : vmadc64 a b false = true ↔ 2 ^ 56 ≤ a.toNat / 256 + b.toNat / 256 := by
  have ha := a.isLt
  have hb := b.isLt
  have hc : ((b &&& (0xff#64 + a) &&& (0xff#64 + bit 64 false)) >>> 8).toNat = 0 := by
    have : (0xff#64 + bit 64 false) = 0xff#64 := by decide
    rw [this, BitVec.toNat_ushiftRight, BitVec.toNat_and, Nat.shiftRight_eq_div_pow]
    have h := @Nat.and_le_right (b &&& (0xff#64 + a)).toNat (0xff#64).toNat
    have : (0xff#64).toNat = 255 := rfl
    omega
  have hs : ((b >>> 8) + (a >>> 8) + ((b &&& (0xff#64 + a) &&& (0xff#64 + bit 64 false)) >>> 8)).toNat = a.toNat / 256 + b.toNat / 256 := by
    rw [BitVec.toNat_add, hc, BitVec.toNat_add, BitVec.toNat_ushiftRight, BitVec.toNat_ushiftRight, Nat.shiftRight_eq_div_pow, Nat.shiftRight_eq_div_pow]
    omega
  unfold vmadc64
  rw [decide_eq_true_eq, ne_eq, ← BitVec.toNat_inj, BitVec.toNat_ushiftRight, hs, Nat.shiftRight_eq_div_pow]
  simp only [BitVec.toNat_ofNat, Nat.zero_mod]
  omega

/-- C47, in part, for `vmadc` on 64 bit elements: correct without a carry-in when the low bytes produce no carry.
Missing: all other operands (see `C47_vmadc64_violated`). -/
theorem C47_vmadc64_partial (a b : BitVec 64) (h : a.toNat % 256 + b.toNat % 256 < 256) :
    vmadc64 a b false = true ↔ 2 ^ 64 ≤ a.toNat + b.toNat := by
  rw [vmadc64_eq]
  omega

example : (0xffff000000000001#64).toNat % 256 + (0x0001000000000020#64).toNat % 256 < 256
    ∧ vmadc64 0xffff000000000001#64 0x0001000000000020#64 false = true := by decide

/-- C47 fails for `vmadc` on 64 bit elements: the carry out of 2^64 - 1 plus 1 is lost, because the low byte sum is
parsed as a chain of masks. -/
theorem C47_vmadc64_violated : ∃ a b : BitVec 64, 2 ^ 64 ≤ a.toNat + b.toNat ∧ vmadc64 a b false = false :=
  ⟨1#64, 0xffffffffffffffff#64, by decide, by decide⟩

/-! ### Concrete cases -/

example : vssr true 0#2 0xfd#8 0x09#8 = 0xff#8 ∧ vssr false 1#2 0x06#8 2#8 = 2#8 ∧ vssr false 0#2 0x06#8 2#8 = 2#8 ∧ vssr false 3#2 0x09#8 2#8 = 3#8 := by decide
example : vnclip true 0#2 0x7fff#16 4#8 = (0x7f#8, true) ∧ vnclip true 0#2 0x0188#16 4#8 = (0x19#8, false) := by decide
example : vsmul (n := 8) 0#2 0x80#8 0x80#8 = (0x7f#8, true) ∧ vsmul (n := 8) 0#2 0x40#8 0x40#8 = (0x20#8, false) := by decide
example : vaadd false 0#2 0xff#8 0xff#8 = 0xff#8 ∧ vasub true 0#2 0x7f#8 0x80#8 = 0x80#8 ∧ vasub false 2#2 0x00#8 0x01#8 = 0xff#8 := by decide
example : vsadd 0x80#8 0xff#8 = (0x80#8, true) ∧ vsaddu 0xf0#8 0x10#8 = (0xff#8, true) ∧ vssub 0x80#8 0x01#8 = (0x80#8, true) := by decide
example : vmadc 0xff#8 0#8 true = true ∧ vmsbc 0#8 0#8 true = true ∧ vmsbc64 5#64 5#64 true = true := by decide

end Verif.VecFixed
