import Verif.HalfFp.Props
/-
C68: narrowing to half precision is correctly rounded.
-/
namespace Verif.HalfFp
open Verif.Fp Verif.FpConvert.Spec Verif.HalfFp.Spec
open Verif.FpConvert (sgn sig_lt sign_msb mag_lt rounded_lin C38_rounded_unique)

variable {f : Fmt}

/-! ### Facts about rounding -/

/-- Rounding depends on the quotient only. -/
theorem rounded_scale (rm : Nat) (n : Int) (d c : Nat) (hc : 0 < c) (z : Int) :
    Rounded rm (n * c) (d * c) z ↔ Rounded rm n d z := by
  have hcz : (0 : Int) < c := by omega
  rw [rounded_lin rm n z (z * d) d rfl, rounded_lin rm (n * c) z (z * d * c) (d * c) (by rw [Int.natCast_mul]; grind)]
  have hcast : ((d * c : Nat) : Int) = (d : Int) * c := Int.natCast_mul d c
  generalize hZ : z * (d : Int) = Z
  have le : ∀ a b : Int, a * c ≤ b * c ↔ a ≤ b := fun a b => Int.mul_le_mul_right hcz
  have lt : ∀ a b : Int, a * c < b * c ↔ a < b := fun a b => Int.mul_lt_mul_right hcz
  have ab : ∀ a : Int, (a * c).natAbs = a.natAbs * c := fun a => by rw [Int.natAbs_mul, Int.natAbs_natCast]
  have e1 : n * c - Z * c = (n - Z) * c := by rw [Int.sub_mul]
  have e2 : ∀ x : Nat, 2 * (x * c) = (2 * x) * c := fun x => by rw [Nat.mul_assoc]
  have nle : ∀ a b : Nat, a * c ≤ b * c ↔ a ≤ b := fun a b => Nat.mul_le_mul_right_iff hc
  have nlt : ∀ a b : Nat, a * c < b * c ↔ a < b := fun a b => Nat.mul_lt_mul_right hc
  have neq : ∀ a b : Nat, a * c = b * c ↔ a = b := fun a b => Nat.mul_left_inj (by omega)
  have z0 : 0 ≤ n * c ↔ 0 ≤ n := by have := le 0 n; rwa [Int.zero_mul] at this
  have z1 : n * c < 0 ↔ n < 0 := by have := lt n 0; rwa [Int.zero_mul] at this
  have a1 : Z * c + ((d * c : Nat) : Int) = (Z + d) * c := by rw [hcast, Int.add_mul]
  have a2 : Z * c - ((d * c : Nat) : Int) = (Z - d) * c := by rw [hcast, Int.sub_mul]
  rcases rm with _ | _ | _ | _ | _ | rm <;> simp only [e1, e2, a1, a2, le, lt, ab, nle, nlt, neq, z0, z1]

/-- A positive quotient below one half rounds to zero, or to one in the directed modes. -/
theorem rounded_tiny (rm : Nat) (hrm : rm ≤ 3) (sign : Bool) (a D : Nat) (ha : 0 < a) (h : 2 * a < D) :
    Rounded rm (sgn sign a) D (sgn sign (if (rm = 2 ∧ sign = true) ∨ (rm = 3 ∧ sign = false) then 1 else 0)) := by
  have hr : rm = 0 ∨ rm = 1 ∨ rm = 2 ∨ rm = 3 := by omega
  rcases hr with e | e | e | e <;> subst e <;> cases sign <;> simp [sgn, Rounded] <;> omega

theorem hostRound_tiny (rm : Nat) (hrm : rm ≤ 3) (sign : Bool) (a k : Nat) (ha : 0 < a) (h : 2 * a < 2 ^ k) :
    hostRound rm sign a k = if (rm = 2 ∧ sign = true) ∨ (rm = 3 ∧ sign = false) then 1 else 0 := by
  have hq : a / 2 ^ k = 0 := Nat.div_eq_of_lt (by omega)
  have hm : a % 2 ^ k = a := Nat.mod_eq_of_lt (by omega)
  have hr : rm = 0 ∨ rm = 1 ∨ rm = 2 ∨ rm = 3 := by omega
  unfold hostRound
  simp only [hq, hm]
  have hn : a ≠ 0 := by omega
  rcases hr with e | e | e | e <;> subst e <;> cases sign <;> simp [hn] <;> omega

/-- The modelled host rounding is correct rounding. -/
theorem hostRound_ok (rm : Nat) (hrm : rm ≤ 3) (sign : Bool) (a k : Nat) :
    Rounded rm (sgn sign a) (2 ^ k) (sgn sign (hostRound rm sign a k)) := by
  have hD : 0 < 2 ^ k := Nat.two_pow_pos _
  have hdm := Nat.div_add_mod a (2 ^ k)
  have hr' := Nat.mod_lt a hD
  unfold hostRound
  simp only []
  generalize 2 ^ k = D at *
  obtain ⟨q, hq⟩ : ∃ q, q = a / D := ⟨_, rfl⟩
  obtain ⟨r, hr⟩ : ∃ r, r = a % D := ⟨_, rfl⟩
  rw [← hq, ← hr] at hdm
  rw [← hr] at hr'
  rw [← hq, ← hr]
  obtain ⟨P, hP⟩ : ∃ P, P = D * q := ⟨_, rfl⟩
  rw [← hP] at hdm
  have h0 : sgn sign q * (D : Int) = sgn sign P := by rw [hP]; unfold sgn; cases sign <;> simp <;> grind
  have h1 : sgn sign (q + 1) * (D : Int) = sgn sign (P + D) := by rw [hP]; unfold sgn; cases sign <;> simp <;> grind
  have par : ∀ x : Nat, (sgn sign x) % 2 = 0 ↔ x % 2 = 0 := by
    intro x; unfold sgn; cases sign <;> simp <;> omega
  have p0 := par q
  have p1 := par (q + 1)
  have hrm' : rm = 0 ∨ rm = 1 ∨ rm = 2 ∨ rm = 3 := by omega
  have up : ∀ b : Bool, (b = true → Rounded rm (sgn sign a) D (sgn sign (q + 1))) →
      (b = false → Rounded rm (sgn sign a) D (sgn sign q)) →
      Rounded rm (sgn sign a) D (sgn sign (if b = true then q + 1 else q)) := by
    intro b h h'; cases b
    · exact h' rfl
    · exact h rfl
  apply up
  · intro hup
    rw [rounded_lin _ _ _ _ _ h1]
    rcases hrm' with e | e | e | e <;> subst e
    · simp at hup
      refine ⟨?_, fun hc => p1.2 ?_⟩
      · unfold sgn; cases sign <;> simp only [if_true, if_false, Bool.false_eq_true] <;> omega
      · unfold sgn at hc; cases sign <;> simp only [if_true, if_false, Bool.false_eq_true] at hc <;> omega
    · simp at hup
    · simp at hup; obtain ⟨e, hr0⟩ := hup; subst e
      unfold sgn; simp only [if_true]; omega
    · simp at hup; obtain ⟨e, hr0⟩ := hup; subst e
      unfold sgn; simp only [if_false, Bool.false_eq_true]; omega
  · intro hup
    rw [rounded_lin _ _ _ _ _ h0]
    rcases hrm' with e | e | e | e <;> subst e
    · simp at hup
      refine ⟨?_, fun hc => p0.2 ?_⟩
      · unfold sgn; cases sign <;> simp only [if_true, if_false, Bool.false_eq_true] <;> omega
      · have h2 : 2 * r = D := by
          unfold sgn at hc; cases sign <;> simp only [if_true, if_false, Bool.false_eq_true] at hc <;> omega
        have := hup.2 h2; omega
    · unfold sgn; cases sign <;> simp only [if_true, if_false, Bool.false_eq_true] <;> omega
    · simp at hup
      cases sign
      · unfold sgn; simp only [if_false, Bool.false_eq_true]; omega
      · have := hup rfl; unfold sgn; simp only [if_true]; omega
    · simp at hup
      cases sign
      · have := hup rfl; unfold sgn; simp only [if_false, Bool.false_eq_true]; omega
      · unfold sgn; simp only [if_true]; omega

/-- Bounds on the rounded integer. -/
theorem hostRound_bounds (rm : Nat) (sign : Bool) (a k lo hi : Nat) (h1 : lo * 2 ^ k ≤ a) (h2 : a ≤ hi * 2 ^ k) :
    lo ≤ hostRound rm sign a k ∧ hostRound rm sign a k ≤ hi := by
  have hD : 0 < 2 ^ k := Nat.two_pow_pos _
  have hdm := Nat.div_add_mod a (2 ^ k)
  have hr' := Nat.mod_lt a hD
  have hlo : lo ≤ a / 2 ^ k := (Nat.le_div_iff_mul_le hD).2 h1
  have hup : ∀ b : Bool, (b = true → a % 2 ^ k ≠ 0) → (if b then a / 2 ^ k + 1 else a / 2 ^ k) ≤ hi := by
    intro b hb
    have hle : a / 2 ^ k ≤ hi := by
      have := Nat.div_le_div_right (c := 2 ^ k) h2
      rwa [Nat.mul_div_cancel _ hD] at this
    cases b
    · simpa using hle
    · have hne := hb rfl
      simp only [if_true]
      by_cases hc : a / 2 ^ k = hi
      · rw [hc, Nat.mul_comm] at hdm; omega
      · omega
  constructor
  · unfold hostRound; simp only []
    have : ∀ b : Bool, lo ≤ if b then a / 2 ^ k + 1 else a / 2 ^ k := by intro b; cases b <;> simp <;> omega
    exact this _
  · unfold hostRound
    simp only []
    apply hup
    intro hb
    split at hb
    · cases hb
    · simp at hb; exact hb.2
    · simp at hb; exact hb.2
    · simp at hb; omega


/-! ### The intermediate fields -/

/-- What narrowing needs of the source format. -/
structure NarrowOk (f : Fmt) : Prop where
  e : 1 ≤ f.e
  s : 11 ≤ f.s
  bias : 27 ≤ f.bias
  bias' : f.s + 2 ≤ f.bias
theorem narrow_single : NarrowOk single := ⟨by decide, by decide, by decide, by decide⟩
theorem narrow_double : NarrowOk double := ⟨by decide, by decide, by decide, by decide⟩

theorem wrap_nat (w n : Nat) (h : n < 2 ^ w) (z : Int) (hz : z = n) : wrap w z = n := by
  subst hz
  unfold wrap
  have : ((n : Int) % 2 ^ w) = ((n % 2 ^ w : Nat) : Int) := by simp
  rw [this, Int.toNat_natCast, Nat.mod_eq_of_lt h]

theorem ftmp_eq (f : Fmt) (m : Nat) (h : m < 2 ^ f.s) : 1 <<< f.s ||| m = 2 ^ f.s + m := by
  rw [← Nat.shiftLeft_add_eq_or_of_lt h, Nat.shiftLeft_eq, Nat.one_mul]

theorem pow_s (ok : NarrowOk f) : (2 : Nat) ^ f.s = 1024 * 2 ^ (f.s - 10) := by
  have := ok.s
  rw [show (1024 : Nat) = 2 ^ 10 from rfl, ← Nat.pow_add]; congr 1; omega

theorem bits_big (ok : NarrowOk f) : 2 * f.bias + 2 + f.s < 2 ^ f.bits := by
  have hp := bias_pow f ok.e
  have h1 : f.s < 2 ^ f.s := Nat.lt_two_pow_self
  have h2 : 0 < f.bias := by have := ok.bias; omega
  have : 2 ^ f.bits = 2 * (2 * (f.bias + 1) * 2 ^ f.s) := by rw [two_bits, hp]
  rw [this]
  have h3 : 2 * (f.bias + 1) * 1 ≤ 2 * (f.bias + 1) * 2 ^ f.s := Nat.mul_le_mul_left _ (Nat.two_pow_pos _)
  have h4 : 1 * 2 ^ f.s ≤ 2 * (f.bias + 1) * 2 ^ f.s := Nat.mul_le_mul_right _ (by omega)
  omega

theorem shift_pos (e : Nat) (h : 0 < unbounded f e) : shiftAmount f e = f.s - 10 := by
  unfold shiftAmount
  simp only [if_pos h]
  show f.bias + (f.s - 10) - f.bias = _
  omega

theorem shift_zero (e : Nat) (h : unbounded f e = 0) : shiftAmount f e = f.s - 10 + 1 := by
  unfold shiftAmount
  simp only [h]
  show f.bias + (f.s - 10) + 1 - f.bias = _
  omega

theorem shift_neg (ok : NarrowOk f) (e : Nat) (h : unbounded f e < 0) :
    shiftAmount f e = min (f.s + f.bias - 24 - e) f.bias ∧ e + 16 ≤ f.bias := by
  have hb := ok.bias
  have hs := ok.s
  have hbig := bits_big ok
  have hpw := bias_pow f ok.e
  have hu : unbounded f e = (e : Int) - ((f.bias : Int) - 15) := rfl
  have hh : (half.bias : Nat) = 15 := rfl
  have hs' : half.s = 10 := rfl
  unfold shiftAmount
  have h' : ¬ unbounded f e > 0 := by omega
  simp only [hh, hs', if_neg h', if_pos h]
  rw [wrap_nat f.bits (f.bias + (f.s - 10) + 1 + f.bias - 15 - e) (by omega) _ (by omega)]
  refine ⟨?_, by omega⟩
  rw [hpw]
  omega

/-- Case A: the result is normal before rounding. -/
theorem mid_pos (ok : NarrowOk f) (rm : Nat) (sign : Bool) (e m : Nat) (hm : m < 2 ^ f.s) (he : e < 2 ^ f.e - 1)
    (h : 0 < unbounded f e) :
    ∃ r, r = hostRound rm sign (2 ^ f.s + m) (f.s - 10) ∧ 1024 ≤ r ∧ r ≤ 2048
      ∧ mid f rm sign e m = (if r = 2048 then (unbounded f e).toNat + 1 else (unbounded f e).toNat, r % 1024,
          r * 2 ^ (f.s - 10) != 2 ^ f.s + m) := by
  have hbb := ok.bias
  have hbig := bits_big ok
  have hpw := bias_pow f ok.e
  have hps := pow_s ok
  have hP : 0 < 2 ^ (f.s - 10) := Nat.two_pow_pos _
  obtain ⟨hlo, hhi⟩ := hostRound_bounds rm sign (2 ^ f.s + m) (f.s - 10) 1024 2048 (by omega) (by omega)
  refine ⟨_, rfl, hlo, hhi, ?_⟩
  have hu : unbounded f e = (e : Int) - ((f.bias : Int) - 15) := rfl
  have hh : (half.bias : Nat) = 15 := rfl
  have hs' : half.s = 10 := rfl
  have h1 : ¬ unbounded f e < 0 := by omega
  have h2 : unbounded f e > 0 := h
  unfold mid
  simp only [if_neg h1, if_pos h2, ftmp_eq f m hm, shift_pos e h]
  generalize hostRound rm sign (2 ^ f.s + m) (f.s - 10) = r at *
  rw [hh, hs']
  have hd : (r * 2 ^ (f.s - 10)) >>> f.s = r / 1024 := by
    rw [Nat.shiftRight_eq_div_pow, hps, Nat.mul_div_mul_right _ _ hP]
  have hd2 : (r * 2 ^ (f.s - 10)) >>> (f.s - 10) = r := by
    rw [Nat.shiftRight_eq_div_pow, Nat.mul_div_cancel _ hP]
  rw [hd, hd2, Nat.and_two_pow_sub_one_eq_mod, Nat.and_two_pow_sub_one_eq_mod, Nat.and_two_pow_sub_one_eq_mod]
  have hr1 : r / 1024 % 2 ^ f.e = r / 1024 := Nat.mod_eq_of_lt (by omega)
  rw [hr1]
  by_cases hr : r = 2048
  · subst hr
    rw [wrap_nat f.bits (e + 1) (by omega) ((e : Int) + (((2048 / 1024 : Nat) : Int) - 1)) (by omega), Nat.mod_eq_of_lt (show e + 1 < 2 ^ f.e by omega),
      wrap_nat f.bits ((unbounded f e).toNat + 1) (by omega) _ (by omega)]
    rfl
  · rw [wrap_nat f.bits e (by omega) ((e : Int) + (((r / 1024 : Nat) : Int) - 1)) (by omega), Nat.mod_eq_of_lt (show e < 2 ^ f.e by omega),
      wrap_nat f.bits ((unbounded f e).toNat) (by omega) _ (by omega), if_neg hr]

/-- Case B: the binade just below the normal numbers. -/
theorem mid_zero (ok : NarrowOk f) (rm : Nat) (sign : Bool) (e m : Nat) (hm : m < 2 ^ f.s)
    (h : unbounded f e = 0) :
    ∃ r, r = hostRound rm sign (2 ^ f.s + m) (f.s - 10 + 1) ∧ 512 ≤ r ∧ r ≤ 1024
      ∧ mid f rm sign e m = (r / 1024, r % 1024, true) := by
  have hps := pow_s ok
  have hpw := bias_pow f ok.e
  have hP : 0 < 2 ^ (f.s - 10) := Nat.two_pow_pos _
  have hP1 : 2 ^ (f.s - 10 + 1) = 2 * 2 ^ (f.s - 10) := by rw [Nat.pow_succ, Nat.mul_comm]
  obtain ⟨hlo, hhi⟩ := hostRound_bounds rm sign (2 ^ f.s + m) (f.s - 10 + 1) 512 1024 (by omega) (by omega)
  -- the mantissa-free number is exact
  have hex : m = 0 → hostRound rm sign (2 ^ f.s + m) (f.s - 10 + 1) ≤ 512 := by
    intro h0; subst h0
    exact (hostRound_bounds rm sign (2 ^ f.s + 0) (f.s - 10 + 1) 512 512 (by omega) (by omega)).2
  refine ⟨_, rfl, hlo, hhi, ?_⟩
  have hs' : half.s = 10 := rfl
  have he' : half.e = 5 := rfl
  have h1 : ¬ unbounded f e < 0 := by omega
  have h2 : ¬ unbounded f e > 0 := by omega
  unfold mid
  simp only [if_neg h1, if_neg h2, ftmp_eq f m hm, shift_zero e h]
  generalize hostRound rm sign (2 ^ f.s + m) (f.s - 10 + 1) = r at *
  rw [hs', he']
  have hd : (r * 2 ^ (f.s - 10)) >>> f.s = r / 1024 := by
    rw [Nat.shiftRight_eq_div_pow, hps, Nat.mul_div_mul_right _ _ hP]
  have hd2 : (r * 2 ^ (f.s - 10)) >>> (f.s - 10) = r := by
    rw [Nat.shiftRight_eq_div_pow, Nat.mul_div_cancel _ hP]
  rw [hd, hd2, Nat.and_two_pow_sub_one_eq_mod, Nat.and_two_pow_sub_one_eq_mod, Nat.mod_eq_of_lt (show r / 1024 < 2 ^ 5 by omega)]
  have hne : r * 2 ^ (f.s - 10) ≠ 2 ^ f.s + m := by
    have h1 : r * 2 ^ (f.s - 10) ≤ 1024 * 2 ^ (f.s - 10) := Nat.mul_le_mul_right _ hhi
    intro hc
    have hm0 : m = 0 := by omega
    have h2 : r * 2 ^ (f.s - 10) ≤ 512 * 2 ^ (f.s - 10) := Nat.mul_le_mul_right _ (hex hm0)
    omega
  congr 2
  simpa using hne

/-- Case C: deeper in the subnormal range. -/
theorem mid_neg (ok : NarrowOk f) (rm : Nat) (sign : Bool) (e m : Nat) (hm : m < 2 ^ f.s)
    (h : unbounded f e < 0) :
    ∃ r, r = hostRound rm sign (2 ^ f.s + m) (min (f.s + f.bias - 24 - e) f.bias) ∧ r ≤ 512
      ∧ mid f rm sign e m = (0, r, true) := by
  have hps := pow_s ok
  have hs := ok.s
  have hb := ok.bias
  have hb' := ok.bias'
  obtain ⟨hsh, heb⟩ := shift_neg ok e h
  have hP : 0 < 2 ^ (f.s - 10) := Nat.two_pow_pos _
  have hhi : hostRound rm sign (2 ^ f.s + m) (min (f.s + f.bias - 24 - e) f.bias) ≤ 512 := by
    apply (hostRound_bounds rm sign (2 ^ f.s + m) _ 0 512 (by omega) _).2
    have h1 : 2 ^ (f.s - 8) ≤ 2 ^ (min (f.s + f.bias - 24 - e) f.bias) :=
      Nat.pow_le_pow_right (by decide) (by omega)
    have h2 : (2 : Nat) ^ (f.s - 8) = 4 * 2 ^ (f.s - 10) := by
      rw [show f.s - 8 = (f.s - 10) + 2 by omega, Nat.pow_add, Nat.mul_comm]
    omega
  refine ⟨_, rfl, hhi, ?_⟩
  have h2 : ¬ unbounded f e > 0 := by omega
  unfold mid
  simp only [if_pos h, if_neg h2, ftmp_eq f m hm, hsh]
  generalize hostRound rm sign (2 ^ f.s + m) (min (f.s + f.bias - 24 - e) f.bias) = r at *
  have h1 : r &&& 1 <<< half.s = 0 := by
    show r &&& 2 ^ 10 = 0
    apply Nat.eq_of_testBit_eq
    intro i
    rw [Nat.testBit_and, Nat.testBit_two_pow, Nat.zero_testBit]
    by_cases hi : 10 = i
    · subst hi
      rw [Nat.testBit_lt_two_pow (show r < 2 ^ 10 by omega)]; rfl
    · simp [hi]
  rw [if_neg (by rw [h1]; decide), Nat.and_two_pow_sub_one_eq_mod, show half.s = 10 from rfl,
    Nat.mod_eq_of_lt (show r < 2 ^ 10 by omega)]
  have hne : r * 2 ^ (f.s - 10) ≠ 2 ^ f.s + m := by
    have h1 : r * 2 ^ (f.s - 10) ≤ 512 * 2 ^ (f.s - 10) := Nat.mul_le_mul_right _ hhi
    omega
  congr 2
  simpa using hne


/-! ### Units -/

theorem num_sgn (u : BitVec f.bits) : num u = sgn (signBit u) (mag u) * 2 ^ (ulp u).toNat := by
  unfold num sgn
  simp only []
  rw [sign_msb]
  split <;> simp [Int.neg_mul]

/-- Rounding in units of `2 ^ k`, when `k` is `K` above the last place of the operand. -/
theorem units_eq (u : BitVec f.bits) (k : Int) (K : Nat) (h : k = ulp u + K) :
    ∃ c : Nat, 0 < c ∧ unitsNum u k = sgn (signBit u) (mag u) * c ∧ unitsDen u k = 2 ^ K * c := by
  refine ⟨2 ^ ((ulp u).toNat + (-k).toNat), Nat.two_pow_pos _, ?_, ?_⟩
  · unfold unitsNum; rw [num_sgn, Int.mul_assoc, ← Int.pow_add]; simp
  · unfold unitsDen den; rw [← Nat.pow_add, ← Nat.pow_add]; congr 1; omega

theorem units_rounded (u : BitVec f.bits) (k : Int) (K : Nat) (h : k = ulp u + K) (rm : Nat) (z : Int) :
    Rounded rm (unitsNum u k) (unitsDen u k) z ↔ Rounded rm (sgn (signBit u) (mag u)) (2 ^ K) z := by
  obtain ⟨c, hc, h1, h2⟩ := units_eq u k K h
  rw [h1, h2, rounded_scale _ _ _ _ hc]

theorem units_exact (u : BitVec f.bits) (k : Int) (K : Nat) (h : k = ulp u + K) (z : Int) :
    z * unitsDen u k = unitsNum u k ↔ z * (2 ^ K : Nat) = sgn (signBit u) (mag u) := by
  obtain ⟨c, hc, h1, h2⟩ := units_eq u k K h
  rw [h1, h2, Int.natCast_mul, ← Int.mul_assoc]
  have : (c : Int) ≠ 0 := by omega
  exact ⟨Int.eq_of_mul_eq_mul_right this, fun h => by rw [h]⟩

theorem log2_range (n s : Nat) (h1 : 2 ^ s ≤ n) (h2 : n < 2 ^ (s + 1)) : Nat.log2 n = s := by
  have hn : n ≠ 0 := by have := Nat.two_pow_pos s; omega
  have a := Nat.log2_self_le hn
  have b := @Nat.lt_log2_self n
  have c : ¬ Nat.log2 n < s := fun hc => by
    have : 2 ^ (Nat.log2 n + 1) ≤ 2 ^ s := Nat.pow_le_pow_right (by decide) hc
    omega
  have d : ¬ s < Nat.log2 n := fun hc => by
    have : 2 ^ (s + 1) ≤ 2 ^ (Nat.log2 n) := Nat.pow_le_pow_right (by decide) hc
    omega
  omega

theorem fits_of (N : Nat) (sign : Bool) (k : Int) (h : (k ≤ 5 ∧ N < 2048) ∨ (k ≤ 4 ∧ N ≤ 2048)) : Fits (sgn sign N) k := by
  unfold Fits
  have hn : (sgn sign N).natAbs = N := by unfold sgn; split <;> simp
  rw [hn]
  have h2 : 2 ^ 16 * 1 ≤ 2 ^ 16 * 2 ^ (-k).toNat := Nat.mul_le_mul_left _ (Nat.two_pow_pos _)
  rcases h with ⟨h3, h4⟩ | ⟨h3, h4⟩
  · have h5 : 2 ^ k.toNat ≤ 2 ^ 5 := Nat.pow_le_pow_right (by decide) (by omega)
    have : N * 2 ^ k.toNat ≤ 2047 * 2 ^ 5 := Nat.mul_le_mul (by omega) h5
    omega
  · have h5 : 2 ^ k.toNat ≤ 2 ^ 4 := Nat.pow_le_pow_right (by decide) (by omega)
    have : N * 2 ^ k.toNat ≤ 2048 * 2 ^ 4 := Nat.mul_le_mul (by omega) h5
    omega

theorem not_fits_of (N : Nat) (sign : Bool) (k : Int) (h : (6 ≤ k ∧ 1024 ≤ N) ∨ (5 ≤ k ∧ 2048 ≤ N)) : ¬ Fits (sgn sign N) k := by
  unfold Fits
  have hn : (sgn sign N).natAbs = N := by unfold sgn; split <;> simp
  rw [hn]
  rcases h with ⟨h3, h4⟩ | ⟨h3, h4⟩
  · rw [show (-k).toNat = 0 by omega]
    have h5 : 2 ^ 6 ≤ 2 ^ k.toNat := Nat.pow_le_pow_right (by decide) (by omega)
    have : 1024 * 2 ^ 6 ≤ N * 2 ^ k.toNat := Nat.mul_le_mul h4 h5
    omega
  · rw [show (-k).toNat = 0 by omega]
    have h5 : 2 ^ 5 ≤ 2 ^ k.toNat := Nat.pow_le_pow_right (by decide) (by omega)
    have : 2048 * 2 ^ 5 ≤ N * 2 ^ k.toNat := Nat.mul_le_mul h4 h5
    omega

/-- The finite, non-zero case: rounded quanta, fields, and the flags' ingredients. -/
theorem core (ok : NarrowOk f) (rm : Nat) (hrm : rm ≤ 3) (u : BitVec f.bits) (hsp : ¬ Special u) (hz : ¬ IsZero u) :
    ∃ (N he0 hm0 : Nat) (ch : Bool) (j : Nat),
      mid f rm (signBit u) (expField u) (sigField u) = (he0, hm0, ch)
      ∧ RoundedTo rm u (sgn (signBit u) N)
      ∧ hm0 < 1024
      ∧ (if he0 = 0 then hm0 else 1024 + hm0) * 2 ^ j = N
      ∧ ((if he0 = 0 then 1 else he0 : Nat) : Int) - 25 = quantum u + j
      ∧ (he0 ≥ 31 ↔ ¬ Fits (sgn (signBit u) N) (quantum u))
      ∧ (unbounded f (expField u) ≤ 0 ↔ TinyBefore u)
      ∧ (unbounded f (expField u) ≤ 0 → he0 ≤ 1 ∧ ch = true)
      ∧ (0 < unbounded f (expField u) →
          (ch = true ↔ sgn (signBit u) N * unitsDen u (quantum u) ≠ unitsNum u (quantum u))) := by
  have hs := ok.s
  have hb := ok.bias
  have hb' := ok.bias'
  have hps := pow_s ok
  have hpw := bias_pow f ok.e
  have hsig := sig_lt u
  have hexp : expField u < 2 ^ f.e - 1 := by
    have h1 : expField u < 2 ^ f.e := Nat.mod_lt _ (Nat.two_pow_pos _)
    have h2 : expField u ≠ 2 ^ f.e - 1 := hsp
    omega
  have hu : unbounded f (expField u) = (expField u : Int) - ((f.bias : Int) - 15) := rfl
  have hmag : mag u = if expField u = 0 then sigField u else 2 ^ f.s + sigField u := rfl
  have hulp : ulp u = ((if expField u = 0 then 1 else expField u : Nat) : Int) - f.bias - f.s := rfl
  by_cases he : expField u = 0
  · -- subnormal operand
    rw [if_pos he] at hmag hulp
    have hn0 : sigField u ≠ 0 := by intro hc; apply hz; show mag u = 0; rw [hmag]; exact hc
    have hlog : Nat.log2 (mag u) < f.s := by
      rw [hmag]; exact (Nat.log2_lt hn0).2 hsig
    have hq : quantum u = -24 := by unfold quantum; omega
    have hneg : unbounded f (expField u) < 0 := by omega
    obtain ⟨r, hr, hr5, hmid⟩ := mid_neg ok rm (signBit u) (expField u) (sigField u) hsig hneg
    have hpb : 2 * (2 ^ f.s + sigField u) < 2 ^ (min (f.s + f.bias - 24 - expField u) f.bias) := by
      have h1 : 2 ^ (f.s + 2) ≤ 2 ^ (min (f.s + f.bias - 24 - expField u) f.bias) :=
        Nat.pow_le_pow_right (by decide) (by omega)
      have h2 : (2 : Nat) ^ (f.s + 2) = 4 * 2 ^ f.s := by rw [Nat.pow_add, Nat.mul_comm]
      omega
    rw [hostRound_tiny rm hrm _ _ _ (by omega) hpb] at hr
    refine ⟨r, 0, r, true, 0, hmid, ?_, by omega, by simp, by rw [hq]; simp, ?_, ?_, fun _ => ⟨by omega, rfl⟩, fun hc => by omega⟩
    · unfold RoundedTo
      rw [units_rounded u _ (f.s + f.bias - 25) (by omega), hr, hmag]
      apply rounded_tiny rm hrm _ _ _ (by omega)
      have h1 : 2 ^ (f.s + 2) ≤ 2 ^ (f.s + f.bias - 25) := Nat.pow_le_pow_right (by decide) (by omega)
      have h2 : (2 : Nat) ^ (f.s + 2) = 4 * 2 ^ f.s := by rw [Nat.pow_add, Nat.mul_comm]
      omega
    · constructor
      · intro hc; omega
      · intro hc; exact absurd (fits_of r _ _ (Or.inl ⟨by omega, by omega⟩)) hc
    · constructor
      · intro _; unfold TinyBefore; omega
      · intro _; omega
  · rw [if_neg he] at hmag hulp
    have hlog : Nat.log2 (mag u) = f.s := by
      rw [hmag]; apply log2_range _ _ (by omega); rw [Nat.pow_succ]; omega
    by_cases hpos : 0 < unbounded f (expField u)
    · have hq : quantum u = unbounded f (expField u) - 25 := by unfold quantum; rw [hlog]; omega
      obtain ⟨r, hr, hr1, hr2, hmid⟩ := mid_pos ok rm (signBit u) (expField u) (sigField u) hsig hexp hpos
      have hro : RoundedTo rm u (sgn (signBit u) r) := by
        unfold RoundedTo
        rw [units_rounded u _ (f.s - 10) (by omega), hr, hmag]
        exact hostRound_ok rm hrm _ _ _
      have htb : unbounded f (expField u) ≤ 0 ↔ TinyBefore u := by unfold TinyBefore; omega
      have hch : ∀ x : Bool, (r * 2 ^ (f.s - 10) != 2 ^ f.s + sigField u) = x →
          (x = true ↔ sgn (signBit u) r * unitsDen u (quantum u) ≠ unitsNum u (quantum u)) := by
        intro x hx
        rw [← hx, Ne, units_exact u _ (f.s - 10) (by omega), hmag]
        have : sgn (signBit u) r * ((2 ^ (f.s - 10) : Nat) : Int) = sgn (signBit u) (r * 2 ^ (f.s - 10)) := by
          unfold sgn; split <;> simp [Int.neg_mul]
        rw [this]
        have hinj : ∀ a b : Nat, sgn (signBit u) a = sgn (signBit u) b ↔ a = b := by
          intro a b; unfold sgn; split <;> omega
        rw [hinj]
        simp
      by_cases h2048 : r = 2048
      · refine ⟨r, (unbounded f (expField u)).toNat + 1, r % 1024, _, 1, ?_, hro, by omega, ?_, ?_, ?_, htb, fun hc => by omega,
          fun _ => hch _ rfl⟩
        · rw [hmid, if_pos h2048]
        · rw [if_neg (by omega)]; omega
        · rw [if_neg (by omega)]; omega
        · constructor
          · intro _; exact not_fits_of r _ _ (Or.inr ⟨by omega, by omega⟩)
          · intro hc
            by_cases h30 : 30 ≤ unbounded f (expField u)
            · omega
            · exact absurd (fits_of r _ _ (Or.inr ⟨by omega, by omega⟩)) hc
      · refine ⟨r, (unbounded f (expField u)).toNat, r % 1024, _, 0, ?_, hro, by omega, ?_, ?_, ?_, htb, fun hc => by omega,
          fun _ => hch _ rfl⟩
        · rw [hmid, if_neg h2048]
        · rw [if_neg (by omega)]; omega
        · rw [if_neg (by omega)]; omega
        · constructor
          · intro _; exact not_fits_of r _ _ (Or.inl ⟨by omega, by omega⟩)
          · intro hc
            by_cases h30 : 31 ≤ unbounded f (expField u)
            · omega
            · exact absurd (fits_of r _ _ (Or.inl ⟨by omega, by omega⟩)) hc
    · have hq : quantum u = -24 := by unfold quantum; rw [hlog]; omega
      have htb : unbounded f (expField u) ≤ 0 ↔ TinyBefore u := by unfold TinyBefore; omega
      by_cases h0 : unbounded f (expField u) = 0
      · obtain ⟨r, hr, hr1, hr2, hmid⟩ := mid_zero ok rm (signBit u) (expField u) (sigField u) hsig h0
        refine ⟨r, r / 1024, r % 1024, true, 0, hmid, ?_, by omega, ?_, ?_, ?_, htb, fun hc => ⟨by omega, rfl⟩, fun hc => by omega⟩
        · unfold RoundedTo
          rw [units_rounded u _ (f.s - 10 + 1) (by omega), hr, hmag]
          exact hostRound_ok rm hrm _ _ _
        · split <;> omega
        · split <;> omega
        · constructor
          · intro hc; omega
          · intro hc; exact absurd (fits_of r _ _ (Or.inl ⟨by omega, by omega⟩)) hc
      · have hneg : unbounded f (expField u) < 0 := by omega
        obtain ⟨r, hr, hr5, hmid⟩ := mid_neg ok rm (signBit u) (expField u) (sigField u) hsig hneg
        refine ⟨r, 0, r, true, 0, hmid, ?_, by omega, by simp, by rw [hq]; simp, ?_, htb, fun _ => ⟨by omega, rfl⟩, fun hc => by omega⟩
        · unfold RoundedTo
          rw [units_rounded u _ (f.s + f.bias - 24 - expField u) (by omega), hmag]
          by_cases hcap : f.s + f.bias - 24 - expField u ≤ f.bias
          · rw [Nat.min_eq_left hcap] at hr
            rw [hr]
            exact hostRound_ok rm hrm _ _ _
          · have h1 : 2 ^ (f.s + 2) ≤ 2 ^ f.bias := Nat.pow_le_pow_right (by decide) (by omega)
            have h2 : (2 : Nat) ^ (f.s + 2) = 4 * 2 ^ f.s := by rw [Nat.pow_add, Nat.mul_comm]
            have h3 : 2 ^ f.bias ≤ 2 ^ (f.s + f.bias - 24 - expField u) := Nat.pow_le_pow_right (by decide) (by omega)
            rw [Nat.min_eq_right (by omega), hostRound_tiny rm hrm _ _ _ (by omega) (by omega)] at hr
            rw [hr]
            exact rounded_tiny rm hrm _ _ _ (by omega) (by omega)
        · constructor
          · intro hc; omega
          · intro hc; exact absurd (fits_of r _ _ (Or.inl ⟨by omega, by omega⟩)) hc


/-! ### Patterns and values -/

/-- In one format a value and a sign have only one pattern. -/
theorem C39_pattern_unique {g : Fmt} (u v : BitVec g.bits) (h : SameValue u v) : u = v := by
  have key : ∀ u v : BitVec g.bits, SameValue u v → ulp u ≤ ulp v → u = v := by
    intro u v ⟨hv, hs⟩ hle
    obtain ⟨t, ht⟩ : ∃ t : Nat, ulp v = ulp u + t := ⟨(ulp v - ulp u).toNat, by omega⟩
    have hm : mag u = mag v * 2 ^ t := by
      rw [num_sgn, num_sgn, sign_msb, sign_msb, hs] at hv
      have h := congrArg Int.natAbs hv
      have hn : ∀ n : Nat, (sgn v.msb n).natAbs = n := by intro n; unfold sgn; split <;> simp
      have hp : ∀ n : Nat, ((2 : Int) ^ n).natAbs = 2 ^ n := by intro n; rw [Int.natAbs_pow]; rfl
      simp only [Int.natAbs_mul, hn, hp, Int.natAbs_natCast, den] at h
      have e1 : mag u * 2 ^ (ulp u).toNat * 2 ^ (-(ulp v)).toNat = mag u * 2 ^ ((ulp u).toNat + (-(ulp v)).toNat) := by
        rw [Nat.pow_add, Nat.mul_assoc]
      have e2 : mag v * 2 ^ (ulp v).toNat * 2 ^ (-(ulp u)).toNat =
          mag v * 2 ^ t * 2 ^ ((ulp u).toNat + (-(ulp v)).toNat) := by
        rw [Nat.mul_assoc, Nat.mul_assoc, ← Nat.pow_add, ← Nat.pow_add]; congr 2; omega
      rw [e1, e2] at h
      exact Nat.eq_of_mul_eq_mul_right (Nat.two_pow_pos _) h
    have hmu : mag u = if expField u = 0 then sigField u else 2 ^ g.s + sigField u := rfl
    have hmv : mag v = if expField v = 0 then sigField v else 2 ^ g.s + sigField v := rfl
    have hlu : ulp u = ((if expField u = 0 then 1 else expField u : Nat) : Int) - (2 ^ (g.e - 1) - 1 : Nat) - g.s := rfl
    have hlv : ulp v = ((if expField v = 0 then 1 else expField v : Nat) : Int) - (2 ^ (g.e - 1) - 1 : Nat) - g.s := rfl
    have su := sig_lt u
    have sv := sig_lt v
    have fields : expField u = expField v ∧ sigField u = sigField v := by
      by_cases h0 : t = 0
      · subst h0
        rw [Nat.pow_zero, Nat.mul_one, hmu, hmv] at hm
        rw [hlu, hlv] at ht
        by_cases c1 : expField u = 0 <;> by_cases c2 : expField v = 0 <;>
          simp only [c1, c2, if_true, if_false] at hm ht <;> omega
      · exfalso
        have hv2 : expField v ≠ 0 := by
          intro hc
          rw [hlu, hlv, if_pos hc] at ht
          by_cases c1 : expField u = 0
          · rw [if_pos c1] at ht; omega
          · rw [if_neg c1] at ht; omega
        rw [if_neg hv2] at hmv
        have h1 : 2 ^ 1 ≤ 2 ^ t := Nat.pow_le_pow_right (by decide) (by omega)
        have h2 : 2 ^ g.s * 2 ^ 1 ≤ mag v * 2 ^ t := Nat.mul_le_mul (by omega) h1
        have h3 := mag_lt u
        rw [Nat.pow_succ] at h3
        omega
    rw [eq_mk u, eq_mk v, hs, show u.toNat / 2 ^ g.s % 2 ^ g.e = _ from fields.1,
      show u.toNat % 2 ^ g.s = _ from fields.2]
    rfl
  by_cases hle : ulp u ≤ ulp v
  · exact key u v h hle
  · exact (key v u ⟨h.1.symm, h.2.symm⟩ (by omega)).symm

theorem pack_fits (rm : Nat) (sign : Bool) (he hm : Nat) (h1 : he < 31) (h2 : hm < 1024) :
    packHalf rm sign he hm = mk half sign he hm := by
  unfold packHalf
  have h : ¬ he ≥ 2 ^ half.e - 1 := by show ¬ he ≥ 31; omega
  simp only [if_neg h]
  have := pack_or half sign.toNat he hm (show he < 32 by omega) h2
  unfold mk
  rw [← this]
  congr 1
  rw [Nat.or_comm, Nat.or_comm hm, Nat.or_assoc]

theorem pack_ovf (rm : Nat) (hrm : rm ≤ 3) (sign : Bool) (he hm : Nat) (h1 : 31 ≤ he) :
    packHalf rm sign he hm = overflow rm sign := by
  unfold packHalf
  have h : he ≥ 2 ^ half.e - 1 := h1
  simp only [if_pos h]
  have hr : rm = 0 ∨ rm = 1 ∨ rm = 2 ∨ rm = 3 := by omega
  rcases hr with e | e | e | e <;> subst e <;> cases sign <;> rfl

/-- `narrow` on finite, non-zero operands. -/
theorem narrow_finite (u : BitVec f.bits) (rm : Nat) (hsp : ¬ Special u) (hz : ¬ IsZero u) (he0 hm0 : Nat) (ch : Bool)
    (hmid : mid f rm (signBit u) (expField u) (sigField u) = (he0, hm0, ch)) :
    narrow f rm u = (packHalf rm (signBit u) he0 hm0, narrowFlags he0 (unbounded f (expField u))
      ((widen f (packHalf rm (signBit u) he0 hm0)).1 == u) ch) := by
  have hnan : isNaN u = false := by
    have : ¬ expField u = 2 ^ f.e - 1 := hsp
    unfold isNaN; simp [this]
  have hinf : isInf u = false := by
    have : ¬ expField u = 2 ^ f.e - 1 := hsp
    unfold isInf; simp [this]
  have hzz : ¬ (u.toNat = 0 ∨ u.toNat = 1 <<< (f.bits - 1)) := by
    intro hc
    obtain ⟨h1, h2⟩ := (zero_pat u).1 hc
    apply hz
    show (if expField u = 0 then sigField u else 2 ^ f.s + sigField u) = 0
    rw [if_pos (show expField u = 0 from h1)]; exact h2
  unfold narrow
  simp only [hnan, hinf, Bool.false_eq_true, if_false, if_neg hzz, hmid]

/-- The pattern made of the fields stands for the rounded value. -/
theorem mk_represents (sign : Bool) (he hm j : Nat) (k : Int) (N : Nat) (h1 : he < 31) (h2 : hm < 1024)
    (hN : (if he = 0 then hm else 1024 + hm) * 2 ^ j = N)
    (hk : ((if he = 0 then 1 else he : Nat) : Int) - 25 = k + j) :
    Represents (mk half sign he hm) (sgn sign N) k := by
  have hE : he < 2 ^ half.e := by show he < 32; omega
  have hF : hm < 2 ^ half.s := h2
  have hmag : mag (mk half sign he hm) * 2 ^ j = N := by rw [mag_mk half sign he hm hE hF]; exact hN
  have hulp : ulp (mk half sign he hm) = k + j := by
    rw [ulp_mk half sign he hm hE hF]; rw [← hk]; show _ - ((15 : Nat) : Int) - ((10 : Nat) : Int) = _; omega
  unfold Represents
  rw [num_sgn, sign_msb, mk_msb half sign he hm hE hF]
  unfold den
  rw [hulp, ← hmag]
  generalize mag (mk half sign he hm) = M
  have e1 : sgn sign (M * 2 ^ j) = sgn sign M * 2 ^ j := by unfold sgn; split <;> simp [Int.neg_mul]
  rw [e1]
  have e2 : ((2 ^ (-(k + (j : Int))).toNat : Nat) : Int) = 2 ^ (-(k + (j : Int))).toNat := by simp
  rw [e2, Int.mul_assoc, Int.mul_assoc, Int.mul_assoc, ← Int.pow_add, ← Int.pow_add, ← Int.pow_add]
  congr 2
  omega

theorem den_pos' {g : Fmt} (u : BitVec g.bits) : (den u : Int) ≠ 0 := by
  have : 0 < den u := Nat.two_pow_pos _
  omega

/-- With the result `h` standing for `z` quanta, it stands for the operand exactly if `z` is exact. -/
theorem exact_iff (u : BitVec f.bits) (h : BitVec half.bits) (z : Int) (hr : Represents h z (quantum u)) (hs : h.msb = u.msb) :
    SameValue h u ↔ z * unitsDen u (quantum u) = unitsNum u (quantum u) := by
  unfold SameValue unitsDen unitsNum
  unfold Represents at hr
  have d1 := den_pos' h
  have p1 : (2 : Int) ^ (-quantum u).toNat ≠ 0 := by
    have : (0 : Int) < 2 ^ (-quantum u).toNat := Int.pow_pos (by decide)
    omega
  rw [Int.natCast_mul, Int.natCast_pow]
  show _ ↔ z * ((den u : Int) * 2 ^ (quantum u).toNat) = _
  generalize (2 : Int) ^ (-quantum u).toNat = A at *
  generalize (2 : Int) ^ (quantum u).toNat = B at *
  constructor
  · rintro ⟨hv, _⟩
    apply Int.eq_of_mul_eq_mul_right d1
    calc z * ((den u : Int) * B) * den h = (z * B * den h) * den u := by grind
      _ = num h * A * den u := by rw [hr]
      _ = num h * den u * A := by grind
      _ = num u * den h * A := by rw [hv]
      _ = num u * A * den h := by grind
  · intro he
    refine ⟨?_, hs⟩
    apply Int.eq_of_mul_eq_mul_right p1
    calc num h * den u * A = (num h * A) * den u := by grind
      _ = z * B * den h * den u := by rw [hr]
      _ = z * (den u * B) * den h := by grind
      _ = num u * A * den h := by rw [he]
      _ = num u * den h * A := by grind

theorem same_trans {e g h : Fmt} (u : BitVec e.bits) (v : BitVec g.bits) (w : BitVec h.bits) (h1 : SameValue u v)
    (h2 : SameValue u w) : SameValue v w := by
  obtain ⟨a1, a2⟩ := h1
  obtain ⟨b1, b2⟩ := h2
  refine ⟨?_, a2.symm.trans b2⟩
  apply Int.eq_of_mul_eq_mul_right (den_pos' u)
  calc num v * den w * den u = (num v * den u) * den w := by grind
    _ = num u * den v * den w := by rw [a1]
    _ = (num u * den w) * den v := by grind
    _ = num w * den u * den v := by rw [b1]
    _ = num w * den v * den u := by grind

/-! ### C68 -/

/-- C68 (partial): a finite non-zero single or double operand is correctly rounded to half precision in each
of the four rounding modes the host supports, overflow included; infinities and zeros keep their sign and
NaNs become the canonical NaN.  Missing: round-to-nearest-ties-to-max, see the violation. -/
theorem C68_narrow_partial (ok : NarrowOk f) (rm : Nat) (hrm : rm ≤ 3) (u : BitVec f.bits) :
    (¬ Special u → ¬ IsZero u → Narrowed rm u (narrow f rm u).1)
    ∧ (IsZero u → ¬ Special u → SameValue u (narrow f rm u).1 ∧ (narrow f rm u).2 = 0)
    ∧ (Inf u → Inf (narrow f rm u).1 ∧ (narrow f rm u).1.msb = u.msb ∧ (narrow f rm u).2 = 0)
    ∧ (NaN u → (narrow f rm u).1 = canonicalNaN half ∧ (narrow f rm u).2 = if u.getLsbD (f.s - 1) then 0 else 16) := by
  refine ⟨fun hsp hz => ?_, fun hz hsp => ?_, fun hi => ?_, fun hn => ?_⟩
  · obtain ⟨N, he0, hm0, ch, j, hmid, hro, hm1, hN, hk, hf, -, -, -⟩ := core ok rm hrm u hsp hz
    rw [narrow_finite u rm hsp hz he0 hm0 ch hmid]
    refine ⟨sgn (signBit u) N, hro, fun hfit => ?_, fun hfit => ?_⟩
    · have hlt : he0 < 31 := by
        by_cases hc : he0 < 31
        · exact hc
        · exact absurd hfit (hf.1 (by omega))
      rw [pack_fits rm _ _ _ hlt hm1]
      have hE : he0 < 2 ^ half.e := by show he0 < 32; omega
      refine ⟨?_, ?_, mk_represents _ _ _ j _ N hlt hm1 hN hk⟩
      · rw [special_mk half _ _ _ hE hm1]; show ¬ he0 = 31; omega
      · rw [mk_msb half _ _ _ hE hm1, sign_msb]
    · rw [pack_ovf rm hrm _ _ _ (hf.2 hfit), sign_msb]
  · have hnan : isNaN u = false := by
      have : ¬ expField u = 2 ^ f.e - 1 := hsp
      unfold isNaN; simp [this]
    have hinf : isInf u = false := by
      have : ¬ expField u = 2 ^ f.e - 1 := hsp
      unfold isInf; simp [this]
    have hz' : expField u = 0 ∧ sigField u = 0 := by
      have : (if expField u = 0 then sigField u else 2 ^ f.s + sigField u) = 0 := hz
      by_cases hc : expField u = 0
      · rw [if_pos hc] at this; exact ⟨hc, this⟩
      · rw [if_neg hc] at this
        have : 0 < 2 ^ f.s := Nat.two_pow_pos _
        omega
    have hpat := (zero_pat u).2 hz'
    have hun : u.toNat = u.msb.toNat * 2 ^ (f.bits - 1) := by
      have := congrArg BitVec.toNat (eq_mk u)
      rw [show u.toNat / 2 ^ f.s % 2 ^ f.e = 0 from hz'.1, show u.toNat % 2 ^ f.s = 0 from hz'.2,
        mk_toNat _ _ _ _ (Nat.two_pow_pos _) (Nat.two_pow_pos _), ← Nat.pow_add] at this
      rw [this, show f.bits - 1 = f.e + f.s by show 1 + f.e + f.s - 1 = _; omega]; simp
    have hw : narrow f rm u = (mk half u.msb 0 0, 0) := by
      unfold narrow
      simp only [hnan, hinf, Bool.false_eq_true, if_false, if_pos hpat]
      unfold mk
      congr 2
      rw [Nat.shiftRight_eq_div_pow, hun]
      have hs := ok.s
      have hpw := bias_pow f ok.e
      have hb := ok.bias
      have h5 : 5 ≤ f.e := by
        by_cases hc : 5 ≤ f.e
        · exact hc
        · have : 2 ^ f.e ≤ 2 ^ 4 := Nat.pow_le_pow_right (by decide) (by omega)
          omega
      have e1 : 2 ^ (f.bits - 1) = 2 ^ 15 * 2 ^ (f.bits - half.bits) := by
        rw [← Nat.pow_add]; congr 1; show 1 + f.e + f.s - 1 = 15 + (1 + f.e + f.s - 16); omega
      rw [e1, ← Nat.mul_assoc, Nat.mul_div_cancel _ (Nat.two_pow_pos _)]
      simp [half]
    rw [hw]
    refine ⟨⟨?_, ?_⟩, rfl⟩
    · have h1 : mag u = 0 := hz
      have h2 : mag (mk half u.msb 0 0) = 0 := by rw [mag_mk half _ _ _ (by decide) (by decide)]; rfl
      unfold num; rw [h1, h2]; simp
    · rw [mk_msb half _ _ _ (by decide) (by decide)]
  · obtain ⟨h1, h2⟩ := hi
    have hnan : isNaN u = false := by
      have : sigField u = 0 := h2
      unfold isNaN; simp [this]
    have hinf : isInf u = true := by
      have e1 : expField u = 2 ^ f.e - 1 := h1
      have e2 : sigField u = 0 := h2
      unfold isInf; simp [e1, e2]
    have hw : narrow f rm u = (mk half u.msb (2 ^ half.e - 1) 0, 0) := by
      unfold narrow
      simp only [hnan, hinf, Bool.false_eq_true, if_false, if_true]
      unfold posInf
      rw [or_zero_sign half _ _ (by decide), sign_msb]
    rw [hw]
    refine ⟨⟨?_, ?_⟩, ?_, rfl⟩
    · rw [special_mk half _ _ _ (by decide) (by decide)]
    · exact mk_sig half _ _ _ (by decide) (by decide)
    · exact mk_msb half _ _ _ (by decide) (by decide)
  · obtain ⟨h1, h2⟩ := hn
    have hnan : isNaN u = true := by
      have e1 : expField u = 2 ^ f.e - 1 := h1
      have e2 : sigField u ≠ 0 := h2
      unfold isNaN; simp [e1, e2]
    unfold narrow
    simp only [hnan, if_true]
    refine ⟨trivial, ?_⟩
    unfold isSNaN
    rw [hnan]
    cases u.getLsbD (f.s - 1) <;> rfl

/-- C68: the flags of a narrowing conversion of a finite, non-zero operand.  Overflow and inexact are the
prescribed ones.  Underflow is raised exactly if the result is inexact and the operand is tiny *before*
rounding. -/
theorem C68_flags_partial (ok : NarrowOk f) (rm : Nat) (hrm : rm ≤ 3) (u : BitVec f.bits) (hsp : ¬ Special u) (hz : ¬ IsZero u) :
    (Overflows rm u → (narrow f rm u).2 = 5)
    ∧ (¬ Overflows rm u → ¬ Inexact rm u → (narrow f rm u).2 = 0)
    ∧ (¬ Overflows rm u → Inexact rm u → ¬ TinyBefore u → (narrow f rm u).2 = 1)
    ∧ (¬ Overflows rm u → Inexact rm u → TinyBefore u → (narrow f rm u).2 = 3) := by
  obtain ⟨N, he0, hm0, ch, j, hmid, hro, hm1, hN, hk, hf, htiny, hle, hgt⟩ := core ok rm hrm u hsp hz
  rw [narrow_finite u rm hsp hz he0 hm0 ch hmid]
  have hdp : 0 < unitsDen u (quantum u) := Nat.mul_pos (Nat.two_pow_pos _) (Nat.two_pow_pos _)
  have huniq : ∀ z, RoundedTo rm u z → z = sgn (signBit u) N := fun z hzr => C38_rounded_unique rm _ _ _ _ hdp hzr hro
  have hovf : Overflows rm u ↔ he0 ≥ 31 := by
    rw [hf]
    constructor
    · rintro ⟨z, h1, h2⟩; rw [huniq z h1] at h2; exact h2
    · intro h; exact ⟨_, hro, h⟩
  have hinx : Inexact rm u ↔ sgn (signBit u) N * unitsDen u (quantum u) ≠ unitsNum u (quantum u) := by
    constructor
    · rintro ⟨z, h1, h2⟩; rw [huniq z h1] at h2; exact h2
    · intro h; exact ⟨_, hro, h⟩
  have hexact : ¬ he0 ≥ 31 → (((widen f (packHalf rm (signBit u) he0 hm0)).1 == u) = true ↔ ¬ Inexact rm u) := by
    intro hlt
    have hlt : he0 < 31 := by omega
    have hE : he0 < 2 ^ half.e := by show he0 < 32; omega
    rw [pack_fits rm _ _ _ hlt hm1, hinx, Decidable.not_not]
    have hrep := mk_represents (signBit u) he0 hm0 j (quantum u) N hlt hm1 hN hk
    have hms : (mk half (signBit u) he0 hm0).msb = u.msb := by rw [mk_msb half _ _ _ hE hm1, sign_msb]
    rw [← exact_iff u _ _ hrep hms]
    have hfin : ¬ Special (mk half (signBit u) he0 hm0) := by
      rw [special_mk half _ _ _ hE hm1]; show ¬ he0 = 31; omega
    have hw : Wide f := ⟨ok.e, by have := ok.s; omega, by have := ok.bias; omega⟩
    obtain ⟨_, hsame, _⟩ := (C39_widen hw (mk half (signBit u) he0 hm0)).1 hfin
    rw [beq_iff_eq]
    constructor
    · intro h; rw [h] at hsame; exact hsame
    · intro h
      exact C39_pattern_unique _ _ (same_trans _ _ _ hsame h)
  have h31 : (he0 ≥ 2 ^ half.e - 1) = (he0 ≥ 31) := rfl
  unfold narrowFlags
  simp only [h31]
  rw [hovf]
  refine ⟨fun h => ?_, fun h hi => ?_, fun h hi ht => ?_, fun h hi ht => ?_⟩
  · have hpos : 0 < unbounded f (expField u) := by
      by_cases hc : 0 < unbounded f (expField u)
      · exact hc
      · have := (hle (by omega)).1; omega
    rw [if_pos h, if_neg (show ¬ ((!((widen f (packHalf rm (signBit u) he0 hm0)).1 == u)) = true ∧
      (unbounded f (expField u) < 0 ∨ unbounded f (expField u) = 0 ∧ ch = true)) by omega)]
    split <;> rfl
  · have he := (hexact h).2 hi
    rw [he, if_neg h]; simp
  · have he : ((widen f (packHalf rm (signBit u) he0 hm0)).1 == u) = false := by
      cases hb : ((widen f (packHalf rm (signBit u) he0 hm0)).1 == u)
      · rfl
      · exact absurd hi ((hexact h).1 hb)
    have hpos : 0 < unbounded f (expField u) := by
      by_cases hc : 0 < unbounded f (expField u)
      · exact hc
      · exact absurd (htiny.1 (by omega)) ht
    have hch : ch = true := (hgt hpos).2 (hinx.1 hi)
    have hb : unbounded f (expField u) < 0 ∨ unbounded f (expField u) = 0 ↔ False := ⟨fun _ => by omega, False.elim⟩
    rw [he, hch, if_neg h]
    simp [hb, NX]
  · have he : ((widen f (packHalf rm (signBit u) he0 hm0)).1 == u) = false := by
      cases hb : ((widen f (packHalf rm (signBit u) he0 hm0)).1 == u)
      · rfl
      · exact absurd hi ((hexact h).1 hb)
    have hneg := htiny.2 ht
    have hch := (hle hneg).2
    have hb : unbounded f (expField u) < 0 ∨ unbounded f (expField u) = 0 := by omega
    rw [he, hch, if_neg h]
    simp [hb, NX, UF]

/-- C68 is violated: 2^-14 - 2^-27 rounds to the normal number 2^-14 whether or not the exponent range is
bounded, so it is not tiny after rounding and the ISA prescribes the inexact flag alone.  The conversion
raises underflow as well. -/
theorem C68_underflow_violated :
    ∃ u : BitVec single.bits, narrow single 0 u = (0x0400#16, 3) ∧ Inexact 0 u ∧ TinyBefore u ∧ ¬ TinyAfter 0 u := by
  refine ⟨0x387ff800#32, rfl, ⟨1024, ?_, by decide +kernel⟩, by unfold TinyBefore; decide +kernel, ?_⟩
  · show _ ∧ _; decide +kernel
  · rintro ⟨z, hz, hlt⟩
    have h : Rounded 0 (unitsNum (f := single) 0x387ff800#32 (-25)) (unitsDen (f := single) 0x387ff800#32 (-25)) 2048 := by
      show _ ∧ _; decide +kernel
    have := C38_rounded_unique 0 _ _ _ _ (by decide +kernel) hz h
    subst this
    revert hlt
    decide +kernel

/-- C68 is violated in round-to-nearest-ties-to-max-magnitude: 1 + 2^-11 must become 1 + 2^-10 but becomes 1. -/
theorem C68_rmm_violated :
    ∃ u : BitVec single.bits, (narrow single 4 u).1 = 0x3c00#16 ∧ ¬ Narrowed 4 u 0x3c00#16 ∧ Narrowed 4 u 0x3c01#16 := by
  have h : RoundedTo (f := single) 4 0x3f801000#32 1025 := by show _ ∧ _; decide +kernel
  refine ⟨0x3f801000#32, rfl, ?_, ⟨1025, h, fun _ => ⟨?_, by decide +kernel, ?_⟩, fun hn => ?_⟩⟩
  · rintro ⟨z, hz, hf, -⟩
    have := C38_rounded_unique 4 _ _ _ _ (by decide +kernel) hz h
    subst this
    obtain ⟨-, -, hr⟩ := hf (by unfold Fits; decide +kernel)
    revert hr
    unfold Represents
    decide +kernel
  · unfold Special; decide +kernel
  · unfold Represents; decide +kernel
  · exact absurd (by unfold Fits; decide +kernel) hn

example := C68_narrow_partial narrow_single 0 (by decide) 0x40490fdb#32
example := C68_narrow_partial narrow_double 2 (by decide) 0xc00921fb54442d18#64
example : ¬ Special (f := single) 0x40490fdb#32 ∧ ¬ IsZero (f := single) 0x40490fdb#32 := by unfold Special IsZero; decide +kernel
example : narrow single 0 0x40490fdb#32 = (0x4248#16, 1) := rfl
/-- Overflow in each direction, and a subnormal result. -/
example : narrow single 0 0x477ff000#32 = (0x7c00#16, 5) ∧ narrow single 1 0x477ff000#32 = (0x7bff#16, 1) := ⟨rfl, rfl⟩
example : narrow double 3 0xc0f0000000000000#64 = (0xfbff#16, 5) := rfl
example : narrow double 3 0x3e00000000000000#64 = (0x0001#16, 3) := rfl
example := C68_flags_partial narrow_double 3 (by decide) 0x3e00000000000000#64 (by unfold Special; decide +kernel) (by unfold IsZero; decide +kernel)
example := C39_pattern_unique (g := half) 0x3c00#16 0x3c00#16 ⟨rfl, rfl⟩

/-! Sanity checks: 65519.0 and 65520.0, 2^-14 - 2^-27. -/
example : narrow single 0 0x477fef00#32 = (0x7bff#16, 1) ∧ narrow single 0 0x477ff000#32 = (0x7c00#16, 5) := ⟨rfl, rfl⟩
example : narrow double 3 0x3f00000000000001#64 = (0x0201#16, 3) := rfl

end Verif.HalfFp
