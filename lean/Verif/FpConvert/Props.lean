import Verif.FpConvert.Model
import Verif.FpConvert.Spec
/-
C38: float to integer conversion.
-/
namespace Verif.FpConvert
open Verif.Fp

/-! ### The left-shift loop -/

theorem shiftLoop_eq (k : Nat) : ∀ m, m < 2 ^ 64 →
    shiftLoop k m = if m * 2 ^ k < 2 ^ 64 then some (m * 2 ^ k) else none := by
  induction k with
  | zero => intro m h; simp [shiftLoop, h]
  | succ k ih =>
    intro m h
    show (if m > (m <<< 1) % 2 ^ 64 then none else shiftLoop k ((m <<< 1) % 2 ^ 64)) = _
    rw [Nat.shiftLeft_eq]
    have e2 : m * 2 ^ (k + 1) = (m * 2 ^ 1) * 2 ^ k := by rw [Nat.pow_succ]; grind
    by_cases hb : m * 2 ^ 1 < 2 ^ 64
    · rw [Nat.mod_eq_of_lt hb, if_neg (by omega), ih _ hb, e2]
    · rw [if_pos (by omega)]
      have : 2 ^ 64 ≤ m * 2 ^ (k + 1) := by
        rw [e2]
        exact Nat.le_trans (by omega) (Nat.le_mul_of_pos_right _ (Nat.two_pow_pos k))
      rw [if_neg (by omega)]

/-! ### Range check -/

theorem u64_neg (uv : Nat) (h0 : 0 < uv) (h : uv < 2 ^ 64) : u64 (-(uv : Int)) = 2 ^ 64 - uv := by
  unfold u64; omega

/-- The signed value represented by sign and magnitude. -/
def sgn (sign : Bool) (n : Nat) : Int := if sign then -(n : Int) else n

theorem finish_eq (t : To) (ht : t.bits = 32 ∨ t.bits = 64) (sign : Bool) (uv : Nat) (h : uv < 2 ^ 64) (fl : Nat) :
    (t.kMax < sgn sign uv → finish t sign uv fl = .done t.kMax NV)
    ∧ (sgn sign uv < t.kMin → finish t sign uv fl = .done t.kMin NV)
    ∧ (t.kMin ≤ sgn sign uv → sgn sign uv ≤ t.kMax →
        finish t sign uv fl = if t.signed ∧ sgn sign uv = t.kMin then .ub else .done (sgn sign uv) fl) := by
  obtain ⟨b, s⟩ := t
  simp only at ht
  have bm32 : ∀ n : Nat, n < 2 ^ 31 → (n : Int).bmod (2 ^ 32) = n := fun n hn =>
    Int.bmod_eq_of_le (by omega) (by omega)
  have bm64 : ∀ n : Nat, n < 2 ^ 63 → (n : Int).bmod (2 ^ 64) = n := fun n hn =>
    Int.bmod_eq_of_le (by omega) (by omega)
  have cneg := u64_neg uv
  rcases ht with hb | hb <;> subst hb <;> cases s <;> cases sign <;>
    simp only [sgn, To.kMax, To.kMin, finish, To.wrap, if_true, if_false, Bool.false_eq_true, not_true, not_false_eq_true,
      false_and, true_and] at *
  -- uint32
  · refine ⟨fun h1 => ?_, fun h1 => ?_, fun h1 h2 => ?_⟩
    · rw [if_pos (by unfold u64; omega)]
    · omega
    · rw [if_neg (by unfold u64; omega), Int.emod_eq_of_lt (by omega) (by omega)]
  · refine ⟨fun h1 => ?_, fun h1 => ?_, fun h1 h2 => ?_⟩
    · omega
    · by_cases hm : uv > u64 (2 ^ 32 - 1)
      · rw [if_pos hm]
      · rw [if_neg hm, if_pos (by omega)]
    · have : uv = 0 := by omega
      subst this
      rw [if_neg (by unfold u64; omega), if_neg (by decide)]; rfl
  -- int32
  · refine ⟨fun h1 => ?_, fun h1 => ?_, fun h1 h2 => ?_⟩
    · rw [if_pos (by unfold u64; omega)]
    · omega
    · rw [if_neg (by unfold u64; omega), bm32 uv (by omega), if_neg (by omega)]
  · refine ⟨fun h1 => ?_, fun h1 => ?_, fun h1 h2 => ?_⟩
    · omega
    · rw [if_pos ⟨by omega, by rw [cneg (by omega) h]; unfold u64; omega⟩]
    · rw [if_neg (by
        rintro ⟨h3, h4⟩
        rw [cneg h3 h] at h4; unfold u64 at h4; omega)]
      by_cases he : uv = 2147483648
      · subst he
        rw [if_pos (by decide), if_pos (by decide)]
      · rw [bm32 uv (by omega), if_neg (by omega), if_neg (by omega)]
  -- uint64
  · refine ⟨fun h1 => ?_, fun h1 => ?_, fun h1 h2 => ?_⟩
    · rw [if_pos (by unfold u64; omega)]
    · omega
    · rw [if_neg (by unfold u64; omega), Int.emod_eq_of_lt (by omega) (by omega)]
  · refine ⟨fun h1 => ?_, fun h1 => ?_, fun h1 h2 => ?_⟩
    · omega
    · by_cases hm : uv > u64 (2 ^ 64 - 1)
      · rw [if_pos hm]
      · rw [if_neg hm, if_pos (by omega)]
    · have : uv = 0 := by omega
      subst this
      rw [if_neg (by unfold u64; omega), if_neg (by decide)]; rfl
  -- int64
  · refine ⟨fun h1 => ?_, fun h1 => ?_, fun h1 h2 => ?_⟩
    · rw [if_pos (by unfold u64; omega)]
    · omega
    · rw [if_neg (by unfold u64; omega), bm64 uv (by omega), if_neg (by omega)]
  · refine ⟨fun h1 => ?_, fun h1 => ?_, fun h1 h2 => ?_⟩
    · omega
    · rw [if_pos ⟨by omega, by rw [cneg (by omega) h]; unfold u64; omega⟩]
    · rw [if_neg (by
        rintro ⟨h3, h4⟩
        rw [cneg h3 h] at h4; unfold u64 at h4; omega)]
      by_cases he : uv = 9223372036854775808
      · subst he
        rw [if_pos (by decide), if_pos (by decide)]
      · rw [bm64 uv (by omega), if_neg (by omega), if_neg (by omega)]

/-! ### Rounding -/

open Spec

/-- `Rounded` with the products named. -/
theorem rounded_lin (rm : Nat) (n z Z : Int) (d : Nat) (hZ : z * d = Z) :
    Rounded rm n d z ↔ (match rm with
      | 0 => 2 * (n - Z).natAbs ≤ d ∧ (2 * (n - Z).natAbs = d → z % 2 = 0)
      | 1 => (0 ≤ n → Z ≤ n ∧ n < Z + d) ∧ (n < 0 → Z - d < n ∧ n ≤ Z)
      | 2 => Z ≤ n ∧ n < Z + d
      | 3 => Z - d < n ∧ n ≤ Z
      | 4 => 2 * (n - Z).natAbs ≤ d ∧ (2 * (n - Z).natAbs = d → n.natAbs < Z.natAbs)
      | _ => False) := by
  have h1 : (z + 1) * d = Z + d := by rw [Int.add_mul, hZ, Int.one_mul]
  have h2 : (z - 1) * d = Z - d := by rw [Int.sub_mul, hZ, Int.one_mul]
  unfold Rounded
  rw [hZ, h1, h2]
  exact Iff.rfl

theorem and1 (b : Nat) : b &&& 1 = b % 2 := Nat.and_one_is_mod b
theorem and3 (b : Nat) : b &&& 3 = b % 4 := Nat.and_two_pow_sub_one_eq_mod b 2

/-- The rounding step is correct: from floor(2x) and the sticky bit it produces x rounded, and the right
flags unless the mode is RMM and x is half way. -/
theorem round_ok (rm : Nat) (hrm : rm ≤ 4) (sign : Bool) (m D : Nat) (hD : 0 < D) (st : Bool)
    (hst : st = true ↔ m % D ≠ 0) (fl : Nat) (hfl : fl = 0 ∨ (fl = 1 ∧ st = true)) :
    ∃ b' fl', roundBase rm sign (m / D) st fl = some (b', fl')
      ∧ Rounded rm (sgn sign m) (2 * D) (sgn sign (b' >>> 1))
      ∧ (m % (2 * D) = 0 → (if b' &&& 1 ≠ 0 ∨ st then NX else fl') = 0)
      ∧ (m % (2 * D) ≠ 0 → ¬ (rm = 4 ∧ m % (2 * D) = D) → (if b' &&& 1 ≠ 0 ∨ st then NX else fl') = 1)
      ∧ (rm = 4 → m % (2 * D) = D → (if b' &&& 1 ≠ 0 ∨ st then NX else fl') = 0)
      ∧ b' ≤ m / D + 2 := by
  have hr : m % D < D := Nat.mod_lt _ hD
  have hdiv := Nat.div_add_mod m D
  have hb2 := Nat.div_add_mod (m / D) 2
  have hh : m / D % 2 < 2 := Nat.mod_lt _ (by decide)
  obtain ⟨b, hb⟩ : ∃ b, b = m / D := ⟨_, rfl⟩
  obtain ⟨q, hq⟩ : ∃ q, q = b / 2 := ⟨_, rfl⟩
  obtain ⟨r, hr'⟩ : ∃ r, r = m % D := ⟨_, rfl⟩
  obtain ⟨h, hh'⟩ : ∃ h, h = b % 2 := ⟨_, rfl⟩
  rw [← hb] at hb2 hh hdiv
  rw [← hb]
  rw [← hr'] at hst hr hdiv
  rw [← hq, ← hh'] at hb2
  rw [← hh'] at hh
  have hP : D * b = 2 * (D * q) + D * h := by rw [← hb2]; grind
  obtain ⟨P, hPd⟩ : ∃ P, P = D * q := ⟨_, rfl⟩
  rw [← hPd] at hP
  have hmod : m % (2 * D) = D * h + r := by
    have e : m = (D * h + r) + q * (2 * D) := by rw [← hdiv, hP, hPd]; grind
    rw [e, Nat.add_mul_mod_self_right]
    apply Nat.mod_eq_of_lt
    have : h = 0 ∨ h = 1 := by omega
    rcases this with h0 | h0 <;> subst h0 <;> omega
  rw [hmod]
  have hq2 : ∀ n, n = q → (sgn sign n) * (2 * D : Nat) = sgn sign (2 * P) := by
    intro n hn; subst hn; unfold sgn; rw [hPd]; cases sign <;> simp <;> grind
  have hq3 : ∀ n, n = q + 1 → (sgn sign n) * (2 * D : Nat) = sgn sign (2 * P + 2 * D) := by
    intro n hn; subst hn; unfold sgn; rw [hPd]; cases sign <;> simp <;> grind
  have hm : m = 2 * P + D * h + r := by omega
  have par : ∀ x : Nat, (sgn sign x) % 2 = 0 ↔ x % 2 = 0 := by
    intro x; unfold sgn; cases sign <;> simp <;> omega
  clear hdiv hP hPd hmod hr'
  subst hm
  have h01 : h = 0 ∨ h = 1 := by omega
  have hrm' : rm = 0 ∨ rm = 1 ∨ rm = 2 ∨ rm = 3 ∨ rm = 4 := by omega
  have sh : ∀ x : Nat, x >>> 1 = x / 2 := fun x => Nat.shiftRight_eq_div_pow x 1
  rcases h01 with e | e <;> subst e
  · rw [Nat.mul_zero, Nat.add_zero, Nat.zero_add] at *
    have b1 : b &&& 1 = 0 := by rw [and1]; omega
    cases st with
    | false =>
      have hr0 : r = 0 := by
        by_cases hc : r = 0
        · exact hc
        · exact absurd (hst.2 hc) (by decide)
      subst hr0
      have hf0 : fl = 0 := by simpa using hfl
      subst hf0
      refine ⟨b, 0, ?_, ?_, ?_, ?_, ?_, by omega⟩
      · rcases hrm' with e | e | e | e | e <;> subst e <;> simp [roundBase, b1]
      · rw [sh, rounded_lin _ _ _ _ _ (hq2 _ (by omega))]
        rcases hrm' with e | e | e | e | e <;> subst e <;> unfold sgn <;> cases sign <;>
          simp only [if_true, if_false, Bool.false_eq_true] <;> omega
      · intro _; simp [b1]
      · intro hc; omega
      · intro _ hc; omega
    | true =>
      have hr0 : 0 < r := by have := hst.1 rfl; omega
      obtain ⟨b', fl', hrb, hbq⟩ : ∃ b' fl', roundBase rm sign b true fl = some (b', fl') ∧
          (((rm = 2 ∧ sign = true) ∨ (rm = 3 ∧ sign = false)) ∧ b' = b + 2 ∨
           ¬ ((rm = 2 ∧ sign = true) ∨ (rm = 3 ∧ sign = false)) ∧ (b' = b ∨ b' = b + 1)) := by
        rcases hrm' with e | e | e | e | e <;> subst e <;> cases sign <;> simp [roundBase, b1]
      refine ⟨b', fl', hrb, ?_, ?_, ?_, ?_, by omega⟩
      · rw [sh]
        rcases hbq with ⟨hc, hb'⟩ | ⟨hc, hb'⟩
        · rw [rounded_lin _ _ _ _ _ (hq3 _ (by omega))]
          rcases hc with ⟨e1, e2⟩ | ⟨e1, e2⟩ <;> subst e1 <;> subst e2 <;> unfold sgn <;>
            simp only [if_true, if_false, Bool.false_eq_true] <;> omega
        · rw [rounded_lin _ _ _ _ _ (hq2 _ (by omega))]
          rcases hrm' with e | e | e | e | e <;> subst e <;> unfold sgn <;> cases sign <;>
            simp only [if_true, if_false, Bool.false_eq_true] <;> (try omega) <;> (exfalso; revert hc; decide)
      · intro hc; omega
      · intro _ _; simp [NX]
      · intro _ hc; omega
  · rw [Nat.mul_one] at *
    have b1 : b &&& 1 = 1 := by rw [and1]; omega
    cases st with
    | false =>
      have hr0 : r = 0 := by
        by_cases hc : r = 0
        · exact hc
        · exact absurd (hst.2 hc) (by decide)
      subst hr0
      have hf0 : fl = 0 := by simpa using hfl
      subst hf0
      -- the half-way case
      rcases hrm' with e | e | e | e | e
      · subst e
        by_cases h3 : b % 4 = 3
        · refine ⟨b + 1, 1, by simp [roundBase, b1, and3, h3, NX], ?_, fun hc => by omega, ?_,
            fun hc => by omega, by omega⟩
          · rw [sh, rounded_lin _ _ _ _ _ (hq3 _ (by omega))]
            have := par ((b + 1) / 2)
            refine ⟨?_, fun _ => this.2 (by omega)⟩
            unfold sgn; cases sign <;> simp only [if_true, if_false, Bool.false_eq_true] <;> omega
          · intro _ _; rw [and1]; split <;> rfl
        · refine ⟨b, 0, by simp [roundBase, b1, and3, h3], ?_, fun hc => by omega, ?_,
            fun hc => by omega, by omega⟩
          · rw [sh, rounded_lin _ _ _ _ _ (hq2 _ (by omega))]
            have := par (b / 2)
            refine ⟨?_, fun _ => this.2 (by omega)⟩
            unfold sgn; cases sign <;> simp only [if_true, if_false, Bool.false_eq_true] <;> omega
          · intro _ _; rw [b1]; rfl
      · subst e
        refine ⟨b, 0, by simp [roundBase], ?_, fun hc => by omega, ?_, fun hc => by omega, by omega⟩
        · rw [sh, rounded_lin _ _ _ _ _ (hq2 _ (by omega))]
          unfold sgn; cases sign <;> simp only [if_true, if_false, Bool.false_eq_true] <;> omega
        · intro _ _; rw [b1]; rfl
      · subst e
        cases sign with
        | true =>
          refine ⟨b + 2, 0, by simp [roundBase, b1], ?_, fun hc => by omega, ?_,
            fun hc => by omega, by omega⟩
          · rw [sh, rounded_lin _ _ _ _ _ (hq3 _ (by omega))]
            unfold sgn; simp only [if_true]; omega
          · intro _ _; rw [if_pos (by rw [and1]; omega)]; rfl
        | false =>
          refine ⟨b, 0, by simp [roundBase], ?_, fun hc => by omega, ?_, fun hc => by omega, by omega⟩
          · rw [sh, rounded_lin _ _ _ _ _ (hq2 _ (by omega))]
            unfold sgn; simp only [if_false, Bool.false_eq_true]; omega
          · intro _ _; rw [b1]; rfl
      · subst e
        cases sign with
        | false =>
          refine ⟨b + 2, 0, by simp [roundBase, b1], ?_, fun hc => by omega, ?_,
            fun hc => by omega, by omega⟩
          · rw [sh, rounded_lin _ _ _ _ _ (hq3 _ (by omega))]
            unfold sgn; simp only [if_false, Bool.false_eq_true]; omega
          · intro _ _; rw [if_pos (by rw [and1]; omega)]; rfl
        | true =>
          refine ⟨b, 0, by simp [roundBase], ?_, fun hc => by omega, ?_, fun hc => by omega, by omega⟩
          · rw [sh, rounded_lin _ _ _ _ _ (hq2 _ (by omega))]
            unfold sgn; simp only [if_true]; omega
          · intro _ _; rw [b1]; rfl
      · subst e
        refine ⟨b + 1, 0, by simp [roundBase, b1], ?_, fun hc => by omega, ?_, ?_, by omega⟩
        · rw [sh, rounded_lin _ _ _ _ _ (hq3 _ (by omega))]
          unfold sgn; cases sign <;> simp only [if_true, if_false, Bool.false_eq_true] <;> omega
        · intro _ hc; exact absurd ⟨rfl, by omega⟩ hc
        · intro _ _; rw [if_neg (by rw [and1]; simp; omega)]
    | true =>
      have hr0 : 0 < r := by have := hst.1 rfl; omega
      obtain ⟨b', fl', hrb, hbq⟩ : ∃ b' fl', roundBase rm sign b true fl = some (b', fl') ∧
          ((rm = 0 ∨ rm = 4 ∨ (rm = 2 ∧ sign = true) ∨ (rm = 3 ∧ sign = false)) ∧ (b' = b + 2 ∨ b' = b + 1) ∨
           (rm = 1 ∨ (rm = 2 ∧ sign = false) ∨ (rm = 3 ∧ sign = true)) ∧ b' = b) := by
        rcases hrm' with e | e | e | e | e <;> subst e <;> cases sign <;> simp [roundBase, b1]
      refine ⟨b', fl', hrb, ?_, fun hc => by omega, fun _ _ => by simp [NX], fun _ hc => by omega,
        by omega⟩
      rw [sh]
      rcases hbq with ⟨hc, hb'⟩ | ⟨hc, hb'⟩
      · rw [rounded_lin _ _ _ _ _ (hq3 _ (by omega))]
        rcases hc with e1 | e1 | ⟨e1, e2⟩ | ⟨e1, e2⟩ <;> subst e1 <;> (try subst e2) <;> unfold sgn <;>
          (try cases sign) <;> simp only [if_true, if_false, Bool.false_eq_true] <;> omega
      · rw [rounded_lin _ _ _ _ _ (hq2 _ (by omega))]
        rcases hc with e1 | ⟨e1, e2⟩ | ⟨e1, e2⟩ <;> subst e1 <;> (try subst e2) <;> unfold sgn <;>
          (try cases sign) <;> simp only [if_true, if_false, Bool.false_eq_true] <;> omega


/-- Rounding to an integer has at most one result. -/
theorem C38_rounded_unique (rm : Nat) (n z z' : Int) (d : Nat) (hd : 0 < d) (h : Rounded rm n d z)
    (h' : Rounded rm n d z') : z = z' := by
  have key : ∀ a b : Int, Rounded rm n d a → Rounded rm n d b → ¬ a < b := by
    intro a b ha hb hlt
    rw [rounded_lin rm n a (a * d) d rfl] at ha
    have p1 : 0 ≤ a → 0 ≤ a * (d : Int) := fun h => Int.mul_nonneg h (by omega)
    have p2 : a < 0 → a * (d : Int) ≤ -1 * d := fun h => Int.mul_le_mul_of_nonneg_right (by omega) (by omega)
    by_cases h2 : b = a + 1
    · subst h2
      rw [rounded_lin rm n _ (a * d + d) d (by rw [Int.add_mul, Int.one_mul])] at hb
      rcases rm with _ | _ | _ | _ | _ | rm <;> simp only at ha hb <;> omega
    · have : (a + 2) * (d : Int) ≤ b * d := Int.mul_le_mul_of_nonneg_right (by omega) (by omega)
      rw [Int.add_mul] at this
      rw [rounded_lin rm n b (b * d) d rfl] at hb
      generalize a * (d : Int) = A at *
      generalize b * (d : Int) = B at *
      rcases rm with _ | _ | _ | _ | _ | rm <;> simp only at ha hb <;> omega
  have := key _ _ h h'
  have := key _ _ h' h
  omega

/-- An integer rounds to itself. -/
theorem rounded_exact (rm : Nat) (hrm : rm ≤ 4) (z : Int) (d : Nat) (hd : 0 < d) : Rounded rm (z * d) d z := by
  rw [rounded_lin rm _ z (z * d) d rfl]
  generalize z * (d : Int) = A
  rcases rm with _ | _ | _ | _ | _ | rm <;> simp only <;> omega

/-! ### Splitting the operand -/

/-- What the argument needs of a format. -/
structure Ok (f : Fmt) : Prop where
  e : 1 ≤ f.e
  s : 1 ≤ f.s ∧ f.s ≤ 62
  bias : 2 ≤ f.bias

theorem ok_half : Ok half := ⟨by decide, by decide, by decide⟩
theorem ok_single : Ok single := ⟨by decide, by decide, by decide⟩
theorem ok_double : Ok double := ⟨by decide, by decide, by decide⟩

variable {f : Fmt}

theorem sign_msb (u : BitVec f.bits) : signBit u = u.msb := by
  unfold signBit; rw [BitVec.msb_eq_getLsbD_last]

theorem sig_lt (u : BitVec f.bits) : sigField u < 2 ^ f.s := Nat.mod_lt _ (Nat.two_pow_pos _)

theorem base_eq (u : BitVec f.bits) : sigField u ||| 1 <<< f.s = 2 ^ f.s + sigField u := by
  have := Nat.shiftLeft_add_eq_or_of_lt (sig_lt u) 1
  rw [Nat.shiftLeft_eq, Nat.one_mul] at *
  rw [Nat.or_comm, ← this]

theorem mag_lt (u : BitVec f.bits) : mag u < 2 ^ (f.s + 1) := by
  have := sig_lt u
  unfold sigField at this
  unfold mag
  simp only []
  rw [Nat.pow_succ]
  split <;> omega

/-- There is a fraction part to look at. -/
theorem split_frac (ok : Ok f) (u : BitVec f.bits) (hz : ¬ (expField u = 0 ∧ sigField u = 0)) (hr : 0 ≤ rightShift f u) :
    ∃ d : Nat, 1 ≤ d ∧ ulp u = -(d : Int) ∧ ∃ st fl, compress f u = (mag u / 2 ^ (d - 1), st, fl)
      ∧ (st = true ↔ mag u % 2 ^ (d - 1) ≠ 0) ∧ (fl = 0 ∨ (fl = 1 ∧ st = true)) := by
  have hs := sig_lt u
  obtain ⟨he1, ⟨hs1, hs2⟩, hb2⟩ := ok
  have hmlt := mag_lt u
  by_cases he : expField u = 0
  · have hm : mag u = sigField u := by
      show (if expField u = 0 then sigField u else 2 ^ f.s + sigField u) = _; rw [if_pos he]
    have hn0 : sigField u ≠ 0 := fun hc => hz ⟨he, hc⟩
    have hu : ulp u = -((f.bias + f.s - 1 : Nat) : Int) := by
      have : ulp u = ((if expField u = 0 then 1 else expField u : Nat) : Int) - f.bias - f.s := rfl
      rw [this, if_pos he]; omega
    have hlt : sigField u < 2 ^ (f.bias + f.s - 1 - 1) :=
      Nat.lt_of_lt_of_le hs (Nat.pow_le_pow_right (by decide) (by omega))
    refine ⟨f.bias + f.s - 1, by omega, hu, true, 1, ?_, ?_, Or.inr ⟨rfl, rfl⟩⟩
    · unfold compress
      simp only [if_pos he]
      rw [hm, Nat.div_eq_of_lt hlt]
      simp [hn0, NX]
    · rw [hm, Nat.mod_eq_of_lt hlt]; simp [hn0]
  · have hm : mag u = 2 ^ f.s + sigField u := by
      show (if expField u = 0 then sigField u else 2 ^ f.s + sigField u) = _; rw [if_neg he]
    have hu : ulp u = (expField u : Int) - f.bias - f.s := by
      have : ulp u = ((if expField u = 0 then 1 else expField u : Nat) : Int) - f.bias - f.s := rfl
      rw [this, if_neg he]
    have hrs : rightShift f u = (f.s : Int) - 1 - ((expField u : Int) - f.bias) := by
      unfold rightShift; rw [if_pos he]
    have hpos : 0 < 2 ^ f.s := Nat.two_pow_pos _
    have hbits : f.bits = 1 + f.e + f.s := rfl
    refine ⟨(rightShift f u).toNat + 1, by omega, by omega, ?_⟩
    unfold compress
    simp only [if_neg he]
    rw [base_eq, ← hm, Nat.add_sub_cancel]
    generalize rightShift f u = rs at *
    by_cases h1 : rs > (f.bits : Int) - 1
    · rw [if_pos h1]
      have hlt : mag u < 2 ^ rs.toNat := Nat.lt_of_lt_of_le hmlt (Nat.pow_le_pow_right (by decide) (by omega))
      refine ⟨true, 1, ?_, ?_, Or.inr ⟨rfl, rfl⟩⟩
      · rw [Nat.div_eq_of_lt hlt]
        have : mag u ≠ 0 := by omega
        simp [this, NX]
      · rw [Nat.mod_eq_of_lt hlt]; simp; omega
    · rw [if_neg h1]
      by_cases h2 : rs > 0
      · rw [if_pos h2]
        have hmin : min rs.toNat f.bits = rs.toNat := by omega
        rw [hmin]
        refine ⟨mag u &&& (1 <<< rs.toNat - 1) != 0, 0, ?_, ?_, Or.inl rfl⟩
        · rw [Nat.shiftRight_eq_div_pow]
        · rw [Nat.shiftLeft_eq, Nat.one_mul, Nat.and_two_pow_sub_one_eq_mod]; simp
      · rw [if_neg h2]
        have : rs = 0 := by omega
        subst this
        exact ⟨false, 0, by simp, by simp [Nat.mod_one], Or.inl rfl⟩

/-- The operand is an integer. -/
theorem split_int (u : BitVec f.bits) (hr : rightShift f u < 0) :
    ∃ k : Nat, ulp u = k ∧ (-rightShift f u - 1).toNat = k ∧ compress f u = (mag u, false, 0) := by
  have he : expField u ≠ 0 := by
    intro hc
    unfold rightShift at hr; rw [if_neg (by simpa using hc)] at hr; omega
  have hm : mag u = 2 ^ f.s + sigField u := by
    show (if expField u = 0 then sigField u else 2 ^ f.s + sigField u) = _; rw [if_neg he]
  have hu : ulp u = (expField u : Int) - f.bias - f.s := by
    have : ulp u = ((if expField u = 0 then 1 else expField u : Nat) : Int) - f.bias - f.s := rfl
    rw [this, if_neg he]
  have hrs : rightShift f u = (f.s : Int) - 1 - ((expField u : Int) - f.bias) := by
    unfold rightShift; rw [if_pos he]
  refine ⟨(ulp u).toNat, by omega, by omega, ?_⟩
  unfold compress
  simp only [if_neg he]
  rw [base_eq, ← hm, if_neg (by omega), if_neg (by omega)]

theorem sgn_eq (u : BitVec f.bits) (k : Nat) (hk : (ulp u).toNat = k) : num u = sgn (signBit u) (mag u * 2 ^ k) := by
  unfold num sgn
  simp only []
  rw [hk, sign_msb]
  split <;> simp

/-- The whole finite, non-zero case. -/
theorem finite_ok (ok : Ok f) (t : To) (ht : t.bits = 32 ∨ t.bits = 64) (rm : Nat) (hrm : rm ≤ 4) (u : BitVec f.bits)
    (hz : ¬ (expField u = 0 ∧ sigField u = 0)) :
    ∃ z fl, Rounded rm (num u) (den u) z
      ∧ (z * den u = num u → fl = 0)
      ∧ (z * den u ≠ num u → ¬ (rm = 4 ∧ Tie u) → fl = 1)
      ∧ (rm = 4 → Tie u → fl = 0)
      ∧ (t.kMax < z → convertFinite f t rm u = .done t.kMax NV)
      ∧ (z < t.kMin → convertFinite f t rm u =
          if t.signed ∧ t.bits = 64 ∧ num u ≤ -2 ^ 64 * den u then .ub else .done t.kMin NV)
      ∧ (t.kMin ≤ z → z ≤ t.kMax → convertFinite f t rm u = if t.signed ∧ z = t.kMin then .ub else .done z fl) := by
  have hmlt := mag_lt u
  by_cases hr : 0 ≤ rightShift f u
  · obtain ⟨d, hd, hul, st, fl, hc, hst, hfl⟩ := split_frac ok u hz hr
    have hden : den u = 2 * 2 ^ (d - 1) := by
      unfold den; rw [hul]
      rw [show (-(-(d : Int))).toNat = (d - 1) + 1 by omega, Nat.pow_succ, Nat.mul_comm]
    have hnum : num u = sgn (signBit u) (mag u) := by
      rw [sgn_eq u 0 (by omega)]; simp
    have hD : 0 < 2 ^ (d - 1) := Nat.two_pow_pos _
    obtain ⟨b', fl', hrb, hro, h0, h1, h4, hle⟩ :=
      round_ok rm hrm (signBit u) (mag u) _ hD st hst fl hfl
    have hconv : convertFinite f t rm u =
        finish t (signBit u) (b' >>> 1) (if b' &&& 1 ≠ 0 ∨ st = true then NX else fl') := by
      unfold convertFinite
      rw [hc]
      simp only []
      rw [if_pos hr, hrb]
    have hs62 := ok.s.2
    have hmag : mag u < 2 ^ 63 := Nat.lt_of_lt_of_le hmlt (Nat.pow_le_pow_right (by decide) (by omega))
    have hb' : b' >>> 1 < 2 ^ 64 := by
      rw [Nat.shiftRight_eq_div_pow]
      have : mag u / 2 ^ (d - 1) ≤ mag u := Nat.div_le_self _ _
      omega
    obtain ⟨f1, f2, f3⟩ := finish_eq t ht (signBit u) _ hb' (if b' &&& 1 ≠ 0 ∨ st = true then NX else fl')
    refine ⟨sgn (signBit u) (b' >>> 1), if b' &&& 1 ≠ 0 ∨ st = true then NX else fl', ?_, ?_, ?_, ?_, ?_, ?_, ?_⟩
    · rw [hnum, hden]; exact hro
    · intro he
      apply h0
      rw [hnum, hden] at he
      have : mag u = (b' >>> 1) * (2 * 2 ^ (d - 1)) := by
        have h := congrArg Int.natAbs he
        unfold sgn at h
        cases hsb : signBit u <;> rw [hsb] at h <;> simp only [if_true, if_false, Bool.false_eq_true, Int.natAbs_mul,
          Int.natAbs_neg, Int.natAbs_natCast] at h <;> exact h.symm
      rw [this, Nat.mul_mod_left]
    · intro he ht4
      apply h1
      · intro hm0
        apply he
        obtain ⟨q, hq⟩ : ∃ q, mag u = q * (2 * 2 ^ (d - 1)) :=
          ⟨mag u / (2 * 2 ^ (d - 1)), (Nat.div_mul_cancel (Nat.dvd_of_mod_eq_zero hm0)).symm⟩
        have hn : num u = sgn (signBit u) q * (den u : Nat) := by
          rw [hnum, hden, hq]; unfold sgn; split <;> simp [Int.neg_mul]
        have hx := rounded_exact rm hrm (sgn (signBit u) q) (den u) (by omega)
        rw [← hn, hnum, hden] at hx
        have := C38_rounded_unique rm _ _ _ _ (by omega) hro hx
        rw [hn, this]
      · rintro ⟨e4, hm⟩
        apply ht4
        refine ⟨e4, ?_⟩
        have hdm := Nat.div_add_mod (mag u) (2 * 2 ^ (d - 1))
        rw [hm] at hdm
        generalize mag u / (2 * 2 ^ (d - 1)) = q at hdm
        unfold Tie
        rw [hnum, hden, ← hdm]
        unfold sgn
        cases signBit u
        · exact ⟨q, by simp; grind⟩
        · exact ⟨-(q + 1), by simp; grind⟩
    · intro e4 ⟨k, hk⟩
      apply h4 e4
      rw [hnum, hden] at hk
      have h := congrArg Int.natAbs hk
      have hn : (sgn (signBit u) (mag u)).natAbs = mag u := by unfold sgn; split <;> simp
      rw [Int.natAbs_mul, Int.natAbs_mul, hn, Int.natAbs_natCast] at h
      obtain ⟨q, hq⟩ : ∃ q : Nat, (2 * k + 1).natAbs = 2 * q + 1 := ⟨(2 * k + 1).natAbs / 2, by omega⟩
      rw [hq] at h
      have hm : mag u = 2 ^ (d - 1) + q * (2 * 2 ^ (d - 1)) := by
        have : (2 : Int).natAbs = 2 := rfl
        rw [this] at h; grind
      rw [hm, Nat.add_mul_mod_self_right, Nat.mod_eq_of_lt (by omega)]
    · intro h; rw [hconv]; exact f1 h
    · intro h
      rw [hconv, f2 h, if_neg]
      rintro ⟨_, _, hx⟩
      rw [hnum, hden] at hx
      have h1 : (2 : Int) ^ 64 * 1 ≤ 2 ^ 64 * ((2 * 2 ^ (d - 1) : Nat) : Int) :=
        Int.mul_le_mul_of_nonneg_left (by omega) (by decide)
      rw [Int.neg_mul] at hx
      have : -(mag u : Int) ≤ sgn (signBit u) (mag u) := by unfold sgn; split <;> omega
      omega
    · intro h h'
      rw [hconv]; exact f3 h h'
  · obtain ⟨k, hul, hk, hc⟩ := split_int u (by omega)
    have hden : den u = 1 := by
      unfold den; rw [hul, show (-(k : Int)).toNat = 0 by omega]
    have hnum := sgn_eq u k (by omega)
    have hro : Rounded rm (num u) (den u) (num u) := by
      have := rounded_exact rm hrm (num u) (den u) (by omega)
      rw [hden] at this
      rw [hden]; simpa using this
    have hmag : mag u < 2 ^ 64 := by
      have := ok.s.2
      exact Nat.lt_of_lt_of_le hmlt (Nat.pow_le_pow_right (by decide) (by omega))
    have hconv : convertFinite f t rm u = (match shiftLoop k (mag u) with
        | some v => finish t (signBit u) v 0
        | none => finish t (signBit u) (u64 (if signBit u then t.kMin else t.kMax)) NV) := by
      unfold convertFinite
      rw [hc]
      simp only []
      rw [if_neg (by omega), hk]
      cases shiftLoop k (mag u) <;> rfl
    rw [shiftLoop_eq k _ hmag] at hconv
    have hnt : ¬ Tie u := by
      rintro ⟨j, hj⟩
      rw [hden] at hj
      have : (2 * j + 1) * ((1 : Nat) : Int) = 2 * j + 1 := by simp
      omega
    refine ⟨num u, 0, hro, fun _ => rfl, fun h => absurd (by rw [hden]; simp) h, fun _ h => absurd h hnt, ?_⟩
    rw [hden]
    have hmul : (-2 ^ 64 * ((1 : Nat) : Int)) = -2 ^ 64 := by decide
    rw [hmul]
    by_cases hlt : mag u * 2 ^ k < 2 ^ 64
    · rw [if_pos hlt] at hconv
      obtain ⟨f1, f2, f3⟩ := finish_eq t ht (signBit u) _ hlt 0
      rw [hconv, hnum]
      refine ⟨f1, fun h => ?_, f3⟩
      show finish t (signBit u) (mag u * 2 ^ k) 0 = _
      rw [f2 h, if_neg]
      rintro ⟨_, _, hx⟩
      unfold sgn at hx
      split at hx <;> omega
    · rw [if_neg hlt] at hconv
      simp only [] at hconv
      rw [hconv, hnum]
      clear hconv hnum hro hnt
      generalize mag u * 2 ^ k = N at *
      obtain ⟨b, s⟩ := t
      simp only at ht
      rcases ht with hb | hb <;> subst hb <;> cases s <;> cases signBit u <;>
        simp only [sgn, To.kMax, To.kMin, finish, if_true, if_false, Bool.false_eq_true, true_and, false_and, NV]
      all_goals refine ⟨fun h => ?_, fun h => ?_, fun h h' => ?_⟩
      all_goals first
        | (exfalso; omega)
        | decide
        | (rw [if_pos (show -(N : Int) ≤ -2 ^ 64 by omega)]; decide)
        | (rw [if_neg (show ¬ ((32 : Nat) = 64 ∧ -(N : Int) ≤ -2 ^ 64) by omega)]; decide)


/-! ### The properties -/

theorem exp_le (u : BitVec f.bits) : expField u ≤ 2 ^ f.e - 1 := by
  have := Nat.mod_lt (u.toNat / 2 ^ f.s) (Nat.two_pow_pos f.e)
  unfold expField; omega

theorem special_iff (u : BitVec f.bits) : Special u ↔ expField u = 2 ^ f.e - 1 := Iff.rfl

theorem posInf_iff (u : BitVec f.bits) : u = posInf f ↔ (Special u ∧ sigField u = 0 ∧ u.msb = false) := by
  have hb : f.bits = 1 + f.e + f.s := rfl
  have hp : 2 ^ f.bits = 2 * (2 ^ f.e * 2 ^ f.s) := by rw [hb, Nat.pow_add, Nat.pow_add, Nat.mul_assoc]
  have h1 : 0 < 2 ^ f.s := Nat.two_pow_pos _
  have h2 : 0 < 2 ^ f.e := Nat.two_pow_pos _
  have hlt : (2 ^ f.e - 1) * 2 ^ f.s < 2 ^ f.e * 2 ^ f.s := Nat.mul_lt_mul_of_pos_right (by omega) h1
  have hn : (posInf f).toNat = (2 ^ f.e - 1) * 2 ^ f.s := by
    unfold posInf; rw [BitVec.toNat_ofNat, Nat.mod_eq_of_lt (by omega)]
  have hmsb : u.msb = false ↔ u.toNat < 2 ^ f.e * 2 ^ f.s := by
    rw [BitVec.msb_eq_decide]
    have : f.bits - 1 = f.e + f.s := by omega
    rw [this, Nat.pow_add]; simp
  constructor
  · intro h
    rw [hmsb, h, hn]
    refine ⟨?_, ?_, hlt⟩
    · show (posInf f).toNat / 2 ^ f.s % 2 ^ f.e = _
      rw [hn, Nat.mul_div_cancel _ h1, Nat.mod_eq_of_lt (by omega)]
    · show (posInf f).toNat % 2 ^ f.s = 0
      rw [hn, Nat.mul_mod_left]
  · rintro ⟨h3, h4, h5⟩
    rw [hmsb] at h5
    apply BitVec.eq_of_toNat_eq
    rw [hn]
    unfold Special at h3
    unfold sigField at h4
    have hq : u.toNat / 2 ^ f.s < 2 ^ f.e := (Nat.div_lt_iff_lt_mul h1).2 h5
    rw [Nat.mod_eq_of_lt hq] at h3
    have := Nat.div_add_mod u.toNat (2 ^ f.s)
    rw [h3, h4, Nat.mul_comm] at this
    omega

/-- The three outcomes of `convert`, in terms of the specification. -/
theorem convert_cases (t : To) (rm : Nat) (u : BitVec f.bits) :
    (NegInf u → convert f t rm u = .done t.kMin NV)
    ∧ (Special u → ¬ NegInf u → convert f t rm u = .done t.kMax NV)
    ∧ (¬ Special u → expField u = 0 ∧ sigField u = 0 → convert f t rm u = .done 0 0)
    ∧ (¬ Special u → ¬ (expField u = 0 ∧ sigField u = 0) → convert f t rm u = convertFinite f t rm u) := by
  have hpi := posInf_iff u
  have hnan : isNaN u = true ↔ Special u ∧ sigField u ≠ 0 := by
    unfold isNaN; rw [special_iff]; simp
  have hinf : isInf u = true ↔ Special u ∧ sigField u = 0 := by
    unfold isInf; rw [special_iff]; simp
  have hni : NegInf u ↔ Special u ∧ sigField u = 0 ∧ u.msb = true := Iff.rfl
  unfold convert
  rw [sign_msb]
  refine ⟨fun h => ?_, fun h h' => ?_, fun h h' => ?_, fun h h' => ?_⟩
  · rw [hni] at h
    rw [if_neg, if_pos ⟨hinf.2 ⟨h.1, h.2.1⟩, h.2.2⟩]
    rintro (hc | hc)
    · exact (hnan.1 hc).2 h.2.1
    · have := (hpi.1 hc).2.2; rw [h.2.2] at this; cases this
  · rw [hni] at h'
    rw [if_pos]
    by_cases hs : sigField u = 0
    · right; rw [hpi]; refine ⟨h, hs, ?_⟩
      cases hm : u.msb
      · rfl
      · exact absurd ⟨h, hs, hm⟩ h'
    · left; exact hnan.2 ⟨h, hs⟩
  · rw [if_neg, if_neg, if_pos h']
    · rintro ⟨hc, _⟩; exact h (hinf.1 hc).1
    · rintro (hc | hc)
      · exact h (hnan.1 hc).1
      · exact h (hpi.1 hc).1
  · rw [if_neg, if_neg, if_neg h']
    · rintro ⟨hc, _⟩; exact h (hinf.1 hc).1
    · rintro (hc | hc)
      · exact h (hnan.1 hc).1
      · exact h (hpi.1 hc).1

theorem kMin_eq (t : To) : t.kMin = lo t.bits t.signed := rfl
theorem kMax_eq (t : To) : t.kMax = hi t.bits t.signed := rfl

theorem lo_hi (t : To) : t.kMin ≤ 0 ∧ 0 ≤ t.kMax := by
  have h1 : (0 : Int) < 2 ^ (t.bits - 1) := Int.pow_pos (by decide)
  have h2 : (0 : Int) < 2 ^ t.bits := Int.pow_pos (by decide)
  unfold To.kMin To.kMax
  constructor <;> split <;> omega

theorem zero_num (u : BitVec f.bits) (h : expField u = 0 ∧ sigField u = 0) : num u = 0 := by
  have : mag u = 0 := by
    show (if expField u = 0 then sigField u else 2 ^ f.s + sigField u) = _; rw [if_pos h.1]; exact h.2
  unfold num; rw [this]; simp

theorem zero_rounded (rm : Nat) (hrm : rm ≤ 4) (d : Nat) (hd : 0 < d) : Rounded rm 0 d 0 := by
  have := rounded_exact rm hrm 0 d hd
  simpa using this

theorem den_pos (u : BitVec f.bits) : 0 < den u := Nat.two_pow_pos _

/-- C38 (partial): whenever a conversion with a valid rounding mode completes without undefined behaviour,
the value is the operand rounded to an integer in that mode and clamped to the destination type (NaN as the
maximum), and the flags are the prescribed ones except for ties in the mode round-to-nearest-ties-to-max.
Any format, all operands, four integer types, five rounding modes.  Missing: those flags, and the cases of
undefined behaviour; see the violations below. -/
theorem C38_convert_partial (ok : Ok f) (t : To) (ht : t.bits = 32 ∨ t.bits = 64) (rm : Nat) (hrm : rm ≤ 4)
    (u : BitVec f.bits) (v : Int) (fl : Nat) (h : convert f t rm u = .done v fl) :
    Value t.bits t.signed rm u v ∧ (¬ (rm = 4 ∧ Tie u) → Flags t.bits t.signed rm u fl) := by
  obtain ⟨c1, c2, c3, c4⟩ := convert_cases t rm u
  have hlh := lo_hi t
  unfold Value Flags
  rw [← kMin_eq, ← kMax_eq]
  by_cases hsp : Special u
  · by_cases hni : NegInf u
    · rw [c1 hni] at h; cases h
      exact ⟨⟨fun _ => rfl, fun _ hc => absurd hni hc, fun hc => absurd hsp hc⟩, fun _ => ⟨fun _ => rfl, fun hc => absurd hsp hc⟩⟩
    · rw [c2 hsp hni] at h; cases h
      exact ⟨⟨fun hc => absurd hc hni, fun _ _ => rfl, fun hc => absurd hsp hc⟩, fun _ => ⟨fun _ => rfl, fun hc => absurd hsp hc⟩⟩
  · have hni : ¬ NegInf u := fun hc => hsp hc.1
    by_cases hz : expField u = 0 ∧ sigField u = 0
    · rw [c3 hsp hz] at h; cases h
      have hr : Rounded rm (num u) (den u) 0 := by rw [zero_num u hz]; exact zero_rounded rm hrm _ (den_pos u)
      refine ⟨⟨fun hc => absurd hc hni, fun hc => absurd hc hsp, fun _ => ⟨0, hr, by omega⟩⟩,
        fun _ => ⟨fun hc => absurd hc hsp, fun _ => ⟨0, hr, fun hc => by omega, fun _ _ hc => ?_, fun _ _ _ => rfl⟩⟩⟩
      rw [zero_num u hz] at hc; simp at hc
    · rw [c4 hsp hz] at h
      obtain ⟨z, fl0, hr, h0, h1, h4, hgt, hlt, hin⟩ := finite_ok ok t ht rm hrm u hz
      have hcase : t.kMax < z ∧ v = t.kMax ∧ fl = 16 ∨ z < t.kMin ∧ v = t.kMin ∧ fl = 16
          ∨ t.kMin ≤ z ∧ z ≤ t.kMax ∧ v = z ∧ fl = fl0 := by
        by_cases g1 : t.kMax < z
        · rw [hgt g1] at h; cases h; exact Or.inl ⟨g1, rfl, rfl⟩
        · by_cases g2 : z < t.kMin
          · rw [hlt g2] at h
            split at h
            · cases h
            · cases h; exact Or.inr (Or.inl ⟨g2, rfl, rfl⟩)
          · rw [hin (by omega) (by omega)] at h
            split at h
            · cases h
            · cases h; exact Or.inr (Or.inr ⟨by omega, by omega, rfl, rfl⟩)
      refine ⟨⟨fun hc => absurd hc hni, fun hc => absurd hc hsp, fun _ => ⟨z, hr, ?_⟩⟩,
        fun hnt => ⟨fun hc => absurd hc hsp, fun _ => ⟨z, hr, fun hc => ?_, fun g1 g2 hc => ?_, fun g1 g2 hc => ?_⟩⟩⟩
      · rcases hcase with ⟨g, rfl, _⟩ | ⟨g, rfl, _⟩ | ⟨g, g', rfl, _⟩ <;> omega
      · rcases hcase with ⟨g, _, e⟩ | ⟨g, _, e⟩ | ⟨g, g', _, _⟩
        · exact e
        · exact e
        · omega
      · rcases hcase with ⟨g, _, _⟩ | ⟨g, _, _⟩ | ⟨g, g', _, e⟩
        · omega
        · omega
        · rw [e]; exact h1 hc hnt
      · rcases hcase with ⟨g, _, _⟩ | ⟨g, _, _⟩ | ⟨g, g', _, e⟩
        · omega
        · omega
        · rw [e]; exact h0 hc

/-- C38: with a valid rounding mode the instruction is never silently dropped, and it executes undefined
behaviour (overflow of a signed negation) exactly when the type is signed and either the rounded value is
its minimum or the type is int64 and the operand is at most -2^64. -/
theorem C38_ub_violated (ok : Ok f) (t : To) (ht : t.bits = 32 ∨ t.bits = 64) (rm : Nat) (hrm : rm ≤ 4)
    (u : BitVec f.bits) :
    convert f t rm u ≠ .ignored
    ∧ (convert f t rm u = .ub ↔ ¬ Special u ∧ t.signed = true
        ∧ (Rounded rm (num u) (den u) (-2 ^ (t.bits - 1)) ∨ (t.bits = 64 ∧ num u ≤ -2 ^ 64 * den u))) := by
  obtain ⟨c1, c2, c3, c4⟩ := convert_cases t rm u
  have hlh := lo_hi t
  have h63 : (0 : Int) < 2 ^ (t.bits - 1) := Int.pow_pos (by decide)
  by_cases hsp : Special u
  · by_cases hni : NegInf u
    · rw [c1 hni]; exact ⟨by simp, by simp [hsp]⟩
    · rw [c2 hsp hni]; exact ⟨by simp, by simp [hsp]⟩
  · by_cases hz : expField u = 0 ∧ sigField u = 0
    · rw [c3 hsp hz]
      refine ⟨by simp, by simp, ?_⟩
      rintro ⟨_, _, hc⟩
      rw [zero_num u hz] at hc
      rcases hc with hc | ⟨_, hc⟩
      · have := C38_rounded_unique rm 0 _ _ _ (den_pos u) hc (zero_rounded rm hrm _ (den_pos u))
        omega
      · have := den_pos u
        have h1 : (2 : Int) ^ 64 * 1 ≤ 2 ^ 64 * (den u : Int) := Int.mul_le_mul_of_nonneg_left (by omega) (by decide)
        rw [Int.neg_mul] at hc
        omega
    · rw [c4 hsp hz]
      obtain ⟨z, fl0, hr, h0, h1, h4, hgt, hlt, hin⟩ := finite_ok ok t ht rm hrm u hz
      have huniq : ∀ y, Rounded rm (num u) (den u) y → y = z := fun y hy =>
        C38_rounded_unique rm _ _ _ _ (den_pos u) hy hr
      have hsmin : t.signed = true → t.kMin = -2 ^ (t.bits - 1) := by
        intro hs; unfold To.kMin; rw [if_pos hs]
      -- a huge negative operand is below the range
      have hhuge : t.bits = 64 → num u ≤ -2 ^ 64 * den u → z < t.kMin := by
        intro hb hc
        have hm : -2 ^ 63 ≤ t.kMin := by
          unfold To.kMin; rw [hb]; split <;> decide
        by_cases hzz : z < t.kMin
        · exact hzz
        · exfalso
          have hp := den_pos u
          have hz1 : (-2 ^ 63 : Int) * den u ≤ z * den u := Int.mul_le_mul_of_nonneg_right (by omega) (by omega)
          rw [rounded_lin rm _ z (z * den u) _ rfl] at hr
          generalize z * (den u : Int) = Z at *
          generalize num u = n at *
          generalize den u = d at *
          rcases rm with _ | _ | _ | _ | _ | rm <;> simp only at hr <;> omega
      by_cases g1 : t.kMax < z
      · rw [hgt g1]
        refine ⟨by simp, by simp, ?_⟩
        rintro ⟨_, hs, hc | ⟨hb, hc⟩⟩
        · have := huniq _ hc; rw [← hsmin hs] at this; omega
        · have := hhuge hb hc; omega
      · by_cases g2 : z < t.kMin
        · rw [hlt g2]
          constructor
          · split <;> simp
          · constructor
            · intro hc
              split at hc
              · rename_i hx; exact ⟨hsp, hx.1, Or.inr hx.2⟩
              · cases hc
            · rintro ⟨_, hs, hc | hc⟩
              · have := huniq _ hc; rw [← hsmin hs] at this; omega
              · rw [if_pos ⟨hs, hc⟩]
        · rw [hin (by omega) (by omega)]
          constructor
          · split <;> simp
          · constructor
            · intro hc
              split at hc
              · rename_i hx
                exact ⟨hsp, hx.1, Or.inl (by rw [← hsmin hx.1, ← hx.2]; exact hr)⟩
              · cases hc
            · rintro ⟨_, hs, hc | ⟨hb, hc⟩⟩
              · have := huniq _ hc
                rw [if_pos ⟨hs, by rw [hsmin hs]; exact this.symm⟩]
              · have := hhuge hb hc; omega

/-- C38 is violated: a tie rounded in the mode round-to-nearest-ties-to-max never raises the inexact flag
(unless the result is out of range), although the result always differs from the operand. -/
theorem C38_rmm_violated (ok : Ok f) (t : To) (ht : t.bits = 32 ∨ t.bits = 64) (u : BitVec f.bits)
    (hsp : ¬ Special u) (htie : Tie u) (v : Int) (fl : Nat) (h : convert f t 4 u = .done v fl) :
    (fl = 0 ∨ fl = 16) ∧ (fl = 0 → v * den u ≠ num u ∧ Rounded 4 (num u) (den u) v) := by
  obtain ⟨c1, c2, c3, c4⟩ := convert_cases t 4 u
  have hz : ¬ (expField u = 0 ∧ sigField u = 0) := by
    intro hz
    obtain ⟨k, hk⟩ := htie
    rw [zero_num u hz] at hk
    have := den_pos u
    have hk' : (2 * k + 1) * (den u : Int) = 0 := by omega
    rcases Int.mul_eq_zero.1 hk' with h | h <;> omega
  rw [c4 hsp hz] at h
  obtain ⟨z, fl0, hr, h0, h1, h4, hgt, hlt, hin⟩ := finite_ok ok t ht 4 (by omega) u hz
  have hfl := h4 rfl htie
  subst hfl
  have hne : z * den u ≠ num u := by
    intro hc
    obtain ⟨k, hk⟩ := htie
    rw [← hc] at hk
    have hk' : (2 * z - (2 * k + 1)) * (den u : Int) = 0 := by rw [Int.sub_mul, ← hk]; grind
    have := den_pos u
    rcases Int.mul_eq_zero.1 hk' with h | h <;> omega
  by_cases g1 : t.kMax < z
  · rw [hgt g1] at h; cases h; exact ⟨Or.inr rfl, fun hc => by cases hc⟩
  · by_cases g2 : z < t.kMin
    · rw [hlt g2] at h
      split at h
      · cases h
      · cases h; exact ⟨Or.inr rfl, fun hc => by cases hc⟩
    · rw [hin (by omega) (by omega)] at h
      split at h
      · cases h
      · cases h; exact ⟨Or.inl rfl, fun _ => ⟨hne, hr⟩⟩

/-- C38: the register receives the low bits of the result, sign-extended from the width of the integer type
(also for unsigned types). -/
theorem C38_write_back (w : Nat) (t : To) (hw : t.bits ≤ w) (v : Int) :
    (writeBack w t v).toInt = v.bmod (2 ^ t.bits) := by
  unfold writeBack
  rw [BitVec.toInt_signExtend_of_le hw, BitVec.toInt_ofInt]

/-! Non-vacuity: concrete operands through each theorem. -/
-- 2.5f: ties to even gives 2 inexact, ties to max gives 3 without the inexact flag
example : convert single int32 0 0x40200000#32 = .done 2 1 ∧ convert single int32 4 0x40200000#32 = .done 3 0 := by
  constructor <;> rfl
-- -1.75 in double, rounded down, to int64; as uint32 it is out of range
example : convert double int64 2 0xbffc000000000000#64 = .done (-2) 1
    ∧ convert double uint32 1 0xbffc000000000000#64 = .done 0 16 := by constructor <;> rfl
-- -2^31 to int32 is undefined; -2^64 to int64 too
example : convert single int32 0 0xcf000000#32 = .ub ∧ convert single int64 0 0xdf800000#32 = .ub := by
  constructor <;> rfl
-- NaN, infinities
example : convert half uint64 3 0x7e01#16 = .done (2 ^ 64 - 1) 16 ∧ convert half int32 3 0xfc00#16 = .done (-2 ^ 31) 16 := by
  constructor <;> rfl
example : Tie (f := single) 0x40200000#32 ∧ ¬ Special (f := single) 0x40200000#32 := ⟨⟨2, by decide⟩, by unfold Special; decide⟩
example := C38_convert_partial ok_single int32 (Or.inl rfl) 0 (by decide) 0x40200000#32 2 1 rfl
example := C38_rmm_violated ok_single int32 (Or.inl rfl) 0x40200000#32 (by unfold Special; decide) ⟨2, by decide⟩ 3 0 rfl
example := C38_ub_violated ok_double int64 (Or.inr rfl) 0 (by decide) 0xc3f0000000000000#64

end Verif.FpConvert
