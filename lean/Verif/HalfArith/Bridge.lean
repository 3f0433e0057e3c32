import Verif.HalfArith.Cut
import Verif.HalfFp.Narrow

/-!
# Widening and narrowing in the vocabulary of patterns
-/

namespace Verif.HalfArith

open Verif.Fp Verif.FpHost.Spec Verif.FpFma.Spec Verif.FpFma
open Verif.VecWiden (val_natAbs val_neg_iff finite_lt floor_scale roundPat_scale)
open Verif.FpConvert.Spec (mag ulp num den Rounded Special)
open Verif.HalfFp (widen narrow)
open Verif.HalfFp.Spec (SameValue quantum unitsNum unitsDen Fits Represents RoundedTo Narrowed)

variable {f : Fmt}

/-- The rounding direction of a rounding mode (frm encoding) below 4. -/
def dirOf : Nat → Dir
  | 0 => .nearestEven
  | 1 => .towardZero
  | 2 => .down
  | _ => .up

/-! ### The two ways of writing a value -/

theorem exp_pat (u : BitVec f.bits) : u.toNat / 2 ^ f.s % 2 ^ f.e = pat u / 2 ^ f.s := by
  unfold pat
  rw [Nat.add_comm, Nat.pow_add, Nat.mod_mul_right_div_self]

theorem frac_pat (u : BitVec f.bits) : u.toNat % 2 ^ f.s = pat u % 2 ^ f.s := by
  unfold pat
  rw [Nat.add_comm, Nat.pow_add, Nat.mod_mul_right_mod]

theorem scaled_num (ok : Ok f) (u : BitVec f.bits) : scaled f (pat u) * den u = (num u).natAbs * unit f := by
  have hn : (num u).natAbs = mag u * 2 ^ (ulp u).toNat := by
    unfold num
    have e : ((mag u : Int) * 2 ^ (ulp u).toNat) = ((mag u * 2 ^ (ulp u).toNat : Nat) : Int) := by
      rw [Int.natCast_mul, Int.natCast_pow]; rfl
    dsimp only
    rw [e]
    split
    · rw [Int.natAbs_neg, Int.natAbs_natCast]
    · rw [Int.natAbs_natCast]
  obtain ⟨k, hk, hu⟩ : ∃ k : Nat, scaled f (pat u) = mag u * 2 ^ k ∧
      (k : Int) = ulp u + ((f.bias + f.s - 1 : Nat) : Int) := by
    unfold scaled mag ulp
    dsimp only
    rw [exp_pat, frac_pat]
    have hb : f.bias = 2 ^ (f.e - 1) - 1 := rfl
    have hs := ok.2
    have hP := Nat.two_pow_pos f.s
    by_cases h : pat u / 2 ^ f.s = 0
    · refine ⟨0, ?_, ?_⟩
      · rw [if_pos h, if_pos h, Nat.mod_eq_of_lt]
        · simp
        · exact (Nat.div_eq_zero_iff.mp h).resolve_left (by omega)
      · rw [if_pos h, hb]; omega
    · refine ⟨pat u / 2 ^ f.s - 1, ?_, ?_⟩
      · rw [if_neg h, if_neg h]
      · rw [if_neg h, hb]
        generalize pat u / 2 ^ f.s = x at *
        omega
  rw [hn, hk]
  unfold den unit
  rw [Nat.mul_assoc, Nat.mul_assoc, ← Nat.pow_add, ← Nat.pow_add]
  congr 2
  omega

theorem den_pos (u : BitVec f.bits) : 0 < den u := Nat.two_pow_pos _

theorem num_neg (u : BitVec f.bits) (h : num u ≠ 0) : decide (num u < 0) = u.msb := by
  unfold num at *
  have e : ((mag u : Int) * 2 ^ (ulp u).toNat) = ((mag u * 2 ^ (ulp u).toNat : Nat) : Int) := by
    rw [Int.natCast_mul, Int.natCast_pow]; rfl
  dsimp only at *
  rw [e] at h ⊢
  cases hm : u.msb
  · rw [hm] at h; simp only [Bool.false_eq_true, if_false] at h ⊢
    exact decide_eq_false (by omega)
  · rw [hm] at h; simp only [if_true] at h ⊢
    exact decide_eq_true (by omega)

theorem num_zero (ok : Ok f) (u : BitVec f.bits) : num u = 0 ↔ IsZero u := by
  have h := scaled_num ok u
  have d := den_pos u
  have p := Nat.two_pow_pos (f.bias + f.s - 1)
  unfold IsZero
  rw [← scaled_eq_zero (f := f)]
  constructor
  · intro q
    rw [q] at h
    simp only [Int.natAbs_zero, Nat.zero_mul] at h
    exact (Nat.mul_eq_zero.mp h).resolve_right (by omega)
  · intro q
    rw [q, Nat.zero_mul] at h
    have := (Nat.mul_eq_zero.mp h.symm).resolve_right (by unfold unit; omega)
    omega

theorem mag_zero (ok : Ok f) (u : BitVec f.bits) : mag u = 0 ↔ IsZero u := by
  rw [← num_zero ok]
  unfold num
  dsimp only
  have : (0 : Int) < 2 ^ (ulp u).toNat := Int.pow_pos (by decide)
  constructor
  · intro h; rw [h]; simp
  · intro h
    have h' : (mag u : Int) * 2 ^ (ulp u).toNat = 0 := by split at h <;> omega
    have := (Int.mul_eq_zero.mp h').resolve_right (by omega)
    omega

theorem special_iff (u : BitVec f.bits) : Special u ↔ infPat f ≤ pat u := by
  unfold Special
  rw [exp_pat]
  have h1 := pat_lt u
  rw [Nat.pow_add] at h1
  have hP := Nat.two_pow_pos f.s
  have hE := Nat.two_pow_pos f.e
  unfold infPat
  rw [← Nat.le_div_iff_mul_le hP]
  have : pat u / 2 ^ f.s < 2 ^ f.e := by rw [Nat.div_lt_iff_lt_mul hP]; exact h1
  omega

theorem inf_iff (u : BitVec f.bits) : HalfFp.Spec.Inf u ↔ Inf u := by
  unfold HalfFp.Spec.Inf Inf
  have h1 := pat_lt u
  have hP := Nat.two_pow_pos f.s
  have hE := Nat.two_pow_pos f.e
  have hd := Nat.div_add_mod (pat u) (2 ^ f.s)
  unfold Special
  rw [exp_pat, frac_pat]
  unfold infPat
  constructor
  · rintro ⟨a, b⟩; rw [a, b, Nat.add_zero, Nat.mul_comm] at hd; exact hd.symm
  · intro a
    rw [a, Nat.mul_div_cancel _ hP, Nat.mul_mod_left]; simp

theorem nan_iff (u : BitVec f.bits) : HalfFp.Spec.NaN u ↔ NaN u := by
  have h1 := inf_iff u
  have h2 := special_iff u
  unfold HalfFp.Spec.Inf at h1
  unfold HalfFp.Spec.NaN
  unfold Inf at h1
  unfold NaN
  rw [h2] at h1 ⊢
  constructor
  · rintro ⟨a, b⟩
    rcases Nat.lt_or_eq_of_le a with c | c
    · exact c
    · exact absurd (h1.mpr c.symm).2 b
  · intro a
    refine ⟨by omega, fun b => ?_⟩
    have := h1.mp ⟨by omega, b⟩
    omega

/-! ### Widening -/

/-- What widening keeps. -/
theorem widen_nan (u : BitVec half.bits) : NaN (widen single u).1 ↔ NaN u := by
  obtain ⟨h1, h2, h3⟩ := HalfFp.C39_widen HalfFp.wide_single u
  constructor
  · intro a
    apply Classical.byContradiction
    intro b
    by_cases c : Inf u
    · have := (inf_iff _).mp (h2 ((inf_iff _).mpr c)).1
      exact absurd a (inf_not_nan this)
    · have hs : ¬ Special u := by
        rw [special_iff]; have := finite_lt b c; omega
      have := (h1 hs).1
      rw [special_iff] at this
      unfold NaN at a; omega
  · intro a
    rw [(h3 ((nan_iff _).mpr a)).1]
    exact canonical_nan ok_single

theorem widen_inf (u : BitVec half.bits) : Inf (widen single u).1 ↔ Inf u := by
  obtain ⟨h1, h2, h3⟩ := HalfFp.C39_widen HalfFp.wide_single u
  constructor
  · intro a
    apply Classical.byContradiction
    intro b
    have c : ¬ NaN u := fun c => absurd ((widen_nan u).mpr c) (inf_not_nan a)
    have hs : ¬ Special u := by
      rw [special_iff]; have := finite_lt c b; omega
    have := (h1 hs).1
    rw [special_iff] at this
    unfold Inf at a; omega
  · intro a
    exact (inf_iff _).mp (h2 ((inf_iff _).mpr a)).1

theorem widen_msb (u : BitVec half.bits) (h : ¬ NaN u) : (widen single u).1.msb = u.msb := by
  obtain ⟨h1, h2, h3⟩ := HalfFp.C39_widen HalfFp.wide_single u
  by_cases c : Inf u
  · exact (h2 ((inf_iff _).mpr c)).2.1
  · have hs : ¬ Special u := by
      rw [special_iff]; have := finite_lt h c; omega
    exact (h1 hs).2.1.2.symm

theorem widen_val (u : BitVec half.bits) (h : ¬ NaN u) (hi : ¬ Inf u) :
    val (widen single u).1 = val u * K := by
  have hm := widen_msb u h
  obtain ⟨h1, -, -⟩ := HalfFp.C39_widen HalfFp.wide_single u
  have hs : ¬ Special u := by
    rw [special_iff]; have := finite_lt h hi; omega
  obtain ⟨-, ⟨e, -⟩, -⟩ := h1 hs
  have e' := congrArg Int.natAbs e
  rw [Int.natAbs_mul, Int.natAbs_mul, Int.natAbs_natCast, Int.natAbs_natCast] at e'
  have s1 := scaled_num ok_half u
  have s2 := scaled_num ok_single (widen single u).1
  rw [unit_half] at s1
  rw [unit_single] at s2
  have d1 := den_pos u
  have d2 := den_pos (widen single u).1
  have key : scaled single (pat (widen single u).1) = scaled half (pat u) * K := by
    generalize scaled single (pat (widen single u).1) = S at *
    generalize scaled half (pat u) = s at *
    generalize (num u).natAbs = n at *
    generalize (num (widen single u).1).natAbs = N at *
    generalize den u = a at *
    generalize den (widen single u).1 = A at *
    apply Nat.eq_of_mul_eq_mul_right (Nat.mul_pos d1 d2)
    calc S * (a * A) = (S * A) * a := by grind
      _ = (N * a) * (2 ^ 24 * K) := by rw [s2]; grind
      _ = (n * 2 ^ 24) * (A * K) := by rw [← e']; grind
      _ = s * K * (a * A) := by rw [← s1]; grind
  unfold val
  rw [hm, key, Int.natCast_mul]
  split
  · rw [Int.neg_mul]
  · rfl

theorem widen_zero (u : BitVec half.bits) (h : ¬ NaN u) (hi : ¬ Inf u) :
    IsZero (widen single u).1 ↔ IsZero u := by
  rw [← val_eq_zero, ← val_eq_zero, widen_val u h hi]
  have : (K : Int) ≠ 0 := by have := K_pos; omega
  rw [Int.mul_eq_zero]
  exact ⟨fun q => q.resolve_right this, Or.inl⟩

/-! ### Narrowing -/

theorem narrow_nan (rm : Nat) (hrm : rm ≤ 3) (u : BitVec single.bits) (h : NaN u) :
    (narrow single rm u).1 = canonicalNaN half :=
  ((HalfFp.C68_narrow_partial HalfFp.narrow_single rm hrm u).2.2.2 ((nan_iff _).mpr h)).1

theorem narrow_inf (rm : Nat) (hrm : rm ≤ 3) (u : BitVec single.bits) (h : Inf u) :
    Inf (narrow single rm u).1 ∧ (narrow single rm u).1.msb = u.msb := by
  have := (HalfFp.C68_narrow_partial HalfFp.narrow_single rm hrm u).2.2.1 ((inf_iff _).mpr h)
  exact ⟨(inf_iff _).mp this.1, this.2.1⟩

theorem narrow_zero (rm : Nat) (hrm : rm ≤ 3) (u : BitVec single.bits) (h : IsZero u) :
    IsZero (narrow single rm u).1 ∧ (narrow single rm u).1.msb = u.msb := by
  have hs : ¬ Special u := by
    rw [special_iff]; unfold IsZero at h; have := infPat_pos ok_single; omega
  obtain ⟨⟨e, hm⟩, -⟩ := (HalfFp.C68_narrow_partial HalfFp.narrow_single rm hrm u).2.1
    ((mag_zero ok_single u).mpr h) hs
  refine ⟨?_, hm.symm⟩
  rw [(num_zero ok_single u).mpr h, Int.zero_mul] at e
  have d : (den u : Int) ≠ 0 := by have := den_pos u; omega
  exact (num_zero ok_half _).mp ((Int.mul_eq_zero.mp e.symm).resolve_right d)

/-- Rounding a positive quotient. -/
theorem rounded_pos (rm a b N z0 : Nat) (hb : 0 < b) (ha : 0 < a) (h1 : z0 * b ≤ a)
    (h2 : a < (z0 + 1) * b) :
    (Rounded 0 a b N → (2 * a < (2 * z0 + 1) * b → N = z0) ∧ ((2 * z0 + 1) * b < 2 * a → N = z0 + 1) ∧
      (2 * a = (2 * z0 + 1) * b → N = if z0 % 2 = 0 then z0 else z0 + 1)) ∧
    (Rounded 2 a b N → N = z0) ∧
    (Rounded 3 a b N → (z0 * b = a → N = z0) ∧ (z0 * b ≠ a → N = z0 + 1)) := by
  have e1 : (z0 + 1) * b = z0 * b + b := by grind
  have e2 : (2 * z0 + 1) * b = 2 * (z0 * b) + b := by grind
  rw [e2]
  rw [e1] at h2
  have hZ : (N : Int) * b = ((N * b : Nat) : Int) := by rw [Int.natCast_mul]
  have d1 : ((N : Int) + 1) * b = ((N * b : Nat) : Int) + b := by rw [Int.add_mul, Int.one_mul, hZ]
  have d2 : ((N : Int) - 1) * b = ((N * b : Nat) : Int) - b := by rw [Int.sub_mul, Int.one_mul, hZ]
  simp only [Rounded, d1, d2, hZ]
  have cases : (N < z0 ∧ N * b + b ≤ z0 * b) ∨ (N = z0 ∧ N * b = z0 * b) ∨
      (N = z0 + 1 ∧ N * b = z0 * b + b) ∨ (z0 * b + b + b ≤ N * b) := by
    rcases Nat.lt_or_ge N z0 with q | q
    · left
      refine ⟨q, ?_⟩
      have := Nat.mul_le_mul_right b q
      rwa [Nat.succ_mul] at this
    · by_cases q1 : N = z0
      · right; left; exact ⟨q1, by rw [q1]⟩
      · by_cases q2 : N = z0 + 1
        · right; right; left; exact ⟨q2, by rw [q2, e1]⟩
        · right; right; right
          have := Nat.mul_le_mul_right b (show z0 + 2 ≤ N by omega)
          have e : (z0 + 2) * b = z0 * b + b + b := by grind
          omega
  generalize N * b = B at *
  generalize z0 * b = Y at *
  rcases cases with ⟨c, d⟩ | ⟨c, d⟩ | ⟨c, d⟩ | c <;>
    refine ⟨fun h => ⟨fun q => ?_, fun q => ?_, fun q => ?_⟩, fun h => ?_, fun h => ⟨fun q => ?_, fun q => ?_⟩⟩ <;>
    (try split) <;> omega

/-- A positive quotient is not rounded to a negative integer. -/
theorem rounded_sign (rm a b : Nat) (hrm : rm ≤ 3) (hb : 0 < b) (ha : 0 < a) (z : Int)
    (h : Rounded rm a b z) : z = (z.natAbs : Nat) := by
  apply Classical.byContradiction
  intro hc
  have hz : z ≤ -1 := by omega
  have hZ : z * b ≤ -1 * (b : Int) := Int.mul_le_mul_of_nonneg_right hz (by omega)
  have d1 : (z + 1) * b = z * b + b := by rw [Int.add_mul, Int.one_mul]
  have d2 : (z - 1) * b = z * b - b := by rw [Int.sub_mul, Int.one_mul]
  have hr : rm = 0 ∨ rm = 1 ∨ rm = 2 ∨ rm = 3 := by omega
  rcases hr with e | e | e | e <;> subst e <;> simp only [Rounded, d1, d2] at h <;>
    generalize z * (b : Int) = Z at * <;> omega

/-- Negating the quotient: the modes change as directions do. -/
theorem rounded_neg (rm a b : Nat) (hrm : rm ≤ 3) (z : Int) (h : Rounded rm (-(a : Int)) b z) (ha : 0 < a) :
    Rounded (if rm = 2 then 3 else if rm = 3 then 2 else rm) a b (-z) := by
  have d0 : -z * (b : Int) = -(z * b) := Int.neg_mul _ _
  have d1 : (z + 1) * b = z * b + b := by rw [Int.add_mul, Int.one_mul]
  have d2 : (z - 1) * b = z * b - b := by rw [Int.sub_mul, Int.one_mul]
  have d3 : (-z + 1) * b = -(z * b) + b := by rw [Int.add_mul, Int.one_mul, Int.neg_mul]
  have d4 : (-z - 1) * b = -(z * b) - b := by rw [Int.sub_mul, Int.one_mul, Int.neg_mul]
  have hr : rm = 0 ∨ rm = 1 ∨ rm = 2 ∨ rm = 3 := by omega
  rcases hr with e | e | e | e <;> subst e <;> simp [Rounded, d0, d1, d2, d3, d4] at h ⊢ <;>
    generalize z * (b : Int) = Z at * <;> omega

/-- Which magnitude a signed quotient is rounded to. -/
def Whole (o : Mode) (a b z0 N : Nat) : Prop :=
  match o with
  | .down => N = z0
  | .up => (z0 * b = a → N = z0) ∧ (z0 * b ≠ a → N = z0 + 1)
  | .nearestEven => (2 * a < (2 * z0 + 1) * b → N = z0) ∧ ((2 * z0 + 1) * b < 2 * a → N = z0 + 1) ∧
      (2 * a = (2 * z0 + 1) * b → N = if z0 % 2 = 0 then z0 else z0 + 1)
  | .nearestAway => False

theorem rounded_abs (rm : Nat) (hrm : rm ≤ 3) (n : Int) (b : Nat) (z : Int) (hb : 0 < b) (hn : n ≠ 0)
    (h : Rounded rm n b z) (z0 : Nat) (h1 : z0 * b ≤ n.natAbs) (h2 : n.natAbs < (z0 + 1) * b) :
    Whole (mode (dirOf rm) (decide (n < 0))) n.natAbs b z0 z.natAbs := by
  have hr : rm = 0 ∨ rm = 1 ∨ rm = 2 ∨ rm = 3 := by omega
  have one : ∀ a N : Nat, 0 < a → Rounded 1 a b N → Rounded 2 a b N := by
    intro a N ha q
    exact q.1 (by omega)
  by_cases hs : n < 0
  · have e : n = -(n.natAbs : Int) := by omega
    rw [e] at h
    have ha : 0 < n.natAbs := by omega
    have g := rounded_neg rm _ b hrm z h ha
    have hz := rounded_sign _ _ b (by split; omega; split <;> omega) hb ha (-z) g
    rw [hz] at g
    rw [Int.natAbs_neg] at g
    obtain ⟨r0, r2, r3⟩ := rounded_pos rm n.natAbs b z.natAbs z0 hb ha h1 h2
    rw [decide_eq_true hs]
    rcases hr with e | e | e | e <;> subst e
    · exact r0 g
    · exact r2 (one _ _ ha g)
    · exact r3 g
    · exact r2 g
  · have e : n = (n.natAbs : Int) := by omega
    rw [e] at h
    have ha : 0 < n.natAbs := by omega
    have hz := rounded_sign rm _ b hrm hb ha z h
    rw [hz] at h
    obtain ⟨r0, r2, r3⟩ := rounded_pos rm n.natAbs b z.natAbs z0 hb ha h1 h2
    rw [decide_eq_false hs]
    rcases hr with e | e | e | e <;> subst e
    · exact r0 h
    · exact r2 (one _ _ ha h)
    · exact r2 h
    · exact r3 h

theorem fits_iff (z q : Int) (hq : -24 ≤ q) : Fits z q ↔ z.natAbs * 2 ^ (q + 24).toNat < 2 ^ 40 := by
  unfold Fits
  have h1 : z.natAbs * 2 ^ q.toNat * 2 ^ 24 = z.natAbs * 2 ^ (q + 24).toNat * 2 ^ (-q).toNat := by
    rw [Nat.mul_assoc, Nat.mul_assoc, ← Nat.pow_add, ← Nat.pow_add]
    congr 2; omega
  rw [← Nat.mul_lt_mul_right (a := 2 ^ 24) (by decide), h1, Nat.mul_right_comm (2 ^ 16),
    show 2 ^ 16 * 2 ^ 24 = 2 ^ 40 from rfl, Nat.mul_lt_mul_right (Nat.two_pow_pos _)]

theorem represents_pat (h : BitVec half.bits) (z q : Int) (hq : -24 ≤ q) (hr : Represents h z q) :
    scaled half (pat h) = z.natAbs * 2 ^ (q + 24).toNat := by
  unfold Represents at hr
  have e := congrArg Int.natAbs hr
  have p1 : ∀ k : Nat, ((2 : Int) ^ k).natAbs = 2 ^ k := fun k => by
    have : (2 : Int) ^ k = ((2 ^ k : Nat) : Int) := by rw [Int.natCast_pow]; rfl
    rw [this, Int.natAbs_natCast]
  rw [Int.natAbs_mul, Int.natAbs_mul, Int.natAbs_mul, p1, p1, Int.natAbs_natCast] at e
  have s1 := scaled_num ok_half h
  rw [unit_half] at s1
  have d1 := den_pos h
  have h1 : z.natAbs * 2 ^ q.toNat * 2 ^ 24 = z.natAbs * 2 ^ (q + 24).toNat * 2 ^ (-q).toNat := by
    rw [Nat.mul_assoc, Nat.mul_assoc, ← Nat.pow_add, ← Nat.pow_add]
    congr 2; omega
  have d2 : 0 < 2 ^ (-q).toNat := Nat.two_pow_pos _
  generalize scaled half (pat h) = s at *
  generalize den h = d at *
  generalize (num h).natAbs = n at *
  generalize 2 ^ (-q).toNat = m at *
  generalize z.natAbs * 2 ^ (q + 24).toNat = r at *
  generalize z.natAbs * 2 ^ q.toNat = y at *
  apply Nat.eq_of_mul_eq_mul_right (Nat.mul_pos d1 d2)
  calc s * (d * m) = (s * d) * m := by grind
    _ = (n * m) * 2 ^ 24 := by rw [s1]; grind
    _ = (y * 2 ^ 24) * d := by rw [e]; grind
    _ = r * (d * m) := by rw [h1]; grind

theorem overflow_pat (rm : Nat) (hrm : rm ≤ 3) (s : Bool) :
    pat (HalfFp.Spec.overflow rm s) =
      (match mode (dirOf rm) s with | .down => infPat half - 1 | _ => infPat half) ∧
    (HalfFp.Spec.overflow rm s).msb = s := by
  have hr : rm = 0 ∨ rm = 1 ∨ rm = 2 ∨ rm = 3 := by omega
  rcases hr with e | e | e | e <;> subst e <;> cases s <;> exact ⟨by decide +kernel, by decide +kernel⟩

/-- The quantum is the one of the half precision neighbours. -/
theorem quantum_range (u : BitVec f.bits) (hm : mag u ≠ 0) :
    -24 ≤ quantum u ∧ (unitsNum u (quantum u)).natAbs < 2048 * unitsDen u (quantum u) ∧
    (-24 < quantum u → 1024 * unitsDen u (quantum u) ≤ (unitsNum u (quantum u)).natAbs) := by
  have hq : quantum u = max ((Nat.log2 (mag u) : Int) + ulp u) (-14) - 10 := rfl
  generalize quantum u = q at *
  have hn : (unitsNum u q).natAbs = mag u * 2 ^ ((ulp u).toNat + (-q).toNat) := by
    unfold unitsNum num
    have e : ((mag u : Int) * 2 ^ (ulp u).toNat) = ((mag u * 2 ^ (ulp u).toNat : Nat) : Int) := by
      rw [Int.natCast_mul, Int.natCast_pow]; rfl
    have e2 : ((2 : Int) ^ (-q).toNat).natAbs = 2 ^ (-q).toNat := by
      have : (2 : Int) ^ (-q).toNat = ((2 ^ (-q).toNat : Nat) : Int) := by rw [Int.natCast_pow]; rfl
      rw [this, Int.natAbs_natCast]
    dsimp only
    rw [e, Int.natAbs_mul, e2, Nat.pow_add, ← Nat.mul_assoc]
    congr 1
    split
    · rw [Int.natAbs_neg, Int.natAbs_natCast]
    · rw [Int.natAbs_natCast]
  have hd : unitsDen u q = 2 ^ ((-(ulp u)).toNat + q.toNat) := by
    unfold unitsDen den
    rw [← Nat.pow_add]
  have l1 := Nat.log2_self_le hm
  have l2 := Nat.lt_log2_self (n := mag u)
  rw [hn, hd]
  generalize mag u = m at *
  generalize Nat.log2 m = L at *
  generalize ulp u = v at *
  refine ⟨by omega, ?_, fun h => ?_⟩
  · calc m * 2 ^ (v.toNat + (-q).toNat) < 2 ^ (L + 1) * 2 ^ (v.toNat + (-q).toNat) :=
          Nat.mul_lt_mul_of_pos_right l2 (Nat.two_pow_pos _)
      _ ≤ 2 ^ 11 * 2 ^ ((-v).toNat + q.toNat) := by
          rw [← Nat.pow_add, ← Nat.pow_add]
          exact Nat.pow_le_pow_right (by decide) (by omega)
  · calc 1024 * 2 ^ ((-v).toNat + q.toNat) = 2 ^ L * 2 ^ (v.toNat + (-q).toNat) := by
          rw [show 1024 = 2 ^ 10 from rfl, ← Nat.pow_add, ← Nat.pow_add]
          congr 1; omega
      _ ≤ m * 2 ^ (v.toNat + (-q).toNat) := Nat.mul_le_mul_right _ l1

theorem narrow_round (rm : Nat) (hrm : rm ≤ 3) (u : BitVec single.bits) (hf : pat u < infPat single)
    (hz : ¬ IsZero u) : Meets (dirOf rm) (.round (val u) K) (narrow single rm u).1 := by
  have hs : ¬ Special u := by rw [special_iff]; omega
  have hm : mag u ≠ 0 := fun q => hz ((mag_zero ok_single u).mp q)
  obtain ⟨z, h1, h2, h3⟩ := (HalfFp.C68_narrow_partial HalfFp.narrow_single rm hrm u).1 hs hm
  generalize (narrow single rm u).1 = h at *
  obtain ⟨q1, q2, q3⟩ := quantum_range u hm
  have hv : val u ≠ 0 := fun q => hz (val_eq_zero.mp q)
  have hval := val_neg_iff hv
  have hnum : num u ≠ 0 := fun q => hz ((num_zero ok_single u).mp q)
  have hnumneg := num_neg u hnum
  unfold RoundedTo at h1
  generalize hq : quantum u = q at *
  have p2 : (0 : Int) < 2 ^ (-q).toNat := Int.pow_pos (by decide)
  have hn0 : unitsNum u q ≠ 0 := by
    unfold unitsNum
    intro e
    rcases Int.mul_eq_zero.mp e with a | a
    · exact hnum a
    · omega
  have hneg : decide (unitsNum u q < 0) = u.msb := by
    rw [← hnumneg]
    congr 1
    unfold unitsNum
    exact propext ⟨fun q => Int.lt_of_not_ge fun g => absurd (Int.mul_nonneg g (Int.le_of_lt p2)) (by omega),
      fun q => Int.mul_neg_of_neg_of_pos q p2⟩
  have hb : 0 < unitsDen u q := Nat.mul_pos (den_pos u) (Nat.two_pow_pos _)
  -- the value in quanta and in single precision units
  have key : (unitsNum u q).natAbs * 2 ^ (q + 24).toNat * K = scaled single (pat u) * unitsDen u q := by
    have s1 := scaled_num ok_single u
    rw [unit_single] at s1
    unfold unitsNum unitsDen
    have e2 : ((2 : Int) ^ (-q).toNat).natAbs = 2 ^ (-q).toNat := by
      have : (2 : Int) ^ (-q).toNat = ((2 ^ (-q).toNat : Nat) : Int) := by rw [Int.natCast_pow]; rfl
      rw [this, Int.natAbs_natCast]
    rw [Int.natAbs_mul, e2, ← Nat.mul_assoc, s1]
    have e3 : 2 ^ (-q).toNat * 2 ^ (q + 24).toNat = 2 ^ 24 * 2 ^ q.toNat := by
      rw [← Nat.pow_add, ← Nat.pow_add]; congr 1; omega
    calc (num u).natAbs * 2 ^ (-q).toNat * 2 ^ (q + 24).toNat * K
        = (num u).natAbs * (2 ^ (-q).toNat * 2 ^ (q + 24).toNat) * K := by grind
      _ = _ := by rw [e3]; grind
  obtain ⟨z0, w1, w2⟩ : ∃ z0, z0 * unitsDen u q ≤ (unitsNum u q).natAbs ∧
      (unitsNum u q).natAbs < (z0 + 1) * unitsDen u q := by
    refine ⟨(unitsNum u q).natAbs / unitsDen u q, Nat.div_mul_le_self _ _, ?_⟩
    exact (Nat.div_lt_iff_lt_mul hb).mp (Nat.lt_succ_self _)
  have hw := rounded_abs rm hrm (unitsNum u q) (unitsDen u q) z hb hn0 h1 z0 w1 w2
  rw [hneg] at hw
  rw [fits_iff z q q1] at h2 h3
  have hrep := represents_pat h z q q1
  unfold Meets
  dsimp only
  rw [hval, val_natAbs]
  have ht : 0 < (q + 24).toNat → 1024 ≤ z0 := by
    intro a
    have := Nat.lt_of_le_of_lt (q3 (by omega)) w2
    have := Nat.lt_of_mul_lt_mul_right this
    omega
  have hz2 : z0 < 2048 := Nat.lt_of_mul_lt_mul_right (Nat.lt_of_le_of_lt w1 q2)
  generalize (q + 24).toNat = t at *
  generalize unitsDen u q = b at *
  generalize (unitsNum u q).natAbs = a at *
  generalize scaled single (pat u) = S at *
  generalize z.natAbs = N at *
  have hms : h.msb = u.msb := by
    by_cases c : N * 2 ^ t < 2 ^ 40
    · exact (h2 c).2.1
    · rw [h3 c]; exact (overflow_pat rm hrm u.msb).2
  refine ⟨hms, ?_⟩
  -- scale
  suffices hh : ∃ p, Floor half p (a * 2 ^ t) b ∧
      pat h = roundPat half (mode (dirOf rm) u.msb) p (a * 2 ^ t) b by
    obtain ⟨p, g1, g2⟩ := hh
    refine ⟨p, ?_, ?_⟩
    · rw [← floor_scale hb, ← key, Nat.mul_comm K b, floor_scale K_pos]; exact g1
    · rw [← roundPat_scale hb, ← key, Nat.mul_comm K b, roundPat_scale K_pos]; exact g2
  have hi : infPat half = 31744 := by decide
  have hs10 : 2 ^ half.s = 1024 := by decide
  have gr : ∀ y, y ≤ 2048 → (0 < t → 1024 ≤ y) → scaled half (t * 1024 + y) = y * 2 ^ t := by
    intro y y1 y2
    have := grid (f := half) t y (by rw [hs10]; omega) (by rw [hs10]; exact y2)
    rwa [hs10] at this
  have g0 := gr z0 (by omega) ht
  have g1 := gr (z0 + 1) (by omega) (fun q => by have := ht q; omega)
  have hN : N = z0 ∨ N = z0 + 1 := by
    generalize mode (dirOf rm) u.msb = o at hw
    cases o with
    | down => exact Or.inl hw
    | up =>
      by_cases c : z0 * b = a
      · exact Or.inl (hw.1 c)
      · exact Or.inr (hw.2 c)
    | nearestEven =>
      rcases Nat.lt_trichotomy (2 * a) ((2 * z0 + 1) * b) with c | c | c
      · exact Or.inl (hw.1 c)
      · have := hw.2.2 c; split at this <;> simp [this]
      · exact Or.inr (hw.2.1 c)
    | nearestAway => exact hw.elim
  have gN : scaled half (t * 1024 + N) = N * 2 ^ t :=
    gr N (by omega) (fun q => by have := ht q; omega)
  have fit : N * 2 ^ t < 2 ^ 40 ↔ t * 1024 + N < infPat half := by
    rw [← gN, ← scaled_infPat_half, scaled_lt_iff]
  have hT : 0 < 2 ^ t := Nat.two_pow_pos _
  by_cases hp : t * 1024 + z0 < infPat half
  · refine ⟨t * 1024 + z0, ⟨Nat.le_of_lt hp, ?_, fun _ => ?_⟩, ?_⟩
    · rw [g0, Nat.mul_right_comm]; exact Nat.mul_le_mul_right _ w1
    · rw [Nat.add_assoc, g1, Nat.mul_right_comm]; exact Nat.mul_lt_mul_of_pos_right w2 hT
    · have hpat : pat h = t * 1024 + N := by
        by_cases c : t * 1024 + N < infPat half
        · have r := hrep (h2 (fit.mpr c)).2.2
          rw [← gN] at r
          exact Nat.le_antisymm (scaled_le_iff.mp (Nat.le_of_eq r)) (scaled_le_iff.mp (Nat.le_of_eq r.symm))
        · rw [h3 (fun q => c (fit.mp q)), (overflow_pat rm hrm u.msb).1]
          generalize mode (dirOf rm) u.msb = o at hw
          cases o with
          | down => have : N = z0 := hw; omega
          | up => dsimp only; omega
          | nearestEven => dsimp only; omega
          | nearestAway => exact hw.elim
      rw [hpat]
      have hsum : (scaled half (t * 1024 + z0) + scaled half (t * 1024 + z0 + 1)) * b =
          ((2 * z0 + 1) * b) * 2 ^ t := by
        rw [Nat.add_assoc (t * 1024), g0, g1]; grind
      have c1 : (2 * (a * 2 ^ t) < ((2 * z0 + 1) * b) * 2 ^ t) = (2 * a < (2 * z0 + 1) * b) := by
        rw [← Nat.mul_assoc, Nat.mul_lt_mul_right hT]
      have c2 : (((2 * z0 + 1) * b) * 2 ^ t < 2 * (a * 2 ^ t)) = ((2 * z0 + 1) * b < 2 * a) := by
        rw [← Nat.mul_assoc, Nat.mul_lt_mul_right hT]
      have c3 : (scaled half (t * 1024 + z0) * b = a * 2 ^ t) = (z0 * b = a) := by
        rw [g0, Nat.mul_right_comm]
        exact propext ⟨fun q => Nat.eq_of_mul_eq_mul_right hT q, fun q => by rw [q]⟩
      have ne : ¬ (t * 1024 + z0 = infPat half) := by omega
      generalize mode (dirOf rm) u.msb = o at hw
      unfold roundPat
      cases o with
      | down =>
        have : N = z0 := hw
        simp only [ne, if_false]; omega
      | up =>
        simp only [ne, false_or, c3]
        by_cases c : z0 * b = a
        · rw [if_pos c, hw.1 c]
        · rw [if_neg c, hw.2 c]; omega
      | nearestEven =>
        simp only [ne, if_false, hsum, c1, c2]
        rcases Nat.lt_trichotomy (2 * a) ((2 * z0 + 1) * b) with c | c | c
        · rw [if_pos c, hw.1 c]
        · rw [if_neg (by omega), if_neg (by omega), hw.2.2 c]
          by_cases e : z0 % 2 = 0
          · rw [if_pos e, if_pos (by omega)]
          · rw [if_neg e, if_neg (by omega)]; omega
        · rw [if_neg (by omega), if_pos c, hw.2.1 c]; omega
      | nearestAway => exact hw.elim
  · refine ⟨infPat half, ⟨Nat.le_refl _, ?_, fun q => absurd rfl q⟩, ?_⟩
    · calc scaled half (infPat half) * b ≤ scaled half (t * 1024 + z0) * b :=
            Nat.mul_le_mul_right _ (scaled_le_iff.mpr (by omega))
        _ ≤ a * 2 ^ t := by rw [g0, Nat.mul_right_comm]; exact Nat.mul_le_mul_right _ w1
    · rw [h3 (fun q => by have := fit.mp q; omega), (overflow_pat rm hrm u.msb).1]
      generalize mode (dirOf rm) u.msb = o at hw
      unfold roundPat
      cases o <;> simp

end Verif.HalfArith
