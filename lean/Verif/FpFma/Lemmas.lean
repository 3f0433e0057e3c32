import Verif.FpFma.Model
import Verif.FpFma.Spec

/-!
# Bit patterns as sign and magnitude
-/

namespace Verif.FpFma

open Verif.Fp Verif.FpHost.Spec Spec

variable {f : Fmt}

theorem pat_lt (u : BitVec f.bits) : pat u < 2 ^ (f.e + f.s) := Nat.mod_lt _ (Nat.two_pow_pos _)

theorem two_bits : 2 ^ f.bits = 2 * 2 ^ (f.e + f.s) := by
  unfold Fmt.bits
  rw [Nat.add_assoc, Nat.add_comm, Nat.pow_succ, Nat.mul_comm]

theorem bits_sub : f.bits - 1 = f.e + f.s := by unfold Fmt.bits; omega

theorem msb_div (u : BitVec f.bits) : u.toNat / 2 ^ (f.e + f.s) = u.msb.toNat := by
  have hlt := u.isLt
  rw [two_bits] at hlt
  rw [BitVec.msb_eq_decide, bits_sub]
  have hp := Nat.two_pow_pos (f.e + f.s)
  generalize 2 ^ (f.e + f.s) = P at *
  by_cases h : P ≤ u.toNat
  · rw [decide_eq_true h]
    show _ = 1
    exact (Nat.div_eq_iff hp).2 ⟨by omega, by omega⟩
  · rw [decide_eq_false h]
    show _ = 0
    exact Nat.div_eq_of_lt (by omega)

theorem toNat_split (u : BitVec f.bits) : u.toNat = u.msb.toNat * 2 ^ (f.e + f.s) + pat u := by
  rw [← msb_div]
  unfold pat
  rw [Nat.mul_comm]
  exact (Nat.div_add_mod _ _).symm

/-- The pattern with the given sign and magnitude. -/
def make (f : Fmt) (s : Bool) (p : Nat) : BitVec f.bits :=
  BitVec.ofNat f.bits (s.toNat * 2 ^ (f.e + f.s) + p)

theorem make_toNat {s : Bool} {p : Nat} (hp : p < 2 ^ (f.e + f.s)) :
    (make f s p).toNat = s.toNat * 2 ^ (f.e + f.s) + p := by
  unfold make
  rw [BitVec.toNat_ofNat, two_bits, Nat.mod_eq_of_lt]
  cases s <;> simp <;> omega

theorem make_pat {s : Bool} {p : Nat} (hp : p < 2 ^ (f.e + f.s)) : pat (make f s p) = p := by
  unfold pat
  rw [make_toNat hp, Nat.mul_comm, Nat.mul_add_mod, Nat.mod_eq_of_lt hp]

theorem make_msb {s : Bool} {p : Nat} (hp : p < 2 ^ (f.e + f.s)) : (make f s p).msb = s := by
  have h := msb_div (make f s p)
  rw [make_toNat hp, Nat.mul_comm, Nat.mul_add_div (Nat.two_pow_pos _), Nat.div_eq_of_lt hp] at h
  cases hs : (make f s p).msb <;> cases s <;> simp_all

theorem ext_pat {u v : BitVec f.bits} (hs : u.msb = v.msb) (hp : pat u = pat v) : u = v := by
  apply BitVec.eq_of_toNat_eq
  rw [toNat_split u, toNat_split v, hs, hp]

/-! ## Classes -/

theorem pat_div (u : BitVec f.bits) : expField u = pat u / 2 ^ f.s := by
  unfold expField pat
  rw [Nat.add_comm, Nat.pow_add, Nat.mod_mul_right_div_self]

theorem pat_mod (u : BitVec f.bits) : sigField u = pat u % 2 ^ f.s := by
  unfold sigField pat
  rw [Nat.add_comm, Nat.pow_add, Nat.mod_mul_right_mod]

theorem expField_le (u : BitVec f.bits) : expField u ≤ 2 ^ f.e - 1 := by
  have : expField u < 2 ^ f.e := Nat.mod_lt _ (Nat.two_pow_pos _)
  omega

theorem pat_split (u : BitVec f.bits) : pat u = expField u * 2 ^ f.s + sigField u := by
  rw [pat_div, pat_mod, Nat.mul_comm]
  exact (Nat.div_add_mod _ _).symm

theorem isNaN_eq (u : BitVec f.bits) : isNaN u = decide (NaN u) := by
  have h1 := expField_le u
  have h2 : sigField u < 2 ^ f.s := Nat.mod_lt _ (Nat.two_pow_pos _)
  rw [Bool.eq_iff_iff, decide_eq_true_iff]
  unfold isNaN NaN infPat
  rw [pat_split]
  generalize expField u = E at *
  generalize sigField u = F at *
  generalize 2 ^ f.e - 1 = M at *
  generalize 2 ^ f.s = P at *
  by_cases hE : E = M
  · subst hE
    by_cases hF : F = 0
    · subst hF; simp
    · simp [hF]; omega
  · have : E + 1 ≤ M := by omega
    have := Nat.mul_le_mul_right P this
    rw [Nat.add_mul] at this
    simp [hE]; omega

theorem isInf_eq (u : BitVec f.bits) : isInf u = decide (Inf u) := by
  have h1 := expField_le u
  have h2 : sigField u < 2 ^ f.s := Nat.mod_lt _ (Nat.two_pow_pos _)
  rw [Bool.eq_iff_iff, decide_eq_true_iff]
  unfold isInf Inf infPat
  rw [pat_split]
  generalize expField u = E at *
  generalize sigField u = F at *
  generalize 2 ^ f.e - 1 = M at *
  generalize 2 ^ f.s = P at *
  by_cases hE : E = M
  · subst hE
    by_cases hF : F = 0
    · subst hF; simp
    · simp [hF]
  · have : E + 1 ≤ M := by omega
    have := Nat.mul_le_mul_right P this
    rw [Nat.add_mul] at this
    simp [hE]; omega

theorem isZero_eq (u : BitVec f.bits) : isZero u = decide (IsZero u) := by
  rw [Bool.eq_iff_iff, decide_eq_true_iff]
  unfold isZero IsZero
  rw [pat_split]
  have hp := Nat.two_pow_pos f.s
  by_cases hE : expField u = 0
  · by_cases hF : sigField u = 0
    · simp [hE, hF]
    · simp [hE, hF]
  · have : 0 < expField u * 2 ^ f.s := Nat.mul_pos (by omega) hp
    simp [hE]
    omega

theorem infPat_lt : infPat f < 2 ^ (f.e + f.s) := by
  unfold infPat
  rw [Nat.pow_add]
  exact Nat.mul_lt_mul_of_pos_right (by have := Nat.two_pow_pos f.e; omega) (Nat.two_pow_pos _)

/-- A format with at least one bit in each field. -/
def Ok (f : Fmt) : Prop := 1 ≤ f.e ∧ 1 ≤ f.s

theorem ok_single : Ok single := ⟨by decide, by decide⟩
theorem ok_double : Ok double := ⟨by decide, by decide⟩
theorem ok_half : Ok half := ⟨by decide, by decide⟩

theorem infPat_pos (ok : Ok f) : 0 < infPat f := by
  unfold infPat
  apply Nat.mul_pos _ (Nat.two_pow_pos _)
  have : 2 ^ 1 ≤ 2 ^ f.e := Nat.pow_le_pow_right (by decide) ok.1
  omega

theorem canonical_nan (ok : Ok f) : NaN (canonicalNaN f) := by
  unfold NaN canonicalNaN
  have hs : 2 ^ f.s = 2 * 2 ^ (f.s - 1) := by
    rw [← Nat.pow_succ']; congr 1; have := ok.2; omega
  have hlt : (2 ^ f.e - 1) * 2 ^ f.s + 2 ^ (f.s - 1) < 2 ^ (f.e + f.s) := by
    rw [Nat.pow_add, Nat.sub_mul, Nat.one_mul]
    have : 2 ^ f.s ≤ 2 ^ f.e * 2 ^ f.s := Nat.le_mul_of_pos_left _ (Nat.two_pow_pos _)
    have := Nat.two_pow_pos (f.s - 1)
    omega
  unfold pat infPat
  rw [BitVec.toNat_ofNat, two_bits, Nat.mod_mul_left_mod, Nat.mod_eq_of_lt hlt]
  have := Nat.two_pow_pos (f.s - 1)
  omega

theorem nan_not_inf {u : BitVec f.bits} (h : NaN u) : ¬ Inf u := by unfold NaN Inf at *; omega
theorem inf_not_nan {u : BitVec f.bits} (h : Inf u) : ¬ NaN u := by unfold NaN Inf at *; omega
theorem zero_not_nan {u : BitVec f.bits} (h : IsZero u) : ¬ NaN u := by unfold NaN IsZero at *; omega
theorem zero_not_inf (ok : Ok f) {u : BitVec f.bits} (h : IsZero u) : ¬ Inf u := by
  have := infPat_pos ok
  unfold IsZero at h; unfold Inf; omega

theorem canonicalize_of {u : BitVec f.bits} (h : ¬ NaN u) : canonicalize u = u := by
  unfold canonicalize; rw [isNaN_eq, decide_eq_false h]; rfl

theorem canonicalize_nan {u : BitVec f.bits} (h : NaN u) : canonicalize u = canonicalNaN f := by
  unfold canonicalize; rw [isNaN_eq, decide_eq_true h]; rfl

/-! ## Negation -/

theorem neg_pat (u : BitVec f.bits) : pat (neg u) = pat u := by
  unfold pat neg
  rw [BitVec.toNat_xor, BitVec.toNat_ofNat, Nat.xor_mod_two_pow, two_bits, Nat.mod_mul_left_mod,
    Nat.mod_self, Nat.xor_zero]

theorem neg_msb (u : BitVec f.bits) : (neg u).msb = !u.msb := by
  unfold neg
  rw [BitVec.msb_xor]
  have : (BitVec.ofNat f.bits (2 ^ (f.e + f.s))).msb = true := by
    have h := make_msb (f := f) (s := true) (p := 0) (Nat.two_pow_pos _)
    simpa [make] using h
  rw [this, Bool.xor_true]

theorem neg_nan {u : BitVec f.bits} : NaN (neg u) ↔ NaN u := by unfold NaN; rw [neg_pat]
theorem neg_inf {u : BitVec f.bits} : Inf (neg u) ↔ Inf u := by unfold Inf; rw [neg_pat]
theorem neg_zero {u : BitVec f.bits} : IsZero (neg u) ↔ IsZero u := by unfold IsZero; rw [neg_pat]

theorem neg_val (u : BitVec f.bits) : val (neg u) = -val u := by
  unfold val
  rw [neg_msb, neg_pat]
  cases u.msb <;> simp

/-! ## Signs -/

theorem top_toNat (u : BitVec f.bits) : (top u).toNat = u.msb.toNat := by
  unfold top
  rw [BitVec.toNat_ushiftRight, bits_sub, Nat.shiftRight_eq_div_pow, msb_div]

theorem top_eq (u v : BitVec f.bits) : top u = top v ↔ u.msb = v.msb := by
  constructor
  · intro h
    have := congrArg BitVec.toNat h
    rw [top_toNat, top_toNat] at this
    cases hu : u.msb <;> cases hv : v.msb <;> simp_all
  · intro h
    apply BitVec.eq_of_toNat_eq
    rw [top_toNat, top_toNat, h]

theorem minus_zero {u : BitVec f.bits} (h : IsZero u) : -u = u := by
  apply BitVec.eq_of_toNat_eq
  rw [BitVec.toNat_neg, two_bits]
  have hs := toNat_split u
  unfold IsZero at h
  rw [h] at hs
  have := Nat.two_pow_pos (f.e + f.s)
  generalize 2 ^ (f.e + f.s) = P at *
  cases hm : u.msb <;> rw [hm] at hs <;> simp at hs <;> rw [hs]
  · simp
  · rw [Nat.mod_eq_of_lt] <;> omega

theorem zero_zero : IsZero (zero f) := by unfold IsZero pat zero; simp
theorem zero_msb : (zero f).msb = false := by unfold zero; simp

/-! ## The order of the patterns -/

theorem div_succ_cases (p P : Nat) (hP : 0 < P) :
    ((p + 1) / P = p / P ∧ (p + 1) % P = p % P + 1) ∨
      ((p + 1) / P = p / P + 1 ∧ (p + 1) % P = 0 ∧ p % P + 1 = P) := by
  have hlt := Nat.mod_lt p hP
  have hsplit := Nat.div_add_mod p P
  by_cases h : p % P + 1 = P
  · right
    have he : p + 1 = P * (p / P + 1) := by rw [Nat.mul_add]; omega
    refine ⟨?_, ?_, h⟩
    · rw [he, Nat.mul_div_cancel_left _ hP]
    · rw [he, Nat.mul_mod_right]
  · left
    have he : p + 1 = P * (p / P) + (p % P + 1) := by omega
    have hl : p % P + 1 < P := by omega
    constructor
    · rw [he, Nat.mul_add_div hP, Nat.div_eq_of_lt hl, Nat.add_zero]
    · rw [he, Nat.mul_add_mod, Nat.mod_eq_of_lt hl]

theorem scaled_succ (p : Nat) : scaled f p < scaled f (p + 1) := by
  have hP := Nat.two_pow_pos f.s
  have hsplit := Nat.div_add_mod p (2 ^ f.s)
  unfold scaled
  rcases div_succ_cases p (2 ^ f.s) hP with ⟨h1, h2⟩ | ⟨h1, h2, h3⟩
  · rw [h1, h2]
    split
    · omega
    · exact Nat.mul_lt_mul_of_pos_right (Nat.add_lt_add_left (Nat.lt_succ_self _) _)
        (Nat.two_pow_pos _)
  · rw [h1, h2]
    rw [if_neg (Nat.succ_ne_zero _)]
    split
    · rename_i h0
      rw [h0]
      have := Nat.div_add_mod p (2 ^ f.s)
      rw [h0] at this
      simp at this
      simp
      omega
    · rename_i h0
      have hk : p / 2 ^ f.s + 1 - 1 = (p / 2 ^ f.s - 1) + 1 := by
        have := Nat.pos_of_ne_zero h0; omega
      rw [hk, Nat.pow_succ]
      have hpos := Nat.two_pow_pos (p / 2 ^ f.s - 1)
      have hlt : 2 ^ f.s + p % 2 ^ f.s < 2 * 2 ^ f.s := by omega
      calc (2 ^ f.s + p % 2 ^ f.s) * 2 ^ (p / 2 ^ f.s - 1)
          < 2 * 2 ^ f.s * 2 ^ (p / 2 ^ f.s - 1) := Nat.mul_lt_mul_of_pos_right hlt hpos
        _ = (2 ^ f.s + 0) * (2 ^ (p / 2 ^ f.s - 1) * 2) := by
            rw [Nat.add_zero, Nat.mul_comm 2 (2 ^ f.s), Nat.mul_assoc, Nat.mul_comm 2]

theorem scaled_lt {p q : Nat} (h : p < q) : scaled f p < scaled f q := by
  induction q with
  | zero => omega
  | succ q ih =>
    rcases Nat.lt_succ_iff_lt_or_eq.1 h with h | rfl
    · exact Nat.lt_trans (ih h) (scaled_succ q)
    · exact scaled_succ _

theorem scaled_zero : scaled f 0 = 0 := by unfold scaled; simp

theorem scaled_eq_zero {p : Nat} : scaled f p = 0 ↔ p = 0 := by
  constructor
  · intro h
    rcases Nat.eq_zero_or_pos p with h0 | h0
    · exact h0
    · have := scaled_lt (f := f) h0
      omega
  · rintro rfl; exact scaled_zero

theorem val_eq_zero {u : BitVec f.bits} : val u = 0 ↔ IsZero u := by
  unfold val IsZero
  rw [← scaled_eq_zero (f := f)]
  split <;> omega

/-- There is only one last pattern not above a number. -/
theorem floor_unique {p q n m : Nat} (hp : Floor f p n m) (hq : Floor f q n m) : p = q := by
  have key : ∀ {p q : Nat}, Floor f p n m → Floor f q n m → ¬ p < q := by
    intro p q hp hq h
    have hpi : p ≠ infPat f := by have := hq.1; omega
    have h1 := hp.2.2 hpi
    have h2 := hq.2.1
    have h3 : scaled f (p + 1) ≤ scaled f q := by
      rcases Nat.lt_or_eq_of_le (Nat.succ_le_of_lt h) with h | h
      · exact Nat.le_of_lt (scaled_lt h)
      · rw [← h]; exact Nat.le_refl _
    have := Nat.mul_le_mul_right m h3
    omega
  have h1 := key hp hq
  have h2 := key hq hp
  omega

theorem floor_exists (n m : Nat) : ∃ p, Floor f p n m := by
  have : ∀ k ≤ infPat f, (∃ p, Floor f p n m) ∨ scaled f k * m ≤ n := by
    intro k
    induction k with
    | zero => intro _; right; rw [scaled_zero]; omega
    | succ k ih =>
      intro hk
      rcases ih (by omega) with h | h
      · exact Or.inl h
      · by_cases hn : n < scaled f (k + 1) * m
        · exact Or.inl ⟨k, by omega, h, fun _ => hn⟩
        · right; omega
  rcases this (infPat f) (Nat.le_refl _) with h | h
  · exact h
  · exact ⟨infPat f, Nat.le_refl _, h, fun h => absurd rfl h⟩

theorem roundPat_le (o : Mode) {p n m : Nat} (hp : p ≤ infPat f) : roundPat f o p n m ≤ infPat f := by
  unfold roundPat
  cases o <;> (repeat' split) <;> simp_all <;> omega

end Verif.FpFma
