import Verif.VecWiden.Model
import Verif.VecWiden.Spec
import Verif.FpArith.Props

/-!
# C80: widening vector floating-point instructions round once
-/

namespace Verif.VecWiden

open Verif.Fp Verif.FpHost.Spec Verif.FpFma Verif.FpFma.Spec

variable {f : Fmt}

/-! ### Fractions -/

theorem floor_scale {p n m k : Nat} (hk : 0 < k) : Floor f p (n * k) (m * k) ↔ Floor f p n m := by
  unfold Floor
  rw [← Nat.mul_assoc, ← Nat.mul_assoc, Nat.mul_le_mul_right_iff hk, Nat.mul_lt_mul_right hk]

theorem roundPat_scale {o : Mode} {p n m k : Nat} (hk : 0 < k) :
    roundPat f o p (n * k) (m * k) = roundPat f o p n m := by
  have e1 : (scaled f p * (m * k) = n * k) = (scaled f p * m = n) := by
    rw [← Nat.mul_assoc]
    exact propext ⟨fun h => Nat.eq_of_mul_eq_mul_right hk h, fun h => by rw [h]⟩
  have e2 : (2 * (n * k) < (scaled f p + scaled f (p + 1)) * (m * k)) =
      (2 * n < (scaled f p + scaled f (p + 1)) * m) := by
    rw [← Nat.mul_assoc, ← Nat.mul_assoc]
    exact propext (Nat.mul_lt_mul_right hk)
  have e3 : ((scaled f p + scaled f (p + 1)) * (m * k) < 2 * (n * k)) =
      ((scaled f p + scaled f (p + 1)) * m < 2 * n) := by
    rw [← Nat.mul_assoc, ← Nat.mul_assoc]
    exact propext (Nat.mul_lt_mul_right hk)
  unfold roundPat
  simp only [e1, e2, e3]

theorem round_scale {d : Dir} {n : Int} {m k : Nat} {r : BitVec f.bits} (hk : 0 < k) :
    Meets d (.round (n * k) (m * k)) r ↔ Meets d (.round n m) r := by
  have hs : decide (n * (k : Int) < 0) = decide (n < 0) := by
    congr 1
    exact propext ⟨fun q => Int.lt_of_not_ge fun g =>
      absurd (Int.mul_nonneg g (Int.natCast_nonneg k)) (by omega),
      fun q => Int.mul_neg_of_neg_of_pos q (by omega)⟩
  unfold Meets
  simp only [hs, Int.natAbs_mul, Int.natAbs_natCast, floor_scale hk, roundPat_scale hk]

/-- Rounding depends on the fraction only. -/
theorem round_eq {d : Dir} {n n' : Int} {m m' : Nat} {r : BitVec f.bits} (hm : 0 < m) (hm' : 0 < m')
    (he : n * m' = n' * m) (h : Meets d (.round n m) r) : Meets d (.round n' m') r := by
  rw [← round_scale hm', he, Nat.mul_comm m m', round_scale hm] at h
  exact h

/-- A number of the format is not changed by rounding. -/
theorem round_exact {d : Dir} {n : Int} {m p : Nat} {r : BitVec f.bits} (hm : 0 < m)
    (hp : p < infPat f) (he : scaled f p * m = n.natAbs) (h : Meets d (.round n m) r) :
    pat r = p ∧ r.msb = decide (n < 0) := by
  obtain ⟨h1, q, h2, h3⟩ := h
  have hf : Floor f p n.natAbs m :=
    ⟨Nat.le_of_lt hp, Nat.le_of_eq he, fun _ => by
      rw [← he]; exact Nat.mul_lt_mul_of_pos_right (scaled_succ p) hm⟩
  have hq := floor_unique h2 hf
  subst hq
  refine ⟨?_, h1⟩
  rw [h3]
  have hne : q ≠ infPat f := Nat.ne_of_lt hp
  have hlt : 2 * n.natAbs < (scaled f q + scaled f (q + 1)) * m := by
    have := Nat.mul_lt_mul_of_pos_right (scaled_succ (f := f) q) hm
    rw [Nat.add_mul]
    omega
  unfold roundPat
  cases mode d (decide (n < 0)) <;> simp [hne, hlt, he]

/-! ### Exact numbers -/

/-- Every number with at most `s + 1` significant bits that is not too large is a number
of the format. -/
theorem representable (a k : Nat) (ha : a < 2 ^ (f.s + 1)) (hb : a * 2 ^ k < scaled f (infPat f)) :
    ∃ p < infPat f, scaled f p = a * 2 ^ k := by
  have hex : ∃ p, scaled f p = a * 2 ^ k := by
    clear hb
    induction k with
    | zero =>
      rw [Nat.pow_zero, Nat.mul_one]
      by_cases h : a < 2 ^ f.s
      · exact ⟨a, by unfold scaled; rw [if_pos (Nat.div_eq_of_lt h)]⟩
      · refine ⟨a, ?_⟩
        have hd : a / 2 ^ f.s = 1 := by
          rw [Nat.pow_succ] at ha
          apply Nat.le_antisymm
          · exact Nat.le_of_lt_succ ((Nat.div_lt_iff_lt_mul (Nat.two_pow_pos _)).mpr (by omega))
          · exact (Nat.le_div_iff_mul_le (Nat.two_pow_pos _)).mpr (by omega)
        have := Nat.div_add_mod a (2 ^ f.s)
        unfold scaled
        rw [hd] at *
        rw [if_neg (by decide)]
        simp
        omega
    | succ k ih =>
      obtain ⟨p, hp⟩ := ih
      have hP := Nat.two_pow_pos f.s
      by_cases h0 : p / 2 ^ f.s = 0
      · -- a subnormal number doubled
        have hlt : p < 2 ^ f.s := by
          rcases Nat.lt_or_ge p (2 ^ f.s) with h | h
          · exact h
          · exact absurd h0 (by have := Nat.div_pos h hP; omega)
        have hs : scaled f p = p := by unfold scaled; rw [if_pos h0]
        refine ⟨2 * p, ?_⟩
        rw [Nat.pow_succ, ← Nat.mul_assoc, ← hp, hs]
        by_cases h1 : 2 * p < 2 ^ f.s
        · unfold scaled; rw [if_pos (Nat.div_eq_of_lt h1)]; omega
        · have hd : 2 * p / 2 ^ f.s = 1 := by
            apply Nat.le_antisymm
            · exact Nat.le_of_lt_succ ((Nat.div_lt_iff_lt_mul hP).mpr (by omega))
            · exact (Nat.le_div_iff_mul_le hP).mpr (by omega)
          have := Nat.div_add_mod (2 * p) (2 ^ f.s)
          unfold scaled
          rw [hd] at *
          rw [if_neg (by decide)]
          simp
          omega
      · refine ⟨p + 2 ^ f.s, ?_⟩
        have hd : (p + 2 ^ f.s) / 2 ^ f.s = p / 2 ^ f.s + 1 := Nat.add_div_right p hP
        have hmod : (p + 2 ^ f.s) % 2 ^ f.s = p % 2 ^ f.s := Nat.add_mod_right p _
        rw [Nat.pow_succ, ← Nat.mul_assoc, ← hp]
        unfold scaled
        rw [hd, hmod, if_neg (Nat.succ_ne_zero _), if_neg h0]
        have : p / 2 ^ f.s + 1 - 1 = (p / 2 ^ f.s - 1) + 1 := by
          have := Nat.pos_of_ne_zero h0; omega
        rw [this, Nat.pow_succ, Nat.mul_assoc]
  obtain ⟨p, hp⟩ := hex
  refine ⟨p, Nat.lt_of_not_le fun h => ?_, hp⟩
  rw [← hp] at hb
  rcases Nat.eq_or_lt_of_le h with q | q
  · rw [q] at hb; exact Nat.lt_irrefl _ hb
  · exact Nat.lt_asymm hb (scaled_lt q)

/-- Every finite number is a significand of `s + 1` bits times a power of two. -/
theorem decompose (p : Nat) (hp : p < infPat f) :
    ∃ a k, a < 2 ^ (f.s + 1) ∧ k ≤ 2 ^ f.e - 3 ∧ scaled f p = a * 2 ^ k := by
  have hP := Nat.two_pow_pos f.s
  unfold scaled
  by_cases h : p / 2 ^ f.s = 0
  · rw [if_pos h]
    refine ⟨p, 0, ?_, Nat.zero_le _, by simp⟩
    rcases Nat.lt_or_ge p (2 ^ f.s) with q | q
    · exact Nat.lt_trans q (Nat.pow_lt_pow_succ (by decide))
    · exact absurd h (by have := Nat.div_pos q hP; omega)
  · rw [if_neg h]
    refine ⟨_, _, ?_, ?_, rfl⟩
    · have := Nat.mod_lt p hP
      rw [Nat.pow_succ]
      omega
    · have : p / 2 ^ f.s < 2 ^ f.e - 1 := by
        rw [Nat.div_lt_iff_lt_mul hP]
        exact hp
      omega

theorem unit_pos : 0 < unit f := Nat.two_pow_pos _

theorem val_natAbs (u : BitVec f.bits) : (val u).natAbs = scaled f (pat u) := by
  unfold val
  split <;> simp

theorem val_neg_iff {u : BitVec f.bits} (h : val u ≠ 0) : decide (val u < 0) = u.msb := by
  unfold val at *
  cases hm : u.msb
  · rw [hm] at h; simp at h ⊢
  · rw [hm] at h; simp at h ⊢; omega

theorem finite_lt {u : BitVec f.bits} (h1 : ¬ NaN u) (h2 : ¬ Inf u) : pat u < infPat f := by
  unfold NaN at h1; unfold Inf at h2; omega

/-- The product of two single precision numbers is a double precision number. -/
theorem product_exact {a b : F32} (ha : ¬ NaN a) (ha' : ¬ Inf a) (hb : ¬ NaN b) (hb' : ¬ Inf b) :
    ∃ p < infPat double, scaled double p * unit single ^ 2 =
      (val a * val b).natAbs * unit double := by
  obtain ⟨m, k, hm, hk, e1⟩ := decompose (pat a) (finite_lt ha ha')
  obtain ⟨n, l, hn, hl, e2⟩ := decompose (pat b) (finite_lt hb hb')
  have hmn : m * n < 2 ^ (double.s + 1) :=
    Nat.lt_of_le_of_lt (Nat.mul_le_mul (Nat.le_of_lt hm) (Nat.le_of_lt hn)) (by decide)
  have hk' : k ≤ 253 := hk
  have hl' : l ≤ 253 := hl
  have hbound : m * n * 2 ^ (k + l + 776) < scaled double (infPat double) := by
    have h1 : m * n * 2 ^ (k + l + 776) < 2 ^ (double.s + 1) * 2 ^ (253 + 253 + 776) :=
      Nat.lt_of_lt_of_le (Nat.mul_lt_mul_of_pos_right hmn (Nat.two_pow_pos _))
        (Nat.mul_le_mul_left _ (Nat.pow_le_pow_right (by decide) (by omega)))
    exact Nat.lt_trans h1 (by decide +kernel)
  obtain ⟨p, hp, e⟩ := representable (f := double) (m * n) (k + l + 776) hmn hbound
  refine ⟨p, hp, ?_⟩
  rw [e, Int.natAbs_mul, val_natAbs, val_natAbs, e1, e2]
  have u1 : unit single ^ 2 = 2 ^ 298 := by decide +kernel
  have u2 : unit double = 2 ^ 1074 := by decide +kernel
  have u3 : 2 ^ 1074 = 2 ^ 776 * 2 ^ 298 := (Nat.pow_add 2 776 298)
  rw [u1, u2, u3, Nat.pow_add 2 (k + l) 776, Nat.pow_add 2 k l]
  generalize 2 ^ k = A; generalize 2 ^ l = B; generalize 2 ^ 776 = C; generalize 2 ^ 298 = D
  grind

/-! ### The host -/

/-- The host's conversion from single to double precision is exact. -/
def Exact (w : F32 → F64) : Prop := ∀ u, Spec.Same u (w u)

theorem widened_exists (u : F32) : ∃ v : F64, Spec.Same u v := by
  by_cases hn : NaN u
  · exact ⟨canonicalNaN double, ⟨fun _ => canonical_nan ok_double, fun _ => hn⟩,
      ⟨fun h => absurd hn (inf_not_nan h), fun h => absurd (canonical_nan ok_double) (inf_not_nan h)⟩,
      fun h => absurd hn h⟩
  · by_cases hi : Inf u
    · have hp : pat (make double u.msb (infPat double)) = infPat double := make_pat infPat_lt
      refine ⟨make double u.msb (infPat double), ⟨fun h => absurd h hn, fun h => ?_⟩,
        ⟨fun _ => hp, fun _ => hi⟩, fun _ => ⟨make_msb infPat_lt, fun h => absurd hi h⟩⟩
      exact absurd h (inf_not_nan hp)
    · obtain ⟨m, k, hm, hk, e⟩ := decompose (pat u) (finite_lt hn hi)
      have hk' : k ≤ 253 := hk
      have hm' : m < 2 ^ (double.s + 1) := Nat.lt_trans hm (by decide)
      have hbound : m * 2 ^ (k + 925) < scaled double (infPat double) := by
        have h1 : m * 2 ^ (k + 925) < 2 ^ (double.s + 1) * 2 ^ (253 + 925) :=
          Nat.lt_of_lt_of_le (Nat.mul_lt_mul_of_pos_right hm' (Nat.two_pow_pos _))
            (Nat.mul_le_mul_left _ (Nat.pow_le_pow_right (by decide) (by omega)))
        exact Nat.lt_trans h1 (by decide +kernel)
      obtain ⟨p, hp, e'⟩ := representable (f := double) m (k + 925) hm' hbound
      have hlt := Nat.lt_trans hp (infPat_lt (f := double))
      have hpat : pat (make double u.msb p) = p := make_pat hlt
      have hmsb : (make double u.msb p).msb = u.msb := make_msb hlt
      have u2 : unit double = 2 ^ 925 * unit single := by decide +kernel
      refine ⟨make double u.msb p, ⟨fun h => absurd h hn, fun h => ?_⟩,
        ⟨fun h => absurd h hi, fun h => ?_⟩, fun _ => ⟨hmsb, fun _ => ?_⟩⟩
      · unfold NaN at h; rw [hpat] at h; omega
      · unfold Inf at h; rw [hpat] at h; omega
      · unfold val
        rw [hpat, hmsb, e', e, u2, Nat.pow_add]
        generalize 2 ^ 925 = A
        generalize unit single = B
        generalize 2 ^ k = C
        cases u.msb <;> simp <;> grind

/-- Such a conversion exists. -/
theorem exact_exists : ∃ w, Exact w :=
  ⟨fun u => Classical.choose (widened_exists u), fun u => Classical.choose_spec (widened_exists u)⟩

example : ∃ (h : FpArith.Host double) (w : F32 → F64), FpArith.Ieee h ∧ Exact w := by
  obtain ⟨h, hh⟩ := FpArith.ieee_exists ok_double FpArith.roomy_double
  obtain ⟨w, hw⟩ := exact_exists
  exact ⟨h, w, hh, hw⟩

variable {w : F32 → F64} {h : FpArith.Host double}

theorem same_val (hw : Exact w) {u : F32} (h1 : ¬ NaN u) (h2 : ¬ Inf u) :
    val (w u) * unit single = val u * unit double := ((hw u).2.2 h1).2 h2

theorem same_msb (hw : Exact w) {u : F32} (h1 : ¬ NaN u) : (w u).msb = u.msb := ((hw u).2.2 h1).1

theorem same_zero (hw : Exact w) {u : F32} (h1 : ¬ NaN u) (h2 : ¬ Inf u) :
    IsZero (w u) ↔ IsZero u := by
  rw [← val_eq_zero, ← val_eq_zero]
  have e := same_val hw h1 h2
  have p1 : (unit single : Int) ≠ 0 := by have := unit_pos (f := single); omega
  have p2 : (unit double : Int) ≠ 0 := by have := unit_pos (f := double); omega
  constructor
  · intro q; rw [q, Int.zero_mul] at e
    rcases Int.mul_eq_zero.mp e.symm with r | r
    · exact r
    · exact absurd r p2
  · intro q; rw [q, Int.zero_mul] at e
    rcases Int.mul_eq_zero.mp e with r | r
    · exact r
    · exact absurd r p1

theorem neg?_mul (b : Bool) (x y : Int) : neg? b x * y = neg? b (x * y) := by
  cases b <;> simp [neg?, Int.neg_mul]

/-! ### Sums and products -/

/-- The expectation for a sum of which one operand is widened. -/
theorem addw_meets (hw : Exact w) (d : Dir) (nc : Bool) (a : F64) (c : F32) (r : F64)
    (hr : Meets d (FpArith.Spec.add d nc a (w c)) r) : Meets d (Spec.addw d nc a c) r := by
  have hc := hw c
  unfold FpArith.Spec.add at hr
  unfold Spec.addw
  by_cases h1 : NaN a ∨ NaN c
  · have h1' : NaN a ∨ NaN (w c) := h1.imp_right hc.1.mp
    simp only [if_pos h1, if_pos h1'] at hr ⊢
    exact hr
  · have h1' : ¬ (NaN a ∨ NaN (w c)) := fun q => h1 (q.imp_right hc.1.mpr)
    have hm : (w c).msb = c.msb := same_msb hw (fun q => h1 (Or.inr q))
    simp only [if_neg h1, if_neg h1', hm, ← hc.2.1] at hr ⊢
    by_cases h2 : Inf a
    · simp only [if_pos h2] at hr ⊢; exact hr
    · simp only [if_neg h2] at hr ⊢
      by_cases h3 : Inf c
      · simp only [if_pos h3] at hr ⊢; exact hr
      · simp only [if_neg h3] at hr ⊢
        have e := same_val hw (fun q => h1 (Or.inr q)) h3
        have hn : (val a + neg? nc (val (w c))) * (unit single : Int) =
            val a * unit single + neg? nc (val c) * unit double := by
          rw [Int.add_mul, neg?_mul, neg?_mul, e]
        have p1 : (unit single : Int) ≠ 0 := by have := unit_pos (f := single); omega
        by_cases h4 : val a + neg? nc (val (w c)) = 0
        · have h4' : val a * unit single + neg? nc (val c) * unit double = 0 := by
            rw [← hn, h4, Int.zero_mul]
          simp only [h4, h4', ne_eq, not_true_eq_false, if_false] at hr ⊢
          exact hr
        · have h4' : val a * unit single + neg? nc (val c) * unit double ≠ 0 := by
            rw [← hn]
            intro q
            rcases Int.mul_eq_zero.mp q with z | z
            · exact h4 z
            · exact p1 z
          rw [if_pos h4] at hr
          rw [if_pos h4']
          exact round_eq Nat.one_pos unit_pos (by rw [hn]; simp) hr

/-- The expectation for a sum of two single precision numbers. -/
theorem add_meets (hw : Exact w) (d : Dir) (nc : Bool) (a c : F32) (r : F64)
    (hr : Meets d (FpArith.Spec.add d nc (w a) (w c)) r) : Meets d (Spec.add d nc a c) r := by
  have ha := hw a
  have hr' := addw_meets hw d nc (w a) c r hr
  unfold Spec.addw at hr'
  unfold Spec.add
  by_cases h1 : NaN a ∨ NaN c
  · have h1' : NaN (w a) ∨ NaN c := h1.imp_left ha.1.mp
    simp only [if_pos h1, if_pos h1'] at hr' ⊢
    exact hr'
  · have h1' : ¬ (NaN (w a) ∨ NaN c) := fun q => h1 (q.imp_left ha.1.mpr)
    have hm : (w a).msb = a.msb := same_msb hw (fun q => h1 (Or.inl q))
    simp only [if_neg h1, if_neg h1', hm, ← ha.2.1] at hr' ⊢
    by_cases h2 : Inf a
    · simp only [if_pos h2] at hr' ⊢; exact hr'
    · simp only [if_neg h2] at hr' ⊢
      by_cases h3 : Inf c
      · simp only [if_pos h3] at hr' ⊢; exact hr'
      · simp only [if_neg h3] at hr' ⊢
        have e := same_val hw (fun q => h1 (Or.inl q)) h2
        have hn : val (w a) * unit single + neg? nc (val c) * unit double =
            (val a + neg? nc (val c)) * (unit double : Int) := by
          rw [e, Int.add_mul]
        have p2 : (unit double : Int) ≠ 0 := by have := unit_pos (f := double); omega
        rw [hn] at hr'
        by_cases h4 : val a + neg? nc (val c) = 0
        · simp only [h4, Int.zero_mul, ne_eq, not_true_eq_false, if_false] at hr' ⊢
          exact hr'
        · have h4' : (val a + neg? nc (val c)) * (unit double : Int) ≠ 0 := by
            intro q
            rcases Int.mul_eq_zero.mp q with z | z
            · exact h4 z
            · exact p2 z
          rw [if_pos h4'] at hr'
          rw [if_pos h4]
          exact hr'

/-- What is known of a product of widened numbers. -/
theorem mul_meets (hw : Exact w) (d : Dir) (a b : F32) (r : F64)
    (hr : Meets d (FpFma.Spec.mul (w a) (w b)) r) : Meets d (Spec.mul a b) r := by
  have ha := hw a
  have hb := hw b
  unfold FpFma.Spec.mul at hr
  unfold Spec.mul
  by_cases h1 : NaN a ∨ NaN b
  · have h1' : NaN (w a) ∨ NaN (w b) := h1.imp ha.1.mp hb.1.mp
    simp only [if_pos h1, if_pos h1'] at hr ⊢
    exact hr
  · have h1' : ¬ (NaN (w a) ∨ NaN (w b)) := fun q => h1 (q.imp ha.1.mpr hb.1.mpr)
    have na : ¬ NaN a := fun q => h1 (Or.inl q)
    have nb : ¬ NaN b := fun q => h1 (Or.inr q)
    have za : ¬ Inf a → (IsZero (w a) ↔ IsZero a) := same_zero hw na
    have zb : ¬ Inf b → (IsZero (w b) ↔ IsZero b) := same_zero hw nb
    have h2 : ((Inf (w a) ∧ IsZero (w b)) ∨ (IsZero (w a) ∧ Inf (w b))) ↔
        ((Inf a ∧ IsZero b) ∨ (IsZero a ∧ Inf b)) := by
      rw [← ha.2.1, ← hb.2.1]
      have i1 : IsZero (w a) → ¬ Inf a := fun z q => zero_not_inf ok_double z (ha.2.1.mp q)
      have i2 : IsZero (w b) → ¬ Inf b := fun z q => zero_not_inf ok_double z (hb.2.1.mp q)
      have i3 : IsZero a → ¬ Inf a := zero_not_inf ok_single
      have i4 : IsZero b → ¬ Inf b := zero_not_inf ok_single
      constructor
      · rintro (⟨p, q⟩ | ⟨p, q⟩)
        · exact Or.inl ⟨p, (zb (i2 q)).mp q⟩
        · exact Or.inr ⟨(za (i1 p)).mp p, q⟩
      · rintro (⟨p, q⟩ | ⟨p, q⟩)
        · exact Or.inl ⟨p, (zb (i4 q)).mpr q⟩
        · exact Or.inr ⟨(za (i3 p)).mpr p, q⟩
    simp only [if_neg h1, if_neg h1', same_msb hw na, same_msb hw nb] at hr ⊢
    by_cases h3 : (Inf a ∧ IsZero b) ∨ (IsZero a ∧ Inf b)
    · rw [if_pos h3]; rw [if_pos (h2.mpr h3)] at hr; exact hr
    · rw [if_neg h3]; rw [if_neg (fun q => h3 (h2.mp q))] at hr; simp only [← ha.2.1, ← hb.2.1] at hr
      by_cases h4 : Inf a ∨ Inf b
      · rw [if_pos h4] at hr ⊢; exact hr
      · rw [if_neg h4] at hr ⊢
        have ia : ¬ Inf a := fun q => h4 (Or.inl q)
        have ib : ¬ Inf b := fun q => h4 (Or.inr q)
        have ea := same_val hw na ia
        have eb := same_val hw nb ib
        have hz : val (w a) * val (w b) = 0 ↔ val a * val b = 0 := by
          rw [Int.mul_eq_zero, Int.mul_eq_zero, val_eq_zero, val_eq_zero, val_eq_zero, val_eq_zero,
            za ia, zb ib]
        by_cases h5 : val a * val b = 0
        · rw [if_neg (fun q => q h5)]
          rw [if_neg (fun q => q (hz.mpr h5))] at hr
          exact hr
        · rw [if_pos h5]
          rw [if_pos (fun q => h5 (hz.mp q))] at hr
          refine round_eq unit_pos (Nat.pow_pos unit_pos) ?_ hr
          have : ((unit single ^ 2 : Nat) : Int) = (unit single : Int) * unit single := by
            rw [Nat.pow_two]; push_cast; rfl
          rw [this]
          generalize (unit single : Int) = A at *
          generalize (unit double : Int) = B at *
          have : val (w a) * val (w b) * (A * A) = (val (w a) * A) * (val (w b) * A) := by grind
          rw [this, ea, eb]
          grind

/-- The product of finite numbers is exact. -/
theorem product_value (hw : Exact w) {d : Dir} {a b : F32} {r : F64}
    (na : ¬ NaN a) (nb : ¬ NaN b) (ia : ¬ Inf a) (ib : ¬ Inf b)
    (hr : Meets d (FpFma.Spec.mul (w a) (w b)) r) :
    ¬ NaN r ∧ ¬ Inf r ∧ r.msb = (a.msb ^^ b.msb) ∧
      val r * (unit single ^ 2 : Nat) = val a * val b * unit double := by
  have h := mul_meets hw d a b r hr
  unfold Spec.mul at h
  simp only [na, nb, ia, ib, or_self, false_and, and_false, if_false] at h
  by_cases h5 : val a * val b = 0
  · simp only [h5, ne_eq, not_true_eq_false, if_false] at h
    obtain ⟨h6, h7⟩ := h
    refine ⟨zero_not_nan h6, zero_not_inf ok_double h6, h7, ?_⟩
    rw [val_eq_zero.mpr h6, h5, Int.zero_mul, Int.zero_mul]
  · rw [if_pos h5] at h
    obtain ⟨p, hp, e⟩ := product_exact na ia nb ib
    have he : scaled double p * unit single ^ 2 =
        (val a * val b * (unit double : Int)).natAbs := by
      rw [e, Int.natAbs_mul (val a * val b), Int.natAbs_natCast]
    obtain ⟨q1, q2⟩ := round_exact (Nat.pow_pos unit_pos) hp he h
    have p2 : (0 : Int) < unit double := by have := unit_pos (f := double); omega
    have hva : val a ≠ 0 := fun z => h5 (by rw [z, Int.zero_mul])
    have hvb : val b ≠ 0 := fun z => h5 (by rw [z, Int.mul_zero])
    have hsign : decide (val a * val b * (unit double : Int) < 0) = (a.msb ^^ b.msb) := by
      rw [← val_neg_iff hva, ← val_neg_iff hvb]
      have e1 : (val a * val b * (unit double : Int) < 0) ↔ val a * val b < 0 :=
        ⟨fun q => Int.lt_of_not_ge fun g =>
          absurd (Int.mul_nonneg g (Int.le_of_lt p2)) (by omega),
          fun q => Int.mul_neg_of_neg_of_pos q p2⟩
      rw [show decide (val a * val b * (unit double : Int) < 0) = decide (val a * val b < 0) from
        decide_eq_decide.mpr e1]
      rcases Int.lt_or_gt_of_ne hva with x | x <;> rcases Int.lt_or_gt_of_ne hvb with y | y
      · have := Int.mul_pos_of_neg_of_neg x y
        simp [x, y]; omega
      · have := Int.mul_neg_of_neg_of_pos x y
        have : ¬ val b < 0 := by omega
        simp [*]
      · have := Int.mul_neg_of_pos_of_neg x y
        have : ¬ val a < 0 := by omega
        simp [*]
      · have := Int.mul_pos x y
        have h1 : ¬ val b < 0 := by omega
        have h2 : ¬ val a < 0 := by omega
        simp [h1, h2]; omega
    refine ⟨?_, ?_, by rw [q2, hsign], ?_⟩
    · unfold NaN; rw [q1]; omega
    · unfold Inf; rw [q1]; omega
    · unfold val at *
      rw [q1, q2]
      generalize hX : (if a.msb = true then -(scaled single (pat a) : Int) else scaled single (pat a)) *
        (if b.msb = true then -(scaled single (pat b) : Int) else scaled single (pat b)) *
        (unit double : Int) = X at *
      by_cases hx : X < 0
      · simp only [hx, decide_true, if_true, Int.neg_mul]
        have : ((scaled double p * unit single ^ 2 : Nat) : Int) = -X := by rw [he]; omega
        push_cast at this ⊢
        omega
      · simp only [hx, decide_false, Bool.false_eq_true, if_false]
        have : ((scaled double p * unit single ^ 2 : Nat) : Int) = X := by rw [he]; omega
        push_cast at this ⊢
        exact this

/-- The sum of a product of widened numbers, negated or not, and a third number. -/
theorem fma_meets (hw : Exact w) (d : Dir) (np nc : Bool) (a b : F32) (c p r : F64)
    (hp : Meets d (FpFma.Spec.mul (w a) (w b)) p)
    (hr : Meets d (FpArith.Spec.add d nc (if np then neg p else p) c) r) :
    Meets d (Spec.fma d np nc a b c) r := by
  have hm := mul_meets hw d a b p hp
  unfold FpArith.Spec.add at hr
  unfold Spec.fma
  unfold Spec.mul at hm
  have hnan : NaN (if np then neg p else p) ↔ NaN p := by cases np <;> simp [neg_nan]
  have hinf : Inf (if np then neg p else p) ↔ Inf p := by cases np <;> simp [neg_inf]
  have hmsb : (if np then neg p else p).msb = (np ^^ p.msb) := by cases np <;> simp [neg_msb]
  have hval : val (if np then neg p else p) = neg? np (val p) := by
    cases np <;> simp [neg_val, neg?]
  simp only [hnan, hinf, hmsb, hval] at hr
  by_cases h1 : NaN a ∨ NaN b
  · rw [if_pos h1] at hm
    have : NaN a ∨ NaN b ∨ NaN c := h1.elim Or.inl (fun q => Or.inr (Or.inl q))
    rw [if_pos this]
    rw [if_pos (Or.inl (show NaN p from hm))] at hr
    exact hr
  · rw [if_neg h1] at hm
    have na : ¬ NaN a := fun q => h1 (Or.inl q)
    have nb : ¬ NaN b := fun q => h1 (Or.inr q)
    simp only [na, nb, false_or]
    by_cases hc : NaN c
    · rw [if_pos hc]
      rw [if_pos (Or.inr hc)] at hr
      exact hr
    · rw [if_neg hc]
      by_cases h2 : (Inf a ∧ IsZero b) ∨ (IsZero a ∧ Inf b)
      · rw [if_pos h2] at hm ⊢
        rw [if_pos (Or.inl (show NaN p from hm))] at hr
        exact hr
      · rw [if_neg h2] at hm ⊢
        by_cases h3 : Inf a ∨ Inf b
        · rw [if_pos h3] at hm ⊢
          obtain ⟨i, s⟩ := hm
          rw [if_neg (fun q => q.elim (inf_not_nan i) hc), if_pos i, s] at hr
          by_cases h4 : Inf c ∧ (nc ^^ c.msb) ≠ (np ^^ (a.msb ^^ b.msb))
          · rw [if_pos h4]
            rw [if_pos ⟨h4.1, fun q => h4.2 q.symm⟩] at hr
            exact hr
          · rw [if_neg h4]
            rw [if_neg (fun q => h4 ⟨q.1, fun z => q.2 z.symm⟩)] at hr
            exact hr
        · rw [if_neg h3]
          have ia : ¬ Inf a := fun q => h3 (Or.inl q)
          have ib : ¬ Inf b := fun q => h3 (Or.inr q)
          obtain ⟨v1, v2, v3, v4⟩ := product_value hw na nb ia ib hp
          rw [if_neg (fun q => q.elim v1 hc), if_neg v2, v3] at hr
          by_cases h4 : Inf c
          · rw [if_pos h4] at hr ⊢; exact hr
          · rw [if_neg h4] at hr ⊢
            have hn : (neg? np (val p) + neg? nc (val c)) * ((unit single ^ 2 : Nat) : Int) =
                neg? np (val a * val b) * unit double + neg? nc (val c) * (unit single ^ 2 : Nat) := by
              rw [Int.add_mul, neg?_mul, v4, neg?_mul (x := val a * val b)]
            have p1 : ((unit single ^ 2 : Nat) : Int) ≠ 0 := by
              have := Nat.pow_pos (n := 2) (unit_pos (f := single)); omega
            by_cases h5 : neg? np (val p) + neg? nc (val c) = 0
            · rw [if_neg (fun q => q h5)] at hr
              rw [if_neg (fun q => q (by rw [← hn, h5, Int.zero_mul]))]
              exact hr
            · rw [if_pos h5] at hr
              rw [if_pos (fun q => by
                rw [← hn] at q
                rcases Int.mul_eq_zero.mp q with z | z
                · exact h5 z
                · exact p1 z)]
              exact round_eq Nat.one_pos (Nat.pow_pos unit_pos) (by rw [hn]; simp) hr

/-! ### C80 -/

/-- C80 (sums and products): the widening sums, differences and products are the exact
results rounded once to double precision, in every rounding direction. -/
theorem C80_binary_partial (ih : FpArith.Ieee h) (hw : Exact w) (d : Dir) (a b : F32) (c : F64) :
    Meets d (Spec.add d false a b) (vfwadd h w d a b) ∧
    Meets d (Spec.add d true a b) (vfwsub h w d a b) ∧
    Meets d (Spec.addw d false c b) (vfwaddw h w d c b) ∧
    Meets d (Spec.addw d true c b) (vfwsubw h w d c b) ∧
    Meets d (Spec.mul a b) (vfwmul h w d a b) :=
  ⟨add_meets hw d false a b _ (ih.add d _ _), add_meets hw d true a b _ (ih.sub d _ _),
    addw_meets hw d false c b _ (ih.add d _ _), addw_meets hw d true c b _ (ih.sub d _ _),
    mul_meets hw d a b _ (ih.fma.mul d _ _)⟩

/-- C80 (multiply-add): although product and sum are two operations of the host, the
widening multiply-adds round once: the product is always a double precision number. -/
theorem C80_fma_partial (ih : FpArith.Ieee h) (hw : Exact w) (d : Dir) (vs2 vs1 : F32) (vd : F64) :
    Meets d (Spec.fma d false false vs1 vs2 vd) (vfwmacc h w d vs2 vs1 vd) ∧
    Meets d (Spec.fma d true true vs1 vs2 vd) (vfwnmacc h w d vs2 vs1 vd) ∧
    Meets d (Spec.fma d false true vs1 vs2 vd) (vfwmsac h w d vs2 vs1 vd) ∧
    Meets d (Spec.fma d true false vs1 vs2 vd) (vfwnmsac h w d vs2 vs1 vd) :=
  ⟨fma_meets hw d false false vs1 vs2 vd _ _ (ih.fma.mul d _ _) (ih.add d _ _),
    fma_meets hw d true true vs1 vs2 vd _ _ (ih.fma.mul d _ _) (ih.sub d _ _),
    fma_meets hw d false true vs1 vs2 vd _ _ (ih.fma.mul d _ _) (ih.sub d _ _),
    fma_meets hw d true false vs1 vs2 vd _ _ (ih.fma.mul d _ _) (ih.add d _ _)⟩

/-- C80 (products): the widening product of finite numbers is exact, so it never raises the
inexact, overflow or underflow flag, and the flags of a widening multiply-add are those of
its sum. -/
theorem C80_product (ih : FpArith.Ieee h) (hw : Exact w) (d : Dir) (a b : F32)
    (ha : ¬ NaN a ∧ ¬ Inf a) (hb : ¬ NaN b ∧ ¬ Inf b) :
    val (vfwmul h w d a b) * (unit single ^ 2 : Nat) = val a * val b * unit double ∧
      ¬ Inf (vfwmul h w d a b) := by
  obtain ⟨_, h2, _, h4⟩ := product_value hw ha.1 hb.1 ha.2 hb.2 (ih.fma.mul d (w a) (w b))
  exact ⟨h4, h2⟩

/-- C80, NaNs: on a host that returns its first NaN operand (if quiet), as IEEE 754
recommends, a widening sum is not the canonical NaN RISC-V prescribes. -/
theorem C80_nan_violated (d : Dir) (vs2 : F64) (vs1 : F32)
    (hp : ∀ x y : F64, isQNaN x = true → h.add d x y = x) (hq : isQNaN vs2 = true)
    (hc : vs2 ≠ canonicalNaN double) :
    NaN (vfwaddw h w d vs2 vs1) ∧ vfwaddw h w d vs2 vs1 ≠ canonicalNaN double :=
  FpArith.C75_vector_violated h d vs2 (w vs1) hp hq hc

/-- The largest single precision number and 2^-149 are finite. -/
example : ¬ NaN (f := single) (0x7f7fffff#32) ∧ ¬ Inf (f := single) (0x7f7fffff#32) ∧
    val (f := single) (1#32) = 1 :=
  ⟨by unfold NaN; decide +kernel, by unfold Inf; decide +kernel, by decide +kernel⟩

end Verif.VecWiden
