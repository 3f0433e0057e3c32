import Verif.FpCvt.Model
import Verif.FpCvt.Spec
import Verif.HalfArith.Cut

/-!
# C82
-/

namespace Verif.FpCvt

open Verif.Fp Verif.FpHost.Spec Verif.FpFma.Spec Verif.FpFma
open Verif.VecWiden (val_natAbs val_neg_iff finite_lt round_eq round_exact representable)
open Verif.VecWiden.Spec (Same)
open Verif.HalfArith (grid scaled_le_iff scaled_lt_iff)

/-- A host whose conversions are as IEEE 754 requires. -/
structure Ieee (h : Host) : Prop where
  narrow : ∀ d a, Meets d (Spec.converted single a) (h.narrow d a)
  widen : ∀ a, Same a (h.widen a)
  toSingle : ∀ d (n : Int), n.natAbs ≤ 2 ^ 64 → Meets d (Spec.ofInt single n) (h.toSingle d n)
  toDouble : ∀ d (n : Int), n.natAbs ≤ 2 ^ 64 → Meets d (Spec.ofInt double n) (h.toDouble d n)

variable {h : Host}

theorem unary_eq {f : Fmt} {r : BitVec f.bits} (hn : NaN r → r.msb = false) : unary r = r := by
  unfold unary
  rw [isNaN_eq]
  by_cases q : NaN r
  · simp [hn q]
  · simp [q]

/-- **C82**: fcvt.s.d. -/
theorem C82_narrow (ie : Ieee h) (d : Dir) (a : F64) :
    Meets d (Spec.converted single a) (fcvtSD h d a) ∧
      (NaN (fcvtSD h d a) → fcvtSD h d a = canonicalNaN single) := by
  unfold fcvtSD
  rw [isNaN_eq]
  by_cases ha : NaN a
  · simp only [ha, decide_true, if_true]
    rw [unary_eq (fun _ => by decide)]
    refine ⟨?_, fun _ => rfl⟩
    unfold Spec.converted
    rw [if_pos ha]
    exact canonical_nan ok_single
  · simp only [ha, decide_false, Bool.false_eq_true, if_false]
    have hm := ie.narrow d a
    have hn : ¬ NaN (h.narrow d a) := not_nan_of_meets hm (by
      unfold Spec.converted
      rw [if_neg ha]
      split
      · exact fun q => by cases q
      · split <;> exact fun q => by cases q)
    rw [unary_eq (fun q => absurd q hn)]
    exact ⟨hm, fun q => absurd q hn⟩

/-- **C82**: fcvt.d.s. -/
theorem C82_widen (ie : Ieee h) (a : F32) :
    Same a (fcvtDS h a) ∧ (NaN (fcvtDS h a) → fcvtDS h a = canonicalNaN double) := by
  unfold fcvtDS
  rw [isNaN_eq]
  by_cases ha : NaN a
  · simp only [ha, decide_true, if_true]
    refine ⟨⟨⟨fun _ => canonical_nan ok_double, fun _ => ha⟩, ⟨fun q => absurd ha (inf_not_nan q), fun q =>
      absurd (canonical_nan ok_double) (inf_not_nan q)⟩, fun q => absurd ha q⟩, fun _ => trivial⟩
  · simp only [ha, decide_false, Bool.false_eq_true, if_false]
    exact ⟨ie.widen a, fun q => absurd ((ie.widen a).1.mpr q) ha⟩

theorem int_not_nan {g : Fmt} {d : Dir} {n : Int} {r : BitVec g.bits} (hm : Meets d (Spec.ofInt g n) r) :
    ¬ NaN r := not_nan_of_meets hm (by unfold Spec.ofInt; split <;> exact fun q => by cases q)

/-- **C82**: integers are rounded once. -/
theorem C82_int (ie : Ieee h) (d : Dir) (n : Int) (hn : n.natAbs ≤ 2 ^ 64) :
    Meets d (Spec.ofInt single n) (fcvtSInt h d n) ∧ Meets d (Spec.ofInt double n) (fcvtDInt h d n) ∧
    Meets d (Spec.ofInt single n) (vfcvtSInt h d n) ∧ Meets d (Spec.ofInt double n) (vfcvtDInt h d n) := by
  have h1 := ie.toSingle d n hn
  have h2 := ie.toDouble d n hn
  refine ⟨?_, h2, h1, h2⟩
  unfold fcvtSInt
  rw [unary_eq (fun q => absurd q (int_not_nan h1))]
  exact h1

/-- Integers with no more bits than the significand are not rounded. -/
theorem int_exact {g : Fmt} {d : Dir} {n : Int} {r : BitVec g.bits} (hn : n.natAbs < 2 ^ (g.s + 1))
    (hb : 2 ^ (g.s + 1) * unit g ≤ scaled g (infPat g)) (hm : Meets d (Spec.ofInt g n) r) :
    ¬ NaN r ∧ ¬ Inf r ∧ val r = n * unit g := by
  unfold Spec.ofInt at hm
  by_cases hz : n = 0
  · rw [if_pos hz] at hm
    subst hz
    obtain ⟨h1, h2⟩ := hm
    have hv : val r = 0 := val_eq_zero.mpr h1
    refine ⟨zero_not_nan h1, ?_, by rw [hv]; simp⟩
    intro q
    unfold IsZero at h1
    unfold Inf at q
    have : 0 < scaled g (infPat g) := Nat.lt_of_lt_of_le (Nat.mul_pos (Nat.two_pow_pos _) VecWiden.unit_pos) hb
    rw [← q, h1, scaled_zero] at this
    omega
  · rw [if_neg hz] at hm
    obtain ⟨p, hp, e⟩ := representable (f := g) n.natAbs (g.bias + g.s - 1) hn
      (Nat.lt_of_lt_of_le (Nat.mul_lt_mul_of_pos_right hn (Nat.two_pow_pos _)) hb)
    have hu : (2 : Nat) ^ (g.bias + g.s - 1) = unit g := rfl
    rw [hu] at e
    have hu0 : (0 : Int) < unit g := by have := VecWiden.unit_pos (f := g); omega
    obtain ⟨h1, h2⟩ := round_exact (p := p) (by decide) hp (by
      rw [Nat.mul_one, e, Int.natAbs_mul, Int.natAbs_natCast]) hm
    refine ⟨by unfold NaN; omega, by unfold Inf; omega, ?_⟩
    unfold val
    rw [h1, e, h2, Int.natCast_mul]
    by_cases hs : n < 0
    · have : n * (unit g : Int) < 0 := Int.mul_neg_of_neg_of_pos hs hu0
      rw [if_pos (by simpa using this), ← Int.neg_mul]
      congr 1
      omega
    · have : ¬ n * (unit g : Int) < 0 := by
        have := Int.mul_nonneg (Int.not_lt.mp hs) (Int.le_of_lt hu0); omega
      rw [if_neg (by simpa using this)]
      congr 1
      omega

/-- **C82**: integers of 32 bits are exactly double precision numbers, those of 16 bits
(and all below 2^24) single precision numbers, whatever the direction. -/
theorem C82_int_exact (ie : Ieee h) (d : Dir) (n : Int) :
    (n.natAbs < 2 ^ 53 → val (fcvtDInt h d n) = n * unit double ∧ val (vfcvtDInt h d n) = n * unit double) ∧
    (n.natAbs < 2 ^ 24 → val (fcvtSInt h d n) = n * unit single ∧ val (vfcvtSInt h d n) = n * unit single) := by
  constructor
  · intro hn
    have := C82_int ie d n (Nat.le_trans (Nat.le_of_lt hn) (by decide))
    exact ⟨(int_exact hn (by decide +kernel) this.2.1).2.2, (int_exact hn (by decide +kernel) this.2.2.2).2.2⟩
  · intro hn
    have := C82_int ie d n (Nat.le_trans (Nat.le_of_lt hn) (by decide))
    exact ⟨(int_exact hn (by decide +kernel) this.1).2.2, (int_exact hn (by decide +kernel) this.2.2.1).2.2⟩

/-- **C82**, vectors: conversions between the formats, except that a NaN need not be
canonical. -/
theorem C82_vector_partial (ie : Ieee h) (d : Dir) (a : F64) (b : F32) :
    Meets d (Spec.converted single a) (vfncvtFF h d a) ∧ Same b (vfwcvtFF h b) :=
  ⟨ie.narrow d a, ie.widen b⟩

/-- **C82** is violated by the vector conversions: on a host that keeps the payload of a
quiet NaN, not every NaN becomes the canonical one. -/
theorem C82_nan_violated (hk : ∀ x y : F32, isQNaN x = true → isQNaN y = true → h.widen x = h.widen y → x = y) :
    ∃ b : F32, NaN b ∧ vfwcvtFF h b ≠ canonicalNaN double := by
  have n1 : NaN (f := single) (0x7fc00000#32) := by unfold NaN; decide +kernel
  have n2 : NaN (f := single) (0x7fc00001#32) := by unfold NaN; decide +kernel
  by_cases e : vfwcvtFF h (0x7fc00000#32) = canonicalNaN double
  · refine ⟨0x7fc00001#32, n2, fun q => ?_⟩
    have := hk _ _ (by decide +kernel) (by decide +kernel) (e.trans q.symm)
    exact absurd (congrArg BitVec.toNat this) (by decide)
  · exact ⟨_, n1, e⟩

/-! ### Rounding to odd -/

theorem or_one (u : F32) :
    pat (u ||| 1) = 2 * (pat u / 2) + 1 ∧ (u ||| 1 : F32).msb = u.msb := by
  constructor
  · unfold pat
    have e : (u ||| 1 : F32).toNat = u.toNat ||| 1 := BitVec.toNat_or ..
    rw [e]
    have h1 : (u.toNat ||| 1) / 2 = u.toNat / 2 := by rw [Nat.or_div_two]; simp
    have h2 : (u.toNat ||| 1) % 2 = 1 := Nat.or_mod_two_eq_one.mpr (Or.inr rfl)
    have h3 : (2 : Nat) ^ (single.e + single.s) = 2147483648 := by decide
    rw [h3]
    omega
  · rw [BitVec.msb_or]
    have : (1 : F32).msb = false := by decide
    rw [this, Bool.or_false]

theorem or_zero (u : F32) : (u ||| 0 : F32) = u := BitVec.or_zero ..

theorem inRange_pat {a : F64} (hr : Spec.InRange a) : 897 * 2 ^ 52 ≤ pat a ∧ pat a < 1151 * 2 ^ 52 := by
  obtain ⟨h1, h2⟩ := hr
  constructor
  · rcases Nat.lt_or_ge (pat a) (897 * 2 ^ 52) with q | q
    · have h3 : scaled double (pat a) < scaled double (897 * 2 ^ 52) := scaled_lt q
      have h4 : scaled double (897 * 2 ^ 52) * 2 ^ 126 = unit double := by decide +kernel
      have h5 : scaled double (pat a) * 2 ^ 126 < scaled double (897 * 2 ^ 52) * 2 ^ 126 :=
        Nat.mul_lt_mul_of_pos_right h3 (Nat.two_pow_pos _)
      omega
    · exact q
  · have h4 : scaled double (1151 * 2 ^ 52) = 2 ^ 128 * unit double := by decide +kernel
    rw [← h4] at h2
    exact scaled_lt_iff.mp h2

/-- The neighbours of a number in the normal range. -/
theorem normal_floor {a : F64} (hr : Spec.InRange a) :
    ∃ p z W, p + 1 ≤ infPat single ∧ 0 < W ∧
      scaled double (pat a) * unit single = (2 ^ 52 + pat a % 2 ^ 52) * W ∧
      scaled single p * unit double = z * 2 ^ 29 * W ∧
      scaled single (p + 1) * unit double = (z + 1) * 2 ^ 29 * W ∧
      z = 2 ^ 23 + pat a % 2 ^ 52 / 2 ^ 29 := by
  obtain ⟨h1, h2⟩ := inRange_pat hr
  have hf : pat a % 2 ^ 52 < 2 ^ 52 := Nat.mod_lt _ (by decide)
  have hE : 897 ≤ pat a / 2 ^ 52 ∧ pat a / 2 ^ 52 ≤ 1150 := by omega
  have hsc : scaled double (pat a) = (2 ^ 52 + pat a % 2 ^ 52) * 2 ^ (pat a / 2 ^ 52 - 1) := by
    have hs : 2 ^ double.s = 2 ^ 52 := rfl
    unfold scaled
    rw [hs, if_neg (by omega)]
  generalize pat a % 2 ^ 52 = m at *
  generalize pat a / 2 ^ 52 = E at *
  have hs : 2 ^ single.s = 2 ^ 23 := rfl
  have hz1 : m / 2 ^ 29 < 2 ^ 23 := by omega
  have g1 := grid (f := single) (E - 897) (2 ^ 23 + m / 2 ^ 29) (by rw [hs]; omega) (by rw [hs]; omega)
  have g2 := grid (f := single) (E - 897) (2 ^ 23 + m / 2 ^ 29 + 1) (by rw [hs]; omega) (by rw [hs]; omega)
  have hi : infPat single = 255 * 2 ^ 23 := by decide
  rw [hs] at g1 g2
  have u1 : unit single = 2 ^ 149 := by decide +kernel
  have u2 : unit double = 2 ^ 29 * (2 ^ 896 * 2 ^ 149) := by decide +kernel
  have e1 : (2 : Nat) ^ (E - 1) = 2 ^ (E - 897) * 2 ^ 896 := by
    rw [show E - 1 = (E - 897) + 896 from by omega, Nat.pow_add]
  refine ⟨(E - 897) * 2 ^ 23 + (2 ^ 23 + m / 2 ^ 29), 2 ^ 23 + m / 2 ^ 29, 2 ^ (E - 897) * (2 ^ 896 * 2 ^ 149),
    by omega, Nat.mul_pos (Nat.two_pow_pos _) (Nat.mul_pos (Nat.two_pow_pos _) (Nat.two_pow_pos _)), ?_, ?_, ?_, rfl⟩
  · rw [hsc, u1, e1]
    generalize (2 : Nat) ^ (E - 897) = T
    generalize (2 : Nat) ^ 896 = A
    generalize (2 : Nat) ^ 149 = B
    grind
  · rw [g1, u2]
    generalize (2 : Nat) ^ (E - 897) = T
    generalize (2 : Nat) ^ 896 = A
    generalize (2 : Nat) ^ 149 = B
    generalize 2 ^ 23 + m / 2 ^ 29 = z
    grind
  · rw [Nat.add_assoc, g2, u2]
    generalize (2 : Nat) ^ (E - 897) = T
    generalize (2 : Nat) ^ 896 = A
    generalize (2 : Nat) ^ 149 = B
    generalize 2 ^ 23 + m / 2 ^ 29 = z
    grind

theorem converted_round {a : F64} (h1 : ¬ NaN a) (h2 : ¬ Inf a) (h3 : ¬ IsZero a) :
    Spec.converted single a = .round (val a * unit single) (unit double) := by
  unfold Spec.converted
  rw [if_neg h1, if_neg h2, if_neg h3]

theorem round_facts {d : Dir} {a : F64} {r : F32} (h1 : ¬ NaN a) (h2 : ¬ Inf a) (h3 : ¬ IsZero a)
    (hm : Meets d (Spec.converted single a) r) :
    r.msb = a.msb ∧ ∃ p, Floor single p (scaled double (pat a) * unit single) (unit double) ∧
      pat r = roundPat single (mode d a.msb) p (scaled double (pat a) * unit single) (unit double) := by
  rw [converted_round h1 h2 h3] at hm
  have hv : val a ≠ 0 := fun q => h3 (val_eq_zero.mp q)
  have hu : (0 : Int) < unit single := by have := VecWiden.unit_pos (f := single); omega
  have hs : decide (val a * (unit single : Int) < 0) = a.msb := by
    rw [← val_neg_iff hv]
    congr 1
    exact propext ⟨fun q => Int.lt_of_not_ge fun g => absurd (Int.mul_nonneg g (Int.le_of_lt hu)) (by omega),
      fun q => Int.mul_neg_of_neg_of_pos q hu⟩
  obtain ⟨m1, p, m2, m3⟩ := hm
  rw [hs] at m1 m3
  rw [Int.natAbs_mul, Int.natAbs_natCast, val_natAbs] at m2 m3
  exact ⟨m1, p, m2, m3⟩

/-- The low bits tell whether a number in the normal range is exact. -/
theorem rod_eq {d : Dir} {a : F64} (h1 : ¬ NaN a) (h2 : ¬ Inf a) :
    vfncvtRod h d a = if Inf (h.narrow d a) then h.narrow d a else
      if pat a % 2 ^ 52 % 2 ^ 29 = 0 then h.narrow d a else h.narrow d a ||| 1 := by
  unfold vfncvtRod
  simp only [isNaN_eq, isInf_eq, h1, h2, decide_false, Bool.or_self, Bool.false_eq_true, if_false, decide_eq_true_eq]
  have e : a.toNat % 2 ^ (double.s - single.s) = pat a % 2 ^ 52 % 2 ^ 29 := by
    unfold pat
    have e1 : double.s - single.s = 29 := by decide
    have e2 : double.e + double.s = 63 := by decide
    rw [e1, e2]
    omega
  rw [e]
  by_cases hi : Inf (h.narrow d a)
  · rw [if_pos hi, if_pos hi]
  · rw [if_neg hi, if_neg hi]
    by_cases hz : pat a % 2 ^ 52 % 2 ^ 29 = 0
    · rw [if_neg (by simpa using hz), if_pos hz, or_zero]
    · rw [if_pos hz, if_neg hz]

theorem inRange_finite {a : F64} (hr : Spec.InRange a) : ¬ NaN a ∧ ¬ Inf a ∧ ¬ IsZero a := by
  obtain ⟨h1, h2⟩ := inRange_pat hr
  have hi : infPat double = 2047 * 2 ^ 52 := by decide
  unfold NaN Inf IsZero
  omega

/-- What the instruction does with a number in the normal range, given its neighbours. -/
theorem rod_normal (ie : Ieee h) (d : Dir) {a : F64} (hr : Spec.InRange a) :
    ∃ p, p + 1 ≤ infPat single ∧ Floor single p (scaled double (pat a) * unit single) (unit double) ∧
      (vfncvtRod h d a).msb = a.msb ∧
      (scaled single p * unit double = scaled double (pat a) * unit single → pat (vfncvtRod h d a) = p) ∧
      (scaled single p * unit double ≠ scaled double (pat a) * unit single →
        pat (vfncvtRod h d a) =
          let q := roundPat single (mode d a.msb) p (scaled double (pat a) * unit single) (unit double)
          if q = infPat single then q else 2 * (q / 2) + 1) := by
  obtain ⟨n1, n2, n3⟩ := inRange_finite hr
  obtain ⟨p, z, W, h1, hW, e1, e2, e3, ez⟩ := normal_floor hr
  have hf : pat a % 2 ^ 52 < 2 ^ 52 := Nat.mod_lt _ (by decide)
  have hdm := Nat.div_add_mod (pat a % 2 ^ 52) (2 ^ 29)
  have hF : Floor single p (scaled double (pat a) * unit single) (unit double) := by
    refine ⟨by omega, ?_, fun _ => ?_⟩
    · rw [e1, e2]; exact Nat.mul_le_mul_right _ (by omega)
    · rw [e1, e3]
      have hmod := Nat.mod_lt (pat a % 2 ^ 52) (show 0 < 2 ^ 29 by decide)
      exact Nat.mul_lt_mul_of_pos_right (by omega) hW
  have hex : scaled single p * unit double = scaled double (pat a) * unit single ↔ pat a % 2 ^ 52 % 2 ^ 29 = 0 := by
    rw [e1, e2]
    constructor
    · intro q
      have := Nat.eq_of_mul_eq_mul_right hW q
      omega
    · intro q
      rw [show z * 2 ^ 29 = 2 ^ 52 + pat a % 2 ^ 52 from by omega]
  obtain ⟨m1, p', m2, m3⟩ := round_facts n1 n2 n3 (ie.narrow d a)
  have := floor_unique m2 hF
  subst this
  rw [rod_eq n1 n2]
  refine ⟨p', h1, hF, ?_, ?_, ?_⟩
  · split
    · exact m1
    · split
      · exact m1
      · rw [(or_one _).2]; exact m1
  · intro q
    have hne : p' ≠ infPat single := by omega
    have e4 : pat (h.narrow d a) = p' := by
      rw [m3]
      have hlt : 2 * (scaled double (pat a) * unit single) < (scaled single p' + scaled single (p' + 1)) * unit double := by
        have := hF.2.2 hne
        rw [Nat.add_mul, q]
        omega
      unfold roundPat
      cases mode d a.msb <;> simp [hne, hlt, q]
    rw [if_neg (fun g : Inf _ => hne (e4.symm.trans g)), if_pos (hex.mp q)]
    exact e4
  · intro q
    dsimp only
    rw [← m3]
    by_cases hi : Inf (h.narrow d a)
    · rw [if_pos hi, if_pos (show pat (h.narrow d a) = infPat single from hi)]
    · rw [if_neg hi, if_neg (show ¬ pat (h.narrow d a) = infPat single from hi),
        if_neg (fun g => q (hex.mpr g))]
      exact (or_one _).1

theorem roundedToOdd_iff {a : F64} {r : F32} {p : Nat} (hr : Spec.InRange a)
    (hF : Floor single p (scaled double (pat a) * unit single) (unit double)) :
    Spec.RoundedToOdd a r ↔ r.msb = a.msb ∧
      pat r = Spec.oddPat single p (scaled double (pat a) * unit single) (unit double) := by
  obtain ⟨n1, n2, n3⟩ := inRange_finite hr
  unfold Spec.RoundedToOdd
  rw [if_neg n1, if_neg n2]
  constructor
  · rintro ⟨g1, p', g2, g3⟩
    rw [floor_unique g2 hF] at g3
    exact ⟨g1, g3⟩
  · rintro ⟨g1, g2⟩
    exact ⟨g1, p, hF, g2⟩

/-- **C82**, vfncvt.rod.f.f, in the range of normal numbers: the result is right if
the host happens to round toward zero, and if it rounds to nearest, for numbers whose
lower neighbour is even and those nearer to it. -/
theorem C82_rod_partial (ie : Ieee h) (d : Dir) {a : F64} (hr : Spec.InRange a) {p : Nat}
    (hF : Floor single p (scaled double (pat a) * unit single) (unit double))
    (hd : d = .towardZero ∨
      (d = .nearestEven ∧ (p % 2 = 0 ∨
        2 * (scaled double (pat a) * unit single) < (scaled single p + scaled single (p + 1)) * unit double))) :
    Spec.RoundedToOdd a (vfncvtRod h d a) := by
  obtain ⟨p', h1, hF', h2, h3, h4⟩ := rod_normal ie d hr
  have := floor_unique hF' hF
  subst this
  rw [roundedToOdd_iff hr hF]
  refine ⟨h2, ?_⟩
  have hne : p' ≠ infPat single := by omega
  have hi : infPat single = 255 * 2 ^ 23 := by decide
  unfold Spec.oddPat
  rw [if_neg hne]
  by_cases he : scaled single p' * unit double = scaled double (pat a) * unit single
  · rw [if_pos he]; exact h3 he
  · rw [if_neg he, h4 he]
    dsimp only
    rcases hd with hd | ⟨hd, hd'⟩
    · subst hd
      have : roundPat single (mode .towardZero a.msb) p' (scaled double (pat a) * unit single) (unit double) = p' := by
        simp [mode, roundPat, hne]
      rw [this, if_neg hne]
      split <;> omega
    · subst hd
      generalize hq : roundPat single (mode .nearestEven a.msb) p' (scaled double (pat a) * unit single) (unit double) = q
      simp only [mode, roundPat, hne, if_false] at hq
      split at hq
      · subst hq
        rw [if_neg hne]
        split <;> omega
      · rename_i g
        have : p' % 2 = 0 := hd'.resolve_right g
        have hq' : q = p' ∨ q = p' + 1 := by
          repeat' split at hq
          all_goals omega
        rcases hq' with e | e
        · rw [e, if_neg hne]; split <;> omega
        · rw [e, if_neg (by omega)]; split <;> omega

/-- **C82** is violated by vfncvt.rod.f.f: with the host rounding to nearest, every number
of the normal range whose lower neighbour is odd and which is not nearer to it is
rounded to the second number above (or infinity) instead of to that neighbour. -/
theorem C82_rod_violated (ie : Ieee h) {a : F64} (hr : Spec.InRange a) {p : Nat}
    (hF : Floor single p (scaled double (pat a) * unit single) (unit double)) (hp : p % 2 = 1)
    (hu : (scaled single p + scaled single (p + 1)) * unit double ≤ 2 * (scaled double (pat a) * unit single)) :
    (p + 1 < infPat single → pat (vfncvtRod h .nearestEven a) = p + 2) ∧
    ¬ Spec.RoundedToOdd a (vfncvtRod h .nearestEven a) := by
  obtain ⟨p', h1, hF', h2, h3, h4⟩ := rod_normal ie .nearestEven hr
  have := floor_unique hF' hF
  subst this
  have hne : p' ≠ infPat single := by omega
  have he : scaled single p' * unit double ≠ scaled double (pat a) * unit single := by
    intro q
    have h5 : scaled single p' * unit double < scaled single (p' + 1) * unit double :=
      Nat.mul_lt_mul_of_pos_right (scaled_succ p') VecWiden.unit_pos
    rw [Nat.add_mul] at hu
    omega
  have hq : roundPat single (mode .nearestEven a.msb) p' (scaled double (pat a) * unit single) (unit double) = p' + 1 := by
    simp only [mode, roundPat, hne, if_false]
    rw [if_neg (Nat.not_lt.mpr hu)]
    split
    · rfl
    · rw [if_neg (by omega)]
  have e := h4 he
  rw [hq] at e
  dsimp only at e
  constructor
  · intro g
    rw [if_neg (by omega)] at e
    omega
  · rw [roundedToOdd_iff hr hF]
    rintro ⟨_, g⟩
    unfold Spec.oddPat at g
    rw [if_neg hne, if_neg he, if_pos hp, e] at g
    split at g <;> omega

/-- **C82** is violated by vfncvt.rod.f.f for large numbers: with the host rounding to
nearest, numbers of 2^128 and more give infinity instead of the largest number. -/
theorem C82_rod_overflow_violated (ie : Ieee h) {a : F64} (h1 : ¬ NaN a) (h2 : ¬ Inf a)
    (hb : 2 ^ 128 * unit double ≤ scaled double (pat a)) :
    Inf (vfncvtRod h .nearestEven a) ∧ ¬ Spec.RoundedToOdd a (vfncvtRod h .nearestEven a) := by
  have h3 : ¬ IsZero a := by
    intro q
    rw [q, scaled_zero] at hb
    have : 0 < 2 ^ 128 * unit double := Nat.mul_pos (Nat.two_pow_pos _) VecWiden.unit_pos
    omega
  have hi : scaled single (infPat single) = 2 ^ 128 * unit single := by decide +kernel
  have hF : Floor single (infPat single) (scaled double (pat a) * unit single) (unit double) := by
    refine ⟨Nat.le_refl _, ?_, fun q => absurd rfl q⟩
    rw [hi, Nat.mul_right_comm]
    exact Nat.mul_le_mul_right _ hb
  obtain ⟨m1, p, m2, m3⟩ := round_facts h1 h2 h3 (ie.narrow .nearestEven a)
  rw [floor_unique m2 hF] at m3
  simp only [mode, roundPat, if_true] at m3
  have e : vfncvtRod h .nearestEven a = h.narrow .nearestEven a := by
    rw [rod_eq h1 h2, if_pos (show Inf _ from m3)]
  rw [e]
  refine ⟨m3, ?_⟩
  unfold Spec.RoundedToOdd
  rw [if_neg h1, if_neg h2]
  rintro ⟨_, p', g1, g2⟩
  rw [floor_unique g1 hF] at g2
  unfold Spec.oddPat at g2
  rw [if_pos rfl, m3] at g2
  have : infPat single = 255 * 2 ^ 23 := by decide
  omega

/-- **C82**: NaNs, infinities and zeros. -/
theorem C82_rod_special (ie : Ieee h) (d : Dir) {a : F64} (hs : NaN a ∨ Inf a ∨ IsZero a) :
    Spec.RoundedToOdd a (vfncvtRod h d a) := by
  have hm := ie.narrow d a
  unfold Spec.converted at hm
  by_cases h1 : NaN a
  · rw [if_pos h1] at hm
    unfold Spec.RoundedToOdd vfncvtRod
    rw [if_pos h1, isNaN_eq]
    simp only [h1, decide_true, Bool.true_or, if_true]
    exact hm
  rw [if_neg h1] at hm
  by_cases h2 : Inf a
  · rw [if_pos h2] at hm
    unfold Spec.RoundedToOdd vfncvtRod
    rw [if_neg h1, if_pos h2, isInf_eq (f := double)]
    simp only [h2, decide_true, Bool.or_true, if_true]
    exact hm
  rw [if_neg h2] at hm
  have h3 : IsZero a := (hs.resolve_left h1).resolve_left h2
  rw [if_pos h3] at hm
  have e : vfncvtRod h d a = h.narrow d a := by
    rw [rod_eq h1 h2, if_neg (zero_not_inf ok_single hm.1), if_pos (by rw [show pat a = 0 from h3])]
  rw [e]
  unfold Spec.RoundedToOdd
  rw [if_neg h1, if_neg h2, show pat a = 0 from h3, scaled_zero, Nat.zero_mul]
  refine ⟨hm.2, 0, ⟨Nat.zero_le _, by rw [scaled_zero, Nat.zero_mul]; exact Nat.le_refl _, fun _ => ?_⟩, ?_⟩
  · exact Nat.mul_pos (by decide) VecWiden.unit_pos
  · rw [show pat _ = 0 from hm.1]
    unfold Spec.oddPat
    rw [if_neg (by decide), if_pos (by rw [scaled_zero, Nat.zero_mul])]

/-- **C82** is violated by vfncvt.rod.f.f for small numbers: 1.5 × 2^-149 lies between the
numbers with patterns 1 and 2 and gives 2. -/
theorem C82_rod_tiny_violated (ie : Ieee h) :
    pat (vfncvtRod h .nearestEven (0x36a8000000000000#64)) = 2 ∧
    ¬ Spec.RoundedToOdd (f := double) (0x36a8000000000000#64)
      (vfncvtRod h .nearestEven (0x36a8000000000000#64)) := by
  have h1 : ¬ NaN (f := double) (0x36a8000000000000#64) := by unfold NaN; decide +kernel
  have h2 : ¬ Inf (f := double) (0x36a8000000000000#64) := by unfold Inf; decide +kernel
  have h3 : ¬ IsZero (f := double) (0x36a8000000000000#64) := by unfold IsZero; decide +kernel
  have hF : Floor single 1 (scaled double (pat (f := double) (0x36a8000000000000#64)) * unit single) (unit double) := by
    unfold Floor; decide +kernel
  obtain ⟨m1, p, m2, m3⟩ := round_facts h1 h2 h3 (ie.narrow .nearestEven _)
  rw [floor_unique m2 hF] at m3
  replace m3 : pat (h.narrow .nearestEven (0x36a8000000000000#64)) = 2 := m3.trans (by decide +kernel)
  have e : vfncvtRod h .nearestEven (0x36a8000000000000#64) = h.narrow .nearestEven (0x36a8000000000000#64) := by
    have hi : ¬ Inf (h.narrow .nearestEven (0x36a8000000000000#64)) := by
      unfold Inf; rw [m3]; decide
    rw [rod_eq h1 h2, if_neg hi, if_pos (by decide +kernel)]
  rw [e]
  refine ⟨m3, ?_⟩
  unfold Spec.RoundedToOdd
  rw [if_neg h1, if_neg h2]
  rintro ⟨_, p', g1, g2⟩
  rw [floor_unique g1 hF, m3] at g2
  exact absurd g2 (by decide +kernel)

/-- 1 + 2^-23 + 2^-24 lies halfway between the numbers with patterns 0x3f800001 (odd) and
0x3f800002; 1 + 2^-24 between 0x3f800000 (even) and 0x3f800001. -/
example : Spec.InRange (0x3ff0000030000000#64) ∧
    Floor single 0x3f800001 (scaled double (pat (f := double) (0x3ff0000030000000#64)) * unit single) (unit double) ∧
    (scaled single 0x3f800001 + scaled single 0x3f800002) * unit double ≤
      2 * (scaled double (pat (f := double) (0x3ff0000030000000#64)) * unit single) ∧
    Spec.InRange (0x3ff0000010000000#64) ∧
    Floor single 0x3f800000 (scaled double (pat (f := double) (0x3ff0000010000000#64)) * unit single) (unit double) := by
  unfold Spec.InRange Floor; decide +kernel

/-- 2^128 is a finite number. -/
example : ¬ NaN (f := double) (0x47f0000000000000#64) ∧ ¬ Inf (f := double) (0x47f0000000000000#64) ∧
    2 ^ 128 * unit double ≤ scaled double (pat (f := double) (0x47f0000000000000#64)) := by
  unfold NaN Inf; decide +kernel

example : ∃ h : Host, Ieee h := by
  exact ⟨⟨fun d a => (meets_exists ok_single d (Spec.converted single a)).choose,
    fun u => (VecWiden.widened_exists u).choose,
    fun d n => (meets_exists ok_single d (Spec.ofInt single n)).choose,
    fun d n => (meets_exists ok_double d (Spec.ofInt double n)).choose⟩,
    fun d a => (meets_exists ok_single d _).choose_spec, fun u => (VecWiden.widened_exists u).choose_spec,
    fun d n _ => (meets_exists ok_single d _).choose_spec, fun d n _ => (meets_exists ok_double d _).choose_spec⟩

end Verif.FpCvt
