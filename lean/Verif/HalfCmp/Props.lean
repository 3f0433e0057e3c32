import Verif.HalfCmp.Model
import Verif.HalfCmp.Spec
import Verif.FpClass.Props
import Verif.HalfArith.Props
/-
C108: half-precision comparisons.
-/
namespace Verif.HalfCmp
open Verif.Fp Verif.FpClass.Spec Verif.HalfFp Verif.NaNBox Verif.HalfArith

/-- The order integer is the value in units. -/
theorem scaled_val {f : Fmt} (u : BitVec f.bits) : scaled u = FpFma.Spec.val u := by
  unfold scaled FpFma.Spec.val FpFma.Spec.scaled sign
  simp only [exp_pat, frac_pat]
  by_cases h : FpFma.Spec.pat u / 2 ^ f.s = 0
  · have : FpFma.Spec.pat u % 2 ^ f.s = FpFma.Spec.pat u := by
      apply Nat.mod_eq_of_lt
      exact (Nat.div_eq_zero_iff_lt (Nat.two_pow_pos _)).mp h
    simp only [h, if_true, this]
  · simp only [h, if_false]
    simp [Int.natCast_mul, Int.natCast_pow]

theorem nan_eq {f : Fmt} (u : BitVec f.bits) : FpClass.Spec.NaN u ↔ FpFma.Spec.NaN u := by
  rw [← FpClass.isNaN_iff, FpFma.isNaN_eq, decide_eq_true_iff]

theorem widen_isNaN (u : BitVec half.bits) : isNaN (widen single u).1 = isNaN u := by
  rw [Bool.eq_iff_iff, FpClass.isNaN_iff, FpClass.isNaN_iff, nan_eq, nan_eq]
  exact widen_nan u

/-- The value of an infinity. -/
theorem inf_val {f : Fmt} (u : BitVec f.bits) (h : FpFma.Spec.Inf u) :
    FpFma.Spec.val u = if u.msb then -(FpFma.Spec.scaled f (FpFma.Spec.infPat f) : Int)
      else FpFma.Spec.scaled f (FpFma.Spec.infPat f) := by
  unfold FpFma.Spec.val
  rw [show FpFma.Spec.pat u = FpFma.Spec.infPat f from h]

/-- Widening, on values: a strictly increasing function of the value. -/
def stretch (x : Int) : Int :=
  if x = 2 ^ 40 then 2 ^ 277 else if x = -2 ^ 40 then -2 ^ 277 else x * 2 ^ 125

theorem widen_stretch (u : BitVec half.bits) (h : ¬ FpFma.Spec.NaN u) :
    FpFma.Spec.val (widen single u).1 = stretch (FpFma.Spec.val u)
    ∧ -2 ^ 40 ≤ FpFma.Spec.val u ∧ FpFma.Spec.val u ≤ 2 ^ 40 := by
  by_cases hi : FpFma.Spec.Inf u
  · have hw := inf_val _ ((widen_inf u).mpr hi)
    have hu := inf_val u hi
    rw [widen_msb u h] at hw
    rw [scaled_infPat_single] at hw
    rw [scaled_infPat_half] at hu
    have hk : ((2 ^ 27 * (K * K) : Nat) : Int) = 2 ^ 277 := by decide +kernel
    rw [hk] at hw
    rw [hw, hu]
    unfold stretch
    cases u.msb <;> simp
  · have hl := HalfArith.val_lt h hi
    have hw := widen_val u h hi
    have hk : (K : Int) = 2 ^ 125 := by decide +kernel
    rw [hk] at hw
    rw [hw]
    unfold stretch
    rw [if_neg (by omega), if_neg (by omega)]
    exact ⟨rfl, by omega, by omega⟩

theorem stretch_lt (x y : Int) (h1 : -2 ^ 40 ≤ x) (h2 : x ≤ 2 ^ 40) (h3 : -2 ^ 40 ≤ y)
    (h4 : y ≤ 2 ^ 40) (h : x < y) : stretch x < stretch y := by
  unfold stretch
  split <;> split <;> try split
  all_goals first | omega | skip
  all_goals try split
  all_goals omega

theorem stretch_lt_iff (x y : Int) (h1 : -2 ^ 40 ≤ x) (h2 : x ≤ 2 ^ 40) (h3 : -2 ^ 40 ≤ y)
    (h4 : y ≤ 2 ^ 40) : stretch x < stretch y ↔ x < y := by
  constructor
  · intro h
    rcases Int.lt_trichotomy x y with q | q | q
    · exact q
    · subst q; omega
    · have := stretch_lt y x h3 h4 h1 h2 q; omega
  · exact stretch_lt x y h1 h2 h3 h4

theorem stretch_eq_iff (x y : Int) (h1 : -2 ^ 40 ≤ x) (h2 : x ≤ 2 ^ 40) (h3 : -2 ^ 40 ≤ y)
    (h4 : y ≤ 2 ^ 40) : stretch x = stretch y ↔ x = y := by
  constructor
  · intro h
    rcases Int.lt_trichotomy x y with q | q | q
    · have := stretch_lt x y h1 h2 h3 h4 q; omega
    · exact q
    · have := stretch_lt y x h3 h4 h1 h2 q; omega
  · rintro rfl; rfl

/-- The host's comparisons of the widened operands are those of the operands. -/
theorem host_eq (a b : BitVec half.bits) :
    FpClass.hostEq (widen single a).1 (widen single b).1 = FpClass.hostEq a b
    ∧ FpClass.hostLt (widen single a).1 (widen single b).1 = FpClass.hostLt a b
    ∧ FpClass.hostLe (widen single a).1 (widen single b).1 = FpClass.hostLe a b := by
  unfold FpClass.hostEq FpClass.hostLt FpClass.hostLe
  simp only [widen_isNaN, FpClass.fixed_eq, scaled_val]
  cases ha : isNaN a with
  | true => simp
  | false =>
    cases hb : isNaN b with
    | true => simp
    | false =>
      have na : ¬ FpFma.Spec.NaN a := by
        rw [← nan_eq, ← FpClass.isNaN_iff, ha]; simp
      have nb : ¬ FpFma.Spec.NaN b := by
        rw [← nan_eq, ← FpClass.isNaN_iff, hb]; simp
      obtain ⟨e1, l1, u1⟩ := widen_stretch a na
      obtain ⟨e2, l2, u2⟩ := widen_stretch b nb
      rw [e1, e2]
      have q1 := stretch_lt_iff _ _ l1 u1 l2 u2
      have q2 := stretch_eq_iff _ _ l1 u1 l2 u2
      simp only [Bool.not_false, Bool.true_and, decide_eq_decide]
      refine ⟨q2, q1, ?_⟩
      omega

/-- The flags of widening: invalid for a signalling NaN. -/
theorem widen_flags (u : BitVec half.bits) :
    (widen single u).2 = if isSNaN u then 16 else 0 := by
  unfold widen
  cases hn : isNaN u with
  | true => simp only [if_true]; rfl
  | false =>
    have : isSNaN u = false := by unfold isSNaN; rw [hn]; rfl
    simp only [this, Bool.false_eq_true, if_false]
    split
    · rfl
    · split <;> rfl

theorem holds_source (r : BitVec 64) (u : BitVec half.bits) (h : Spec.Holds r u) : source r = u := by
  have hmask : ((BitVec.allOnes 64 <<< half.bits &&& r.setWidth 64) = BitVec.allOnes 64 <<< half.bits)
      ↔ Spec.Boxed r := by
    constructor
    · intro e i h1 h2
      have := congrArg (fun x : BitVec 64 => x.getLsbD i) e
      simp only [BitVec.getLsbD_and, BitVec.getLsbD_shiftLeft, BitVec.getLsbD_setWidth,
        BitVec.getLsbD_allOnes, show half.bits = 16 from rfl] at this
      simpa [h2, show ¬ i < 16 by omega, show i - 16 < 64 by omega] using this
    · intro hall
      apply BitVec.eq_of_getLsbD_eq
      intro i hi
      simp only [BitVec.getLsbD_and, BitVec.getLsbD_shiftLeft, BitVec.getLsbD_setWidth,
        BitVec.getLsbD_allOnes, show half.bits = 16 from rfl]
      by_cases h16 : i < 16
      · simp [h16]
      · simp [hi, h16, hall i (by omega) hi]
  unfold source boxedSource
  rw [if_neg (by decide)]
  unfold Spec.Holds at h
  by_cases hall : Spec.Boxed r
  · replace h := h.1 hall
    dsimp only
    rw [if_neg (by rw [Ne, hmask]; exact fun hc => hc hall)]
    unfold plainSource
    apply BitVec.eq_of_getLsbD_eq
    intro i hi
    rw [BitVec.getLsbD_setWidth, h i hi]
    simp [hi]
  · replace h := h.2 hall
    dsimp only
    rw [if_pos (by rw [Ne, hmask]; exact hall)]
    exact BitVec.eq_of_toNat_eq (by rw [h]; decide +kernel)

theorem flagReg_is (w : Nat) (b : Bool) (p : Prop) (h : b = true ↔ p) :
    Spec.IsFlag (flagReg w b) p := by
  unfold Spec.IsFlag flagReg
  constructor
  · intro hp
    rw [if_pos (h.mpr hp)]
  · intro hp
    rw [if_neg (fun hc => hp (h.mp hc))]

/-- **C108.** feq.h, flt.h and fle.h give 1 if the operands, as the registers hold them, are
equal, ordered, ordered or equal, and 0 otherwise. They raise the invalid flag, and no other:
feq.h exactly for a signalling NaN, flt.h and fle.h exactly for any NaN. -/
theorem C108_compare (w : Nat) (r1 r2 : BitVec 64) (a b : BitVec half.bits)
    (h1 : Spec.Holds r1 a) (h2 : Spec.Holds r2 b) :
    Spec.IsFlag (feq w r1 r2).1 (Spec.Compare (· = ·) a b)
    ∧ Spec.IsFlag (flt w r1 r2).1 (Spec.Compare (· < ·) a b)
    ∧ Spec.IsFlag (fle w r1 r2).1 (Spec.Compare (· ≤ ·) a b)
    ∧ ((feq w r1 r2).2 = 16 ↔ Is a .sNaN ∨ Is b .sNaN) ∧ ((feq w r1 r2).2 = 16 ∨ (feq w r1 r2).2 = 0)
    ∧ ((flt w r1 r2).2 = 16 ↔ NaN a ∨ NaN b) ∧ ((flt w r1 r2).2 = 16 ∨ (flt w r1 r2).2 = 0)
    ∧ ((fle w r1 r2).2 = 16 ↔ NaN a ∨ NaN b) ∧ ((fle w r1 r2).2 = 16 ∨ (fle w r1 r2).2 = 0) := by
  obtain ⟨e1, e2, e3⟩ := host_eq a b
  obtain ⟨c1, c2, c3, c4, c5, c6, c7, c8⟩ := FpClass.C40_compare a b
  have f1 : (feq w r1 r2).2 = (FpClass.feq a b).2 := by
    unfold feq FpClass.feq
    dsimp only
    rw [holds_source r1 a h1, holds_source r2 b h2, widen_flags, widen_flags]
    cases isSNaN a <;> cases isSNaN b <;> rfl
  have f2 : (flt w r1 r2).2 = (FpClass.flt a b).2 := by
    unfold flt FpClass.flt
    dsimp only
    rw [holds_source r1 a h1, holds_source r2 b h2, widen_isNaN, widen_isNaN]
  have f3 : (fle w r1 r2).2 = (FpClass.flt a b).2 := by
    unfold fle FpClass.flt
    dsimp only
    rw [holds_source r1 a h1, holds_source r2 b h2, widen_isNaN, widen_isNaN]
  refine ⟨?_, ?_, ?_, by rw [f1]; exact c4, by rw [f1]; exact c5, by rw [f2]; exact c6,
    by rw [f2]; exact c7, by rw [f3]; exact c6, by rw [f3]; exact c7⟩
  · unfold feq
    dsimp only
    rw [holds_source r1 a h1, holds_source r2 b h2, e1]
    exact flagReg_is w _ _ c1
  · unfold flt
    dsimp only
    rw [holds_source r1 a h1, holds_source r2 b h2, e2]
    exact flagReg_is w _ _ c2
  · unfold fle
    dsimp only
    rw [holds_source r1 a h1, holds_source r2 b h2, e3]
    exact flagReg_is w _ _ c3

/-- Every register holds an operand. -/
theorem C108_holds (r : BitVec 64) : ∃ u, Spec.Holds r u := by
  unfold Spec.Holds
  by_cases h : Spec.Boxed r
  · refine ⟨(r.setWidth 16 : BitVec 16), ?_, fun hc => absurd h hc⟩
    intro _ i hi
    show (r.setWidth 16).getLsbD i = _
    rw [BitVec.getLsbD_setWidth]
    simp [hi]
  · refine ⟨(0x7e00#16 : BitVec 16), ?_⟩
    exact ⟨fun hc => absurd hc h, fun _ => rfl⟩

/-! ## Cases -/

-- -0 equals +0; 1 is below infinity; a subnormal above zero; an unboxed register is a NaN.
example : feq 32 0xffffffffffff8000#64 0xffffffffffff0000#64 = (1#32, 0)
    ∧ flt 64 0xffffffffffff3c00#64 0xffffffffffff7c00#64 = (1#64, 0)
    ∧ fle 32 0xffffffffffff0001#64 0xffffffffffff0000#64 = (0#32, 0)
    ∧ flt 32 0x3c00#64 0xffffffffffff7c00#64 = (0#32, 16)
    ∧ feq 32 0xffffffffffff7d00#64 0xffffffffffff7c00#64 = (0#32, 16) := by decide +kernel

end Verif.HalfCmp
