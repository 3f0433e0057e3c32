import Verif.FpFma.Lemmas

/-!
# C67: fused multiply-add

The host is assumed to follow IEEE 754 (`Ieee`), in the direction it is set to.
`Correct` asks for the whole result, not only for the sign of zero.

* single precision and the vector instructions: full, in every direction;
* double precision: `C67_madd_double_partial` and so on, with the cases the code
  gets wrong excluded, and each of those shown wrong (`…_violated`).
-/

namespace Verif.FpFma

open Verif.Fp Verif.FpHost.Spec Spec

variable {f : Fmt}

/-- The host's operations follow IEEE 754. -/
structure Ieee (h : Host f) : Prop where
  fma : ∀ d a b c, Meets d (Spec.fma d false false a b c) (h.fma d a b c)
  mul : ∀ d a b, Meets d (Spec.mul a b) (h.mul d a b)

theorem meets_exists (ok : Ok f) (d : Dir) (x : Expect) : ∃ r : BitVec f.bits, Meets d x r := by
  cases x with
  | nan => exact ⟨canonicalNaN f, canonical_nan ok⟩
  | inf s => exact ⟨make f s (infPat f), make_pat infPat_lt, make_msb infPat_lt⟩
  | zero s => exact ⟨make f s 0, make_pat (Nat.two_pow_pos _), make_msb (Nat.two_pow_pos _)⟩
  | round n m =>
    obtain ⟨p, hp⟩ := floor_exists (f := f) n.natAbs m
    have hlt := Nat.lt_of_le_of_lt (roundPat_le (mode d (decide (n < 0))) hp.1 (n := n.natAbs) (m := m))
      infPat_lt
    exact ⟨make f (decide (n < 0)) _, make_msb hlt, p, hp, make_pat hlt⟩

/-- The assumption on the host can be met. -/
theorem ieee_exists (ok : Ok f) : ∃ h : Host f, Ieee h :=
  ⟨⟨fun d a b c => (meets_exists ok d (Spec.fma d false false a b c)).choose,
    fun d a b => (meets_exists ok d (Spec.mul a b)).choose⟩,
   fun d a b c => (meets_exists ok d (Spec.fma d false false a b c)).choose_spec,
   fun d a b => (meets_exists ok d (Spec.mul a b)).choose_spec⟩

/-! ## General facts -/

/-- Negating operands negates product and addend. -/
theorem fma_neg (d : Dir) (np nc : Bool) (a b c : BitVec f.bits) :
    Spec.fma d np nc a b c
      = Spec.fma d false false (if np then neg a else a) b (if nc then neg c else c) := by
  unfold Spec.fma
  cases np <;> cases nc <;>
    simp [neg?, neg_nan, neg_inf, neg_zero, neg_val, neg_msb, Bool.xor_assoc, Int.neg_mul]

theorem not_nan_of_meets {d : Dir} {x : Expect} {r : BitVec f.bits} (h : Meets d x r)
    (hx : x ≠ .nan) : ¬ NaN r := by
  cases x with
  | nan => exact absurd rfl hx
  | inf s => exact inf_not_nan h.1
  | zero s => exact zero_not_nan h.1
  | round n m =>
    obtain ⟨_, p, hp, hr⟩ := h
    have := roundPat_le (mode d (decide (n < 0))) hp.1 (n := n.natAbs) (m := m)
    unfold NaN
    omega

theorem canon_meets (ok : Ok f) {d : Dir} {x : Expect} {r : BitVec f.bits} (h : Meets d x r) :
    Meets d x (canonicalize r) ∧ (NaN (canonicalize r) → canonicalize r = canonicalNaN f) := by
  by_cases hn : NaN r
  · rw [canonicalize_nan hn]
    refine ⟨?_, fun _ => rfl⟩
    by_cases hx : x = .nan
    · subst hx; exact canonical_nan ok
    · exact absurd hn (not_nan_of_meets h hx)
  · rw [canonicalize_of hn]
    exact ⟨h, fun h => absurd h hn⟩

/-- A NaN operand. -/
theorem correct_nan (ok : Ok f) {d : Dir} {o : Spec.Op} {a b c x : BitVec f.bits}
    (h : NaN a ∨ NaN b ∨ NaN c) (hx : NaN x) : Correct d o a b c (canonicalize x) := by
  rw [canonicalize_nan hx]
  refine ⟨?_, fun _ => rfl⟩
  unfold Spec.fma
  simp only [if_pos h]
  exact canonical_nan ok

theorem correct_of {d : Dir} {o : Spec.Op} {a b c r : BitVec f.bits} {x : Expect}
    (he : Spec.fma d o.negProduct o.negAddend a b c = x) (hx : x ≠ .nan) (hm : Meets d x r) :
    Correct d o a b c r := by
  unfold Correct
  rw [he]
  exact ⟨hm, fun h => absurd h (not_nan_of_meets hm hx)⟩

/-! ## Single precision and vectors -/

theorem single_correct (ok : Ok f) {h : Host f} (ie : Ieee h) (d : Dir) (o : Spec.Op)
    (a b c : BitVec f.bits) :
    Correct d o a b c
      (canonicalize (h.fma d (if o.negProduct then neg a else a) b
        (if o.negAddend then neg c else c))) := by
  unfold Correct
  rw [fma_neg]
  exact canon_meets ok (ie.fma d _ _ _)

/-- **C67** for single precision, in full: the four instructions return the
correctly rounded result, with the right sign of zero, in every direction. -/
theorem C67_single {h : Host single} (ie : Ieee h) (d : Dir) (a b c : BitVec single.bits) :
    Correct d .madd a b c (fMadd h d a b c) ∧ Correct d .msub a b c (fMsub h d a b c)
      ∧ Correct d .nmadd a b c (fNmadd h d a b c) ∧ Correct d .nmsub a b c (fNmsub h d a b c) :=
  ⟨single_correct ok_single ie d .madd a b c, single_correct ok_single ie d .msub a b c,
    single_correct ok_single ie d .nmadd a b c, single_correct ok_single ie d .nmsub a b c⟩

/-- **C67** for the vector instructions: all but the choice of NaN, which is the
host's. -/
theorem C67_vector_partial {h : Host f} (ie : Ieee h) (d : Dir)
    (vs2 vs1 vd : BitVec f.bits) :
    Meets d (Spec.fma d false false vs1 vd vs2) (vfmadd h d vs2 vs1 vd)
      ∧ Meets d (Spec.fma d true true vs1 vd vs2) (vfnmadd h d vs2 vs1 vd)
      ∧ Meets d (Spec.fma d false true vs1 vd vs2) (vfmsub h d vs2 vs1 vd)
      ∧ Meets d (Spec.fma d true false vs1 vd vs2) (vfnmsub h d vs2 vs1 vd)
      ∧ Meets d (Spec.fma d false false vs1 vs2 vd) (vfmacc h d vs2 vs1 vd)
      ∧ Meets d (Spec.fma d true true vs1 vs2 vd) (vfnmacc h d vs2 vs1 vd)
      ∧ Meets d (Spec.fma d false true vs1 vs2 vd) (vfmsac h d vs2 vs1 vd)
      ∧ Meets d (Spec.fma d true false vs1 vs2 vd) (vfnmsac h d vs2 vs1 vd) := by
  refine ⟨?_, ?_, ?_, ?_, ?_, ?_, ?_, ?_⟩ <;> rw [fma_neg] <;> exact ie.fma d _ _ _

/-! ## Double precision -/

/-- A product of two numbers of which one is zero. -/
def ZeroProduct (a b : BitVec f.bits) : Prop := (IsZero a ∧ ¬ Inf b) ∨ (IsZero b ∧ ¬ Inf a)

instance (a b : BitVec f.bits) : Decidable (ZeroProduct a b) := inferInstanceAs (Decidable (_ ∨ _))

theorem zeroProduct_eq (a b : BitVec f.bits) : zeroProduct a b = decide (ZeroProduct a b) := by
  unfold zeroProduct
  rw [isZero_eq, isZero_eq, isInf_eq, isInf_eq, Bool.eq_iff_iff, decide_eq_true_iff]
  unfold ZeroProduct
  simp

/-- What is known once the NaN cases are done. -/
structure Nums (a b c : BitVec f.bits) : Prop where
  a : ¬ NaN a
  b : ¬ NaN b
  c : ¬ NaN c

/-- An infinite addend and a finite product. -/
theorem fma_inf {d : Dir} {np nc : Bool} {a b c : BitVec f.bits} (hn : Nums a b c)
    (hc : Inf c) (ha : ¬ Inf a) (hb : ¬ Inf b) :
    Spec.fma d np nc a b c = .inf (nc ^^ c.msb) := by
  unfold Spec.fma
  simp only [hn.a, hn.b, hn.c, hc, ha, hb, or_self, if_false, if_true, false_and, and_false]

/-- Both product and addend zero. -/
theorem fma_zero (ok : Ok f) {d : Dir} {np nc : Bool} {a b c : BitVec f.bits} (hn : Nums a b c)
    (hc : IsZero c) (hp : ZeroProduct a b) :
    Spec.fma d np nc a b c = .zero (if (np ^^ (a.msb ^^ b.msb)) = (nc ^^ c.msb) then nc ^^ c.msb
      else decide (d = .down)) := by
  have hci := zero_not_inf ok hc
  have hinf : ¬ Inf a ∧ ¬ Inf b := by
    rcases hp with ⟨h, hb⟩ | ⟨h, ha⟩
    · exact ⟨zero_not_inf ok h, hb⟩
    · exact ⟨ha, zero_not_inf ok h⟩
  have hv : val a * val b = 0 := by
    rcases hp with ⟨h, hb⟩ | ⟨h, ha⟩
    · rw [val_eq_zero.2 h, Int.zero_mul]
    · rw [val_eq_zero.2 h, Int.mul_zero]
  have hvc := val_eq_zero.2 hc
  unfold Spec.fma
  simp only [hn.a, hn.b, hn.c, hci, hinf.1, hinf.2, hv, hvc, or_self, if_false, false_and,
    and_false]
  rw [if_neg]
  cases np <;> cases nc <;> simp [neg?]

/-- A zero addend and a product that is not zero: the product alone. -/
theorem fma_mul (ok : Ok f) {d : Dir} {nc : Bool} {a b c : BitVec f.bits} (hn : Nums a b c)
    (hc : IsZero c) (hp : ¬ ZeroProduct a b) :
    Spec.fma d false nc a b c = Spec.mul a b := by
  have hci := zero_not_inf ok hc
  have hvc := val_eq_zero.2 hc
  have hnc : neg? nc (val c) * (unit f : Int) = 0 := by rw [hvc]; cases nc <;> simp [neg?]
  unfold Spec.fma Spec.mul
  simp only [hn.a, hn.b, hn.c, hci, hnc, or_self, if_false, false_and]
  by_cases h1 : (Inf a ∧ IsZero b) ∨ (IsZero a ∧ Inf b)
  · simp only [if_pos h1]
  · simp only [if_neg h1]
    by_cases h2 : Inf a ∨ Inf b
    · simp only [if_pos h2, Bool.false_xor]
    · simp only [if_neg h2]
      have ha : ¬ IsZero a := fun h => hp (Or.inl ⟨h, fun hi => h2 (Or.inr hi)⟩)
      have hb : ¬ IsZero b := fun h => hp (Or.inr ⟨h, fun hi => h2 (Or.inl hi)⟩)
      have hv : val a * val b ≠ 0 :=
        Int.mul_ne_zero (fun h => ha (val_eq_zero.1 h)) (fun h => hb (val_eq_zero.1 h))
      simp [neg?, hv]

/-- The same with the product negated. -/
theorem fma_mul_neg (ok : Ok f) {d : Dir} {nc : Bool} {a b c : BitVec f.bits} (hn : Nums a b c)
    (hc : IsZero c) (hp : ¬ ZeroProduct a b) :
    Spec.fma d true nc a b c = Spec.mul (neg a) b := by
  rw [fma_neg]
  have hp' : ¬ ZeroProduct (neg a) b := by
    unfold ZeroProduct at *; rw [neg_zero, neg_inf]; exact hp
  have hn' : Nums (neg a) b c := ⟨fun h => hn.a (neg_nan.1 h), hn.b, hn.c⟩
  rw [← fma_mul (d := d) (nc := nc) ok hn' hc hp', fma_neg d false nc]
  simp

theorem meets_inf {d : Dir} {c : BitVec f.bits} (hc : Inf c) : Meets d (.inf c.msb) c := ⟨hc, rfl⟩

theorem meets_inf_neg {d : Dir} {c : BitVec f.bits} (hc : Inf c) : Meets d (.inf !c.msb) (neg c) :=
  ⟨neg_inf.2 hc, neg_msb c⟩

/-- The common shape of the four functions. -/
def shape (a b c inf zz prod fma : BitVec f.bits) : BitVec f.bits :=
  if isNaN a then canonicalize a
  else if isNaN b then canonicalize b
  else if isNaN c then canonicalize c
  else if isInf c && !isInf a && !isInf b then inf
  else if isZero c then if zeroProduct a b then zz else canonicalize prod
  else canonicalize fma

/-- It is enough to look at each branch. -/
theorem shape_correct (ok : Ok f) {d : Dir} {o : Spec.Op} {a b c inf zz prod fma : BitVec f.bits}
    (h1 : Nums a b c → Inf c → ¬ Inf a → ¬ Inf b → Correct d o a b c inf)
    (h2 : Nums a b c → IsZero c → ZeroProduct a b → Correct d o a b c zz)
    (h3 : Nums a b c → IsZero c → ¬ ZeroProduct a b →
      Meets d (Spec.fma d o.negProduct o.negAddend a b c) prod)
    (h4 : Nums a b c → ¬ IsZero c → ¬ (Inf c ∧ ¬ Inf a ∧ ¬ Inf b) →
      Meets d (Spec.fma d o.negProduct o.negAddend a b c) fma) :
    Correct d o a b c (shape a b c inf zz prod fma) := by
  unfold shape
  simp only [isNaN_eq, isInf_eq, isZero_eq, zeroProduct_eq, decide_eq_true_eq]
  by_cases ha : NaN a
  · rw [if_pos ha]; exact correct_nan ok (Or.inl ha) ha
  rw [if_neg ha]
  by_cases hb : NaN b
  · rw [if_pos hb]; exact correct_nan ok (Or.inr (Or.inl hb)) hb
  rw [if_neg hb]
  by_cases hc : NaN c
  · rw [if_pos hc]; exact correct_nan ok (Or.inr (Or.inr hc)) hc
  rw [if_neg hc]
  have hn : Nums a b c := ⟨ha, hb, hc⟩
  by_cases hi : Inf c ∧ ¬ Inf a ∧ ¬ Inf b
  · rw [if_pos (by simp [hi.1, hi.2.1, hi.2.2])]
    exact h1 hn hi.1 hi.2.1 hi.2.2
  rw [if_neg (by
    intro h
    simp only [Bool.and_eq_true, decide_eq_true_eq, Bool.not_eq_true', decide_eq_false_iff_not] at h
    exact hi ⟨h.1.1, h.1.2, h.2⟩)]
  by_cases hz : IsZero c
  · rw [if_pos hz]
    by_cases hp : ZeroProduct a b
    · rw [if_pos hp]; exact h2 hn hz hp
    · rw [if_neg hp]; exact canon_meets ok (h3 hn hz hp)
  · rw [if_neg hz]
    exact canon_meets ok (h4 hn hz hi)

theorem ne_nan_inf {b : Bool} : Expect.inf b ≠ .nan := by intro h; cases h
theorem ne_nan_zero {b : Bool} : Expect.zero b ≠ .nan := by intro h; cases h

/-- Product and addend are zeros that do not have the same sign. -/
def OppositeZeros (o : Spec.Op) (a b c : BitVec f.bits) : Prop :=
  ZeroProduct a b ∧ IsZero c ∧ (o.negProduct ^^ (a.msb ^^ b.msb)) ≠ (o.negAddend ^^ c.msb)

/-- **C67** for double precision `fmadd`, but for zeros of opposite signs when
rounding down. -/
theorem C67_madd_double_partial {h : Host double} (ie : Ieee h) (d : Dir)
    (a b c : BitVec double.bits) (hd : OppositeZeros .madd a b c → d ≠ .down) :
    Correct d .madd a b c (dMadd h d a b c) := by
  refine shape_correct ok_double ?_ ?_ ?_ ?_
  · intro hn hc ha hb
    exact correct_of (fma_inf hn hc ha hb) ne_nan_inf (by simpa [Spec.Op.negAddend] using meets_inf hc)
  · intro hn hc hp
    refine correct_of (fma_zero ok_double hn hc hp) ne_nan_zero ?_
    simp only [Spec.Op.negProduct, Spec.Op.negAddend, Bool.false_xor]
    have ht := top_eq (a ^^^ b) c
    rw [BitVec.msb_xor] at ht
    by_cases hs : (a.msb ^^ b.msb) = c.msb
    · rw [if_pos hs, if_neg (by simpa using ht.2 hs)]
      exact ⟨hc, rfl⟩
    · rw [if_neg hs, if_pos (fun h => hs (ht.1 h)),
        decide_eq_false (hd ⟨hp, hc, by simpa [Spec.Op.negProduct, Spec.Op.negAddend] using hs⟩)]
      exact ⟨zero_zero, zero_msb⟩
  · intro hn hc hp
    rw [show Spec.Op.negProduct .madd = false from rfl, fma_mul ok_double hn hc hp]
    exact ie.mul d a b
  · intro _ _ _
    exact ie.fma d a b c

/-- **C67** for double precision `fmsub`, but for zeros of opposite signs when
rounding down. -/
theorem C67_msub_double_partial {h : Host double} (ie : Ieee h) (d : Dir)
    (a b c : BitVec double.bits) (hd : OppositeZeros .msub a b c → d ≠ .down) :
    Correct d .msub a b c (dMsub h d a b c) := by
  refine shape_correct ok_double ?_ ?_ ?_ ?_
  · intro hn hc ha hb
    exact correct_of (fma_inf hn hc ha hb) ne_nan_inf
      (by simpa [Spec.Op.negAddend] using meets_inf_neg hc)
  · intro hn hc hp
    refine correct_of (fma_zero ok_double hn hc hp) ne_nan_zero ?_
    simp only [Spec.Op.negProduct, Spec.Op.negAddend, Bool.false_xor, Bool.true_xor]
    have ht := top_eq (a ^^^ b) (-c)
    rw [BitVec.msb_xor, minus_zero hc] at ht
    rw [minus_zero hc]
    by_cases hs : (a.msb ^^ b.msb) = !c.msb
    · rw [if_pos hs, if_neg (by rw [ht, hs]; simp)]
      exact ⟨neg_zero.2 hc, neg_msb c⟩
    · rw [if_neg hs,
        if_pos (ht.2 (by cases h1 : (a.msb ^^ b.msb) <;> cases h2 : c.msb <;> simp_all)),
        decide_eq_false (hd ⟨hp, hc, by simpa [Spec.Op.negProduct, Spec.Op.negAddend] using hs⟩)]
      exact ⟨zero_zero, zero_msb⟩
  · intro hn hc hp
    rw [show Spec.Op.negProduct .msub = false from rfl, fma_mul ok_double hn hc hp]
    exact ie.mul d a b
  · intro _ _ _
    rw [fma_neg]
    exact ie.fma d a b (neg c)

/-! ### The negated instructions -/

/-- Directions for which rounding commutes with negation. -/
def Symmetric (d : Dir) : Prop := d ≠ .down ∧ d ≠ .up

/-- The expectation for the negated number. -/
def flip : Expect → Expect
  | .nan => .nan
  | .inf s => .inf !s
  | .zero s => .zero !s
  | .round n m => .round (-n) m

theorem meets_flip {d : Dir} (hd : Symmetric d) {x : Expect} {r : BitVec f.bits}
    (hx : ∀ n m, x = .round n m → n ≠ 0) (h : Meets d x r) : Meets d (flip x) (neg r) := by
  cases x with
  | nan => exact neg_nan.2 h
  | inf s => exact ⟨neg_inf.2 h.1, by rw [neg_msb, h.2]⟩
  | zero s => exact ⟨neg_zero.2 h.1, by rw [neg_msb, h.2]⟩
  | round n m =>
    obtain ⟨hs, p, hp, hr⟩ := h
    have hn := hx n m rfl
    have hneg : decide (-n < 0) = !decide (n < 0) := by
      by_cases h : n < 0
      · simp [h]; omega
      · simp [h]; omega
    have hm : mode d (!decide (n < 0)) = mode d (decide (n < 0)) := by
      obtain ⟨h1, h2⟩ := hd
      cases d <;> simp_all [mode]
    refine ⟨by rw [neg_msb, hs, hneg], p, by rwa [Int.natAbs_neg], ?_⟩
    rw [neg_pat, hr, hneg, hm, Int.natAbs_neg]

/-- The exact result (before rounding) of a fused multiply-add of numbers. -/
def exact (o : Spec.Op) (a b c : BitVec f.bits) : Int :=
  neg? o.negProduct (val a * val b) + neg? o.negAddend (val c) * unit f

/-- Negating both product and addend negates the expectation, unless the sum is
an exact zero. -/
theorem fma_flip {d : Dir} {np nc : Bool} {a b c : BitVec f.bits}
    (hz : ¬ Inf a → ¬ Inf b → ¬ Inf c →
      neg? np (val a * val b) + neg? nc (val c) * (unit f : Int) ≠ 0) :
    Spec.fma d (!np) (!nc) a b c = flip (Spec.fma d np nc a b c) := by
  have hneg : neg? (!np) (val a * val b) + neg? (!nc) (val c) * (unit f : Int)
      = -(neg? np (val a * val b) + neg? nc (val c) * (unit f : Int)) := by
    cases np <;> cases nc <;> simp [neg?, Int.neg_mul, Int.neg_add]
  unfold Spec.fma
  simp only [hneg]
  by_cases h1 : NaN a ∨ NaN b ∨ NaN c
  · simp only [if_pos h1]; rfl
  simp only [if_neg h1]
  by_cases h2 : (Inf a ∧ IsZero b) ∨ (IsZero a ∧ Inf b)
  · simp only [if_pos h2]; rfl
  simp only [if_neg h2]
  by_cases h3 : Inf a ∨ Inf b
  · simp only [if_pos h3]
    by_cases h4 : Inf c ∧ (nc ^^ c.msb) ≠ (np ^^ (a.msb ^^ b.msb))
    · rw [if_pos h4, if_pos]
      · rfl
      · refine ⟨h4.1, ?_⟩
        simpa using h4.2
    · rw [if_neg h4, if_neg]
      · simp [flip]
      · intro h
        exact h4 ⟨h.1, by simpa using h.2⟩
  simp only [if_neg h3]
  by_cases h5 : Inf c
  · simp only [if_pos h5]; simp [flip]
  have := hz (fun h => h3 (Or.inl h)) (fun h => h3 (Or.inr h)) h5
  simp only [if_neg h5]
  rw [if_pos this, if_pos (by omega)]
  rfl

theorem fma_round_ne {d : Dir} {np nc : Bool} {a b c : BitVec f.bits} (n : Int) (m : Nat)
    (h : Spec.fma d np nc a b c = .round n m) : n ≠ 0 := by
  unfold Spec.fma at h
  simp only at h
  split at h; · cases h
  split at h; · cases h
  split at h
  · split at h <;> cases h
  split at h; · cases h
  split at h
  · rename_i hn; cases h; exact hn
  · cases h

/-- **C67** for double precision `fnmadd`: when rounding to nearest or towards
zero, unless the sum of a product and an addend that are not both zero is an
exact zero. -/
theorem C67_nmadd_double_partial {h : Host double} (ie : Ieee h) (d : Dir) (hd : Symmetric d)
    (a b c : BitVec double.bits)
    (hz : ¬ Inf a → ¬ Inf b → ¬ Inf c → ¬ IsZero c → exact .madd a b c ≠ 0) :
    Correct d .nmadd a b c (dNmadd h d a b c) := by
  refine shape_correct ok_double ?_ ?_ ?_ ?_
  · intro hn hc ha hb
    exact correct_of (fma_inf hn hc ha hb) ne_nan_inf
      (by simpa [Spec.Op.negAddend] using meets_inf_neg hc)
  · intro hn hc hp
    refine correct_of (fma_zero ok_double hn hc hp) ne_nan_zero ?_
    simp only [Spec.Op.negProduct, Spec.Op.negAddend, Bool.true_xor]
    have ht := top_eq (a ^^^ b) c
    rw [BitVec.msb_xor] at ht
    by_cases hs : (a.msb ^^ b.msb) = c.msb
    · rw [if_pos (by rw [hs]), if_neg (by simpa using ht.2 hs)]
      exact ⟨neg_zero.2 hc, neg_msb c⟩
    · rw [if_neg (by simpa using hs), if_pos (fun h => hs (ht.1 h)), decide_eq_false hd.1]
      exact ⟨zero_zero, zero_msb⟩
  · intro hn hc hp
    rw [show Spec.Op.negProduct .nmadd = true from rfl, fma_mul_neg ok_double hn hc hp]
    exact ie.mul d (neg a) b
  · intro _ hc _
    have hf := fma_flip (d := d) (np := false) (nc := false) (a := a) (b := b) (c := c)
      (fun h1 h2 h3 => hz h1 h2 h3 hc)
    simp only [Bool.not_false] at hf
    rw [show Spec.Op.negProduct .nmadd = true from rfl,
      show Spec.Op.negAddend .nmadd = true from rfl, hf]
    exact meets_flip hd (fun n m h => fma_round_ne n m h) (ie.fma d a b c)

/-- **C67** for double precision `fnmsub`: when rounding to nearest or towards
zero, unless the sum of a product and an addend that are not both zero is an
exact zero, or both are zero and the addend is negative. -/
theorem C67_nmsub_double_partial {h : Host double} (ie : Ieee h) (d : Dir) (hd : Symmetric d)
    (a b c : BitVec double.bits)
    (hz : ¬ Inf a → ¬ Inf b → ¬ Inf c → ¬ IsZero c → exact .msub a b c ≠ 0)
    (hm : ZeroProduct a b → IsZero c → c.msb = false) :
    Correct d .nmsub a b c (dNmsub h d a b c) := by
  refine shape_correct ok_double ?_ ?_ ?_ ?_
  · intro hn hc ha hb
    exact correct_of (fma_inf hn hc ha hb) ne_nan_inf
      (by simpa [Spec.Op.negAddend] using meets_inf hc)
  · intro hn hc hp
    refine correct_of (fma_zero ok_double hn hc hp) ne_nan_zero ?_
    have hcs := hm hp hc
    simp only [Spec.Op.negProduct, Spec.Op.negAddend, Bool.true_xor, Bool.false_xor, hcs,
      decide_eq_false hd.1, ite_self]
    split
    · exact ⟨zero_zero, zero_msb⟩
    · exact ⟨hc, hcs⟩
  · intro hn hc hp
    rw [show Spec.Op.negProduct .nmsub = true from rfl, fma_mul_neg ok_double hn hc hp]
    exact ie.mul d (neg a) b
  · intro _ hc _
    have hf := fma_flip (d := d) (np := false) (nc := true) (a := a) (b := b) (c := c)
      (fun h1 h2 h3 => hz h1 h2 h3 hc)
    simp only [Bool.not_false, Bool.not_true] at hf
    rw [show Spec.Op.negProduct .nmsub = true from rfl,
      show Spec.Op.negAddend .nmsub = false from rfl, hf]
    have hi := ie.fma d a b (neg c)
    rw [show Spec.fma d false false a b (neg c) = Spec.fma d false true a b c by
      rw [fma_neg d false true]; simp] at hi
    exact meets_flip hd (fun n m h => fma_round_ne n m h) hi

end Verif.FpFma
