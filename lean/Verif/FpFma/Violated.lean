import Verif.FpFma.Props

/-!
# C67: what the double precision functions get wrong

Each hypothesis of the partial theorems is necessary: without it the result is
wrong, for every operand triple concerned and every correct host.
-/

namespace Verif.FpFma

open Verif.Fp Verif.FpHost.Spec Spec

variable {f : Fmt}

theorem shape_zero {a b c inf zz prod fma : BitVec f.bits} (ok : Ok f) (hc : IsZero c)
    (hn : Nums a b c) (hp : ZeroProduct a b) : shape a b c inf zz prod fma = zz := by
  unfold shape
  simp only [isNaN_eq, isInf_eq, isZero_eq, zeroProduct_eq, decide_eq_true_eq, hn.a, hn.b, hn.c, hc,
    hp, zero_not_inf ok hc, if_false, if_true, decide_false, Bool.false_and, Bool.false_eq_true]

theorem shape_fma {a b c inf zz prod fma : BitVec f.bits} (hc : ¬ IsZero c)
    (hn : Nums a b c) (hi : ¬ Inf c) : shape a b c inf zz prod fma = canonicalize fma := by
  unfold shape
  simp only [isNaN_eq, isInf_eq, isZero_eq, decide_eq_true_eq, hn.a, hn.b, hn.c, hc, hi,
    if_false, decide_false, Bool.false_and, Bool.false_eq_true]

theorem zeroProduct_nums (ok : Ok f) {a b : BitVec f.bits} (h : ZeroProduct a b) : ¬ Inf a ∧ ¬ Inf b := by
  rcases h with ⟨h, hb⟩ | ⟨h, ha⟩
  · exact ⟨zero_not_inf ok h, hb⟩
  · exact ⟨ha, zero_not_inf ok h⟩

/-- **C67** is violated: for zeros of opposite signs `fmadd` and `fmsub` return
+0 when rounding down, where IEEE 754 prescribes −0. -/
theorem C67_down_violated (h : Host double) (a b c : BitVec double.bits) (hn : Nums a b c) :
    (OppositeZeros .madd a b c → ¬ Correct .down .madd a b c (dMadd h .down a b c)) ∧
    (OppositeZeros .msub a b c → ¬ Correct .down .msub a b c (dMsub h .down a b c)) := by
  constructor
  · rintro ⟨hp, hc, hs⟩ ⟨hm, _⟩
    rw [fma_zero ok_double hn hc hp, if_neg hs] at hm
    have he : dMadd h .down a b c = zero double := by
      refine (shape_zero ok_double hc hn hp).trans ?_
      rw [if_pos]
      intro ht
      rw [top_eq, BitVec.msb_xor] at ht
      exact hs (by simpa [Spec.Op.negProduct, Spec.Op.negAddend] using ht)
    rw [he] at hm
    have := hm.2
    rw [zero_msb] at this
    simp at this
  · rintro ⟨hp, hc, hs⟩ ⟨hm, _⟩
    rw [fma_zero ok_double hn hc hp, if_neg hs] at hm
    have he : dMsub h .down a b c = zero double := by
      refine (shape_zero ok_double hc hn hp).trans ?_
      rw [if_pos]
      rw [minus_zero hc, top_eq, BitVec.msb_xor]
      simp only [Spec.Op.negProduct, Spec.Op.negAddend] at hs
      cases h1 : (a.msb ^^ b.msb) <;> cases h2 : c.msb <;> simp_all
    rw [he] at hm
    have := hm.2
    rw [zero_msb] at this
    simp at this

/-- 1, −1, −0, +0 and 2 to the power −60. -/
def one : BitVec double.bits := 0x3ff0000000000000#64
def minusOne : BitVec double.bits := 0xbff0000000000000#64
def minusZero : BitVec double.bits := 0x8000000000000000#64
def plusZero : BitVec double.bits := 0#64
def tiny : BitVec double.bits := 0x3c30000000000000#64

/-- 0 × 1 + (−0), rounding down. -/
example : Nums plusZero one minusZero ∧ OppositeZeros .madd plusZero one minusZero :=
  ⟨⟨by decide +kernel, by decide +kernel, by decide +kernel⟩,
    Or.inl ⟨by decide +kernel, by decide +kernel⟩, by decide +kernel, by decide +kernel⟩

/-- The result expected when the exact sum is zero and there are no infinities. -/
theorem fma_exact_zero {d : Dir} {np nc : Bool} {a b c : BitVec f.bits} (hn : Nums a b c)
    (ha : ¬ Inf a) (hb : ¬ Inf b) (hc : ¬ Inf c)
    (h0 : neg? np (val a * val b) + neg? nc (val c) * (unit f : Int) = 0) :
    Spec.fma d np nc a b c = .zero (if (np ^^ (a.msb ^^ b.msb)) = (nc ^^ c.msb) then nc ^^ c.msb
      else decide (d = .down)) := by
  unfold Spec.fma
  simp only [hn.a, hn.b, hn.c, ha, hb, hc, h0, or_self, if_false, false_and, and_false, ne_eq,
    not_true_eq_false]

theorem val_sign {u : BitVec f.bits} (h : val u ≠ 0) : u.msb = decide (val u < 0) := by
  unfold val at *
  cases hm : u.msb
  · simp
  · rw [hm] at h
    simp only [if_true] at h ⊢
    exact (decide_eq_true (by omega)).symm

theorem mul_sign {x y : Int} (hx : x ≠ 0) (hy : y ≠ 0) :
    decide (x * y < 0) = (decide (x < 0) ^^ decide (y < 0)) := by
  rcases Int.lt_or_gt_of_ne hx with h | h <;> rcases Int.lt_or_gt_of_ne hy with h' | h'
  · have := Int.mul_pos_of_neg_of_neg h h'
    simp [h, h']; omega
  · have := Int.mul_neg_of_neg_of_pos h h'
    simp [h, this]; omega
  · have := Int.mul_neg_of_pos_of_neg h h'
    simp [h', this]; omega
  · have := Int.mul_pos h h'
    rw [decide_eq_false (by omega), decide_eq_false (by omega), decide_eq_false (by omega)]
    rfl

theorem unit_pos : (0 : Int) < unit f := by
  have := Nat.two_pow_pos (f.bias + f.s - 1)
  unfold unit
  exact_mod_cast this

/-- When product and addend cancel they have opposite signs. -/
theorem cancel_signs {nc : Bool} {a b c : BitVec f.bits} (hc : ¬ IsZero c)
    (h0 : val a * val b + neg? nc (val c) * (unit f : Int) = 0) :
    (a.msb ^^ b.msb) ≠ (nc ^^ c.msb) := by
  have hv : val c ≠ 0 := fun h => hc (val_eq_zero.1 h)
  have hu := unit_pos (f := f)
  have hcs := val_sign hv
  have hprod : val a * val b = -(neg? nc (val c) * (unit f : Int)) := by omega
  have hcu : neg? nc (val c) * (unit f : Int) ≠ 0 := by
    refine Int.mul_ne_zero ?_ (by omega)
    cases nc <;> simp [neg?] <;> exact hv
  have hab : val a * val b ≠ 0 := by omega
  have ha : val a ≠ 0 := fun h => hab (by rw [h, Int.zero_mul])
  have hb : val b ≠ 0 := fun h => hab (by rw [h, Int.mul_zero])
  rw [val_sign ha, val_sign hb, hcs, ← mul_sign ha hb, hprod]
  have hs : decide (neg? nc (val c) * (unit f : Int) < 0) = (nc ^^ decide (val c < 0)) := by
    rw [mul_sign (by cases nc <;> simp [neg?] <;> exact hv) (by omega)]
    have hun : decide ((unit f : Int) < 0) = false := decide_eq_false (by omega)
    rw [hun, Bool.xor_false]
    cases nc
    · simp [neg?]
    · simp only [neg?, if_true, Bool.true_xor]
      by_cases h : val c < 0
      · simp [h]; omega
      · simp [h]; omega
  rw [← hs]
  by_cases h : neg? nc (val c) * (unit f : Int) < 0
  · simp [h]; omega
  · simp [h]; omega

/-- The host's sum of a product and an addend that cancel. -/
theorem host_cancel {h : Host f} (ie : Ieee h) {d : Dir} {nc : Bool} {a b c : BitVec f.bits}
    (hn : Nums a b c) (ha : ¬ Inf a) (hb : ¬ Inf b) (hc : ¬ Inf c) (hz : ¬ IsZero c)
    (h0 : val a * val b + neg? nc (val c) * (unit f : Int) = 0) :
    IsZero (h.fma d a b (if nc then neg c else c)) ∧
      (h.fma d a b (if nc then neg c else c)).msb = decide (d = .down) := by
  have hm := ie.fma d a b (if nc then neg c else c)
  rw [show Spec.fma d false false a b (if nc then neg c else c) = Spec.fma d false nc a b c by
    rw [fma_neg d false nc]; simp] at hm
  rw [fma_exact_zero hn ha hb hc (by simpa [neg?] using h0), if_neg (by
    simpa using cancel_signs hz h0)] at hm
  exact hm

/-- **C67** is violated: whenever the product and the addend of `fnmadd` cancel
the sign of the resulting zero is wrong, in every direction. -/
theorem C67_nmadd_cancel_violated {h : Host double} (ie : Ieee h) (d : Dir)
    (a b c : BitVec double.bits) (hn : Nums a b c) (ha : ¬ Inf a) (hb : ¬ Inf b) (hc : ¬ Inf c)
    (hz : ¬ IsZero c) (h0 : exact .madd a b c = 0) :
    ¬ Correct d .nmadd a b c (dNmadd h d a b c) := by
  rintro ⟨hm, _⟩
  have h0' : val a * val b + neg? false (val c) * (unit double : Int) = 0 := h0
  have hh := host_cancel ie (d := d) (nc := false) hn ha hb hc hz h0'
  simp only [Bool.false_eq_true, if_false] at hh
  have he : dNmadd h d a b c = neg (h.fma d a b c) := by
    refine (shape_fma hz hn hc).trans (canonicalize_of ?_)
    rw [neg_nan]
    exact zero_not_nan hh.1
  have hs := cancel_signs hz h0'
  rw [fma_exact_zero hn ha hb hc (by
    simp only [Spec.Op.negProduct, Spec.Op.negAddend, neg?, if_true, Bool.false_eq_true, if_false]
      at h0' ⊢
    rw [Int.neg_mul]; omega)] at hm
  simp only [Spec.Op.negProduct, Spec.Op.negAddend, Bool.true_xor] at hm
  rw [if_neg (by simpa using hs), he] at hm
  have := hm.2
  rw [neg_msb, hh.2] at this
  cases hd : decide (d = .down) <;> simp [hd] at this

/-- **C67** is violated: likewise for `fnmsub`. -/
theorem C67_nmsub_cancel_violated {h : Host double} (ie : Ieee h) (d : Dir)
    (a b c : BitVec double.bits) (hn : Nums a b c) (ha : ¬ Inf a) (hb : ¬ Inf b) (hc : ¬ Inf c)
    (hz : ¬ IsZero c) (h0 : exact .msub a b c = 0) :
    ¬ Correct d .nmsub a b c (dNmsub h d a b c) := by
  rintro ⟨hm, _⟩
  have h0' : val a * val b + neg? true (val c) * (unit double : Int) = 0 := h0
  have hh := host_cancel ie (d := d) (nc := true) hn ha hb hc hz h0'
  simp only [if_true] at hh
  have he : dNmsub h d a b c = neg (h.fma d a b (neg c)) := by
    refine (shape_fma hz hn hc).trans (canonicalize_of ?_)
    rw [neg_nan]
    exact zero_not_nan hh.1
  have hs := cancel_signs hz h0'
  rw [fma_exact_zero hn ha hb hc (by
    simp only [Spec.Op.negProduct, Spec.Op.negAddend, neg?, if_true, Bool.false_eq_true, if_false]
      at h0' ⊢
    rw [Int.neg_mul] at h0'; omega)] at hm
  simp only [Spec.Op.negProduct, Spec.Op.negAddend, Bool.true_xor, Bool.false_xor] at hm
  rw [if_neg (by
    simp only [Bool.true_xor] at hs
    cases h1 : (a.msb ^^ b.msb) <;> cases h2 : c.msb <;> simp_all), he] at hm
  have := hm.2
  rw [neg_msb, hh.2] at this
  cases hd : decide (d = .down) <;> simp [hd] at this

/-- −(1 × 1) − (−1). -/
example : exact .madd one one minusOne = 0 ∧ exact .msub one one one = 0 := by decide +kernel

/-- **C67** is violated: when product and addend of `fnmsub` are zero and the
addend is negative, the sign of the result is wrong in every direction but down
(where it is wrong for a negative product only). -/
theorem C67_nmsub_zero_violated (h : Host double) (d : Dir) (hd : d ≠ .down)
    (a b c : BitVec double.bits) (hn : Nums a b c) (hp : ZeroProduct a b) (hc : IsZero c)
    (hs : c.msb = true) : ¬ Correct d .nmsub a b c (dNmsub h d a b c) := by
  rintro ⟨hm, _⟩
  rw [fma_zero ok_double hn hc hp] at hm
  have he : dNmsub h d a b c = if top (a ^^^ b) ≠ top c then zero double else c := by
    refine (shape_zero ok_double hc hn hp).trans ?_
    rw [minus_zero hc]
  rw [he] at hm
  have ht := top_eq (a ^^^ b) c
  rw [BitVec.msb_xor, hs] at ht
  simp only [Spec.Op.negProduct, Spec.Op.negAddend, Bool.true_xor, Bool.false_xor, hs,
    decide_eq_false hd] at hm
  cases hab : (a.msb ^^ b.msb)
  · rw [hab] at ht hm
    rw [if_pos (fun h => by simpa using ht.1 h)] at hm
    have := hm.2
    rw [zero_msb] at this
    simp at this
  · rw [hab] at ht hm
    rw [if_neg (by simpa using ht.2 rfl)] at hm
    have := hm.2
    rw [if_neg (by simpa using ht.2 rfl), hs] at this
    simp at this

/-- −(0 × 1) + (−0), to nearest: −0 is right, +0 is returned. -/
example (h : Host double) : dNmsub h .nearestEven plusZero one minusZero = plusZero := by rfl

/-- A number of units that is not the value of any pattern. -/
def Inexact (f : Fmt) (n : Int) : Prop := ∀ p < infPat f, scaled f p * unit f ≠ n.natAbs

theorem up_ne_down (ok : Ok f) {d : Dir} (hd : d = .up ∨ d = .down) {n : Int} (hn : n ≠ 0)
    (hi : Inexact f n) {r : BitVec f.bits} (h1 : Meets d (.round n (unit f)) r) :
    ¬ Meets d (.round (-n) (unit f)) (neg r) := by
  rintro ⟨_, q, hq, hr'⟩
  obtain ⟨_, p, hp, hr⟩ := h1
  rw [Int.natAbs_neg] at hq hr'
  have := floor_unique hp hq
  subst this
  rw [neg_pat, hr] at hr'
  have hneg : decide (-n < 0) = !decide (n < 0) := by
    by_cases h : n < 0
    · simp [h]; omega
    · simp [h]; omega
  rw [hneg] at hr'
  have hne : roundPat f .up p n.natAbs (unit f) ≠ roundPat f .down p n.natAbs (unit f) := by
    have h0 := infPat_pos ok
    have hle := hp.1
    simp only [roundPat]
    by_cases hpi : p = infPat f
    · rw [if_pos (Or.inl hpi), if_pos hpi]
      omega
    · rw [if_neg (fun h => h.elim hpi (hi p (by omega))), if_neg hpi]
      omega
  rcases hd with rfl | rfl <;> cases hs : decide (n < 0) <;> rw [hs] at hr' <;>
    simp only [mode, Bool.not_false, Bool.not_true, if_true, Bool.false_eq_true, if_false] at hr'
  · exact hne hr'
  · exact hne hr'.symm
  · exact hne hr'.symm
  · exact hne hr'

theorem fma_round {d : Dir} {np nc : Bool} {a b c : BitVec f.bits} (hn : Nums a b c)
    (ha : ¬ Inf a) (hb : ¬ Inf b) (hc : ¬ Inf c)
    (h0 : neg? np (val a * val b) + neg? nc (val c) * (unit f : Int) ≠ 0) :
    Spec.fma d np nc a b c
      = .round (neg? np (val a * val b) + neg? nc (val c) * (unit f : Int)) (unit f) := by
  unfold Spec.fma
  simp only [hn.a, hn.b, hn.c, ha, hb, hc, h0, or_self, if_false, false_and, and_false, ne_eq,
    not_false_eq_true, if_true]

/-- **C67** is violated: when rounding up or down, every inexact `fnmadd` is
rounded the wrong way. -/
theorem C67_nmadd_directed_violated {h : Host double} (ie : Ieee h) (d : Dir)
    (hd : d = .up ∨ d = .down) (a b c : BitVec double.bits) (hn : Nums a b c) (ha : ¬ Inf a)
    (hb : ¬ Inf b) (hc : ¬ Inf c) (hz : ¬ IsZero c) (h0 : exact .madd a b c ≠ 0)
    (hi : Inexact double (exact .madd a b c)) :
    ¬ Correct d .nmadd a b c (dNmadd h d a b c) := by
  rintro ⟨hm, _⟩
  have hh := ie.fma d a b c
  have hf : Spec.fma d false false a b c = .round (exact .madd a b c) (unit double) :=
    fma_round hn ha hb hc h0
  have hnn := not_nan_of_meets hh (by rw [hf]; intro h; cases h)
  rw [hf] at hh
  have he : dNmadd h d a b c = neg (h.fma d a b c) :=
    (shape_fma hz hn hc).trans (canonicalize_of (fun h => hnn (neg_nan.1 h)))
  have hneg : neg? (Spec.Op.negProduct .nmadd) (val a * val b)
      + neg? (Spec.Op.negAddend .nmadd) (val c) * (unit double : Int) = -exact .madd a b c := by
    simp [exact, neg?, Spec.Op.negProduct, Spec.Op.negAddend, Int.neg_mul, Int.neg_add]
  rw [fma_round hn ha hb hc (by rw [hneg]; omega), hneg, he] at hm
  exact up_ne_down ok_double hd h0 hi hh hm

/-- **C67** is violated: likewise for `fnmsub`. -/
theorem C67_nmsub_directed_violated {h : Host double} (ie : Ieee h) (d : Dir)
    (hd : d = .up ∨ d = .down) (a b c : BitVec double.bits) (hn : Nums a b c) (ha : ¬ Inf a)
    (hb : ¬ Inf b) (hc : ¬ Inf c) (hz : ¬ IsZero c) (h0 : exact .msub a b c ≠ 0)
    (hi : Inexact double (exact .msub a b c)) :
    ¬ Correct d .nmsub a b c (dNmsub h d a b c) := by
  rintro ⟨hm, _⟩
  have hh := ie.fma d a b (neg c)
  rw [show Spec.fma d false false a b (neg c) = Spec.fma d false true a b c by
    rw [fma_neg d false true]; simp] at hh
  have hf : Spec.fma d false true a b c = .round (exact .msub a b c) (unit double) :=
    fma_round hn ha hb hc h0
  have hnn := not_nan_of_meets hh (by rw [hf]; intro h; cases h)
  rw [hf] at hh
  have he : dNmsub h d a b c = neg (h.fma d a b (neg c)) :=
    (shape_fma hz hn hc).trans (canonicalize_of (fun h => hnn (neg_nan.1 h)))
  have hneg : neg? (Spec.Op.negProduct .nmsub) (val a * val b)
      + neg? (Spec.Op.negAddend .nmsub) (val c) * (unit double : Int) = -exact .msub a b c := by
    simp [exact, neg?, Spec.Op.negProduct, Spec.Op.negAddend, Int.neg_mul, Int.neg_add]
  rw [fma_round hn ha hb hc (by rw [hneg]; omega), hneg, he] at hm
  exact up_ne_down ok_double hd h0 hi hh hm

/-- A number of units strictly between two neighbouring patterns is inexact. -/
theorem inexact_between {n : Int} {p : Nat} (h1 : scaled f p * unit f < n.natAbs)
    (h2 : n.natAbs < scaled f (p + 1) * unit f) : Inexact f n := by
  intro q _ hq
  have hu : 0 < unit f := Nat.two_pow_pos _
  rcases Nat.lt_or_ge p q with h | h
  · have : scaled f (p + 1) ≤ scaled f q := by
      rcases Nat.eq_or_lt_of_le h with h | h
      · rw [← h]; exact Nat.le_refl _
      · exact Nat.le_of_lt (scaled_lt h)
    have := Nat.mul_le_mul_right (unit f) this
    omega
  · have : scaled f q ≤ scaled f p := by
      rcases Nat.eq_or_lt_of_le h with h | h
      · rw [h]; exact Nat.le_refl _
      · exact Nat.le_of_lt (scaled_lt h)
    have := Nat.mul_le_mul_right (unit f) this
    omega

/-- 1 × 1 + 2⁻⁶⁰ lies between 1 and its successor. -/
example : Nums one one tiny ∧ ¬ Inf one ∧ ¬ Inf tiny ∧ ¬ IsZero tiny ∧ exact .madd one one tiny ≠ 0 ∧
    Inexact double (exact .madd one one tiny) :=
  ⟨⟨by decide +kernel, by decide +kernel, by decide +kernel⟩, by decide +kernel, by decide +kernel,
    by decide +kernel, by decide +kernel,
    inexact_between (p := pat one) (by decide +kernel) (by decide +kernel)⟩

end Verif.FpFma
