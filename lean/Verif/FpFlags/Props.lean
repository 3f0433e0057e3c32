import Verif.FpFlags.Model
import Verif.FpFlags.Spec
import Verif.FpArith.Props

/-!
# C128: the five flags of scalar arithmetic
-/

namespace Verif.FpFlags

open Verif.Fp Verif.FpHost.Spec Verif.FpFma Verif.FpFma.Spec Verif.FpArith Verif.FpArith.Spec Spec

variable {f : Fmt}

/-- The host's arithmetic is correct; `after` tells when it detects tininess.  For infinity times zero plus
a NaN IEEE 754 leaves the flags of `fma` open. -/
structure Ieee (after : Bool) (h : Host f) : Prop where
  num : FpArith.Ieee h.num
  add : ∀ d a b, Flags f after d (FpArith.Spec.add d false a b) (AddInvalid false a b) False (h.add d a b)
  sub : ∀ d a b, Flags f after d (FpArith.Spec.add d true a b) (AddInvalid true a b) False (h.sub d a b)
  mul : ∀ d a b, Flags f after d (FpFma.Spec.mul a b) (MulInvalid a b) False (h.mul d a b)
  div : ∀ d a b, Flags f after d (FpArith.Spec.div a b) (DivInvalid a b) (DivByZero a b) (h.div d a b)
  sqrt : ∀ d a, SqrtFlags a (h.sqrt d a)
  fma : ∀ d a b c, ¬ (InfZero a b ∧ NaN c) →
    Flags f after d (FpFma.Spec.fma d false false a b c) (FmaInvalid .madd a b c) False (h.fma d a b c)

/-! ### Such hosts exist -/

/-- Five bits. -/
def five (b4 b3 b2 b1 b0 : Bool) : BitVec 5 :=
  BitVec.ofBool b4 ++ BitVec.ofBool b3 ++ BitVec.ofBool b2 ++ BitVec.ofBool b1 ++ BitVec.ofBool b0

theorem five_bits (b4 b3 b2 b1 b0 : Bool) :
    (five b4 b3 b2 b1 b0).getLsbD 4 = b4 ∧ (five b4 b3 b2 b1 b0).getLsbD 3 = b3 ∧
    (five b4 b3 b2 b1 b0).getLsbD 2 = b2 ∧ (five b4 b3 b2 b1 b0).getLsbD 1 = b1 ∧
    (five b4 b3 b2 b1 b0).getLsbD 0 = b0 := by
  cases b4 <;> cases b3 <;> cases b2 <;> cases b1 <;> cases b0 <;> decide

theorem flags_exist (f : Fmt) (after : Bool) (d : Dir) (x : Expect) (nv dz : Prop) :
    ∃ fl, Flags f after d x nv dz fl := by
  classical
  obtain ⟨h4, h3, h2, h1, h0⟩ := five_bits (decide nv) (decide dz) (decide (Overflows f d x))
    (decide (Underflows f after d x)) (decide (Inexact f x))
  refine ⟨five (decide nv) (decide dz) (decide (Overflows f d x)) (decide (Underflows f after d x))
    (decide (Spec.Inexact f x)), ?_, ?_, ?_, ?_, ?_⟩
  · rw [h4]; simp
  · rw [h3]; simp
  · rw [h2]; simp
  · rw [h1]; simp
  · rw [h0]; simp

theorem sqrtFlags_exist (a : BitVec f.bits) : ∃ fl, SqrtFlags a fl := by
  classical
  obtain ⟨h4, h3, h2, h1, h0⟩ := five_bits (decide (SqrtInvalid a)) false false false (decide (SqrtInexact a))
  refine ⟨five (decide (SqrtInvalid a)) false false false (decide (SqrtInexact a)), ?_, ?_, ?_, ?_, ?_⟩
  · rw [h4]; simp
  · rw [h3]
  · rw [h2]
  · rw [h1]
  · rw [h0]; simp

theorem ieee_exists (ok : Ok f) (hr : Roomy f) (after : Bool) : ∃ h : Host f, Ieee after h := by
  obtain ⟨n, hn⟩ := FpArith.ieee_exists (f := f) ok hr
  exact ⟨⟨n, fun d a b => Classical.choose (flags_exist f after d (FpArith.Spec.add d false a b) (AddInvalid false a b) False),
    fun d a b => Classical.choose (flags_exist f after d (FpArith.Spec.add d true a b) (AddInvalid true a b) False),
    fun d a b => Classical.choose (flags_exist f after d (FpFma.Spec.mul a b) (MulInvalid a b) False),
    fun d a b => Classical.choose (flags_exist f after d (FpArith.Spec.div a b) (DivInvalid a b) (DivByZero a b)),
    fun _ a => Classical.choose (sqrtFlags_exist a),
    fun d a b c => Classical.choose (flags_exist f after d (FpFma.Spec.fma d false false a b c) (FmaInvalid .madd a b c) False)⟩,
    hn, fun d a b => Classical.choose_spec (flags_exist _ _ _ _ _ _),
    fun d a b => Classical.choose_spec (flags_exist _ _ _ _ _ _),
    fun d a b => Classical.choose_spec (flags_exist _ _ _ _ _ _),
    fun d a b => Classical.choose_spec (flags_exist _ _ _ _ _ _),
    fun d a => Classical.choose_spec (sqrtFlags_exist a),
    fun d a b c _ => Classical.choose_spec (flags_exist _ _ _ _ _ _)⟩

example : ∃ h : Host single, Ieee true h := ieee_exists ok_single roomy_single true
example : ∃ h : Host double, Ieee true h := ieee_exists ok_double roomy_double true

/-! ### Sums, products, quotients -/

/-- **C128**, sums, differences, products and quotients: result and all five flags are right. -/
theorem C128_binary {after : Bool} {h : Host f} (ok : Ok f) (ie : Ieee after h) (o : BinOp) (d : Dir)
    (a b : BitVec f.bits) :
    (Meets d (expect o d a b) (binary h o d a b) ∧ (NaN (binary h o d a b) → binary h o d a b = canonicalNaN f)) ∧
      Flags f after d (expect o d a b) (invalid o a b) (byZero o a b) (binaryFlags h o d a b) := by
  obtain ⟨h1, h2, h3, h4⟩ := C75_binary ok ie.num d a b
  cases o
  · exact ⟨h1, ie.add d a b⟩
  · exact ⟨h2, ie.sub d a b⟩
  · exact ⟨h3, ie.mul d a b⟩
  · exact ⟨h4, ie.div d a b⟩

/-! ### Square roots -/

/-- The square of a number: what is exact under the root. -/
theorem sqrt_zero_exact {a : BitVec f.bits} (h : IsZero a) : ¬ SqrtInexact a := by
  intro hi
  refine hi.2.2.2 0 ?_
  unfold IsZero at h
  rw [h, scaled_zero]
  simp

/-- **C128**, square roots: result and all five flags are right, in a valid rounding mode. -/
theorem C128_sqrt {after : Bool} {h : Host f} (ok : Ok f) (hr : Roomy f) (ie : Ieee after h) (d : Dir)
    (a : BitVec f.bits) :
    (Spec.Sqrt d a (fsqrt h.num d a).1 ∧ (NaN (fsqrt h.num d a).1 → (fsqrt h.num d a).1 = canonicalNaN f)) ∧
      SqrtFlags a (sqrtFlags h d a) := by
  refine ⟨C75_sqrt ok hr ie.num d a, ?_⟩
  unfold sqrtFlags
  split
  · rename_i h1
    have hni : ¬ SqrtInexact a := by
      intro hi
      rw [Bool.or_eq_true, isNaN_eq, decide_eq_true_eq, negative_eq] at h1
      rcases h1 with h1 | h1
      · exact hi.1 h1
      · have := hi.2.2.1; rw [h1.2.2] at this; cases this
    have hnv : (!isQNaN a) = true ↔ SqrtInvalid a := by
      have := C74_sqrt ie.num d a
      unfold fsqrt at this
      rw [if_pos h1] at this
      exact this
    cases hq : isQNaN a
    · rw [if_neg (by simp)]
      rw [hq] at hnv
      exact ⟨⟨fun _ => hnv.1 rfl, fun _ => rfl⟩, rfl, rfl, rfl,
        ⟨fun h => absurd h (by decide), fun h => absurd h hni⟩⟩
    · rw [if_pos rfl]
      rw [hq] at hnv
      exact ⟨⟨fun h => absurd h (by decide), fun h => absurd (hnv.2 h) (by decide)⟩, rfl, rfl, rfl,
        ⟨fun h => absurd h (by decide), fun h => absurd h hni⟩⟩
  · split
    · rename_i h1 h2
      have hz : IsZero a := by rw [isZero_eq] at h2; simpa using h2
      have hnv : ¬ SqrtInvalid a := by
        rintro (h | h)
        · exact zero_not_nan hz h.1
        · exact h.2.1 hz
      exact ⟨⟨fun h => absurd h (by decide), fun h => absurd h hnv⟩, rfl, rfl, rfl,
        ⟨fun h => absurd h (by decide), fun h => absurd h (sqrt_zero_exact hz)⟩⟩
    · exact ie.sqrt d a

/-! ### Fused multiply-adds -/

theorem flags_congr {after : Bool} {d : Dir} {x y : Expect} {nv nv' dz : Prop} {fl : BitVec 5}
    (h : Flags f after d x nv dz fl) (hx : x = y) (hn : nv ↔ nv') : Flags f after d y nv' dz fl := by
  subst hx
  exact ⟨h.nv.trans hn, h.dz, h.of, h.uf, h.nx⟩

/-- **C128**, single precision: result and all five flags are right, but for infinity times zero plus a
NaN, where the code relies on the host. -/
theorem C128_fma_single_partial {after : Bool} {h : Host single} (ie : Ieee after h) (o : FpFma.Spec.Op)
    (d : Dir) (a b c : BitVec single.bits) (hq : ¬ (InfZero a b ∧ NaN c)) :
    Correct d o a b c (fmaS h o d a b c) ∧
      Flags single after d (FpFma.Spec.fma d o.negProduct o.negAddend a b c) (FmaInvalid o a b c) False
        (fmaSFlags h o d a b c) := by
  refine ⟨?_, ?_⟩
  · obtain ⟨h1, h2, h3, h4⟩ := C67_single ie.num.fma d a b c
    cases o
    · exact h1
    · exact h2
    · exact h3
    · exact h4
  · have e : fmaSFlags h o d a b c = h.fma d (arg o.negProduct a) b (arg o.negAddend c) := by cases o <;> rfl
    rw [e]
    refine flags_congr (ie.fma d _ _ _ (fun hh => hq ?_)) ?_ (invalid_arg ok_single o a b c)
    · refine ⟨?_, arg_nan.1 hh.2⟩
      have := hh.1
      unfold InfZero at this ⊢
      rwa [arg_inf, arg_zero] at this
    · rw [fma_neg d o.negProduct]; rfl

/-- An expectation that is not a rounded number raises none of the last three flags. -/
theorem flags_quiet {after : Bool} {d : Dir} {x : Expect} {nv : Prop} (hx : ∀ n m, x ≠ .round n m)
    (hn : ¬ nv) : Flags f after d x nv False 0#5 := by
  have h0 : ∀ k, (0#5).getLsbD k = true ↔ False := by intro k; simp
  refine ⟨(h0 4).trans ⟨False.elim, hn⟩, h0 3, (h0 2).trans ?_, (h0 1).trans ?_, (h0 0).trans ?_⟩ <;>
    cases x <;> first | exact absurd rfl (hx _ _) | exact Iff.rfl

theorem d_flags {after : Bool} (ok : Ok f) {d : Dir} {o : FpFma.Spec.Op} {a b c : BitVec f.bits} {mul fma : BitVec 5}
    (sa : ¬ Signalling a) (sb : ¬ Signalling b) (sc : ¬ Signalling c) (hq : ¬ (InfZero a b ∧ NaN c))
    (h3 : Nums a b c → IsZero c → ¬ ZeroProduct a b →
      Flags f after d (FpFma.Spec.fma d o.negProduct o.negAddend a b c) (MulInvalid a b) False mul)
    (h4 : Nums a b c →
      Flags f after d (FpFma.Spec.fma d o.negProduct o.negAddend a b c) (FmaInvalid o a b c) False fma) :
    Flags f after d (FpFma.Spec.fma d o.negProduct o.negAddend a b c) (FmaInvalid o a b c) False
      (dFlags a b c mul fma) := by
  classical
  have key := nv_double ok (mul := decide (MulInvalid a b)) (fma := decide (FmaInvalid o a b c)) sa sb sc hq
    (by simp) (fun _ => by rw [decide_eq_true_eq]; exact Iff.rfl)
  unfold dNv inScope at key
  unfold dFlags
  have nan : NaN a ∨ NaN b ∨ NaN c → FpFma.Spec.fma d o.negProduct o.negAddend a b c = .nan := by
    intro h; unfold FpFma.Spec.fma; simp only [if_pos h]
  simp only [isNaN_eq, isInf_eq, isZero_eq, zeroProduct_eq, decide_eq_true_eq] at key ⊢
  by_cases ha : NaN a
  · rw [if_pos ha] at key ⊢
    exact flags_quiet (by rw [nan (Or.inl ha)]; intro n m h; cases h) (fun h => by cases key.2 h)
  rw [if_neg ha] at key ⊢
  by_cases hb : NaN b
  · rw [if_pos hb] at key ⊢
    exact flags_quiet (by rw [nan (Or.inr (Or.inl hb))]; intro n m h; cases h) (fun h => by cases key.2 h)
  rw [if_neg hb] at key ⊢
  by_cases hc : NaN c
  · rw [if_pos hc] at key ⊢
    exact flags_quiet (by rw [nan (Or.inr (Or.inr hc))]; intro n m h; cases h) (fun h => by cases key.2 h)
  rw [if_neg hc] at key ⊢
  have hn : Nums a b c := ⟨ha, hb, hc⟩
  by_cases hi : Inf c ∧ ¬ Inf a ∧ ¬ Inf b
  · have hi' : (decide (Inf c) && !decide (Inf a) && !decide (Inf b)) = true := by
      simp [hi.1, hi.2.1, hi.2.2]
    rw [if_pos hi'] at key ⊢
    exact flags_quiet (by rw [fma_inf hn hi.1 hi.2.1 hi.2.2]; intro n m h; cases h) (fun h => by cases key.2 h)
  have hi' : ¬ (decide (Inf c) && !decide (Inf a) && !decide (Inf b)) = true := by
    intro h
    simp only [Bool.and_eq_true, decide_eq_true_eq, Bool.not_eq_true', decide_eq_false_iff_not] at h
    exact hi ⟨h.1.1, h.1.2, h.2⟩
  rw [if_neg hi'] at key ⊢
  by_cases hz : IsZero c
  · rw [if_pos hz] at key ⊢
    by_cases hp : ZeroProduct a b
    · rw [if_pos hp] at key ⊢
      exact flags_quiet (by rw [fma_zero ok hn hz hp]; intro n m h; cases h) (fun h => by cases key.2 h)
    · rw [if_neg hp] at key ⊢
      exact flags_congr (h3 hn hz hp) rfl (by simpa using key)
  · rw [if_neg hz]
    exact h4 hn

theorem overflows_flip {d : Dir} (hd : Symmetric d) {n : Int} {m : Nat} (h0 : n ≠ 0) :
    mode d (decide (-n < 0)) = mode d (decide (n < 0)) := by
  have hneg : decide (-n < 0) = !decide (n < 0) := by
    by_cases h : n < 0
    · simp [h]; omega
    · simp [h]; omega
  rw [hneg]
  obtain ⟨h1, h2⟩ := hd
  cases d <;> simp_all [mode]

theorem flags_flip {after : Bool} {d : Dir} (hd : Symmetric d) {np nc : Bool} {a b c : BitVec f.bits}
    {nv dz : Prop} {fl : BitVec 5} (h : Flags f after d (FpFma.Spec.fma d np nc a b c) nv dz fl) :
    Flags f after d (FpFma.Spec.fma d (!np) (!nc) a b c) nv dz fl := by
  by_cases hz : ¬ Inf a → ¬ Inf b → ¬ Inf c → neg? np (val a * val b) + neg? nc (val c) * (unit f : Int) ≠ 0
  · rw [fma_flip hz]
    have hne := fma_round_ne (d := d) (np := np) (nc := nc) (a := a) (b := b) (c := c)
    revert h hne
    generalize FpFma.Spec.fma d np nc a b c = x
    intro h hne
    cases x with
    | nan => exact h
    | inf s => exact ⟨h.nv, h.dz, h.of, h.uf, h.nx⟩
    | zero s => exact ⟨h.nv, h.dz, h.of, h.uf, h.nx⟩
    | round n m =>
      have e := overflows_flip (m := m) hd (hne n m rfl)
      refine ⟨h.nv, h.dz, h.of.trans ?_, h.uf.trans ?_, h.nx.trans ?_⟩
      · unfold FpFma.flip Overflows; simp only [e, Int.natAbs_neg]
      · unfold FpFma.flip Underflows Spec.Inexact; simp only [e, Int.natAbs_neg]
      · unfold FpFma.flip Spec.Inexact; simp only [Int.natAbs_neg]
  · have hi : ¬ Inf a ∧ ¬ Inf b ∧ ¬ Inf c ∧ neg? np (val a * val b) + neg? nc (val c) * (unit f : Int) = 0 := by
      refine ⟨fun h => hz fun h' => absurd h h', fun h => hz fun _ h' => absurd h h',
        fun h => hz fun _ _ h' => absurd h h', ?_⟩
      exact Classical.byContradiction fun h => hz fun _ _ _ => h
    obtain ⟨ia, ib, ic, h0⟩ := hi
    have hneg : neg? (!np) (val a * val b) + neg? (!nc) (val c) * (unit f : Int) = 0 := by
      have : neg? (!np) (val a * val b) + neg? (!nc) (val c) * (unit f : Int)
          = -(neg? np (val a * val b) + neg? nc (val c) * (unit f : Int)) := by
        cases np <;> cases nc <;> simp [neg?, Int.neg_mul, Int.neg_add]
      rw [this, h0]; rfl
    have e : ∀ x y : Bool, neg? x (val a * val b) + neg? y (val c) * (unit f : Int) = 0 →
        FpFma.Spec.fma d x y a b c = .nan ∨ ∃ s, FpFma.Spec.fma d x y a b c = .zero s := by
      intro x y hxy
      unfold FpFma.Spec.fma
      by_cases h1 : NaN a ∨ NaN b ∨ NaN c
      · exact Or.inl (by simp only [if_pos h1])
      · simp only [if_neg h1, ia, ib, ic, false_and, and_false, or_self, if_false, hxy, ne_eq, not_true_eq_false]
        exact Or.inr ⟨_, rfl⟩
    have q : ∀ {x y : Expect}, (x = .nan ∨ ∃ s, x = .zero s) → (y = .nan ∨ ∃ s, y = .zero s) →
        Flags f after d x nv dz fl → Flags f after d y nv dz fl := by
      rintro x y (rfl | ⟨s, rfl⟩) (rfl | ⟨t, rfl⟩) h <;> exact ⟨h.nv, h.dz, h.of, h.uf, h.nx⟩
    exact q (e np nc h0) (e (!np) (!nc) hneg) h

theorem mulInvalid_neg (ok : Ok f) {a b : BitVec f.bits} : MulInvalid (neg a) b ↔ MulInvalid a b := by
  unfold MulInvalid
  rw [neg_signalling ok, infZero_neg]

/-- **C128**, double precision: all five flags are right when no operand is a signalling NaN, not for
infinity times zero plus a NaN, and for the negated instructions when rounding to nearest or towards
zero. -/
theorem C128_fma_double_partial {after : Bool} {h : Host double} (ie : Ieee after h) (o : FpFma.Spec.Op)
    (d : Dir) (a b c : BitVec double.bits) (sa : ¬ Signalling a) (sb : ¬ Signalling b) (sc : ¬ Signalling c)
    (hq : ¬ (InfZero a b ∧ NaN c)) (hd : o.negProduct = true → Symmetric d) :
    Flags double after d (FpFma.Spec.fma d o.negProduct o.negAddend a b c) (FmaInvalid o a b c) False
      (fmaDFlags h o d a b c) := by
  have qc : ¬ (InfZero a b ∧ NaN (neg c)) := fun hh => hq ⟨hh.1, neg_nan.1 hh.2⟩
  cases o with
  | madd =>
    refine d_flags ok_double sa sb sc hq (fun hn hc hp => ?_) (fun _ => ie.fma d a b c hq)
    exact flags_congr (ie.mul d a b) (fma_mul ok_double hn hc hp).symm Iff.rfl
  | msub =>
    refine d_flags ok_double sa sb sc hq (fun hn hc hp => ?_) (fun _ => ?_)
    · exact flags_congr (ie.mul d a b) (fma_mul ok_double hn hc hp).symm Iff.rfl
    · exact flags_congr (ie.fma d a b (neg c) qc) (fma_neg d false true a b c).symm
        (invalid_arg ok_double .msub a b c)
  | nmadd =>
    refine d_flags ok_double sa sb sc hq (fun hn hc hp => ?_) (fun _ => ?_)
    · exact flags_congr (ie.mul d (neg a) b) (fma_mul_neg ok_double hn hc hp).symm (mulInvalid_neg ok_double)
    · refine flags_congr (flags_flip (hd rfl) (ie.fma d a b c hq)) rfl ?_
      unfold FmaInvalid InfMinusInf
      simp [FpFma.Spec.Op.negProduct, FpFma.Spec.Op.negAddend]
  | nmsub =>
    refine d_flags ok_double sa sb sc hq (fun hn hc hp => ?_) (fun _ => ?_)
    · exact flags_congr (ie.mul d (neg a) b) (fma_mul_neg ok_double hn hc hp).symm (mulInvalid_neg ok_double)
    · have h1 := flags_congr (ie.fma d a b (neg c) qc) (fma_neg d false true a b c).symm Iff.rfl
      refine flags_congr (flags_flip (hd rfl) h1) rfl ?_
      unfold FmaInvalid InfMinusInf
      rw [neg_signalling ok_double, neg_inf, neg_msb]
      simp only [FpFma.Spec.Op.negProduct, FpFma.Spec.Op.negAddend, Bool.false_xor, Bool.true_xor]
      have : ((a.msb ^^ b.msb) ≠ !c.msb) ↔ ((!(a.msb ^^ b.msb)) ≠ c.msb) := by
        cases (a.msb ^^ b.msb) <;> cases c.msb <;> simp
      rw [this]

/-! ### Directed rounding -/

/-- The greatest number, one, and the least positive number. -/
def greatest : BitVec double.bits := 0x7fefffffffffffff#64
def one : BitVec double.bits := 0x3ff0000000000000#64
def least : BitVec double.bits := 1#64

/-- A little more than the greatest number. -/
def over : Int := val greatest * val one + val least * unit double

theorem fma_over (d : Dir) : FpFma.Spec.fma d false false greatest one least = .round over (unit double) := by
  unfold FpFma.Spec.fma
  simp only [if_neg (by decide : ¬ (NaN greatest ∨ NaN one ∨ NaN least)),
    if_neg (by decide : ¬ ((Inf greatest ∧ IsZero one) ∨ (IsZero greatest ∧ Inf one))),
    if_neg (by decide : ¬ (Inf greatest ∨ Inf one)), if_neg (by decide : ¬ Inf least)]
  rw [if_pos (by decide +kernel)]
  rfl

theorem fnmadd_over (d : Dir) : FpFma.Spec.fma d true true greatest one least = .round (-over) (unit double) := by
  have := fma_flip (d := d) (np := false) (nc := false) (a := greatest) (b := one) (c := least)
    (fun _ _ _ => by decide +kernel)
  rw [show true = !false from rfl, this, fma_over]
  rfl

/-- **C128** is violated by double precision `fnmadd` in directed rounding: −(a·b + c) lies between the
greatest number of negative sign and the next one, so that rounding up gives that greatest number and
does not overflow; the code raises overflow, whatever correct host it runs on. -/
theorem C128_directed_violated {after : Bool} {h : Host double} (ie : Ieee after h) :
    ¬ Overflows double .up (FpFma.Spec.fma .up true true greatest one least) ∧
      (fmaDFlags h .nmadd .up greatest one least).getLsbD 2 = true := by
  refine ⟨?_, ?_⟩
  · rw [fnmadd_over]
    rintro ⟨p, ⟨hp, hle, _⟩, hor⟩
    have hne : p ≠ infPat double := by
      rintro rfl
      exact absurd hle (by decide +kernel)
    rcases hor with h1 | h1
    · exact hne h1
    · rw [show mode .up (decide (-over < 0)) = Mode.down from by
        rw [show decide (-over < 0) = true from by decide +kernel]; rfl] at h1
      unfold roundPat at h1
      simp only [if_neg hne] at h1
      exact hne h1
  · have e : fmaDFlags h .nmadd .up greatest one least = h.fma .up greatest one least := by
      show dFlags greatest one least _ _ = _
      unfold dFlags
      rw [if_neg (by decide), if_neg (by decide), if_neg (by decide), if_neg (by decide), if_neg (by decide)]
    rw [e, (ie.fma .up greatest one least (by rintro ⟨_, h⟩; exact absurd h (by decide))).of]
    show Overflows double .up (FpFma.Spec.fma .up false false greatest one least)
    rw [fma_over]
    refine ⟨infPat double - 1, ⟨by decide +kernel, by decide +kernel, fun _ => by decide +kernel⟩, Or.inr ?_⟩
    decide +kernel

/-- **C128** is violated in double precision for signalling operands: nothing is raised (C74). -/
theorem C128_signalling_violated (h : Host double) (o : FpFma.Spec.Op) (d : Dir) (a b c : BitVec double.bits)
    (hs : Signalling a ∨ Signalling b ∨ Signalling c) :
    FmaInvalid o a b c ∧ fmaDFlags h o d a b c = 0#5 := by
  refine ⟨?_, ?_⟩
  · unfold FmaInvalid
    rcases hs with h | h | h
    · exact Or.inl h
    · exact Or.inr (Or.inl h)
    · exact Or.inr (Or.inr (Or.inl h))
  · have e : ∀ x y : BitVec 5, dFlags a b c x y = 0#5 := by
      intro x y
      unfold dFlags
      simp only [isNaN_eq, decide_eq_true_eq]
      by_cases ha : NaN a
      · rw [if_pos ha]
      by_cases hb : NaN b
      · rw [if_neg ha, if_pos hb]
      have hc : NaN c := by
        rcases hs with h | h | h
        · exact absurd h.1 ha
        · exact absurd h.1 hb
        · exact h.1
      rw [if_neg ha, if_neg hb, if_pos hc]
    cases o <;> exact e _ _

/-! ### The specification on known cases -/

/-- 1/3 is inexact and neither overflows nor underflows. -/
example : Spec.Inexact single (.round 1 3) := by
  refine ⟨0, ⟨by decide, by decide, fun _ => by decide⟩, Or.inr ?_⟩
  decide

/-- Half of the least number underflows. -/
example (after : Bool) : Underflows single after .nearestEven (.round 1 2) := by
  refine ⟨?_, 0, ⟨by decide, by decide, fun _ => by decide⟩, Or.inr (by decide)⟩
  cases after
  · show 1 < 2 ^ 23 * 2; decide
  · show 4 * 1 < (2 ^ 25 - 1) * 2; decide

/-- A number just below the least normal one that is rounded to it: tiny before but not after rounding. -/
example : Underflows single false .nearestEven (.round (8 * 2 ^ 23 - 1) 8) ∧
    ¬ Underflows single true .nearestEven (.round (8 * 2 ^ 23 - 1) 8) := by
  refine ⟨⟨?_, 2 ^ 23 - 1, ⟨by decide +kernel, by decide +kernel, fun _ => by decide +kernel⟩, Or.inr (by decide +kernel)⟩, ?_⟩
  · show (8 * 2 ^ 23 - 1 : Int).natAbs < 2 ^ 23 * 8; decide
  · rintro ⟨h, _⟩
    revert h
    show ¬ 4 * (8 * 2 ^ 23 - 1 : Int).natAbs < (2 ^ 25 - 1) * 8
    decide

/-- The root of 4 is exact, that of 2 is not (in half precision units, for size). -/
example : ¬ SqrtInexact (f := half) (0x4400#16 : BitVec half.bits) := by
  rintro ⟨_, _, _, h⟩
  exact h 0x4000 (by decide +kernel)

end Verif.FpFlags
