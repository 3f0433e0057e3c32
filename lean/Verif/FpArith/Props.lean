import Verif.FpArith.Model
import Verif.FpArith.Spec
import Verif.FpState.Props
import Verif.FpFma.Violated

/-!
# C74 (the invalid flag) and C75 (results and canonical NaNs)
-/

namespace Verif.FpArith

open Verif.Fp Verif.FpHost.Spec Verif.FpFma Verif.FpFma.Spec Spec

variable {f : Fmt}

/-- The host's arithmetic is correct.  For infinity times zero plus a quiet NaN IEEE
754 leaves the flag of `fma` open. -/
structure Ieee (h : Host f) : Prop where
  fma : FpFma.Ieee h.fma
  add : ∀ d a b, Meets d (Spec.add d false a b) (h.add d a b)
  sub : ∀ d a b, Meets d (Spec.add d true a b) (h.sub d a b)
  div : ∀ d a b, Meets d (Spec.div a b) (h.div d a b)
  sqrt : ∀ d a, Spec.Sqrt d a (h.sqrt d a)
  fmaNv : ∀ a b c, ¬ (InfZero a b ∧ NaN c) → (h.fmaNv a b c = true ↔ FmaInvalid .madd a b c)
  mulNv : ∀ a b, h.mulNv a b = true ↔ MulInvalid a b
  sqrtNv : ∀ a, h.sqrtNv a = true ↔ SqrtInvalid a

/-! ### Such hosts exist -/

theorem scaled_ge (n : Nat) : n ≤ scaled f n := by
  induction n with
  | zero => simp
  | succ n ih => have := scaled_succ (f := f) n; omega

theorem sqrt_floor (n : Nat) : ∃ p, scaled f p ^ 2 ≤ n ∧ n < scaled f (p + 1) ^ 2 := by
  have key : ∀ k, (∃ p, scaled f p ^ 2 ≤ n ∧ n < scaled f (p + 1) ^ 2) ∨ scaled f k ^ 2 ≤ n := by
    intro k
    induction k with
    | zero => right; rw [scaled_zero]; simp
    | succ k ih =>
      rcases ih with h | h
      · exact Or.inl h
      · by_cases hk : scaled f (k + 1) ^ 2 ≤ n
        · exact Or.inr hk
        · exact Or.inl ⟨k, h, by omega⟩
  rcases key (n + 1) with h | h
  · exact h
  · have h1 := scaled_ge (f := f) (n + 1)
    have h2 : (n + 1) ^ 2 ≤ scaled f (n + 1) ^ 2 := Nat.pow_le_pow_left h1 2
    have h3 : n + 1 ≤ (n + 1) ^ 2 := by
      rw [Nat.pow_two]; exact Nat.le_mul_of_pos_left _ (by omega)
    omega

/-- The root of a number of patterns below infinity has one too. -/
def Roomy (f : Fmt) : Prop := scaled f (infPat f) * unit f ≤ scaled f (infPat f - 1) ^ 2

theorem roomy_single : Roomy single := by unfold Roomy; decide +kernel
theorem roomy_double : Roomy double := by unfold Roomy; decide +kernel

theorem sqrt_exists (ok : Ok f) (hr : Roomy f) (d : Dir) (a : BitVec f.bits) :
    ∃ r, Spec.Sqrt d a r := by
  unfold Spec.Sqrt
  by_cases h1 : NaN a
  · exact ⟨canonicalNaN f, by rw [if_pos h1]; exact canonical_nan ok⟩
  simp only [if_neg h1]
  by_cases h2 : IsZero a
  · exact ⟨a, by rw [if_pos h2]⟩
  simp only [if_neg h2]
  by_cases h3 : a.msb
  · exact ⟨canonicalNaN f, by rw [if_pos h3]; exact canonical_nan ok⟩
  simp only [if_neg h3]
  by_cases h4 : Inf a
  · exact ⟨make f false (infPat f), by
      rw [if_pos h4]; exact ⟨make_pat infPat_lt, make_msb infPat_lt⟩⟩
  simp only [if_neg h4]
  have hlt : pat a < infPat f := by unfold NaN at h1; unfold Inf at h4; omega
  obtain ⟨p, hp, hq⟩ := sqrt_floor (f := f) (scaled f (pat a) * unit f)
  have hpi : p < infPat f - 1 := by
    refine Nat.lt_of_not_le fun hge => ?_
    have h5 : scaled f (infPat f - 1) ≤ scaled f p := by
      rcases Nat.eq_or_lt_of_le hge with h | h
      · rw [h]; exact Nat.le_refl _
      · exact Nat.le_of_lt (scaled_lt h)
    have h6 : scaled f (pat a) * unit f < scaled f (infPat f) * unit f :=
      Nat.mul_lt_mul_of_pos_right (scaled_lt hlt) (Nat.two_pow_pos _)
    have h7 : scaled f (infPat f - 1) ^ 2 ≤ scaled f p ^ 2 := Nat.pow_le_pow_left h5 2
    unfold Roomy at hr
    omega
  have hle : ∀ o n, sqrtPat f o p n ≤ p + 1 := by
    intro o n
    unfold sqrtPat
    cases o <;> dsimp only <;> repeat' split
    all_goals omega
  have hb : ∀ o n, sqrtPat f o p n < 2 ^ (f.e + f.s) := by
    intro o n
    have := hle o n
    have := infPat_lt (f := f)
    omega
  exact ⟨make f false (sqrtPat f (mode d false) p (scaled f (pat a) * unit f)),
    make_msb (hb _ _), p, hp, hq, make_pat (hb _ _)⟩

open Classical in
/-- A correct host exists, so the hypothesis of the theorems below can be met. -/
theorem ieee_exists (ok : Ok f) (hr : Roomy f) : ∃ h : Host f, Ieee h := by
  obtain ⟨m, hm⟩ := FpFma.ieee_exists (f := f) ok
  refine ⟨⟨m, fun d a b => Classical.choose (meets_exists ok d (Spec.add d false a b)),
    fun d a b => Classical.choose (meets_exists ok d (Spec.add d true a b)),
    fun d a b => Classical.choose (meets_exists ok d (Spec.div a b)),
    fun d a => Classical.choose (sqrt_exists ok hr d a),
    fun a b c => decide (FmaInvalid .madd a b c), fun a b => decide (MulInvalid a b),
    fun a => decide (SqrtInvalid a)⟩, ⟨hm, ?_, ?_, ?_, ?_, ?_, ?_, ?_⟩⟩
  · intro d a b; exact Classical.choose_spec (meets_exists ok d (Spec.add d false a b))
  · intro d a b; exact Classical.choose_spec (meets_exists ok d (Spec.add d true a b))
  · intro d a b; exact Classical.choose_spec (meets_exists ok d (Spec.div a b))
  · intro d a; exact Classical.choose_spec (sqrt_exists ok hr d a)
  · intro a b c _; simp
  · intro a b; simp
  · intro a; simp

example : ∃ h : Host single, Ieee h := ieee_exists ok_single roomy_single
example : ∃ h : Host double, Ieee h := ieee_exists ok_double roomy_double

/-! ### C75 -/

theorem binary_eq (op : BitVec f.bits → BitVec f.bits → BitVec f.bits) (a b : BitVec f.bits) :
    binary op a b = canonicalize (op a b) := rfl

/-- **C75**, scalar: the sum, difference, product and quotient are correct, and every
NaN is the canonical one. -/
theorem C75_binary {h : Host f} (ok : Ok f) (ie : Ieee h) (d : Dir) (a b : BitVec f.bits) :
    (Meets d (Spec.add d false a b) (fadd h d a b) ∧
      (NaN (fadd h d a b) → fadd h d a b = canonicalNaN f)) ∧
    (Meets d (Spec.add d true a b) (fsub h d a b) ∧
      (NaN (fsub h d a b) → fsub h d a b = canonicalNaN f)) ∧
    (Meets d (FpFma.Spec.mul a b) (fmul h d a b) ∧
      (NaN (fmul h d a b) → fmul h d a b = canonicalNaN f)) ∧
    (Meets d (Spec.div a b) (fdiv h d a b) ∧
      (NaN (fdiv h d a b) → fdiv h d a b = canonicalNaN f)) :=
  ⟨canon_meets ok (ie.add d a b), canon_meets ok (ie.sub d a b), canon_meets ok (ie.fma.mul d a b),
    canon_meets ok (ie.div d a b)⟩

theorem negative_eq (a : BitVec f.bits) :
    negative a = true ↔ ¬ NaN a ∧ ¬ IsZero a ∧ a.msb = true := by
  unfold negative
  rw [isNaN_eq, isZero_eq]
  simp [and_assoc]

theorem sqrtRounded_not_nan (hr : Roomy f) {d : Dir} {a r : BitVec f.bits} (h1 : ¬ NaN a)
    (h4 : ¬ Inf a) (h : SqrtRounded d a r) : ¬ NaN r := by
  obtain ⟨_, p, hp, _, hq⟩ := h
  have hlt : pat a < infPat f := by unfold NaN at h1; unfold Inf at h4; omega
  have hpi : p < infPat f - 1 := by
    refine Nat.lt_of_not_le fun hge => ?_
    have h5 : scaled f (infPat f - 1) ≤ scaled f p := by
      rcases Nat.eq_or_lt_of_le hge with h | h
      · rw [h]; exact Nat.le_refl _
      · exact Nat.le_of_lt (scaled_lt h)
    have h6 : scaled f (pat a) * unit f < scaled f (infPat f) * unit f :=
      Nat.mul_lt_mul_of_pos_right (scaled_lt hlt) (Nat.two_pow_pos _)
    have h7 : scaled f (infPat f - 1) ^ 2 ≤ scaled f p ^ 2 := Nat.pow_le_pow_left h5 2
    unfold Roomy at hr
    omega
  have hle : sqrtPat f (mode d false) p (scaled f (pat a) * unit f) ≤ p + 1 := by
    unfold sqrtPat
    cases mode d false <;> dsimp only <;> repeat' split
    all_goals omega
  unfold NaN
  omega

/-- **C75**: the square root is correct, and every NaN is the canonical one. -/
theorem C75_sqrt {h : Host f} (ok : Ok f) (hr : Roomy f) (ie : Ieee h) (d : Dir)
    (a : BitVec f.bits) :
    Spec.Sqrt d a (fsqrt h d a).1 ∧ (NaN (fsqrt h d a).1 → (fsqrt h d a).1 = canonicalNaN f) := by
  unfold fsqrt
  by_cases h1 : NaN a
  · rw [if_pos (by rw [isNaN_eq]; simp [h1])]
    refine ⟨?_, fun _ => rfl⟩
    unfold Spec.Sqrt
    rw [if_pos h1]
    exact canonical_nan ok
  by_cases h2 : negative a = true
  · rw [if_pos (by simp [h2])]
    refine ⟨?_, fun _ => rfl⟩
    have h3 := (negative_eq a).1 h2
    unfold Spec.Sqrt
    rw [if_neg h1, if_neg h3.2.1, if_pos h3.2.2]
    exact canonical_nan ok
  rw [if_neg (by rw [isNaN_eq]; simp [h1, h2])]
  by_cases h3 : IsZero a
  · rw [if_pos (by rw [isZero_eq]; simp [h3])]
    refine ⟨?_, fun h => absurd h (zero_not_nan h3)⟩
    unfold Spec.Sqrt
    rw [if_neg h1, if_pos h3]
  · rw [if_neg (by rw [isZero_eq]; simp [h3])]
    have hs := ie.sqrt d a
    refine ⟨hs, fun hn => absurd hn ?_⟩
    have hm : ¬ a.msb = true := fun hm => h2 ((negative_eq a).2 ⟨h1, h3, hm⟩)
    unfold Spec.Sqrt at hs
    rw [if_neg h1, if_neg h3, if_neg hm] at hs
    by_cases h4 : Inf a
    · rw [if_pos h4] at hs; exact inf_not_nan hs.1
    · rw [if_neg h4] at hs; exact sqrtRounded_not_nan hr h1 h4 hs

/-- **C75**, vectors: the results are correct, except that a NaN need not be the
canonical one. -/
theorem C75_vector_partial {h : Host f} (ie : Ieee h) (d : Dir) (vs2 vs1 : BitVec f.bits) :
    Meets d (Spec.add d false vs2 vs1) (vfadd h d vs2 vs1) ∧
    Meets d (Spec.add d true vs2 vs1) (vfsub h d vs2 vs1) ∧
    Meets d (Spec.add d true vs1 vs2) (vfrsub h d vs2 vs1) ∧
    Meets d (FpFma.Spec.mul vs2 vs1) (vfmul h d vs2 vs1) ∧
    Meets d (Spec.div vs2 vs1) (vfdiv h d vs2 vs1) ∧
    Meets d (Spec.div vs1 vs2) (vfrdiv h d vs2 vs1) :=
  ⟨ie.add d _ _, ie.sub d _ _, ie.sub d _ _, ie.fma.mul d _ _, ie.div d _ _, ie.div d _ _⟩

/-- **C75** is violated by the vector instructions: on a host that, as IEEE 754
recommends, returns its first NaN operand (if quiet), the sum is not the canonical
NaN, for every other quiet NaN in the first operand. -/
theorem C75_vector_violated (h : Host f) (d : Dir) (vs2 vs1 : BitVec f.bits)
    (hp : ∀ x y : BitVec f.bits, isQNaN x = true → h.add d x y = x) (hq : isQNaN vs2 = true)
    (hc : vs2 ≠ canonicalNaN f) :
    NaN (vfadd h d vs2 vs1) ∧ vfadd h d vs2 vs1 ≠ canonicalNaN f := by
  unfold vfadd
  rw [hp vs2 vs1 hq]
  refine ⟨?_, hc⟩
  have : isNaN vs2 = true := by unfold isQNaN at hq; simp only [Bool.and_eq_true] at hq; exact hq.1
  rw [isNaN_eq] at this
  simpa using this

example : isQNaN (f := single) 0x7fc00001#32 = true ∧ (0x7fc00001#32 : BitVec 32) ≠ 0x7fc00000#32 := by
  decide

/-! ### C74 -/

theorem isSNaN_eq (a : BitVec f.bits) : isSNaN a = true ↔ Signalling a := by
  unfold isSNaN Signalling
  rw [isNaN_eq]
  simp

theorem isQNaN_not {a : BitVec f.bits} : (!isQNaN a) = true ↔ (¬ NaN a ∨ Signalling a) := by
  unfold isQNaN Signalling
  rw [isNaN_eq]
  cases h : a.getLsbD (f.s - 1) <;> simp [h] <;> exact Decidable.em _ |>.symm

/-- **C74**: the square root raises invalid exactly when it must. -/
theorem C74_sqrt {h : Host f} (ie : Ieee h) (d : Dir) (a : BitVec f.bits) :
    (fsqrt h d a).2 = true ↔ SqrtInvalid a := by
  unfold fsqrt
  by_cases h1 : NaN a
  · rw [if_pos (by rw [isNaN_eq]; simp [h1])]
    simp only [isQNaN_not, SqrtInvalid, h1, not_true_eq_false, false_or, false_and, or_false]
  by_cases h2 : negative a = true
  · rw [if_pos (by simp [h2])]
    have h3 := (negative_eq a).1 h2
    simp only [isQNaN_not, SqrtInvalid, h1, not_false_eq_true, true_or, true_iff]
    exact Or.inr ⟨trivial, h3.2⟩
  rw [if_neg (by rw [isNaN_eq]; simp [h1, h2])]
  by_cases h3 : IsZero a
  · rw [if_pos (by rw [isZero_eq]; simp [h3])]
    simp only [SqrtInvalid, Signalling, h1, h3]
    simp
  · rw [if_neg (by rw [isZero_eq]; simp [h3])]
    exact ie.sqrtNv a

/-- −1 and a signalling NaN are invalid, −0 and a quiet NaN are not. -/
example : SqrtInvalid minusOne ∧ ¬ SqrtInvalid minusZero := by
  constructor
  · exact Or.inr ⟨by decide +kernel, by decide +kernel, by decide +kernel⟩
  · rintro (⟨h, _⟩ | ⟨_, h, _⟩)
    · exact absurd h (by decide +kernel)
    · exact absurd h (by decide +kernel)

theorem neg_bit (ok : Ok f) (u : BitVec f.bits) : (neg u).getLsbD (f.s - 1) = u.getLsbD (f.s - 1) := by
  have hlt : f.s - 1 < f.e + f.s := by have := ok.1; have := ok.2; omega
  unfold neg
  rw [BitVec.getLsbD_xor, BitVec.getLsbD_ofNat, Nat.testBit_two_pow_of_ne (by omega)]
  simp

theorem neg_signalling (ok : Ok f) {u : BitVec f.bits} : Signalling (neg u) ↔ Signalling u := by
  unfold Signalling
  rw [neg_nan, neg_bit ok]

theorem infZero_neg {a b : BitVec f.bits} : InfZero (neg a) b ↔ InfZero a b := by
  unfold InfZero
  rw [neg_inf, neg_zero]

theorem invalidProduct_eq (a b : BitVec f.bits) : invalidProduct a b = true ↔ InfZero a b := by
  unfold invalidProduct InfZero
  rw [isInf_eq, isInf_eq, isZero_eq, isZero_eq]
  simp only [Bool.or_eq_true, Bool.and_eq_true, decide_eq_true_eq]
  exact ⟨fun h => h.elim Or.inl (fun h => Or.inr ⟨h.2, h.1⟩),
    fun h => h.elim Or.inl (fun h => Or.inr ⟨h.2, h.1⟩)⟩

/-- The operands negated for the host. -/
def arg (s : Bool) (u : BitVec f.bits) : BitVec f.bits := if s then neg u else u

theorem arg_msb (s : Bool) (u : BitVec f.bits) : (arg s u).msb = (s ^^ u.msb) := by
  cases s <;> simp [arg, neg_msb]
theorem arg_nan {s : Bool} {u : BitVec f.bits} : NaN (arg s u) ↔ NaN u := by
  cases s <;> simp [arg, neg_nan]
theorem arg_inf {s : Bool} {u : BitVec f.bits} : Inf (arg s u) ↔ Inf u := by
  cases s <;> simp [arg, neg_inf]
theorem arg_zero {s : Bool} {u : BitVec f.bits} : IsZero (arg s u) ↔ IsZero u := by
  cases s <;> simp [arg, neg_zero]
theorem arg_signalling (ok : Ok f) {s : Bool} {u : BitVec f.bits} :
    Signalling (arg s u) ↔ Signalling u := by
  cases s <;> simp [arg, neg_signalling ok]

theorem invalid_arg (ok : Ok f) (o : FpFma.Spec.Op) (a b c : BitVec f.bits) :
    FmaInvalid .madd (arg o.negProduct a) b (arg o.negAddend c) ↔ FmaInvalid o a b c := by
  unfold FmaInvalid InfMinusInf InfZero
  rw [arg_signalling ok, arg_signalling ok, arg_inf, arg_zero, arg_nan, arg_inf, arg_msb, arg_msb]
  simp only [FpFma.Spec.Op.negProduct, FpFma.Spec.Op.negAddend, Bool.false_xor, Bool.xor_assoc]

theorem nv_single (ok : Ok f) {h : Host f} (ie : Ieee h) (o : FpFma.Spec.Op) (a b c : BitVec f.bits)
    (hq : ¬ (InfZero a b ∧ NaN c)) :
    inScope (invalidProduct a b) (h.fmaNv (arg o.negProduct a) b (arg o.negAddend c)) = true ↔
      FmaInvalid o a b c := by
  unfold inScope
  rw [ie.fmaNv _ _ _ (fun hh => hq (by
        have := hh.1
        have h2 := hh.2
        unfold InfZero at this ⊢
        rw [arg_inf, arg_zero] at this
        exact ⟨this, arg_nan.1 h2⟩)), invalid_arg ok]

/-- A flag submitted in a scope does not accrue, for every host, state and rounding
mode: fflags gets the flags the host raises and no other. -/
theorem C74_scope (H : FpState.Host) (hH : FpState.HostOk H) (s : FpState.Fp H) (rm : Option (BitVec 3))
    (submitted : Bool) (flags : BitVec 5) :
    ((FpState.fflagsRead (FpState.scopedFp s rm
        (fun s => if submitted then FpState.step s (.fflagsSet 16#32) else s) flags)).getLsbD 4) =
      ((FpState.fflagsRead s).getLsbD 4 || inScope submitted (flags.getLsbD 4)) := by
  have e : ∀ t : FpState.Fp H, (FpState.fflagsRead t).getLsbD 4 = ((H.get t.host).setWidth 5).getLsbD 4 := by
    intro t
    rw [FpState.fflags_read t ⟨t.stored.extractLsb' 5 3, (H.get t.host).setWidth 5⟩ ⟨rfl, rfl⟩]
    simp only [BitVec.getLsbD_setWidth]
    simp
  rw [e, e]
  show ((H.get (H.runIn s.host rm flags)).setWidth 5).getLsbD 4 = _
  rw [hH.run, BitVec.getLsbD_or]
  rfl

/-- **C74**, single precision: each fused multiply-add raises invalid exactly when it
must, but for infinity times zero plus a NaN. -/
theorem C74_fma_single_partial {h : Host single} (ie : Ieee h) (a b c : BitVec single.bits)
    (hq : ¬ (InfZero a b ∧ NaN c)) :
    (fMaddNv h a b c = true ↔ FmaInvalid .madd a b c) ∧
    (fMsubNv h a b c = true ↔ FmaInvalid .msub a b c) ∧
    (fNmaddNv h a b c = true ↔ FmaInvalid .nmadd a b c) ∧
    (fNmsubNv h a b c = true ↔ FmaInvalid .nmsub a b c) :=
  ⟨nv_single ok_single ie .madd a b c hq, nv_single ok_single ie .msub a b c hq,
    nv_single ok_single ie .nmadd a b c hq, nv_single ok_single ie .nmsub a b c hq⟩

/-- The case left out in which the host decides: a host may raise invalid for infinity
times zero plus a quiet NaN or not (IEEE 754, 7.2), and where it does not, as on x86, the
flag that RISC-V prescribes does not accrue. -/
theorem C74_fma_single_violated (h : Host single) (a b c : BitVec single.bits) (hz : InfZero a b)
    (hq : NaN c) :
    FmaInvalid .madd a b c ∧ FmaInvalid .msub a b c ∧ FmaInvalid .nmadd a b c ∧ FmaInvalid .nmsub a b c ∧
      (h.fmaNv a b c = false → fMaddNv h a b c = false) ∧
      (h.fmaNv a b (neg c) = false → fMsubNv h a b c = false) ∧
      (h.fmaNv (neg a) b (neg c) = false → fNmaddNv h a b c = false) ∧
      (h.fmaNv (neg a) b c = false → fNmsubNv h a b c = false) := by
  have inv : ∀ o, FmaInvalid o a b c := fun o => Or.inr (Or.inr (Or.inr (Or.inl hz)))
  exact ⟨inv _, inv _, inv _, inv _, id, id, id, id⟩

/-- Such a host is a correct one. -/
theorem quiet_host (ok : Ok f) (hr : Roomy f) :
    ∃ h : Host f, Ieee h ∧ ∀ a b c, InfZero a b → NaN c → h.fmaNv a b c = false := by
  obtain ⟨h, ie⟩ := ieee_exists (f := f) ok hr
  classical
  refine ⟨{ h with fmaNv := fun a b c => decide (¬ (InfZero a b ∧ NaN c)) && h.fmaNv a b c }, ?_, ?_⟩
  · exact ⟨ie.fma, ie.add, ie.sub, ie.div, ie.sqrt, fun a b c hh => by
      show (decide (¬ (InfZero a b ∧ NaN c)) && h.fmaNv a b c) = true ↔ _
      rw [decide_eq_true hh, Bool.true_and]; exact ie.fmaNv a b c hh, ie.mulNv, ie.sqrtNv⟩
  · intro a b c h1 h2
    show (decide (¬ (InfZero a b ∧ NaN c)) && h.fmaNv a b c) = false
    rw [decide_eq_false (fun hh => hh ⟨h1, h2⟩), Bool.false_and]

/-- The double precision functions, when no operand is a signalling NaN. -/
theorem nv_double (ok : Ok f) {o : FpFma.Spec.Op} {a b c : BitVec f.bits} {mul fma : Bool}
    (sa : ¬ Signalling a) (sb : ¬ Signalling b) (sc : ¬ Signalling c) (hq : ¬ (InfZero a b ∧ NaN c))
    (hmul : mul = true ↔ MulInvalid a b)
    (hfma : ¬ (InfZero a b ∧ NaN c) → (fma = true ↔
      (Signalling a ∨ Signalling b ∨ Signalling c ∨ InfZero a b ∨ InfMinusInf o a b c))) :
    dNv a b c mul fma = true ↔ FmaInvalid o a b c := by
  have inv : FmaInvalid o a b c ↔ InfZero a b ∨ InfMinusInf o a b c := by
    unfold FmaInvalid; simp [sa, sb, sc]
  rw [inv]
  unfold dNv inScope
  simp only [isNaN_eq, isInf_eq, isZero_eq, zeroProduct_eq, decide_eq_true_eq]
  by_cases ha : NaN a
  · rw [if_pos ha]
    have : ¬ InfZero a b := by
      rintro (⟨h, _⟩ | ⟨h, _⟩)
      · exact nan_not_inf ha h
      · exact zero_not_nan h ha
    simp [InfMinusInf, ha, this]
  rw [if_neg ha]
  by_cases hb : NaN b
  · rw [if_pos hb]
    have : ¬ InfZero a b := by
      rintro (⟨_, h⟩ | ⟨_, h⟩)
      · exact zero_not_nan h hb
      · exact nan_not_inf hb h
    simp [InfMinusInf, hb, this]
  rw [if_neg hb]
  by_cases hc : NaN c
  · rw [if_pos hc]
    have : ¬ InfMinusInf o a b c := fun h => nan_not_inf hc h.2.2.2.1
    have h2 : ¬ InfZero a b := fun h => hq ⟨h, hc⟩
    simp [this, h2]
  rw [if_neg hc]
  by_cases hi : Inf c ∧ ¬ Inf a ∧ ¬ Inf b
  · rw [if_pos (by simp [hi.1, hi.2.1, hi.2.2])]
    have : ¬ InfMinusInf o a b c := fun h => h.2.2.1.elim hi.2.1 hi.2.2
    have h2 : ¬ InfZero a b := fun h => h.elim (fun h => hi.2.1 h.1) (fun h => hi.2.2 h.2)
    simp [this, h2]
  rw [if_neg (by
    intro h
    simp only [Bool.and_eq_true, decide_eq_true_eq, Bool.not_eq_true', decide_eq_false_iff_not] at h
    exact hi ⟨h.1.1, h.1.2, h.2⟩)]
  by_cases hz : IsZero c
  · rw [if_pos hz]
    have : ¬ InfMinusInf o a b c := fun h => zero_not_inf ok hz h.2.2.2.1
    by_cases hp : ZeroProduct a b
    · rw [if_pos hp]
      have h2 : ¬ InfZero a b := by
        rintro (⟨h1, h2⟩ | ⟨h1, h2⟩) <;> rcases hp with ⟨h3, h4⟩ | ⟨h3, h4⟩
        · exact zero_not_inf ok h3 h1
        · exact h4 h1
        · exact h4 h2
        · exact zero_not_inf ok h3 h2
      simp [this, h2]
    · rw [if_neg hp, hmul]
      unfold MulInvalid
      simp [sa, sb, this]
  · rw [if_neg hz, hfma (fun h => hc h.2)]
    simp only [sa, sb, sc, false_or]

theorem mul_neg_nv (ok : Ok f) {h : Host f} (ie : Ieee h) (a b : BitVec f.bits) :
    h.mulNv (neg a) b = true ↔ MulInvalid a b := by
  rw [ie.mulNv]
  unfold MulInvalid
  rw [neg_signalling ok, infZero_neg]

/-- **C74**, double precision: right when no operand is a signalling NaN and the case is
not infinity times zero plus a NaN. -/
theorem C74_fma_double_partial {h : Host double} (ie : Ieee h) (a b c : BitVec double.bits)
    (sa : ¬ Signalling a) (sb : ¬ Signalling b) (sc : ¬ Signalling c) (hq : ¬ (InfZero a b ∧ NaN c)) :
    (dMaddNv h a b c = true ↔ FmaInvalid .madd a b c) ∧
    (dMsubNv h a b c = true ↔ FmaInvalid .msub a b c) ∧
    (dNmaddNv h a b c = true ↔ FmaInvalid .nmadd a b c) ∧
    (dNmsubNv h a b c = true ↔ FmaInvalid .nmsub a b c) := by
  refine ⟨?_, ?_, ?_, ?_⟩
  · exact nv_double ok_double sa sb sc hq (ie.mulNv a b) (fun hh => ie.fmaNv a b c hh)
  · refine nv_double ok_double sa sb sc hq (ie.mulNv a b) (fun hh => ?_)
    rw [ie.fmaNv a b (neg c) (fun h' => hh ⟨h'.1, neg_nan.1 h'.2⟩)]
    exact invalid_arg ok_double .msub a b c
  · refine nv_double ok_double sa sb sc hq (mul_neg_nv ok_double ie a b) (fun hh => ?_)
    rw [ie.fmaNv a b c hh]
    unfold FmaInvalid InfMinusInf
    simp [FpFma.Spec.Op.negProduct, FpFma.Spec.Op.negAddend]
  · refine nv_double ok_double sa sb sc hq (mul_neg_nv ok_double ie a b) (fun hh => ?_)
    rw [ie.fmaNv a b (neg c) (fun h' => hh ⟨h'.1, neg_nan.1 h'.2⟩)]
    unfold FmaInvalid InfMinusInf
    rw [neg_signalling ok_double, neg_inf, neg_msb]
    simp only [FpFma.Spec.Op.negProduct, FpFma.Spec.Op.negAddend, Bool.false_xor, Bool.true_xor]
    have : ((a.msb ^^ b.msb) ≠ !c.msb) ↔ ((!(a.msb ^^ b.msb)) ≠ c.msb) := by
      cases (a.msb ^^ b.msb) <;> cases c.msb <;> simp
    rw [this]

/-- ∞ × 0 + quiet NaN is invalid. -/
example : FmaInvalid (f := single) .madd (0x7f800000#32 : BitVec single.bits) 0#32 0x7fc00000#32 :=
  Or.inr (Or.inr (Or.inr (Or.inl (Or.inl ⟨by rfl, by rfl⟩))))

/-- **C74** is violated in double precision: neither a signalling NaN nor infinity times
zero plus a NaN raises anything, whatever the host does. -/
theorem C74_fma_double_violated (h : Host double) (a b c : BitVec double.bits)
    (hs : Signalling a ∨ Signalling b ∨ Signalling c ∨ (InfZero a b ∧ NaN c)) :
    FmaInvalid .madd a b c ∧ FmaInvalid .msub a b c ∧ FmaInvalid .nmadd a b c ∧
      FmaInvalid .nmsub a b c ∧ dMaddNv h a b c = false ∧ dMsubNv h a b c = false ∧
      dNmaddNv h a b c = false ∧ dNmsubNv h a b c = false := by
  have key : ∀ mul fma, dNv a b c mul fma = false := by
    intro mul fma
    unfold dNv inScope
    simp only [isNaN_eq, decide_eq_true_eq]
    by_cases ha : NaN a
    · rw [if_pos ha]
    rw [if_neg ha]
    by_cases hb : NaN b
    · rw [if_pos hb]
    rw [if_neg hb, if_pos]
    rcases hs with h | h | h | h
    · exact absurd h.1 ha
    · exact absurd h.1 hb
    · exact h.1
    · exact h.2
  have inv : ∀ o, FmaInvalid o a b c := fun o => by
    rcases hs with h | h | h | h
    · exact Or.inl h
    · exact Or.inr (Or.inl h)
    · exact Or.inr (Or.inr (Or.inl h))
    · exact Or.inr (Or.inr (Or.inr (Or.inl h.1)))
  exact ⟨inv _, inv _, inv _, inv _, key _ _, key _ _, key _ _, key _ _⟩

/-- A signalling NaN. -/
def signalling : BitVec double.bits := 0x7ff0000000000001#64

example : Signalling signalling := ⟨by decide +kernel, by decide +kernel⟩

/-- ∞, 0 and a quiet NaN. -/
example : InfZero (f := double) (0x7ff0000000000000#64 : BitVec double.bits) 0#64 ∧ NaN (canonicalNaN double) :=
  ⟨Or.inl ⟨by rfl, by rfl⟩, canonical_nan ok_double⟩

/-- **C74** is violated by the conversions between single and double precision: no
signalling NaN raises the flag. -/
theorem C74_convert_violated {g : Fmt} (cvt : BitVec f.bits → BitVec g.bits × Bool)
    (a : BitVec f.bits) (hs : Signalling a) : (fcvt cvt a).2 = false := by
  unfold fcvt
  rw [if_pos (by rw [isNaN_eq]; simpa using hs.1)]

/-- **C74** is violated by the vector square root: quiet NaNs raise the flag. -/
theorem C74_vsqrt_violated (h : Host f) (d : Dir) (a : BitVec f.bits) (hq : NaN a)
    (hs : ¬ Signalling a) : ¬ SqrtInvalid a ∧ (vfsqrt h d a).2 = true := by
  refine ⟨?_, ?_⟩
  · rintro (h | ⟨h, _⟩)
    · exact hs h
    · exact h hq
  · unfold vfsqrt
    rw [if_pos (by rw [isNaN_eq]; simp [hq])]

/-- A quiet NaN. -/
example : NaN (canonicalNaN double) ∧ ¬ Signalling (canonicalNaN double) :=
  ⟨canonical_nan ok_double, fun h => absurd h.2 (by decide +kernel)⟩

/-- **C74**, vector square root: right for everything but quiet NaNs. -/
theorem C74_vsqrt_partial {h : Host f} (ie : Ieee h) (d : Dir) (a : BitVec f.bits)
    (hq : NaN a → Signalling a) : ((vfsqrt h d a).2 = true ↔ SqrtInvalid a) ∧
      (vfsqrt h d a).1 = (fsqrt h d a).1 := by
  refine ⟨?_, ?_⟩
  · rw [← C74_sqrt ie d a]
    unfold vfsqrt fsqrt
    by_cases h1 : (isNaN a || negative a) = true
    · rw [if_pos h1, if_pos h1]
      simp only [isQNaN_not, true_iff]
      by_cases h2 : NaN a
      · exact Or.inr (hq h2)
      · exact Or.inl h2
    · rw [if_neg h1, if_neg h1]
  · unfold vfsqrt fsqrt
    split <;> rfl

end Verif.FpArith
