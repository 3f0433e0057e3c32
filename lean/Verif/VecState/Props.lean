import Verif.VecState.Spec
import Verif.VecState.Model
/-
C43: vsetvl.  C52: vcsr.
-/
namespace Verif.VecState
open Spec

variable {w : Nat}

theorem and7 (v : BitVec 32) : (v &&& 0b111#32).toNat = v.toNat % 8 := by
  rw [BitVec.toNat_and]
  exact Nat.and_two_pow_sub_one_eq_mod _ 3

theorem bit_of (v : BitVec 32) (k : Nat) : decide (((v >>> k) &&& 1#32) ≠ 0#32) = decide (v.toNat / 2 ^ k % 2 = 1) := by
  have : ((v >>> k) &&& 1#32).toNat = v.toNat / 2 ^ k % 2 := by
    rw [BitVec.toNat_and, BitVec.toNat_ushiftRight, Nat.shiftRight_eq_div_pow]
    exact Nat.and_one_is_mod _
  apply decide_eq_decide.2
  constructor
  · intro h
    have : ((v >>> k) &&& 1#32).toNat ≠ 0 := fun e => h (BitVec.eq_of_toNat_eq e)
    omega
  · intro h e
    rw [e] at this
    simp only [BitVec.toNat_ofNat] at this
    omega

/-- The configuration described by vtype. -/
theorem setVectorType_legal (s : VState) (v : BitVec 32) (h : Legal v.toNat) :
    ∃ s', setVectorType s v = some s' ∧ s' = { s with
      vtype := v, lmul8 := s'.lmul8, sew := 2 ^ vsew v.toNat, ta := vta v.toNat, ma := vma v.toNat,
      vmax := maxOf s.vlenb v.toNat } ∧ (s'.lmul8 : Int) * 2 ^ (-((lmulExp (vlmul v.toNat)).getD 0)).toNat = 8 * 2 ^ ((lmulExp (vlmul v.toNat)).getD 0).toNat := by
  obtain ⟨h1, h2⟩ := h
  have hl : vlmul v.toNat < 8 := Nat.mod_lt _ (by decide)
  unfold setVectorType maxOf vta vma
  have hsh : (v >>> 3).toNat = v.toNat / 8 := by rw [BitVec.toNat_ushiftRight, Nat.shiftRight_eq_div_pow]
  simp only [and7, hsh, bit_of]
  show ∃ s', (if 8 * (sewOf (vsew v.toNat) >>> 3) = 0 then _ else _) = _ ∧ _
  change vlmul v.toNat ≠ 4 at h1
  generalize hm : vlmul v.toNat = m at *
  generalize hn : vsew v.toNat = n at *
  have hm' : v.toNat % 8 = m := hm
  have hn' : v.toNat / 8 % 8 = n := hn
  have hsew : sewOf n >>> 3 = 2 ^ n := by
    have : n = 0 ∨ n = 1 ∨ n = 2 ∨ n = 3 := by omega
    rcases this with rfl | rfl | rfl | rfl <;> rfl
  have hne : ¬ 8 * 2 ^ n = 0 := by have : 0 < 2 ^ n := Nat.two_pow_pos n; omega
  rw [hsew, if_neg hne]
  refine ⟨_, rfl, ?_, ?_⟩
  · have hvm : s.vlenb * lmul8Of m / (8 * 2 ^ n) = vlmax s.vlenb ((lmulExp m).getD 0) n := by
      unfold vlmax
      have : m = 0 ∨ m = 1 ∨ m = 2 ∨ m = 3 ∨ m = 5 ∨ m = 6 ∨ m = 7 := by omega
      generalize s.vlenb = b
      generalize 2 ^ n = q
      have e8 : ∀ x y, 0 < y → x / (8 * q) = (x * y) / (8 * q * y) := fun x y hy => (Nat.mul_div_mul_right _ _ hy).symm
      rcases this with rfl | rfl | rfl | rfl | rfl | rfl | rfl
      · show b * 8 / (8 * q) = 8 * b * 1 / (8 * q * 1); simp [Nat.mul_comm]
      · show b * 16 / (8 * q) = 8 * b * 2 / (8 * q * 1); congr 1 <;> omega
      · show b * 32 / (8 * q) = 8 * b * 4 / (8 * q * 1); congr 1 <;> omega
      · show b * 64 / (8 * q) = 8 * b * 8 / (8 * q * 1); congr 1 <;> omega
      · show b * 1 / (8 * q) = 8 * b * 1 / (8 * q * 8); rw [e8 _ 8 (by decide)]; congr 1; omega
      · show b * 2 / (8 * q) = 8 * b * 1 / (8 * q * 4); rw [e8 _ 4 (by decide)]; congr 1; omega
      · show b * 4 / (8 * q) = 8 * b * 1 / (8 * q * 2); rw [e8 _ 2 (by decide)]; congr 1; omega
    simp only [hm', hn', hsew, hvm]
  · have : m = 0 ∨ m = 1 ∨ m = 2 ∨ m = 3 ∨ m = 5 ∨ m = 6 ∨ m = 7 := by omega
    simp only [hm']
    rcases this with rfl | rfl | rfl | rfl | rfl | rfl | rfl <;> rfl


theorem vtype_bits (v : BitVec w) (_ : 8 ≤ w) : (v.setWidth 32 &&& 0b11111111#32).toNat = v.toNat % 256 := by
  rw [BitVec.toNat_and, BitVec.toNat_setWidth]
  show v.toNat % 2 ^ 32 &&& (2 ^ 8 - 1) = _
  rw [Nat.and_two_pow_sub_one_eq_mod]
  omega

theorem maxOf_le (b v : Nat) (h : Legal v) : maxOf b v ≤ 8 * b := by
  unfold maxOf vlmax
  have hl : vlmul v < 8 := Nat.mod_lt _ (by decide)
  obtain ⟨h1, h2⟩ := h
  generalize vlmul v = m at *
  have hq : 0 < 2 ^ vsew v := Nat.two_pow_pos _
  generalize 2 ^ vsew v = q at *
  have key : ∀ k d, 1 ≤ d → k ≤ 8 → 8 * b * k / (8 * q * d) ≤ 8 * b := by
    intro k d hd hk
    apply Nat.div_le_of_le_mul
    calc 8 * b * k ≤ 8 * b * 8 := Nat.mul_le_mul_left _ hk
      _ = 8 * 1 * 1 * (8 * b) := by omega
      _ ≤ 8 * q * d * (8 * b) := Nat.mul_le_mul_right _ (Nat.mul_le_mul (Nat.mul_le_mul_left 8 hq) hd)
  have : m = 0 ∨ m = 1 ∨ m = 2 ∨ m = 3 ∨ m = 5 ∨ m = 6 ∨ m = 7 := by omega
  rcases this with rfl | rfl | rfl | rfl | rfl | rfl | rfl <;> exact key _ _ (by decide) (by decide)

/-- **C43.** With a legal vtype and an application vector length below 2^32, vl is the smaller of AVL and
VLMAX (VLMAX itself for rs1 = x0), rd receives vl, and the configuration is the one vtype describes.  Missing:
rd = rs1 = x0, larger lengths and reserved vtypes, see the violations. -/
theorem C43_vsetvl_partial (hw : 32 ≤ w) (s : VState) (hb : s.vlenb < 2 ^ 25) (rdZero rs1Zero : Bool) (src0 src1 : BitVec w)
    (hl : Legal (src1.toNat % 256)) (hx : ¬ (rdZero = true ∧ rs1Zero = true)) (ha : src0.toNat < 2 ^ 32) :
    ∃ s' rd, vsetvl s rdZero rs1Zero src0 src1 = some (s', rd)
      ∧ s'.vl = (if rs1Zero then maxOf s.vlenb (src1.toNat % 256) else min src0.toNat (maxOf s.vlenb (src1.toNat % 256)))
      ∧ (rdZero = false → ∃ v, rd = some v ∧ v.toNat = s'.vl) ∧ (rdZero = true → rd = none)
      ∧ s'.vtype.toNat = src1.toNat % 256 ∧ s'.vmax = maxOf s.vlenb (src1.toNat % 256)
      ∧ s'.sew = 2 ^ vsew (src1.toNat % 256) ∧ s'.ta = vta (src1.toNat % 256) ∧ s'.ma = vma (src1.toNat % 256)
      ∧ s'.vlenb = s.vlenb ∧ s'.vstart = s.vstart ∧ s'.vxsat = s.vxsat ∧ s'.vxrm = s.vxrm ∧ s'.exception = s.exception := by
  have hv := vtype_bits src1 (by omega)
  obtain ⟨s1, h1, h2, -⟩ := setVectorType_legal s (src1.setWidth 32 &&& 0b11111111#32) (by rw [hv]; exact hl)
  rw [hv] at h2
  have hx' : (rs1Zero && rdZero) = false := by cases rs1Zero <;> cases rdZero <;> first | rfl | exact absurd ⟨rfl, rfl⟩ hx
  have hmax := maxOf_le s.vlenb _ hl
  have havl : (src0.setWidth 32 : BitVec 32).toNat = src0.toNat := by
    rw [BitVec.toNat_setWidth]; exact Nat.mod_eq_of_lt ha
  have hvm : s1.vmax = maxOf s.vlenb (src1.toNat % 256) := by rw [h2]
  refine ⟨{ s1 with vl := if rs1Zero then maxOf s.vlenb (src1.toNat % 256) else min src0.toNat (maxOf s.vlenb (src1.toNat % 256)) },
    if rdZero then none else some (BitVec.ofNat w (if rs1Zero then maxOf s.vlenb (src1.toNat % 256) else min src0.toNat (maxOf s.vlenb (src1.toNat % 256)))), ?_, rfl, ?_, ?_, ?_⟩
  · unfold vsetvl
    have hvl : (if (!rs1Zero && decide (src0.toNat ≤ s1.vmax)) = true then src0.toNat else s1.vmax)
        = if rs1Zero then maxOf s.vlenb (src1.toNat % 256) else min src0.toNat (maxOf s.vlenb (src1.toNat % 256)) := by
      rw [hvm]
      generalize maxOf s.vlenb (src1.toNat % 256) = M
      cases rs1Zero
      · by_cases hc : src0.toNat ≤ M
        · simp [hc]
        · simp [hc]; omega
      · simp
    simp only [h1, hx', Bool.false_eq_true, if_false, havl, hvl]
  · intro hr
    refine ⟨_, by rw [hr]; rfl, ?_⟩
    rw [BitVec.toNat_ofNat]
    apply Nat.mod_eq_of_lt
    have h32 : 2 ^ 32 ≤ 2 ^ w := Nat.pow_le_pow_right (by decide) hw
    show (if rs1Zero then _ else _) < _
    split <;> omega
  · intro hr; rw [hr]; rfl
  · rw [h2]
    exact ⟨hv, rfl, rfl, rfl, rfl, rfl, rfl, rfl, rfl, rfl⟩

/-- The instructions of a program that configures the vector unit: each as rd and rs1 being x0 and the operands. -/
def runVset (s : VState) : List (Bool × Bool × BitVec w × BitVec w) → Option VState
  | [] => some s
  | (a, b, x, y) :: rest =>
    match vsetvl s a b x y with
    | none => none
    | some (s', _) => runVset s' rest

theorem set_vmax (s s' : VState) (v : BitVec 32) (h : setVectorType s v = some s') : s'.vl = s.vl ∧ s'.vlenb = s.vlenb
    ∧ s'.vtype = v ∧ ∀ t : VState, t.vlenb = s.vlenb → ∃ t', setVectorType t v = some t' ∧ t'.vmax = s'.vmax := by
  unfold setVectorType at h ⊢
  simp only at h
  by_cases hc : 8 * (sewOf ((v >>> 3) &&& 0b111#32).toNat >>> 3) = 0
  · rw [if_pos hc] at h; cases h
  · rw [if_neg hc] at h
    injection h with h
    subst h
    refine ⟨rfl, rfl, rfl, fun t ht => ?_⟩
    simp only [if_neg hc, ht]
    exact ⟨_, rfl, rfl⟩

/-- What every history preserves: vl does not exceed the maximum in force, and once vl is not zero that maximum
is the one of the vtype in force. -/
def Inv (s : VState) : Prop := s.vl = 0 ∨ (s.vl ≤ s.vmax ∧ ∃ t, setVectorType s s.vtype = some t ∧ t.vmax = s.vmax)

theorem inv_step (s s' : VState) (a b : Bool) (x y : BitVec w) (rd : Option (BitVec w)) (hi : Inv s)
    (h : vsetvl s a b x y = some (s', rd)) : Inv s' ∧ s'.vl ≤ s'.vmax := by
  unfold vsetvl at h
  simp only at h
  cases h1 : setVectorType s (y.setWidth 32 &&& 0b11111111#32) with
  | none => rw [h1] at h; cases h
  | some s1 =>
    rw [h1] at h
    simp only at h
    obtain ⟨p1, p2, p3, p4⟩ := set_vmax s s1 _ h1
    by_cases c1 : (b && a) = true
    · rw [if_pos c1] at h
      by_cases c2 : s.vmax ≠ s1.vmax
      · rw [if_pos c2] at h
        cases h2 : setVectorType s1 s.vtype with
        | none => rw [h2] at h; cases h
        | some s2 =>
          rw [h2] at h
          simp only at h
          injection h with h; injection h with h _
          obtain ⟨q1, q2, q3, q4⟩ := set_vmax s1 s2 _ h2
          subst h
          rcases hi with h0 | ⟨hle, t, ht, htm⟩
          · exact ⟨Or.inl (by show s2.vl = 0; omega), by show s2.vl ≤ _; omega⟩
          · obtain ⟨t', ht', hm'⟩ := q4 s p2.symm
            rw [ht] at ht'
            injection ht' with e
            subst e
            refine ⟨Or.inr ⟨?_, ?_⟩, ?_⟩
            · show s2.vl ≤ s2.vmax; omega
            · show ∃ t, setVectorType { s2 with exception := true } s2.vtype = some t ∧ t.vmax = s2.vmax
              rw [q3]
              exact q4 _ (by show s2.vlenb = _; omega)
            · show s2.vl ≤ s2.vmax; omega
      · rw [if_neg c2] at h
        injection h with h; injection h with h _
        subst h
        refine ⟨Or.inr ⟨Nat.le_refl _, ?_⟩, Nat.le_refl _⟩
        show ∃ t, setVectorType _ s1.vtype = some t ∧ t.vmax = s1.vmax
        rw [p3]
        exact p4 _ p2
    · rw [if_neg c1] at h
      injection h with h; injection h with h _
      have hle : s'.vl ≤ s'.vmax := by
        rw [← h]
        simp only
        split
        · next hc => simp only [Bool.and_eq_true, decide_eq_true_eq] at hc; exact hc.2
        · exact Nat.le_refl _
      refine ⟨Or.inr ⟨hle, ?_⟩, hle⟩
      rw [← h]
      show ∃ t, setVectorType _ s1.vtype = some t ∧ t.vmax = s1.vmax
      rw [p3]
      exact p4 _ p2

/-- **C43 (bound).** From a fresh state, whatever its uninitialised vtype, no sequence of configuration
instructions makes vl exceed the maximum vector length. -/
theorem C43_bound (vlenb : Nat) (garbage : BitVec 32) (ops : List (Bool × Bool × BitVec w × BitVec w)) (s : VState)
    (h : runVset (VState.init vlenb garbage) ops = some s) : s.vl ≤ s.vmax := by
  have key : ∀ ops (s0 s : VState), Inv s0 → s0.vl ≤ s0.vmax → runVset (w := w) s0 ops = some s → s.vl ≤ s.vmax := by
    intro ops
    induction ops with
    | nil => intro s0 s _ hle h; injection h with h; rw [← h]; exact hle
    | cons op ops ih =>
      obtain ⟨a, b, x, y⟩ := op
      intro s0 s hi hle h
      rw [runVset] at h
      cases h1 : vsetvl s0 a b x y with
      | none => rw [h1] at h; cases h
      | some r =>
        obtain ⟨s1, rd⟩ := r
        rw [h1] at h
        obtain ⟨i1, i2⟩ := inv_step s0 s1 a b x y rd hi h1
        exact ih s1 s i1 i2 h
  exact key ops _ s (Or.inl rfl) (Nat.le_refl _) h

/-- C43 is violated for rd = rs1 = x0: vl becomes VLMAX instead of keeping its value. -/
theorem C43_keep_violated (hw : 8 ≤ w) (s : VState) (src0 src1 : BitVec w) (hl : Legal (src1.toNat % 256))
    (hm : s.vmax = maxOf s.vlenb (src1.toNat % 256)) :
    ∃ s', vsetvl s true true src0 src1 = some (s', none) ∧ s'.vl = s.vmax := by
  have hv := vtype_bits src1 hw
  obtain ⟨s1, h1, h2, -⟩ := setVectorType_legal s (src1.setWidth 32 &&& 0b11111111#32) (by rw [hv]; exact hl)
  rw [hv] at h2
  have hvm : s1.vmax = s.vmax := by rw [h2, hm]
  refine ⟨{ s1 with vl := s1.vmax }, ?_, hvm⟩
  unfold vsetvl
  simp only [h1, hvm]
  simp

/-- C43 is violated for application vector lengths of 2^32 and more on RV64: they are truncated to 32 bits. -/
theorem C43_avl_violated (s : VState) (rdZero : Bool) (src0 src1 : BitVec 64) (hl : Legal (src1.toNat % 256))
    (h1 : src0.toNat % 2 ^ 32 < maxOf s.vlenb (src1.toNat % 256)) :
    ∃ s' rd, vsetvl s rdZero false src0 src1 = some (s', rd) ∧ s'.vl = src0.toNat % 2 ^ 32 := by
  have hv := vtype_bits src1 (by decide)
  obtain ⟨s1, e1, h2, -⟩ := setVectorType_legal s (src1.setWidth 32 &&& 0b11111111#32) (by rw [hv]; exact hl)
  rw [hv] at h2
  have hvm : s1.vmax = maxOf s.vlenb (src1.toNat % 256) := by rw [h2]
  have havl : (src0.setWidth 32 : BitVec 32).toNat = src0.toNat % 2 ^ 32 := by rw [BitVec.toNat_setWidth]
  unfold vsetvl
  simp only [e1, Bool.false_and, Bool.false_eq_true, if_false, Bool.not_false, Bool.true_and, havl]
  refine ⟨_, _, rfl, ?_⟩
  simp only [hvm]
  rw [if_pos (by simp; omega)]

/-- C43 is violated for reserved element widths: the simulator divides by zero instead of setting vill. -/
theorem C43_reserved_violated (hw : 8 ≤ w) (s : VState) (rdZero rs1Zero : Bool) (src0 src1 : BitVec w)
    (h : 4 ≤ vsew (src1.toNat % 256)) : vsetvl s rdZero rs1Zero src0 src1 = none := by
  have hv := vtype_bits src1 hw
  have hs : setVectorType s (src1.setWidth 32 &&& 0b11111111#32) = none := by
    unfold setVectorType
    have hsh : ∀ v : BitVec 32, (v >>> 3).toNat = v.toNat / 8 := fun v => by
      rw [BitVec.toNat_ushiftRight, Nat.shiftRight_eq_div_pow]
    simp only [and7, hsh, hv]
    have hlt : vsew (src1.toNat % 256) < 8 := Nat.mod_lt _ (by decide)
    have : sewOf (src1.toNat % 256 / 8 % 8) = 0 := by
      show sewOf (vsew (src1.toNat % 256)) = 0
      generalize vsew (src1.toNat % 256) = n at *
      have : n = 4 ∨ n = 5 ∨ n = 6 ∨ n = 7 := by omega
      rcases this with rfl | rfl | rfl | rfl <;> rfl
    rw [this]
    rfl
  unfold vsetvl
  simp only [hs]

/-- C43 is violated for the reserved multiplier: vl is set to 0 but vtype reads back as written, without vill. -/
theorem C43_vill_violated (hw : 8 ≤ w) (s : VState) (rdZero : Bool) (src0 src1 : BitVec w)
    (h4 : vlmul (src1.toNat % 256) = 4) (hs : vsew (src1.toNat % 256) < 4) :
    ∃ s' rd, vsetvl s rdZero false src0 src1 = some (s', rd) ∧ s'.vl = 0 ∧ s'.vtype.toNat = src1.toNat % 256 := by
  have hv := vtype_bits src1 hw
  have hsh : ∀ v : BitVec 32, (v >>> 3).toNat = v.toNat / 8 := fun v => by
    rw [BitVec.toNat_ushiftRight, Nat.shiftRight_eq_div_pow]
  have hset : ∃ s1, setVectorType s (src1.setWidth 32 &&& 0b11111111#32) = some s1 ∧ s1.vmax = 0
      ∧ s1.vtype = src1.setWidth 32 &&& 0b11111111#32 := by
    unfold setVectorType
    simp only [and7, hsh, hv]
    have h4' : src1.toNat % 256 % 8 = 4 := h4
    have hn : ∃ k, sewOf (src1.toNat % 256 / 8 % 8) >>> 3 = k ∧ k ≠ 0 := by
      refine ⟨_, rfl, ?_⟩
      show sewOf (vsew (src1.toNat % 256)) >>> 3 ≠ 0
      generalize vsew (src1.toNat % 256) = n at *
      have : n = 0 ∨ n = 1 ∨ n = 2 ∨ n = 3 := by omega
      rcases this with rfl | rfl | rfl | rfl <;> decide
    obtain ⟨k, hk, hk0⟩ := hn
    rw [hk, h4', if_neg (by omega)]
    refine ⟨_, rfl, ?_, rfl⟩
    show s.vlenb * 0 / _ = 0
    simp
  obtain ⟨s1, e1, e2, e3⟩ := hset
  unfold vsetvl
  simp only [e1, Bool.false_and, Bool.false_eq_true, if_false, Bool.not_false, Bool.true_and]
  refine ⟨_, _, rfl, ?_, ?_⟩
  · simp only [e2]
    split
    · next hc => simp only [decide_eq_true_eq] at hc; omega
    · rfl
  · show s1.vtype.toNat = _; rw [e3, hv]

/-! ### C52 -/

/-- The two fields as numbers. -/
def fields (s : VState) : Nat × Bool := (s.vxrm.toNat, s.vxsat)

theorem low2 (v : BitVec 32) : (((v &&& 3#32) &&& 3#32).setWidth 2 : BitVec 2).toNat = v.toNat % 4 := by
  rw [BitVec.toNat_setWidth, BitVec.toNat_and, BitVec.toNat_and]
  show (v.toNat &&& (2 ^ 2 - 1) &&& (2 ^ 2 - 1)) % 2 ^ 2 = _
  simp only [Nat.and_two_pow_sub_one_eq_mod]
  omega

theorem mid2 (v : BitVec 32) : (((v >>> 1) &&& 3#32).setWidth 2 : BitVec 2).toNat = v.toNat / 2 % 4 := by
  rw [BitVec.toNat_setWidth, BitVec.toNat_and, BitVec.toNat_ushiftRight, Nat.shiftRight_eq_div_pow]
  show (v.toNat / 2 ^ 1 &&& (2 ^ 2 - 1)) % 2 ^ 2 = _
  simp only [Nat.and_two_pow_sub_one_eq_mod]
  omega

theorem bit0 (v : BitVec 32) : decide ((v &&& 1#32) ≠ 0#32) = decide (v.toNat % 2 = 1) := by
  have := bit_of v 0
  simpa using this

theorem fields_step (s : VState) (op : VCsr × BitVec 32) : fields (writeCsr s op.2 op.1) = specWrite (fields s) op.1.isRm op.1.isSat op.2.toNat := by
  obtain ⟨c, v⟩ := op
  unfold fields writeCsr specWrite
  cases c
  · simp only [bit0]; rfl
  · simp only [low2]; rfl
  · simp only [mid2, bit0]; rfl

/-- **C52 (writes).** After every history of writes to the three registers the two fields are those of the last
write that concerned them, each register shows exactly its fields, and vcsr shows both. -/
theorem C52_writes_partial (s : VState) (ops : List (VCsr × BitVec 32)) :
    let r := runWrites s ops
    let f := ops.foldl (fun f op => specWrite f op.1.isRm op.1.isSat op.2.toNat) (fields s)
    (readCsr r .vxrm).toNat = f.1 ∧ (readCsr r .vxsat).toNat = (if f.2 then 1 else 0)
    ∧ (readCsr r .vcsr).toNat = vcsrOf f.1 f.2 := by
  intro r f
  have hf : fields r = f := by
    show fields (ops.foldl (fun s op => writeCsr s op.2 op.1) s)
      = ops.foldl (fun f op => specWrite f op.1.isRm op.1.isSat op.2.toNat) (fields s)
    clear r f
    induction ops generalizing s with
    | nil => rfl
    | cons op ops ih =>
      rw [List.foldl_cons, List.foldl_cons, ih, fields_step]
  rw [← hf]
  clear hf
  clear_value r
  have hx := r.vxrm.isLt
  refine ⟨?_, ?_, ?_⟩
  · show (r.vxrm.setWidth 32).toNat = r.vxrm.toNat
    rw [BitVec.toNat_setWidth]; omega
  · show (if r.vxsat then 1#32 else 0#32).toNat = if r.vxsat then 1 else 0
    split <;> rfl
  · unfold readCsr vcsrOf fields
    have : ∀ (x : BitVec 2) (b : Bool), (((x.setWidth 32 &&& 3#32) <<< 1) ||| (if b then 1#32 else 0#32)).toNat
        = 2 * x.toNat + (if b then 1 else 0) := by decide
    exact this _ _

/-- C52 is violated by the set and clear instructions: they use the base class's copy, which is always zero.
Setting bits of vcsr replaces both fields by the given bits, and clearing any bits clears both fields. -/
theorem C52_setbits_violated (s : VState) (v : BitVec 32) :
    (readCsr (setBitsCsr s v .vcsr) .vcsr).toNat = v.toNat % 8 ∧ readCsr (clearBitsCsr s v .vcsr) .vcsr = 0#32
    ∧ (readCsr (setBitsCsr s v .vxrm) .vxrm).toNat = v.toNat % 4 ∧ readCsr (clearBitsCsr s v .vxrm) .vxrm = 0#32
    ∧ readCsr (clearBitsCsr s v .vxsat) .vxsat = 0#32 := by
  have h0 : (0#32 ||| v) = v := by simp
  have h1 : (0#32 &&& ~~~v) = 0#32 := by simp
  have hc := C52_writes_partial s [(.vcsr, v)]
  have hr := C52_writes_partial s [(.vxrm, v)]
  unfold setBitsCsr clearBitsCsr
  rw [h0, h1]
  refine ⟨?_, by simp [readCsr, writeCsr], ?_, by simp [readCsr, writeCsr], by simp [readCsr, writeCsr]⟩
  · rw [show writeCsr s v .vcsr = runWrites s [(.vcsr, v)] from rfl, hc.2.2]
    show vcsrOf (v.toNat / 2 % 4) (decide (v.toNat % 2 = 1)) = _
    unfold vcsrOf
    by_cases hb : v.toNat % 2 = 1 <;> simp [hb] <;> omega
  · rw [show writeCsr s v .vxrm = runWrites s [(.vxrm, v)] from rfl, hr.1]
    rfl

/-! ### Non-vacuity -/

example : Legal (0xd1 % 256) ∧ maxOf 16 0xd1 = 8 := by unfold Legal; decide
example := C43_vsetvl_partial (w := 32) (by decide) (VState.init 16 0#32) (by decide) false false 20#32 0xd1#32 (by unfold Legal; decide)
  (by decide) (by decide)
example : ((vsetvl (w := 32) (VState.init 16 0#32) false false 20#32 0xd1#32).map fun r => (r.1.vl, r.2)) = some (8, some 8#32) := rfl
example : ((vsetvl (w := 32) (VState.init 16 0#32) false false 11#32 0xd7#32).map fun r => (r.1.vl, r.1.vmax)) = some (2, 2) := rfl
/-- vl = 3 of 4 is raised to 4 by an instruction that must keep it. -/
example : ∃ s, runVset (w := 32) (VState.init 16 0#32) [(false, false, 3#32, 0x10#32)] = some s ∧ s.vl = 3
    ∧ ∃ s', runVset (w := 32) s [(true, true, 0#32, 0x10#32)] = some s' ∧ s'.vl = 4 := ⟨_, rfl, rfl, _, rfl, rfl⟩
example := C43_avl_violated (VState.init 16 0#32) false 0x100000000#64 0x10#64 (by unfold Legal; decide) (by decide)
example : readCsr (runWrites (VState.init 16 0#32) [(.vxrm, 2#32), (.vxsat, 1#32)]) .vcsr = 5#32 := by decide
example : readCsr (setBitsCsr (runWrites (VState.init 16 0#32) [(.vxrm, 2#32)]) 1#32 .vcsr) .vxrm = 0#32 := by decide

end Verif.VecState
