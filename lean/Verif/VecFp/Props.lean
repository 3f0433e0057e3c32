import Verif.VecFp.Model
import Verif.VecFp.Spec
import Verif.VecLoop.Props
import Verif.VecMask.Props
import Verif.FpClass.Props
/-
C79: vector floating-point minimum, maximum, sign injection, merge and compares.
-/
namespace Verif.VecFp
open Verif.Fp Verif.FpClass Verif.FpClass.Spec Verif.VecState Verif.VecLoop Verif.VecLoop.Spec Verif.VecFp.Spec Verif.VecRed.Spec

section
variable {f : Fmt}

theorem before_refl (u : BitVec f.bits) : Before u u := .inr ⟨rfl, by cases sign u; exact .inr rfl; exact .inl rfl⟩

theorem hostLt_eq {a b : BitVec f.bits} (na : ¬ NaN a) (nb : ¬ NaN b) : hostLt a b = decide (scaled a < scaled b) := by
  rw [← isNaN_iff] at na nb
  rw [Bool.not_eq_true] at na nb
  unfold hostLt
  rw [na, nb, fixed_eq, fixed_eq]; rfl

theorem maxMin_flag (isMax : Bool) (a b : BitVec f.bits) :
    ((maxMin isMax a b).2 = 16 ∨ (maxMin isMax a b).2 = 0) ∧ ((maxMin isMax a b).2 = 16 ↔ Is a .sNaN ∨ Is b .sNaN) := by
  have hs : ∀ u : BitVec f.bits, isNaN u = false → isSNaN u = false := by
    intro u h; unfold isSNaN; rw [h]; rfl
  rw [← isSNaN_iff, ← isSNaN_iff]
  cases ha : isNaN a <;> cases hb : isNaN b
  · have h1 := hs a ha
    have h2 := hs b hb
    simp only [maxMin, ha, hb, h1, h2, Bool.or_self, Bool.and_self, Bool.false_eq_true, if_false, or_self, iff_false]
    split <;> simp
  all_goals
    simp only [maxMin, ha, hb, Bool.and_self, Bool.and_false, Bool.and_true, Bool.false_and, Bool.true_and, Bool.false_eq_true,
      if_false, if_true, kInvalidOp]
    cases isSNaN a <;> cases isSNaN b <;> simp

theorem maxMin_value (isMax : Bool) (a b : BitVec f.bits) : MinMax isMax a b (maxMin isMax a b).1 := by
  have ia := isNaN_iff a
  have ib := isNaN_iff b
  by_cases na : NaN a <;> by_cases nb : NaN b
  · have e : (maxMin isMax a b).1 = canonicalNaN f := by simp [maxMin, ia.2 na, ib.2 nb]
    rw [e]
    exact ⟨fun _ _ => rfl, fun _ h => absurd nb h, fun h => absurd na h, fun h => absurd na h⟩
  · have e : (maxMin isMax a b).1 = b := by
      simp [maxMin, ia.2 na, Bool.eq_false_iff.2 fun h => nb (ib.1 h)]
    rw [e]
    exact ⟨fun _ h => absurd h nb, fun _ _ => rfl, fun h => absurd na h, fun h => absurd na h⟩
  · have e : (maxMin isMax a b).1 = a := by
      simp [maxMin, ib.2 nb, Bool.eq_false_iff.2 fun h => na (ia.1 h)]
    rw [e]
    exact ⟨fun h => absurd h na, fun h => absurd h na, fun _ _ => rfl, fun _ h => absurd nb h⟩
  · have fa : isNaN a = false := Bool.eq_false_iff.2 fun h => na (ia.1 h)
    have fb : isNaN b = false := Bool.eq_false_iff.2 fun h => nb (ib.1 h)
    refine ⟨fun h => absurd h na, fun h => absurd h na, fun _ h => absurd h nb, fun _ _ => ?_⟩
    by_cases hz : scaled a = 0 ∧ scaled b = 0
    · have e : (maxMin isMax a b).1 = if pick isMax (fun a b => decide (a < b)) (if sign a then (-1 : Int) else 1) (if sign b then -1 else 1)
          = (if sign a then (-1 : Int) else 1) then a else b := by
        simp only [maxMin, fa, fb, hostZero, fixed_eq, hz.1, hz.2, Bool.false_and, Bool.false_eq_true, if_false, Bool.not_false, decide_true,
          Bool.and_self, if_true, sign_eq]
      rw [e]
      cases isMax <;> cases ha : sign a <;> cases hb : sign b <;> simp [pick, Before, ha, hb, hz.1, hz.2]
    · have e : (maxMin isMax a b).1 = pick isMax (fun a b => decide (scaled a < scaled b)) a b := by
        have hz' : ¬ (scaled a = 0 ∧ scaled b = 0) := hz
        simp only [maxMin, fa, fb, hostZero, fixed_eq, Bool.false_and, Bool.false_eq_true, if_false, Bool.not_false, Bool.true_and,
          Bool.and_eq_true, decide_eq_true_eq, hz', pick, hostLt_eq na nb, hostLt_eq nb na]
      rw [e]
      cases isMax
      · simp only [pick, Bool.false_eq_true, if_false, decide_eq_true_eq]
        by_cases hlt : scaled b < scaled a
        · rw [if_pos hlt]; exact ⟨.inr rfl, .inl hlt, before_refl b⟩
        · rw [if_neg hlt]; exact ⟨.inl rfl, before_refl a, before_of_lt a b (by omega) hz⟩
      · simp only [pick, if_true, decide_eq_true_eq]
        by_cases hlt : scaled a < scaled b
        · rw [if_pos hlt]; exact ⟨.inr rfl, .inl hlt, before_refl b⟩
        · rw [if_neg hlt]; exact ⟨.inl rfl, before_refl a, before_of_lt b a (by omega) (fun h => hz ⟨h.2, h.1⟩)⟩

end

/-- A flag value collected along the active elements. -/
theorem flags_collect (P : Nat → Prop) (st : Nat → Nat) (lo hi : Nat) (h0 : st lo = 0)
    (hstep : ∀ i, lo ≤ i → i < hi → ∃ g, st (i + 1) = st i ||| g ∧ (g = 16 ∨ g = 0) ∧ (g = 16 ↔ P i)) :
    ∀ k, lo + k ≤ hi → (st (lo + k) = 16 ∨ st (lo + k) = 0) ∧ (st (lo + k) = 16 ↔ ∃ i, lo ≤ i ∧ i < lo + k ∧ P i) := by
  intro k
  induction k with
  | zero =>
    intro _
    refine ⟨.inr h0, fun h => ?_, fun ⟨i, h1, h2, _⟩ => absurd h1 (by omega)⟩
    rw [Nat.add_zero, h0] at h; cases h
  | succ k ih =>
    intro hk
    obtain ⟨i1, i2⟩ := ih (by omega)
    obtain ⟨g, g1, g2, g3⟩ := hstep (lo + k) (by omega) (by omega)
    rw [← Nat.add_assoc, g1]
    have hP : (∃ i, lo ≤ i ∧ i < lo + k + 1 ∧ P i) ↔ (∃ i, lo ≤ i ∧ i < lo + k ∧ P i) ∨ P (lo + k) := by
      constructor
      · rintro ⟨i, h1, h2, h3⟩
        by_cases he : i = lo + k
        · subst he; exact .inr h3
        · exact .inl ⟨i, h1, by omega, h3⟩
      · rintro (⟨i, h1, h2, h3⟩ | h)
        · exact ⟨i, h1, by omega, h3⟩
        · exact ⟨lo + k, by omega, by omega, h⟩
    rw [hP, ← i2, ← g3]
    rcases i1 with h | h <;> rcases g2 with h' | h' <;> rw [h, h'] <;> decide

/-- What the minimum and maximum instructions must do, for elements of format `f` in `n` bytes. -/
def MinMaxDone (f : Fmt) (n : Nat) (hb : 8 * n = f.bits) (isMax : Bool) (c c' : VCore) (fl : Nat) (vd vs2 : Nat) (src1 : Src n) (vm : Bool) : Prop :=
  c'.vs = { c.vs with vstart := 0 } ∧
  (∀ i a b, c.vs.vstart ≤ i → i < c.vs.vl → Active c.regs vm i → IsElem c.vs.vlenb n c.regs vs2 i a → SrcIs c.vs c.regs i src1 b →
    ∃ r, IsElem c.vs.vlenb n c'.regs vd i r ∧ MinMax (f := f) isMax (a.cast hb) (b.cast hb) (r.cast hb)) ∧
  Undisturbed c.vs.vlenb n vd (fun i => c.vs.vstart ≤ i ∧ i < c.vs.vl ∧ Active c.regs vm i) c.regs c'.regs ∧
  (fl = 16 ∨ fl = 0) ∧
  (fl = 16 ↔ ∃ i a b, c.vs.vstart ≤ i ∧ i < c.vs.vl ∧ Active c.regs vm i ∧ IsElem c.vs.vlenb n c.regs vs2 i a ∧ SrcIs c.vs c.regs i src1 b ∧
    (Is (f := f) (a.cast hb) .sNaN ∨ Is (f := f) (b.cast hb) .sNaN))

theorem minmax_core (f : Fmt) (n : Nat) (hb : f.bits = 8 * n) (isMax : Bool) (c : VCore) (vd vs2 : Nat) (src1 : Src n) (vm : Bool)
    (op : BitVec (8 * n) → BitVec (8 * n) → Nat → BitVec (8 * n) × Nat)
    (hop : ∀ a b fl, op a b fl = ((maxMin (f := f) isMax (a.cast hb.symm) (b.cast hb.symm)).1.cast hb,
      fl ||| (maxMin (f := f) isMax (a.cast hb.symm) (b.cast hb.symm)).2))
    (hr : Ready c.vs [n, n, n] n vd) (h2 : SourceOk c.vs.vlenb c.vs.vl n vd n vs2) (h1 : SrcOk c.vs n vd src1) :
    ∃ c' fl, binary c n n n vd vs2 src1 (maskOf c.regs vm) op 0 = some (c', fl) ∧
      MinMaxDone f n hb.symm isMax c c' fl vd vs2 src1 vm := by
  obtain ⟨c', st, e1, e2, e3, e4, e5, e6⟩ := C44_binary c n n n vd vs2 src1 vm op 0 hr h2 h1
  have hv := hr.size.2.2
  have hA : ∀ i, IsElem c.vs.vlenb n c.regs vs2 i (source c.vs.vlenb n c.regs vs2 i) := fun i =>
    (isElem_iff hr.size.1 hr.size.2.1 hv _ _ _ _).2 rfl
  have hB : ∀ i, SrcIs c.vs c.regs i src1 (src1.get c.vs.vlenb c.regs i) := fun i =>
    (src_is (nd := n) (vd := vd) c.vs c.regs i src1 hv h1 _).2 rfl
  refine ⟨c', _, e1, e2, ?_, e6, ?_⟩
  · intro i a b i1 i2 i3 ha hb'
    have := (e4 i a b i1 i2 i3 ha hb').1
    rw [hop] at this
    exact ⟨_, this, by simpa using maxMin_value isMax (a.cast hb.symm) (b.cast hb.symm)⟩
  · by_cases hle : c.vs.vstart ≤ c.vs.vl
    · rw [Nat.max_eq_right hle]
      have := flags_collect (fun i => ∃ a b, Active c.regs vm i ∧ IsElem c.vs.vlenb n c.regs vs2 i a ∧ SrcIs c.vs c.regs i src1 b ∧
          (Is (f := f) (a.cast hb.symm) .sNaN ∨ Is (f := f) (b.cast hb.symm) .sNaN)) st c.vs.vstart c.vs.vl e3
        (by
          intro i i1 i2
          by_cases hact : Active c.regs vm i
          · have h := (e4 i _ _ i1 i2 hact (hA i) (hB i)).2
            rw [hop] at h
            obtain ⟨m1, m2⟩ := maxMin_flag isMax ((source c.vs.vlenb n c.regs vs2 i).cast hb.symm) ((src1.get c.vs.vlenb c.regs i).cast hb.symm)
            refine ⟨_, h, m1, m2.trans ⟨fun h => ⟨_, _, hact, hA i, hB i, h⟩, ?_⟩⟩
            rintro ⟨a, b, -, ha, hb', hs⟩
            rw [(isElem_iff hr.size.1 hr.size.2.1 hv _ _ _ _).1 ha, (src_is (nd := n) (vd := vd) c.vs c.regs i src1 hv h1 _).1 hb']
            exact hs
          · exact ⟨0, by rw [e5 i i1 i2 hact, Nat.or_zero], .inr rfl, by simp [hact]⟩)
        (c.vs.vl - c.vs.vstart) (by omega)
      rw [show c.vs.vstart + (c.vs.vl - c.vs.vstart) = c.vs.vl by omega] at this
      refine ⟨this.1, this.2.trans ⟨?_, ?_⟩⟩
      · rintro ⟨i, i1, i2, a, b, h⟩; exact ⟨i, a, b, i1, i2, h⟩
      · rintro ⟨i, a, b, i1, i2, h⟩; exact ⟨i, i1, i2, a, b, h⟩
    · rw [Nat.max_eq_left (by omega), e3]
      refine ⟨.inr rfl, (fun h => absurd h (by decide)), ?_⟩
      rintro ⟨i, a, b, i1, i2, -⟩
      omega

/-- **C79, minimum and maximum.** Each active element gets the minimum (maximum) as the scalar instructions define
it, nothing else changes, and the invalid flag is raised exactly if an active element has a signalling operand. -/
theorem C79_minmax (isMax : Bool) (c : VCore) (vd vs2 : Nat) (src1 : (n : Nat) → Src n) (vm : Bool) :
    (c.vs.sew = 4 → Ready c.vs [4, 4, 4] 4 vd → SourceOk c.vs.vlenb c.vs.vl 4 vd 4 vs2 → SrcOk c.vs 4 vd (src1 4) →
      ∃ c' fl, vfminmax isMax c vd vs2 src1 (maskOf c.regs vm) = some (c', fl) ∧
        MinMaxDone single 4 rfl isMax c c' fl vd vs2 (src1 4) vm) ∧
    (c.vs.sew = 8 → Ready c.vs [8, 8, 8] 8 vd → SourceOk c.vs.vlenb c.vs.vl 8 vd 8 vs2 → SrcOk c.vs 8 vd (src1 8) →
      ∃ c' fl, vfminmax isMax c vd vs2 src1 (maskOf c.regs vm) = some (c', fl) ∧
        MinMaxDone double 8 rfl isMax c c' fl vd vs2 (src1 8) vm) := by
  refine ⟨fun hs hr h2 h1 => ?_, fun hs hr h2 h1 => ?_⟩
  · unfold vfminmax
    rw [hs]
    exact minmax_core single 4 rfl isMax c vd vs2 (src1 4) vm _ (fun _ _ _ => rfl) hr h2 h1
  · unfold vfminmax
    rw [hs]
    exact minmax_core double 8 rfl isMax c vd vs2 (src1 8) vm _ (fun _ _ _ => rfl) hr h2 h1

/-! ### Sign injection -/

def Sgn.neg : Sgn → Bool | .jn => true | _ => false
def Sgn.xor : Sgn → Bool | .jx => true | _ => false

theorem low_mask (n i : Nat) (hi : i < n) : (BitVec.ofNat n (2 ^ (n - 1) - 1)).getLsbD i = decide (i ≠ n - 1) := by
  rw [BitVec.getLsbD_ofNat, Nat.testBit_two_pow_sub_one]
  simp only [hi, decide_true, Bool.true_and]
  congr 1
  exact propext ⟨fun h => by omega, fun h => by omega⟩

theorem high_mask (n i : Nat) (hi : i < n) : (BitVec.ofNat n (2 ^ (n - 1))).getLsbD i = decide (i = n - 1) := by
  rw [BitVec.getLsbD_ofNat, Nat.testBit_two_pow]
  simp only [hi, decide_true, Bool.true_and]
  congr 1
  exact propext ⟨fun h => by omega, fun h => by omega⟩

theorem sgn4 (k : Sgn) (a b : BitVec 32) : SignOf k.neg k.xor a b (k.op4 a b) := by
  intro i hi
  have m1 := low_mask 32 i hi
  have m2 := high_mask 32 i hi
  simp only [Nat.reducePow, Nat.reduceSub] at m1 m2
  by_cases h : i = 31
  · cases k <;> simp [Sgn.op4, Sgn.neg, Sgn.xor, h]
  · cases k <;> simp [Sgn.op4, m1, m2, h]

theorem sgn8 (k : Sgn) (a b : BitVec 64) : SignOf k.neg k.xor a b (k.op8 a b) := by
  intro i hi
  have m1 := low_mask 64 i hi
  have m2 := high_mask 64 i hi
  simp only [Nat.reducePow, Nat.reduceSub] at m1 m2
  by_cases h : i = 63
  · cases k <;> simp [Sgn.op8, Sgn.neg, Sgn.xor, h]
  · cases k <;> simp [Sgn.op8, m1, m2, h]

/-- What a sign injection must do. -/
def SgnDone (n : Nat) (k : Sgn) (c c' : VCore) (vd vs2 : Nat) (src1 : Src n) (vm : Bool) : Prop :=
  c'.vs = { c.vs with vstart := 0 } ∧
  (∀ i a b, c.vs.vstart ≤ i → i < c.vs.vl → Active c.regs vm i → IsElem c.vs.vlenb n c.regs vs2 i a → SrcIs c.vs c.regs i src1 b →
    ∃ r, IsElem c.vs.vlenb n c'.regs vd i r ∧ SignOf k.neg k.xor a b r) ∧
  Undisturbed c.vs.vlenb n vd (fun i => c.vs.vstart ≤ i ∧ i < c.vs.vl ∧ Active c.regs vm i) c.regs c'.regs

theorem sgn_core (n : Nat) (k : Sgn) (op : BitVec (8 * n) → BitVec (8 * n) → BitVec (8 * n)) (hop : ∀ a b, SignOf k.neg k.xor a b (op a b))
    (c : VCore) (vd vs2 : Nat) (src1 : Src n) (vm : Bool)
    (hr : Ready c.vs [n, n, n] n vd) (h2 : SourceOk c.vs.vlenb c.vs.vl n vd n vs2) (h1 : SrcOk c.vs n vd src1) :
    ∃ c', (binary c n n n vd vs2 src1 (maskOf c.regs vm) (fun a b (_ : Unit) => (op a b, ())) ()).map (·.1) = some c' ∧
      SgnDone n k c c' vd vs2 src1 vm := by
  obtain ⟨c', st, e1, e2, e3, e4, e5, e6⟩ := C44_binary c n n n vd vs2 src1 vm (fun a b (_ : Unit) => (op a b, ())) () hr h2 h1
  exact ⟨c', by rw [e1]; rfl, e2, fun i a b i1 i2 i3 ha hb => ⟨_, (e4 i a b i1 i2 i3 ha hb).1, hop a b⟩, e6⟩

/-- **C79, sign injection.** -/
theorem C79_sgnj (k : Sgn) (c : VCore) (vd vs2 : Nat) (src1 : (n : Nat) → Src n) (vm : Bool) (n : Nat) (hn : n = 4 ∨ n = 8) (hs : c.vs.sew = n)
    (hr : Ready c.vs [n, n, n] n vd) (h2 : SourceOk c.vs.vlenb c.vs.vl n vd n vs2) (h1 : SrcOk c.vs n vd (src1 n)) :
    ∃ c', vfsgnj k c vd vs2 src1 (maskOf c.regs vm) = some c' ∧ SgnDone n k c c' vd vs2 (src1 n) vm := by
  rcases hn with rfl | rfl
  · unfold vfsgnj; rw [hs]; exact sgn_core 4 k k.op4 (sgn4 k) c vd vs2 (src1 4) vm hr h2 h1
  · unfold vfsgnj; rw [hs]; exact sgn_core 8 k k.op8 (sgn8 k) c vd vs2 (src1 8) vm hr h2 h1

/-! ### Merge -/

theorem merge_core (n : Nat) (c : VCore) (vd vs2 : Nat) (src1 : Src n) (vm : Bool)
    (hr : Ready c.vs [n, n, n] n vd) (h2 : SourceOk c.vs.vlenb c.vs.vl n vd n vs2) (h1 : SrcOk c.vs n vd src1) :
    ∃ c', (maskBinary c n n n vd vs2 src1 (maskOf c.regs vm) (fun a b m (_ : Unit) => (some (if m then b else a), ())) ()).map (·.1) = some c' ∧
      c'.vs = { c.vs with vstart := 0 } ∧
      (∀ i a b, c.vs.vstart ≤ i → i < c.vs.vl → IsElem c.vs.vlenb n c.regs vs2 i a → SrcIs c.vs c.regs i src1 b →
        (Active c.regs vm i → IsElem c.vs.vlenb n c'.regs vd i b) ∧ (¬ Active c.regs vm i → IsElem c.vs.vlenb n c'.regs vd i a)) ∧
      Undisturbed c.vs.vlenb n vd (fun i => c.vs.vstart ≤ i ∧ i < c.vs.vl) c.regs c'.regs := by
  obtain ⟨c', e1, e2, e3, e4⟩ := C44_mask_binary c n n n vd vs2 src1 vm (fun a b m => some (if m then b else a)) hr h2 h1
  refine ⟨c', by rw [e1]; rfl, e2, fun i a b i1 i2 ha hb => ⟨fun h => ?_, fun h => ?_⟩, fun r x hx hno => e4 r x hx ?_⟩
  · exact e3 i a b true b i1 i2 (by simp [h]) ha hb (by simp)
  · exact e3 i a b false a i1 i2 (by simp [h]) ha hb (by simp)
  · rintro ⟨i, ⟨i1, i2, -⟩, hc⟩
    exact hno ⟨i, ⟨i1, i2⟩, hc⟩

/-- **C79, merge**, with the second operand the description supplies. -/
theorem C79_merge_partial (c : VCore) (vd vs2 : Nat) (src1 : (n : Nat) → Src n) (vm : Bool) (n : Nat) (hn : n = 4 ∨ n = 8) (hs : c.vs.sew = n)
    (hr : Ready c.vs [n, n, n] n vd) (h2 : SourceOk c.vs.vlenb c.vs.vl n vd n vs2) (h1 : SrcOk c.vs n vd (src1 n)) :
    ∃ c', vfmerge c vd vs2 src1 (maskOf c.regs vm) = some c' ∧ c'.vs = { c.vs with vstart := 0 } ∧
      (∀ i a b, c.vs.vstart ≤ i → i < c.vs.vl → IsElem c.vs.vlenb n c.regs vs2 i a → SrcIs c.vs c.regs i (src1 n) b →
        (Active c.regs vm i → IsElem c.vs.vlenb n c'.regs vd i b) ∧ (¬ Active c.regs vm i → IsElem c.vs.vlenb n c'.regs vd i a)) ∧
      Undisturbed c.vs.vlenb n vd (fun i => c.vs.vstart ≤ i ∧ i < c.vs.vl) c.regs c'.regs := by
  rcases hn with rfl | rfl
  · unfold vfmerge; rw [hs]; exact merge_core 4 c vd vs2 (src1 4) vm hr h2 h1
  · unfold vfmerge; rw [hs]; exact merge_core 8 c vd vs2 (src1 8) vm hr h2 h1

/-- **C79 is violated** by vfmerge.vfm: an active element gets the element of the *vector* register with the scalar's
number, whatever the scalar is. -/
theorem C79_merge_violated (c : VCore) (fregs : Nat → BitVec 64) (vd vs2 rs1 : Nat) (vm : Bool) (hs : c.vs.sew = 8)
    (hr : Ready c.vs [8, 8, 8] 8 vd) (h2 : SourceOk c.vs.vlenb c.vs.vl 8 vd 8 vs2) (h1 : SourceOk c.vs.vlenb c.vs.vl 8 vd 8 rs1)
    (i : Nat) (hi : c.vs.vstart ≤ i ∧ i < c.vs.vl) (hact : Active c.regs vm i) (b : BitVec 64)
    (hb : IsElem c.vs.vlenb 8 c.regs rs1 i b) (hne : b ≠ fregs rs1) :
    ∃ c', vfmergeVf c fregs vd vs2 rs1 (maskOf c.regs vm) = some c' ∧ ¬ IsElem c.vs.vlenb 8 c'.regs vd i (fregs rs1) := by
  obtain ⟨c', e1, e2, e3, -⟩ := C79_merge_partial c vd vs2 (fun _ => .vec rs1) vm 8 (.inr rfl) hs hr h2 h1
  refine ⟨c', e1, fun h => hne ?_⟩
  have hv := hr.size.2.2
  have g := (e3 i _ b hi.1 hi.2 ((isElem_iff hr.size.1 hr.size.2.1 hv _ _ _ _).2 rfl) hb).1 hact
  rw [← (isElem_iff hr.size.1 hr.size.2.1 hv _ _ _ _).1 g]
  exact (isElem_iff hr.size.1 hr.size.2.1 hv _ _ _ _).1 h

/-! ### Compares -/

/-- The relation each compare decides. -/
def Cmp.Holds {f : Fmt} : Cmp → BitVec f.bits → BitVec f.bits → Prop
  | .eq, a, b => Equal a b
  | .le, a, b => Less a b ∨ Equal a b
  | .lt, a, b => Less a b
  | .ne, a, b => ¬ Equal a b
  | .gt, a, b => Less b a
  | .ge, a, b => Less b a ∨ Equal b a

theorem cmp_iff {f : Fmt} (k : Cmp) (a b : BitVec f.bits) : k.fn a b = true ↔ k.Holds a b := by
  have ia := isNaN_iff a
  have ib := isNaN_iff b
  have l : ∀ x y : BitVec f.bits, hostLt x y = true ↔ Less x y := by
    intro x y
    unfold hostLt Less
    rw [← isNaN_iff, ← isNaN_iff, fixed_eq, fixed_eq]
    simp [and_assoc]
  have e : ∀ x y : BitVec f.bits, hostEq x y = true ↔ Equal x y := by
    intro x y
    unfold hostEq Equal
    rw [← isNaN_iff, ← isNaN_iff, fixed_eq, fixed_eq]
    simp [and_assoc]
  have le : ∀ x y : BitVec f.bits, hostLe x y = true ↔ Less x y ∨ Equal x y := by
    intro x y
    unfold hostLe Less Equal
    rw [← isNaN_iff, ← isNaN_iff, fixed_eq, fixed_eq]
    simp only [Bool.and_eq_true, Bool.not_eq_true', decide_eq_true_eq, Bool.not_eq_true, and_assoc]
    constructor
    · rintro ⟨h1, h2, h3⟩
      rcases Int.lt_or_eq_of_le h3 with h | h
      · exact .inl ⟨h1, h2, h⟩
      · exact .inr ⟨h1, h2, h⟩
    · rintro (⟨h1, h2, h3⟩ | ⟨h1, h2, h3⟩)
      · exact ⟨h1, h2, Int.le_of_lt h3⟩
      · exact ⟨h1, h2, Int.le_of_eq h3⟩
  cases k
  · exact e a b
  · exact le a b
  · exact l a b
  · show (!hostEq a b) = true ↔ ¬ Equal a b
    rw [← e]; simp
  · exact l b a
  · exact le b a

/-- **C79, results of the compares.** Every active bit of the destination mask tells whether the relation holds; every
other bit and register keeps its value.  Missing: the flags (`C79_compare_flags_violated`). -/
theorem C79_compare_partial (k : Cmp) (c : VCore) (vd vs2 : Nat) (src1 : (n : Nat) → Src n) (vm : Bool)
    (hx : c.vs.exception = false) (hv : 0 < c.vs.vlenb) :
    (c.vs.sew = 4 → 4 ∣ c.vs.vlenb →
      (∀ i a b, c.vs.vstart ≤ i → i < c.vs.vl → Active c.regs vm i → IsElem c.vs.vlenb 4 c.regs vs2 i a → SrcIs c.vs c.regs i (src1 4) b →
        (VecMask.Spec.mbit (vmf k c vd vs2 src1 (maskOf c.regs vm)).1.regs vd i = true ↔ k.Holds (f := single) a b)) ∧
      (∀ i, ¬ (c.vs.vstart ≤ i ∧ i < c.vs.vl ∧ Active c.regs vm i) →
        VecMask.Spec.mbit (vmf k c vd vs2 src1 (maskOf c.regs vm)).1.regs vd i = VecMask.Spec.mbit c.regs vd i) ∧
      (∀ r, r ≠ vd → (vmf k c vd vs2 src1 (maskOf c.regs vm)).1.regs r = c.regs r) ∧
      (vmf k c vd vs2 src1 (maskOf c.regs vm)).1.vs = { c.vs with vstart := 0 }) ∧
    (c.vs.sew = 8 → 8 ∣ c.vs.vlenb →
      (∀ i a b, c.vs.vstart ≤ i → i < c.vs.vl → Active c.regs vm i → IsElem c.vs.vlenb 8 c.regs vs2 i a → SrcIs c.vs c.regs i (src1 8) b →
        (VecMask.Spec.mbit (vmf k c vd vs2 src1 (maskOf c.regs vm)).1.regs vd i = true ↔ k.Holds (f := double) a b)) ∧
      (∀ i, ¬ (c.vs.vstart ≤ i ∧ i < c.vs.vl ∧ Active c.regs vm i) →
        VecMask.Spec.mbit (vmf k c vd vs2 src1 (maskOf c.regs vm)).1.regs vd i = VecMask.Spec.mbit c.regs vd i) ∧
      (∀ r, r ≠ vd → (vmf k c vd vs2 src1 (maskOf c.regs vm)).1.regs r = c.regs r) ∧
      (vmf k c vd vs2 src1 (maskOf c.regs vm)).1.vs = { c.vs with vstart := 0 }) := by
  refine ⟨fun hs hd => ?_, fun hs hd => ?_⟩
  · obtain ⟨g1, g2, g3, g4⟩ := VecMask.C48_compare (n2 := 4) (n1 := 4) c vd vs2 (src1 4) vm (k.fn (f := single)) hx hv ⟨by decide, hd⟩ ⟨by decide, hd⟩
    unfold vmf
    rw [hs]
    exact ⟨fun i a b i1 i2 i3 ha hb => (Bool.eq_iff_iff.1 (g1 i a b i1 i2 i3 ha hb)).trans (cmp_iff (f := single) k a b), g2, g3, g4⟩
  · obtain ⟨g1, g2, g3, g4⟩ := VecMask.C48_compare (n2 := 8) (n1 := 8) c vd vs2 (src1 8) vm (k.fn (f := double)) hx hv ⟨by decide, hd⟩ ⟨by decide, hd⟩
    unfold vmf
    rw [hs]
    exact ⟨fun i a b i1 i2 i3 ha hb => (Bool.eq_iff_iff.1 (g1 i a b i1 i2 i3 ha hb)).trans (cmp_iff (f := double) k a b), g2, g3, g4⟩

/-- **C79 is violated** by the flags of the compares: whatever the operands, none is raised; the specification
requires the invalid flag, for instance, for 1.0 < NaN. -/
theorem C79_compare_flags_violated (k : Cmp) (c : VCore) (vd vs2 : Nat) (src1 : (n : Nat) → Src n) (mask : Buf) :
    (vmf k c vd vs2 src1 mask).2 = 0 ∧ Invalid (f := single) true 0x3f800000#32 0x7fc00000#32 := by
  refine ⟨?_, ?_⟩
  · unfold vmf; split <;> rfl
  · show NaN (f := single) 0x3f800000#32 ∨ NaN (f := single) 0x7fc00000#32
    exact .inr ((isNaN_iff (f := single) _).1 (by decide))

/-- **C79 is violated** by scalar operands that are not properly boxed: the low half is used, not the canonical NaN. -/
theorem C79_unboxed_violated (reg : BitVec 64) (h : reg.extractLsb' 32 32 ≠ BitVec.allOnes 32) (hn : reg.setWidth 32 ≠ 0x7fc00000#32) :
    scalar4 reg ≠ boxed reg := by
  unfold scalar4 boxed
  rw [if_neg h]
  exact hn

/-- ... and the operand is right if it is boxed. -/
theorem C79_boxed_partial (reg : BitVec 64) (h : reg.extractLsb' 32 32 = BitVec.allOnes 32) : scalar4 reg = boxed reg := by
  unfold scalar4 boxed
  rw [if_pos h]

/-! ### Concrete cases -/

/-- min(+0, -0) = -0 and max(-0, +0) = +0; a signalling NaN raises the flag and yields the other operand. -/
example : ((maxMin (f := single) false 0#32 0x80000000#32).1.toNat, (maxMin (f := single) true 0x80000000#32 0#32).1.toNat,
    (maxMin (f := single) false 0x7f800001#32 0x3f800000#32).1.toNat, (maxMin (f := single) false 0x7f800001#32 0x3f800000#32).2)
    = (0x80000000, 0, 0x3f800000, 16) := by decide

/-- VLEN = 128, SEW = 32, LMUL = 1, vl = 3. -/
def exState : VState := { VState.init 16 0#32 with sew := 4, vl := 3 }
example : Ready exState [4, 4, 4] 4 3 :=
  ⟨rfl, by decide, by decide, by decide, 1, by decide, by decide, by decide⟩
example : SourceOk 16 3 4 3 4 2 := ⟨by decide, by decide, Or.inl (Or.inl (by decide))⟩
example : Invalid (f := single) false 0x7f800001#32 0#32 := by
  show Is (f := single) 0x7f800001#32 .sNaN ∨ Is (f := single) 0#32 .sNaN
  exact .inl ((isSNaN_iff (f := single) _).1 (by decide))

end Verif.VecFp
