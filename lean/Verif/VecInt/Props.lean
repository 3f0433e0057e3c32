import Verif.VecInt.Value
/-
C85: the element-wise integer vector instructions compute the values of the vector specification in every active body
element and change nothing else.
-/
namespace Verif.VecInt
open Verif.VecState Verif.VecLoop Verif.VecLoop.Spec Spec

/-- The scalar is at least as wide as the elements, or read with its sign. -/
def Fits {xlen : Nat} (signed : Bool) (n : Nat) : Src1 xlen → Prop
  | .x _ => signed = true ∨ 8 * n ≤ xlen
  | _ => True

theorem operand {xlen n : Nat} (hn : 0 < n) (s : VState) (R : VRegs) (i : Nat) (signed : Bool) (s1 : Src1 xlen) (b : BitVec (8 * n))
    (hf : Fits signed n s1) (h : Operand s R i b s1) : SrcIs s R i (s1.to signed n) b := by
  cases s1 with
  | vec v => exact h
  | simm k =>
    show b = (k.signExtend 32).signExtend (8 * n)
    apply BitVec.eq_of_toInt_eq
    by_cases hn4 : 4 ≤ n
    · rw [BitVec.toInt_signExtend_of_le (by omega), BitVec.toInt_signExtend_of_le (by omega)]
      exact h
    · rw [BitVec.signExtend_eq_setWidth_of_le _ (by omega), toInt_trunc (by omega), BitVec.toInt_signExtend_of_le (by omega)]
      have hb : b.toInt = k.toInt := h
      rw [← hb, BitVec.toInt_bmod_cancel]
  | uimm k =>
    show b = (k.setWidth 32).signExtend (8 * n)
    have hb : b.toNat = k.toNat := h
    apply BitVec.eq_of_toInt_eq
    have hk : k.toNat < 32 := k.isLt
    have hk' : (k.setWidth 32).toInt = k.toNat := zext_toInt (by omega) k
    have h256 : 2 ^ 8 ≤ 2 ^ (8 * n) := Nat.pow_le_pow_right (by decide) (by omega)
    have hbi : b.toInt = k.toNat := by
      rw [BitVec.toInt_eq_toNat_of_lt (by omega), hb]
    by_cases hn4 : 4 ≤ n
    · rw [BitVec.toInt_signExtend_of_le (by omega), hk', hbi]
    · rw [BitVec.signExtend_eq_setWidth_of_le _ (by omega), toInt_trunc (by omega), hk', ← hbi, BitVec.toInt_bmod_cancel]
  | x v =>
    have hb : (xlen ≤ 8 * n → b.toInt = v.toInt) ∧ (8 * n < xlen → b.toNat = v.toNat % 2 ^ (8 * n)) := h
    show b = if signed then v.signExtend _ else v.setWidth _
    have hz : 8 * n ≤ xlen → b = v.setWidth _ := by
      intro hle
      by_cases hlt : 8 * n < xlen
      · apply BitVec.eq_of_toNat_eq
        rw [hb.2 hlt, BitVec.toNat_setWidth]
      · have he : xlen = 8 * n := by omega
        apply BitVec.eq_of_toInt_eq
        rw [hb.1 (by omega), toInt_trunc (by omega), ← he, BitVec.toInt_bmod_cancel]
    cases signed with
    | false =>
      rw [if_neg (by decide)]
      exact hz (by rcases hf with h | h; cases h; exact h)
    | true =>
      rw [if_pos rfl]
      by_cases hle : 8 * n ≤ xlen
      · rw [BitVec.signExtend_eq_setWidth_of_le _ hle]; exact hz hle
      · apply BitVec.eq_of_toInt_eq
        rw [BitVec.toInt_signExtend_of_le (by omega)]
        exact hb.1 (by omega)

theorem operandOk {xlen n nd vd : Nat} (s : VState) (signed : Bool) (s1 : Src1 xlen)
    (h : OperandOk s nd vd n s1) : SrcOk s nd vd (s1.to signed n) := by
  cases s1 with
  | vec v => exact h
  | simm k => trivial
  | uimm k => trivial
  | x v => trivial

/-! ### Operands and result of the same width -/

/-- The binary loop, with the flag for undefined behaviour. -/
theorem flag_false {P : Nat → Prop} (lo hi : Nat) (st : Nat → Bool) (h0 : st lo = false)
    (hstep : ∀ i, lo ≤ i → i < hi → P i → st (i + 1) = st i) (hstep' : ∀ i, lo ≤ i → i < hi → ¬ P i → st (i + 1) = st i) :
    ∀ k, lo + k ≤ max lo hi → st (lo + k) = false := by
  intro k
  induction k with
  | zero => intro _; exact h0
  | succ k ih =>
    intro hk
    have h1 := ih (by omega)
    have : st (lo + k + 1) = st (lo + k) := by
      by_cases hp : P (lo + k)
      · exact hstep _ (by omega) (by omega) hp
      · exact hstep' _ (by omega) (by omega) hp
    rw [← Nat.add_assoc, this, h1]

/-- Every instruction on elements of one width: vadd, vsub, vrsub, vand, vor, vxor, vsll, vsrl, vsra, vmin(u), vmax(u),
vdiv(u), vrem(u), vmul, vmulh, vmulhu, vmulhsu; for vrem provided no active element divides the least integer by −1
in 32 or 64 bits. -/
theorem C85_same_partial {xlen : Nat} (o : Same) (c : VCore) (vd vs2 : Nat) (s1 : Src1 xlen) (vm : Bool)
    (hsew : c.vs.sew = 1 ∨ c.vs.sew = 2 ∨ c.vs.sew = 4 ∨ c.vs.sew = 8)
    (hr : Ready c.vs [c.vs.sew, c.vs.sew, c.vs.sew] c.vs.sew vd) (h2 : SourceOk c.vs.vlenb c.vs.vl c.vs.sew vd c.vs.sew vs2)
    (h1 : OperandOk c.vs c.vs.sew vd c.vs.sew s1) (hf : Fits (o.signed1 c.vs.sew) c.vs.sew s1)
    (hrem : o = .rem → 4 ≤ c.vs.sew → ∀ i (a b : BitVec (8 * c.vs.sew)), c.vs.vstart ≤ i → i < c.vs.vl → Active c.regs vm i →
      IsElem c.vs.vlenb c.vs.sew c.regs vs2 i a → Operand c.vs c.regs i b s1 → ¬ (a.toInt = -2 ^ (8 * c.vs.sew - 1) ∧ b.toInt = -1)) :
    ∃ c', same o c vd vs2 s1 vm = some c' ∧ Did c.vs c.regs vm c.vs.sew vd c'.vs c'.regs (fun i v =>
      ∃ a b : BitVec (8 * c.vs.sew), IsElem c.vs.vlenb c.vs.sew c.regs vs2 i a ∧ Operand c.vs c.regs i b s1 ∧ v = Spec.same a b o) := by
  have hn : 0 < c.vs.sew := hr.sew
  obtain ⟨c', st, e1, e2, e3, e4, e5, e6⟩ := C44_binary c c.vs.sew c.vs.sew c.vs.sew vd vs2 (s1.to (o.signed1 c.vs.sew) c.vs.sew) vm
    (fun a b (u : Bool) => (o.fn c.vs.sew a b, u || o.undef c.vs.sew a b)) false hr h2 (operandOk c.vs _ s1 h1)
  have hv := hr.size.2.2
  have hflag : st (max c.vs.vstart c.vs.vl) = false := by
    have := flag_false (P := Active c.regs vm) c.vs.vstart c.vs.vl st e3 (by
      intro i hi hi' hact
      have ha : IsElem c.vs.vlenb c.vs.sew c.regs vs2 i (source c.vs.vlenb c.vs.sew c.regs vs2 i) :=
        (isElem_iff h2.1 h2.2.1 hv _ _ _ _).2 rfl
      have hb : SrcIs c.vs c.regs i (s1.to (o.signed1 c.vs.sew) c.vs.sew) ((s1.to (o.signed1 c.vs.sew) c.vs.sew).get c.vs.vlenb c.regs i) :=
        (src_is (nd := c.vs.sew) (vd := vd) c.vs c.regs i _ hv (operandOk c.vs _ s1 h1) _).2 rfl
      have hst := (e4 i _ _ hi hi' hact ha hb).2
      generalize source c.vs.vlenb c.vs.sew c.regs vs2 i = a at ha hst
      generalize (s1.to (o.signed1 c.vs.sew) c.vs.sew).get c.vs.vlenb c.regs i = b at hb hst
      rw [hst]
      show (st i || o.undef c.vs.sew a b) = st i
      have hu : o.undef c.vs.sew a b = false := by
        cases hbool : o.undef c.vs.sew a b with
        | false => rfl
        | true =>
          exfalso
          simp only [Same.undef, Bool.and_eq_true, decide_eq_true_eq] at hbool
          obtain ⟨ho, h4, hmin, hall⟩ := hbool
          subst ho
          refine hrem rfl h4 i a b hi hi' hact ha ?_ ⟨?_, ?_⟩
          · cases s1 with
            | vec v => exact hb
            | simm k =>
              have hb' : b = (k.signExtend 32).signExtend _ := hb
              show b.toInt = k.toInt
              rw [hb', BitVec.toInt_signExtend_of_le (by omega), BitVec.toInt_signExtend_of_le (by omega)]
            | uimm k =>
              have hb' : b = (k.setWidth 32).signExtend _ := hb
              show b.toNat = k.toNat
              have : b.toInt = k.toNat := by
                rw [hb', BitVec.toInt_signExtend_of_le (by omega), zext_toInt (by omega)]
              have hlt := b.isLt
              rw [BitVec.toInt_eq_toNat_cond] at this
              split at this <;> omega
            | x v =>
              have hb' : b = v.signExtend _ := hb
              refine ⟨fun hle => ?_, fun hlt => ?_⟩
              · rw [hb', BitVec.toInt_signExtend_of_le hle]
              · rw [hb', BitVec.signExtend_eq_setWidth_of_le _ (by omega), BitVec.toNat_setWidth]
          · rw [hmin, BitVec.toInt_intMin_of_pos (by omega)]
          · rw [hall, BitVec.toInt_allOnes, if_pos (by omega)]
      rw [hu, Bool.or_false]) e5 (max c.vs.vstart c.vs.vl - c.vs.vstart) (by omega)
    rw [← this]; congr 1; omega
  refine ⟨c', ?_, e2, ?_, e6⟩
  · unfold same
    rw [if_pos hsew, e1, hflag]
  · rintro i v hi hi' hact ⟨a, b, ha, hb, rfl⟩
    have := (e4 i a b hi hi' hact ha (operand hn _ _ _ _ _ _ hf hb)).1
    rw [← same_value _ hsew]
    exact this

/-- The vl = 11, vstart = 2 configuration with a mask. -/
example := C85_same_partial (xlen := 32) .mulhsu core 4 4 (.vec 2) false (by decide) ready_core
  ⟨by decide, by decide, Or.inr (Or.inl ⟨rfl, by decide⟩)⟩ ⟨by decide, by decide, Or.inl (by decide)⟩ trivial (by intro h; cases h)

/-- A scalar: vsra.vx. -/
example := C85_same_partial (xlen := 64) .sra core 4 2 (.x 0x8000000000000013#64) false (by decide) ready_core
  ⟨by decide, by decide, Or.inl (by decide)⟩ trivial (Or.inr (by decide)) (by intro h; cases h)

/-- vrem.vv dividing the least 32- or 64-bit integer by −1 has no defined result, though the ISA gives 0. -/
def remCore (n : Nat) : VCore :=
  { vs := { vlenb := 16, vtype := 0x10#32, vl := 1, vmax := 4, lmul8 := 8, sew := n, vstart := 0 }
    regs := fun r x => if r = 2 then (if x + 1 = n then 0x80#8 else 0#8) else 0xff#8 }

theorem C85_rem_violated : same (xlen := 64) .rem (remCore 4) 8 2 (.vec 3) true = none
    ∧ same (xlen := 64) .rem (remCore 8) 8 2 (.vec 3) true = none
    ∧ Spec.same (0x80000000#32) (0xffffffff#32) .rem = 0 ∧ Spec.same (0x8000000000000000#64) (0xffffffffffffffff#64) .rem = 0
    ∧ (same (xlen := 64) .rem (remCore 2) 8 2 (.vec 3) true).isSome := by
  refine ⟨by decide +kernel, by decide +kernel, by decide +kernel, by decide +kernel, by decide +kernel⟩

/-- On RV32 with 64-bit elements an operation that reads vs1 as unsigned takes the scalar without its sign: with a
negative register, vadd.vx adds 2^32 too much. -/
theorem scalar_zero_ext (v : BitVec 32) (s : VState) (R : VRegs) (i : Nat) (b : BitVec (8 * 8)) :
    SrcIs s R i ((Src1.x v).to false 8) b ↔ b.toNat = v.toNat := by
  have h : ((v.setWidth (8 * 8)).toNat) = v.toNat := by
    rw [BitVec.toNat_setWidth]; have := v.isLt; omega
  constructor
  · intro hb
    have hb' : b = v.setWidth _ := hb
    rw [hb', h]
  · intro hb
    show b = v.setWidth _
    exact BitVec.eq_of_toNat_eq (by rw [h, hb])

theorem C85_scalar_violated (c : VCore) (vd vs2 : Nat) (v : BitVec 32) (vm : Bool) (hsew : c.vs.sew = 8)
    (hr : Ready c.vs [8, 8, 8] 8 vd) (h2 : SourceOk c.vs.vlenb c.vs.vl 8 vd 8 vs2) (hneg : v.toInt < 0) :
    ∃ c', same .add c vd vs2 (.x v) vm = some c' ∧ ∀ i (a : BitVec (8 * 8)), c.vs.vstart ≤ i → i < c.vs.vl → Active c.regs vm i →
      IsElem c.vs.vlenb 8 c.regs vs2 i a →
        IsElem c.vs.vlenb 8 c'.regs vd i (BitVec.ofInt (8 * 8) (a.toInt + v.toInt + 2 ^ 32)) ∧
        ¬ IsElem c.vs.vlenb 8 c'.regs vd i (BitVec.ofInt (8 * 8) (a.toInt + v.toInt)) := by
  obtain ⟨c', st, e1, e2, e3, e4, e5, e6⟩ := C44_binary c 8 8 8 vd vs2 ((Src1.x v).to false 8) vm
    (fun a b (u : Bool) => (Same.fn 8 .add a b, u || Same.undef 8 .add a b)) false hr h2 trivial
  have hv := hr.size.2.2
  have hun : ∀ a b : BitVec (8 * 8), Same.undef 8 .add a b = false := fun a b => rfl
  have hflag : st (max c.vs.vstart c.vs.vl) = false := by
    have := flag_false (P := Active c.regs vm) c.vs.vstart c.vs.vl st e3 (by
      intro i hi hi' hact
      have := (e4 i _ _ hi hi' hact ((isElem_iff h2.1 h2.2.1 hv _ _ _ _).2 rfl) ((src_is (nd := 8) (vd := vd) c.vs c.regs i ((Src1.x v).to false 8) hv trivial _).2 rfl)).2
      rw [this]; dsimp only; rw [hun, Bool.or_false]) e5 (max c.vs.vstart c.vs.vl - c.vs.vstart) (by omega)
    rw [← this]; congr 1; omega
  refine ⟨c', ?_, ?_⟩
  · unfold same
    rw [hsew, if_pos (by decide)]
    have : (Same.signed1 8 .add) = false := rfl
    rw [this, e1, hflag]
  · intro i a hi hi' hact ha
    have hb : SrcIs c.vs c.regs i ((Src1.x v).to false 8) (v.setWidth (8 * 8)) := rfl
    have h := (e4 i a _ hi hi' hact ha hb).1
    have hval : Same.fn 8 .add a (v.setWidth (8 * 8)) = BitVec.ofInt (8 * 8) (a.toInt + v.toInt + 2 ^ 32) := by
      have hz : (v.setWidth (8 * 8)).toInt = v.toNat := zext_toInt (by omega) v
      have hn : (v.toNat : Int) = v.toInt + 2 ^ 32 := by
        have := v.isLt
        rw [BitVec.toInt_eq_toNat_cond] at hneg ⊢
        split at hneg <;> split <;> omega
      rw [same_value 8 (by decide), Spec.same, hz, hn]
      congr 1; omega
    have h' : IsElem c.vs.vlenb 8 c'.regs vd i (BitVec.ofInt (8 * 8) (a.toInt + v.toInt + 2 ^ 32)) := by
      rw [← hval]; exact h
    refine ⟨h', fun hbad => ?_⟩
    have hs := (isElem_iff hr.size.1 hr.size.2.1 hv _ _ _ _).1 h'
    have hs' := (isElem_iff hr.size.1 hr.size.2.1 hv _ _ _ _).1 hbad
    have heq := congrArg BitVec.toNat (hs.symm.trans hs')
    rw [BitVec.toNat_ofInt, BitVec.toNat_ofInt] at heq
    omega

/-- vadd.vx on RV32 with SEW = 64 and the register holding −1. -/
example := C85_scalar_violated (remCore 8) 8 2 (-1#32) true rfl
  ⟨rfl, by decide, by intro n hn; have : n = 8 := by simpa using hn
                      subst this; decide, by decide, 1, by decide, by decide, by decide⟩
  ⟨by decide, by decide, Or.inl (by decide)⟩ (by decide)

/-- vsll.vi, vsrl.vi, vsra.vi take the signed immediate (riscv_vector.isa:701,728,737).  For elements up to 32 bits, and for
amounts up to 15, the shift is by the unsigned amount; for 64-bit elements an amount from 16 on has 32 added. -/
theorem C85_shift_imm_partial (n : Nat) (hn : n = 1 ∨ n = 2 ∨ n = 4 ∨ n = 8) (k : BitVec 5) (h : n ≤ 4 ∨ k.toNat < 16)
    (s : VState) (R : VRegs) (i : Nat) (b : BitVec (8 * n)) (hb : Operand (xlen := 64) s R i b (.simm k)) :
    b.toNat % (8 * n) = k.toNat % (8 * n) := by
  have hb' : b.toInt = k.toInt := hb
  have hk := k.isLt
  rw [BitVec.toInt_eq_toNat_cond, BitVec.toInt_eq_toNat_cond] at hb'
  have hlt := b.isLt
  rcases hn with rfl | rfl | rfl | rfl <;> split at hb' <;> split at hb' <;> omega

theorem C85_shift_imm_violated (k : BitVec 5) (hk : 16 ≤ k.toNat) (s : VState) (R : VRegs) (i : Nat) (b : BitVec (8 * 8))
    (hb : Operand (xlen := 64) s R i b (.simm k)) : b.toNat % (8 * 8) = k.toNat + 32 := by
  have hb' : b.toInt = k.toInt := hb
  have hk' := k.isLt
  rw [BitVec.toInt_eq_toNat_cond, BitVec.toInt_eq_toNat_cond] at hb'
  have hlt := b.isLt
  split at hb' <;> split at hb' <;> omega

example : Operand (xlen := 64) core.vs core.regs 0 (BitVec.ofInt (8 * 8) (-12)) (.simm 20#5) := by
  show _ = _
  decide

/-! ### Narrowing -/

theorem ready_narrow {n lmul8 : Nat} (hn : 0 < n) (h : n ≤ lmul8 * (2 * n) ∧ lmul8 * (2 * n) ≤ 64 * n) : ¬ 32 < lmul8 := by
  intro hl
  have := Nat.mul_le_mul_right (2 * n) (show 33 ≤ lmul8 by omega)
  omega

theorem C85_narrow {xlen : Nat} (o : Narrow) (c : VCore) (vd vs2 : Nat) (s1 : Src1 xlen) (vm : Bool)
    (hsew : c.vs.sew = 1 ∨ c.vs.sew = 2 ∨ c.vs.sew = 4)
    (hr : Ready c.vs [c.vs.sew, 2 * c.vs.sew, c.vs.sew] c.vs.sew vd) (h2 : SourceOk c.vs.vlenb c.vs.vl c.vs.sew vd (2 * c.vs.sew) vs2)
    (h1 : OperandOk c.vs c.vs.sew vd c.vs.sew s1) (hx : 32 ≤ xlen) :
    ∃ c', narrow o c vd vs2 s1 vm = some c' ∧ Did c.vs c.regs vm c.vs.sew vd c'.vs c'.regs (fun i v =>
      ∃ (a : BitVec (8 * (2 * c.vs.sew))) (b : BitVec (8 * c.vs.sew)), IsElem c.vs.vlenb (2 * c.vs.sew) c.regs vs2 i a
        ∧ Operand c.vs c.regs i b s1 ∧ v = Spec.narrow a b o) := by
  have hn : 0 < c.vs.sew := hr.sew
  have hf : Fits (decide (o = .nsra)) c.vs.sew s1 := by
    cases s1 with
    | x v => exact Or.inr (by omega)
    | _ => trivial
  obtain ⟨c', st, e1, e2, e3, e4, e5, e6⟩ := C44_binary c c.vs.sew (2 * c.vs.sew) c.vs.sew vd vs2 (s1.to (o = .nsra) c.vs.sew) vm
    (fun a b (_ : Unit) => (o.fn c.vs.sew a b, ())) () hr h2 (operandOk c.vs _ s1 h1)
  refine ⟨c', ?_, e2, ?_, e6⟩
  · unfold narrow
    rw [if_neg (ready_narrow hn (hr.emul _ (by simp))), if_pos hsew, e1]; rfl
  · rintro i v hi hi' hact ⟨a, b, ha, hb, rfl⟩
    rw [← narrow_value _ hsew]
    exact (e4 i a b hi hi' hact ha (operand hn _ _ _ _ _ _ hf hb)).1

/-! ### Widening -/

theorem C85_wide {xlen : Nat} (o : Wide) (c : VCore) (vd vs2 : Nat) (s1 : Src1 xlen) (vm : Bool)
    (hsew : c.vs.sew = 1 ∨ c.vs.sew = 2 ∨ c.vs.sew = 4)
    (hr : Ready c.vs [2 * c.vs.sew, c.vs.sew, c.vs.sew] (2 * c.vs.sew) vd)
    (h2 : SourceOk c.vs.vlenb c.vs.vl (2 * c.vs.sew) vd c.vs.sew vs2)
    (h1 : OperandOk c.vs (2 * c.vs.sew) vd c.vs.sew s1) (hx : 32 ≤ xlen) :
    ∃ c', wide o c vd vs2 s1 vm = some c' ∧ Did c.vs c.regs vm (2 * c.vs.sew) vd c'.vs c'.regs (fun i v =>
      ∃ a b : BitVec (8 * c.vs.sew), IsElem c.vs.vlenb c.vs.sew c.regs vs2 i a
        ∧ Operand c.vs c.regs i b s1 ∧ v = Spec.wide a b o) := by
  have hn : 0 < c.vs.sew := hr.sew
  have hf : Fits o.signed1 c.vs.sew s1 := by
    cases s1 with
    | x v => exact Or.inr (by omega)
    | _ => trivial
  obtain ⟨c', st, e1, e2, e3, e4, e5, e6⟩ := C44_binary c (2 * c.vs.sew) c.vs.sew c.vs.sew vd vs2 (s1.to o.signed1 c.vs.sew) vm
    (fun a b (_ : Unit) => (o.fn c.vs.sew a b, ())) () hr h2 (operandOk c.vs _ s1 h1)
  refine ⟨c', ?_, e2, ?_, e6⟩
  · have hl := ready_narrow hn (hr.emul (2 * c.vs.sew) (by simp))
    have hc : ¬ (o.tested && decide (32 < c.vs.lmul8)) = true := by
      rw [decide_eq_false hl, Bool.and_false]; decide
    unfold wide
    rw [if_neg hc, if_pos hsew, e1]; rfl
  · rintro i v hi hi' hact ⟨a, b, ha, hb, rfl⟩
    rw [← wide_value _ hn]
    exact (e4 i a b hi hi' hact ha (operand hn _ _ _ _ _ _ hf hb)).1

/-- The results of the widening operations are exact: they fit the double width. -/
theorem C85_wide_exact (n : Nat) (hn : 0 < n) (a b : BitVec (8 * n)) :
    (∀ o, o = .wadd ∨ o = .wsub ∨ o = .wmul ∨ o = .wmulsu → (BitVec.ofInt (8 * (2 * n)) (Spec.wide a b o)).toInt = Spec.wide a b o)
    ∧ (∀ o, o = .waddu ∨ o = .wmulu → ((BitVec.ofInt (8 * (2 * n)) (Spec.wide a b o)).toNat : Int) = Spec.wide a b o) := by
  have hw : 0 < 8 * n := by omega
  have hA := bound hw a
  have hB := bound hw b
  have ha := a.isLt
  have hb := b.isLt
  have hh := half hw
  have e2 : 8 * (2 * n) = 2 * (8 * n) := by omega
  have hsq : 2 ^ (2 * (8 * n)) = 2 ^ (8 * n) * 2 ^ (8 * n) := by rw [← Nat.pow_add]; congr 1; omega
  have hbig : 4 * 2 ^ (8 * n) ≤ 2 ^ (8 * n) * 2 ^ (8 * n) :=
    Nat.mul_le_mul_right _ (by have : 2 ^ 2 ≤ 2 ^ (8 * n) := Nat.pow_le_pow_right (by decide) (by omega)
                               omega)
  have hm : ∀ k, k ≤ 2 ^ (8 * n) - 1 → 2 ^ (8 * n - 1) * k < 2 ^ (2 * (8 * n) - 1) := by
    intro k hk
    have h2 : 2 ^ (2 * (8 * n) - 1) = 2 ^ (8 * n - 1) * 2 ^ (8 * n) := by rw [← Nat.pow_add]; congr 1; omega
    rw [h2]
    exact Nat.mul_lt_mul_of_pos_left (by have := Nat.two_pow_pos (8 * n); omega) (Nat.two_pow_pos _)
  have hpos := Nat.two_pow_pos (8 * n - 1)
  rw [e2]
  constructor
  · rintro o (rfl | rfl | rfl | rfl) <;> rw [BitVec.toInt_ofInt] <;> simp only [Spec.wide]
    · rw [hsq]; apply Int.bmod_eq_of_le <;> omega
    · rw [hsq]; apply Int.bmod_eq_of_le <;> omega
    · exact wide_exact hw _ _ _ _ hA hB (hm _ (by omega))
    · exact wide_exact hw _ _ _ _ hA (Nat.le_refl _) (hm _ (by omega))
  · have hprod : a.toNat * b.toNat < 2 ^ (2 * (8 * n)) := by rw [hsq]; exact Nat.mul_lt_mul'' ha hb
    rintro o (rfl | rfl) <;> simp only [Spec.wide]
    · rw [← Int.natCast_add, BitVec.ofInt_natCast, BitVec.toNat_ofNat, Nat.mod_eq_of_lt (by omega)]
    · rw [← Int.natCast_mul, BitVec.ofInt_natCast, BitVec.toNat_ofNat, Nat.mod_eq_of_lt hprod]

theorem C85_wideW {xlen : Nat} (o : WideW) (c : VCore) (vd vs2 : Nat) (s1 : Src1 xlen) (vm : Bool)
    (hsew : c.vs.sew = 1 ∨ c.vs.sew = 2 ∨ c.vs.sew = 4)
    (hr : Ready c.vs [2 * c.vs.sew, 2 * c.vs.sew, c.vs.sew] (2 * c.vs.sew) vd)
    (h2 : SourceOk c.vs.vlenb c.vs.vl (2 * c.vs.sew) vd (2 * c.vs.sew) vs2)
    (h1 : OperandOk c.vs (2 * c.vs.sew) vd c.vs.sew s1) (hx : 32 ≤ xlen) :
    ∃ c', wideW o c vd vs2 s1 vm = some c' ∧ Did c.vs c.regs vm (2 * c.vs.sew) vd c'.vs c'.regs (fun i v =>
      ∃ (a : BitVec (8 * (2 * c.vs.sew))) (b : BitVec (8 * c.vs.sew)), IsElem c.vs.vlenb (2 * c.vs.sew) c.regs vs2 i a
        ∧ Operand c.vs c.regs i b s1 ∧ v = Spec.wideW a b o) := by
  have hn : 0 < c.vs.sew := hr.sew
  have hf : Fits (o = .waddw || o = .wsubw) c.vs.sew s1 := by
    cases s1 with
    | x v => exact Or.inr (by omega)
    | _ => trivial
  obtain ⟨c', st, e1, e2, e3, e4, e5, e6⟩ := C44_binary c (2 * c.vs.sew) (2 * c.vs.sew) c.vs.sew vd vs2
    (s1.to (o = .waddw || o = .wsubw) c.vs.sew) vm (fun a b (_ : Unit) => (o.fn c.vs.sew a b, ())) () hr h2 (operandOk c.vs _ s1 h1)
  refine ⟨c', ?_, e2, ?_, e6⟩
  · unfold wideW
    rw [if_neg (ready_narrow hn (hr.emul (2 * c.vs.sew) (by simp))), if_pos hsew, e1]; rfl
  · rintro i v hi hi' hact ⟨a, b, ha, hb, rfl⟩
    rw [← wideW_value _ hn]
    exact (e4 i a b hi hi' hact ha (operand hn _ _ _ _ _ _ hf hb)).1

/-! ### Multiply-add -/

theorem C85_mac {xlen : Nat} (o : Mac) (c : VCore) (vd vs2 : Nat) (s1 : Src1 xlen) (vm : Bool)
    (hsew : c.vs.sew = 1 ∨ c.vs.sew = 2 ∨ c.vs.sew = 4 ∨ c.vs.sew = 8)
    (hr : Ready c.vs [c.vs.sew, c.vs.sew, c.vs.sew] c.vs.sew vd) (h2 : SourceOk c.vs.vlenb c.vs.vl c.vs.sew vd c.vs.sew vs2)
    (h1 : OperandOk c.vs c.vs.sew vd c.vs.sew s1) (hf : Fits false c.vs.sew s1) :
    ∃ c', mac o c vd vs2 s1 vm = some c' ∧ Did c.vs c.regs vm c.vs.sew vd c'.vs c'.regs (fun i v =>
      ∃ a b d : BitVec (8 * c.vs.sew), IsElem c.vs.vlenb c.vs.sew c.regs vs2 i a ∧ Operand c.vs c.regs i b s1
        ∧ IsElem c.vs.vlenb c.vs.sew c.regs vd i d ∧ v = Spec.mac a b d o) := by
  have hn : 0 < c.vs.sew := hr.sew
  obtain ⟨c', e1, e2, e3, e4⟩ := C44_ternary c c.vs.sew c.vs.sew c.vs.sew vd vs2 (s1.to false c.vs.sew) vm o.fn hr h2 (operandOk c.vs _ s1 h1)
  refine ⟨c', ?_, e2, ?_, e4⟩
  · unfold mac
    rw [if_pos hsew, e1]
  · rintro i v hi hi' hact ⟨a, b, d, ha, hb, hd, rfl⟩
    rw [← mac_value]
    exact e3 i a b d hi hi' hact ha (operand hn _ _ _ _ _ _ hf hb) hd

theorem C85_wmac {xlen : Nat} (o : WMac) (c : VCore) (vd vs2 : Nat) (s1 : Src1 xlen) (vm : Bool)
    (hsew : c.vs.sew = 1 ∨ c.vs.sew = 2 ∨ c.vs.sew = 4)
    (hr : Ready c.vs [2 * c.vs.sew, c.vs.sew, c.vs.sew] (2 * c.vs.sew) vd)
    (h2 : SourceOk c.vs.vlenb c.vs.vl (2 * c.vs.sew) vd c.vs.sew vs2)
    (h1 : OperandOk c.vs (2 * c.vs.sew) vd c.vs.sew s1) (hx : 32 ≤ xlen) :
    ∃ c', wmac o c vd vs2 s1 vm = some c' ∧ Did c.vs c.regs vm (2 * c.vs.sew) vd c'.vs c'.regs (fun i v =>
      ∃ (a b : BitVec (8 * c.vs.sew)) (d : BitVec (8 * (2 * c.vs.sew))), IsElem c.vs.vlenb c.vs.sew c.regs vs2 i a
        ∧ Operand c.vs c.regs i b s1 ∧ IsElem c.vs.vlenb (2 * c.vs.sew) c.regs vd i d ∧ v = Spec.wmac a b d o) := by
  have hn : 0 < c.vs.sew := hr.sew
  have hf : Fits (o = .wmacc || o = .wmaccsu) c.vs.sew s1 := by
    cases s1 with
    | x v => exact Or.inr (by omega)
    | _ => trivial
  obtain ⟨c', e1, e2, e3, e4⟩ := C44_ternary c (2 * c.vs.sew) c.vs.sew c.vs.sew vd vs2
    (s1.to (o = .wmacc || o = .wmaccsu) c.vs.sew) vm (o.fn c.vs.sew) hr h2 (operandOk c.vs _ s1 h1)
  refine ⟨c', ?_, e2, ?_, e4⟩
  · unfold wmac
    rw [if_neg (ready_narrow hn (hr.emul (2 * c.vs.sew) (by simp))), if_pos hsew, e1]
  · rintro i v hi hi' hact ⟨a, b, d, ha, hb, hd, rfl⟩
    rw [← wmac_value _ hn]
    exact e3 i a b d hi hi' hact ha (operand hn _ _ _ _ _ _ hf hb) hd

/-! ### Extension and merge -/

theorem C85_ext (signed : Bool) (k : Nat) (c : VCore) (vd vs2 : Nat) (vm : Bool)
    (hsew : c.vs.sew = 2 ∨ c.vs.sew = 4 ∨ c.vs.sew = 8) (hk : k = 2 ∨ k = 4 ∨ k = 8) (hle : k ≤ c.vs.sew)
    (hr : Ready c.vs [c.vs.sew, c.vs.sew / k] c.vs.sew vd) (h2 : SourceOk c.vs.vlenb c.vs.vl c.vs.sew vd (c.vs.sew / k) vs2) :
    ∃ c', ext signed k c vd vs2 vm = some c' ∧ Did c.vs c.regs vm c.vs.sew vd c'.vs c'.regs (fun i v =>
      ∃ a : BitVec (8 * (c.vs.sew / k)), IsElem c.vs.vlenb (c.vs.sew / k) c.regs vs2 i a
        ∧ v = if signed then a.toInt else (a.toNat : Int)) := by
  obtain ⟨c', st, e1, e2, e3, e4, e5, e6⟩ := C44_unary c c.vs.sew (c.vs.sew / k) vd vs2 vm
    (fun a (_ : Unit) => (if signed then a.signExtend _ else a.setWidth _, ())) () hr h2
  refine ⟨c', ?_, e2, ?_, e6⟩
  · unfold ext
    rw [if_pos ⟨hsew, hle⟩, e1]; rfl
  · rintro i v hi hi' hact ⟨a, ha, rfl⟩
    have hlt : 8 * (c.vs.sew / k) < 8 * c.vs.sew := by
      have : c.vs.sew / k < c.vs.sew := Nat.div_lt_self (by omega) (by omega)
      omega
    have h := (e4 i a hi hi' hact ha).1
    cases signed with
    | true =>
      rw [if_pos rfl]
      rw [← sext_ofInt (by omega)]
      exact h
    | false =>
      rw [if_neg (by decide)]
      rw [← zext_ofInt hlt]
      exact h

/-- An element too narrow to be extended that much, or SEW = 8, is refused. -/
theorem C85_ext_refused (signed : Bool) (k : Nat) (c : VCore) (vd vs2 : Nat) (vm : Bool) (h : c.vs.sew < k ∨ c.vs.sew = 1) :
    ∃ c', ext signed k c vd vs2 vm = some c' ∧ c'.vs.exception = true ∧ c'.regs = c.regs := by
  unfold ext
  rw [if_neg (by omega)]
  exact ⟨_, rfl, rfl, rfl⟩

/-- No widening or narrowing with 64-bit elements. -/
theorem C85_too_wide_refused {xlen : Nat} (c : VCore) (vd vs2 : Nat) (s1 : Src1 xlen) (vm : Bool) (h : c.vs.sew = 8) :
    (∀ o, ∃ c', narrow o c vd vs2 s1 vm = some c' ∧ c'.vs.exception = true ∧ c'.regs = c.regs)
    ∧ (∀ o, ∃ c', wide o c vd vs2 s1 vm = some c' ∧ c'.vs.exception = true ∧ c'.regs = c.regs)
    ∧ (∀ o, ∃ c', wideW o c vd vs2 s1 vm = some c' ∧ c'.vs.exception = true ∧ c'.regs = c.regs)
    ∧ (∀ o, ∃ c', wmac o c vd vs2 s1 vm = some c' ∧ c'.vs.exception = true ∧ c'.regs = c.regs) := by
  have hno : ¬ (c.vs.sew = 1 ∨ c.vs.sew = 2 ∨ c.vs.sew = 4) := by omega
  refine ⟨fun o => ?_, fun o => ?_, fun o => ?_, fun o => ?_⟩
  · unfold narrow; rw [if_neg hno, ite_self]; exact ⟨_, rfl, rfl, rfl⟩
  · unfold wide; rw [if_neg hno, ite_self]; exact ⟨_, rfl, rfl, rfl⟩
  · unfold wideW; rw [if_neg hno, ite_self]; exact ⟨_, rfl, rfl, rfl⟩
  · unfold wmac; rw [if_neg hno, ite_self]; exact ⟨_, rfl, rfl, rfl⟩

/-- vmerge: every body element is written, with vs1 or the scalar where the mask bit is set and vs2 elsewhere. -/
theorem C85_merge {xlen : Nat} (c : VCore) (vd vs2 : Nat) (s1 : Src1 xlen) (vm : Bool)
    (hsew : c.vs.sew = 1 ∨ c.vs.sew = 2 ∨ c.vs.sew = 4 ∨ c.vs.sew = 8)
    (hr : Ready c.vs [c.vs.sew, c.vs.sew, c.vs.sew] c.vs.sew vd) (h2 : SourceOk c.vs.vlenb c.vs.vl c.vs.sew vd c.vs.sew vs2)
    (h1 : OperandOk c.vs c.vs.sew vd c.vs.sew s1) (hf : Fits false c.vs.sew s1) :
    ∃ c', merge c vd vs2 s1 vm = some c' ∧ c'.vs = { c.vs with vstart := 0 }
      ∧ (∀ i (a b : BitVec (8 * c.vs.sew)), c.vs.vstart ≤ i → i < c.vs.vl → IsElem c.vs.vlenb c.vs.sew c.regs vs2 i a → Operand c.vs c.regs i b s1 →
          (Active c.regs vm i → IsElem c.vs.vlenb c.vs.sew c'.regs vd i b) ∧ (¬ Active c.regs vm i → IsElem c.vs.vlenb c.vs.sew c'.regs vd i a))
      ∧ Undisturbed c.vs.vlenb c.vs.sew vd (fun i => c.vs.vstart ≤ i ∧ i < c.vs.vl) c.regs c'.regs := by
  have hn : 0 < c.vs.sew := hr.sew
  obtain ⟨c', e1, e2, e3, e4⟩ := C44_mask_binary c c.vs.sew c.vs.sew c.vs.sew vd vs2 (s1.to false c.vs.sew) vm
    (fun a b m => some (if m then b else a)) hr h2 (operandOk c.vs _ s1 h1)
  refine ⟨c', ?_, e2, ?_, ?_⟩
  · unfold merge
    rw [if_pos hsew, e1]; rfl
  · intro i a b hi hi' ha hb
    have hb' := operand hn _ _ _ false _ _ hf hb
    exact ⟨fun hact => e3 i a b true b hi hi' ⟨fun _ => hact, fun _ => rfl⟩ ha hb' rfl,
      fun hact => e3 i a b false a hi hi' ⟨(fun h => nomatch h), fun h => absurd h hact⟩ ha hb' rfl⟩
  · intro r x hx hno
    exact e4 r x hx (fun ⟨i, ⟨hi, hi', _⟩, hc⟩ => hno ⟨i, ⟨hi, hi'⟩, hc⟩)

/-! ### Concrete cases -/

example := C85_mac (xlen := 32) .nmsac core 4 2 (.x 7#32) false (by decide) ready_core
  ⟨by decide, by decide, Or.inl (by decide)⟩ trivial (Or.inr (by decide))

example := C85_merge (xlen := 32) core 4 2 (.simm 0x1f#5) false (by decide) ready_core
  ⟨by decide, by decide, Or.inl (by decide)⟩ trivial trivial

/-- vwmaccsu.vv v8, v2, v4 with SEW = 16, LMUL = 2. -/
theorem ready_wide : Ready core.vs [2 * core.vs.sew, core.vs.sew, core.vs.sew] (2 * core.vs.sew) 8 :=
  ⟨rfl, by decide, by decide, by decide, 4, by decide, by decide, by decide⟩

example := C85_wmac (xlen := 32) .wmaccsu core 8 4 (.vec 2) false (by decide) ready_wide
  ⟨by decide, by decide, Or.inl (by decide)⟩ ⟨by decide, by decide, Or.inl (by decide)⟩ (by decide)

example := C85_wide (xlen := 32) .wmulsu core 8 4 (.vec 2) false (by decide) ready_wide
  ⟨by decide, by decide, Or.inl (by decide)⟩ ⟨by decide, by decide, Or.inl (by decide)⟩ (by decide)

example := C85_wideW (xlen := 32) .wsubw core 8 12 (.vec 2) false (by decide)
  ⟨rfl, by decide, by decide, by decide, 4, by decide, by decide, by decide⟩
  ⟨by decide, by decide, Or.inl (by decide)⟩ ⟨by decide, by decide, Or.inl (by decide)⟩ (by decide)

example := C85_narrow (xlen := 32) .nsra core 4 8 (.uimm 0x1f#5) false (by decide)
  ⟨rfl, by decide, by decide, by decide, 2, by decide, by decide, by decide⟩
  ⟨by decide, by decide, Or.inl (by decide)⟩ trivial (by decide)

example := C85_ext true 2 core 4 2 false (by decide) (by decide) (by decide)
  ⟨rfl, by decide, by decide, by decide, 2, by decide, by decide, by decide⟩
  ⟨by decide, by decide, Or.inl (by decide)⟩

end Verif.VecInt
