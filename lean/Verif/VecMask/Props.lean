import Verif.VecMask.Model
import Verif.VecMask.Spec
import Verif.VecLoop.Props
import Verif.VecFixed.Props
namespace Verif.VecMask
open Verif.VecState Verif.VecLoop Verif.VecLoop.Spec Spec

/-- The operation on single bits that each instruction denotes. -/
def Op.bit : Op → Bool → Bool → Bool
  | .andnot, a, b => a && !b
  | .and, a, b => a && b
  | .or, a, b => a || b
  | .xor, a, b => a ^^ b
  | .ornot, a, b => a || !b
  | .nand, a, b => !(a && b)
  | .nor, a, b => !(a || b)
  | .xnor, a, b => !(a ^^ b)

theorem fn_bit (o : Op) (a b : BitVec 8) (k : Nat) (hk : k < 8) : (o.fn a b).getLsbD k = o.bit (a.getLsbD k) (b.getLsbD k) := by
  cases o <;> simp [Op.fn, Op.bit, hk]

theorem start_mask (o k : Nat) (hk : k < 8) : (0xff#8 <<< o).getLsbD k = decide (o ≤ k) := by
  rw [BitVec.getLsbD_shiftLeft]
  have : (0xff#8).getLsbD (k - o) = true := by
    have h : ∀ j : Fin 8, (0xff#8).getLsbD j.val = true := by decide
    exact h ⟨k - o, by omega⟩
  rw [this]
  by_cases h : k < o <;> simp [h, hk] <;> omega

theorem end_mask (o k : Nat) (hk : k < 8) (ho : o < 8) : (0xff#8 >>> (7 - o)).getLsbD k = decide (k ≤ o) := by
  have h : ∀ (o k : Fin 8), (0xff#8 >>> (7 - o.val)).getLsbD k.val = decide (k.val ≤ o.val) := by decide
  exact h ⟨o, ho⟩ ⟨k, hk⟩

theorem blend (x y m : BitVec 8) (k : Nat) (hk : k < 8) :
    ((x &&& m) ||| (y &&& ~~~m)).getLsbD k = if m.getLsbD k then x.getLsbD k else y.getLsbD k := by
  simp only [BitVec.getLsbD_or, BitVec.getLsbD_and, BitVec.getLsbD_not, hk, decide_true, Bool.true_and]
  cases m.getLsbD k <;> simp

/-- The bits the code writes: from vstart to the end of its byte, the bytes between, and the end byte up to vl - 1. -/
theorem bitwise_bit (op : BitVec 8 → BitVec 8 → BitVec 8) (vstart vl : Nat) (a b d : Buf) (i : Nat) :
    (bitwise op vstart vl a b d (i / 8)).getLsbD (i % 8) =
      if (i / 8 = vstart / 8 ∧ vstart ≤ i) ∨ (vstart / 8 < i / 8 ∧ i / 8 < (vl - 1) / 8) ∨ (0 < vl ∧ i / 8 = (vl - 1) / 8 ∧ i < vl)
      then (op (a (i / 8)) (b (i / 8))).getLsbD (i % 8) else (d (i / 8)).getLsbD (i % 8) := by
  have hk : i % 8 < 8 := Nat.mod_lt _ (by decide)
  unfold bitwise
  have hs : ∀ (x : BitVec 8) , ((op (a (i / 8)) (b (i / 8)) &&& (0xff#8 <<< (vstart % 8))) ||| (x &&& ~~~(0xff#8 <<< (vstart % 8)))).getLsbD (i % 8)
      = if vstart % 8 ≤ i % 8 then (op (a (i / 8)) (b (i / 8))).getLsbD (i % 8) else x.getLsbD (i % 8) := by
    intro x; rw [blend _ _ _ _ hk, start_mask _ _ hk]; simp
  have he : ∀ (x : BitVec 8) , ((op (a (i / 8)) (b (i / 8)) &&& (if vl = 0 then 0#8 else 0xff#8 >>> (7 - (vl - 1) % 8))) |||
      (x &&& ~~~(if vl = 0 then 0#8 else 0xff#8 >>> (7 - (vl - 1) % 8)))).getLsbD (i % 8)
      = if 0 < vl ∧ i % 8 ≤ (vl - 1) % 8 then (op (a (i / 8)) (b (i / 8))).getLsbD (i % 8) else x.getLsbD (i % 8) := by
    intro x; rw [blend _ _ _ _ hk]
    by_cases h0 : vl = 0
    · rw [if_pos h0]
      simp; omega
    · rw [if_neg h0, end_mask _ _ hk (Nat.mod_lt _ (by decide))]
      have : 0 < vl := by omega
      simp [this]
  simp only []
  split
  · rw [he]
    split
    · rw [if_pos (by omega)]
    · split
      · omega
      · split
        · rw [hs]
          split
          · rw [if_pos (by omega)]
          · rw [if_neg (by omega)]
        · rw [if_neg (by omega)]
  · split
    · rw [if_pos (by omega)]
    · split
      · rw [hs]
        split
        · rw [if_pos (by omega)]
        · rw [if_neg (by omega)]
      · rw [if_neg (by omega)]

theorem exec_bit (op : BitVec 8 → BitVec 8 → BitVec 8) (c : VCore) (vd vs2 vs1 : Nat) (hx : c.vs.exception = false) (i : Nat) :
    mbit (execBitwise op c vd vs2 vs1).regs vd i =
      if (i / 8 = c.vs.vstart / 8 ∧ c.vs.vstart ≤ i) ∨ (c.vs.vstart / 8 < i / 8 ∧ i / 8 < (c.vs.vl - 1) / 8)
        ∨ (0 < c.vs.vl ∧ i / 8 = (c.vs.vl - 1) / 8 ∧ i < c.vs.vl)
      then (op (c.regs vs2 (i / 8)) (c.regs vs1 (i / 8))).getLsbD (i % 8) else mbit c.regs vd i := by
  unfold execBitwise mbit
  rw [hx]
  simp only [Bool.false_eq_true, if_false, if_true]
  exact bitwise_bit op c.vs.vstart c.vs.vl (c.regs vs2) (c.regs vs1) (c.regs vd) i

/-- **C48, in part.** The mask logical instructions write the operation's value to every body bit and keep every
prestart bit and all other registers, when the body is not empty and does not both start inside a byte and end in that
same byte.  Missing: exactly those cases, where the property fails (`C48_same_byte_violated`, `C48_empty_violated`). -/
theorem C48_logical_partial (o : Op) (c : VCore) (vd vs2 vs1 : Nat) (hx : c.vs.exception = false) (hne : c.vs.vstart < c.vs.vl)
    (hb : c.vs.vstart % 8 = 0 ∨ c.vs.vstart / 8 ≠ (c.vs.vl - 1) / 8) :
    (∀ i, c.vs.vstart ≤ i → i < c.vs.vl → mbit (execBitwise o.fn c vd vs2 vs1).regs vd i = o.bit (mbit c.regs vs2 i) (mbit c.regs vs1 i))
    ∧ (∀ i, i < c.vs.vstart → mbit (execBitwise o.fn c vd vs2 vs1).regs vd i = mbit c.regs vd i)
    ∧ (∀ r, r ≠ vd → (execBitwise o.fn c vd vs2 vs1).regs r = c.regs r)
    ∧ (execBitwise o.fn c vd vs2 vs1).vs = { c.vs with vstart := 0 } := by
  refine ⟨?_, ?_, ?_, ?_⟩
  · intro i h1 h2
    rw [exec_bit _ _ _ _ _ hx, if_pos (by omega), fn_bit _ _ _ _ (Nat.mod_lt _ (by decide))]
    rfl
  · intro i h1
    rw [exec_bit _ _ _ _ _ hx, if_neg (by omega)]
  · intro r hr
    unfold execBitwise
    rw [hx]
    simp [hr]
  · unfold execBitwise
    rw [hx]; rfl

/-- A register file and configuration for the examples. -/
def exCore (vstart vl : Nat) : VCore :=
  { vs := { VState.init 16 0#32 with vl := vl, vstart := vstart }
    regs := fun r _ => if r = 1 then 0xff#8 else if r = 2 then 0x0f#8 else 0#8 }

example : (exCore 3 20).vs.exception = false ∧ (exCore 3 20).vs.vstart < (exCore 3 20).vs.vl
    ∧ mbit (execBitwise Op.and.fn (exCore 3 20) 3 1 2).regs 3 3 = true ∧ mbit (execBitwise Op.and.fn (exCore 3 20) 3 1 2).regs 3 2 = false := by decide

/-- C48 fails whenever the body starts inside a byte and ends in the same byte: every prestart bit of that byte
receives the operation's value. -/
theorem C48_same_byte_violated (o : Op) (c : VCore) (vd vs2 vs1 : Nat) (hx : c.vs.exception = false) (hne : c.vs.vstart < c.vs.vl)
    (hb : c.vs.vstart / 8 = (c.vs.vl - 1) / 8) (i : Nat) (h1 : i < c.vs.vstart) (h2 : i / 8 = c.vs.vstart / 8) :
    mbit (execBitwise o.fn c vd vs2 vs1).regs vd i = o.bit (mbit c.regs vs2 i) (mbit c.regs vs1 i) := by
  rw [exec_bit _ _ _ _ _ hx, if_pos (by omega), fn_bit _ _ _ _ (Nat.mod_lt _ (by decide))]
  rfl

/-- Such a state exists, and the bit changes. -/
theorem C48_same_byte_witness_violated : ∃ (c : VCore) (i : Nat), i < c.vs.vstart ∧ c.vs.vstart < c.vs.vl
    ∧ mbit (execBitwise Op.and.fn c 3 1 2).regs 3 i ≠ mbit c.regs 3 i :=
  ⟨exCore 2 6, 0, by decide, by decide, by decide⟩

/-- C48 fails for vl = 0 (and vstart = 0): bits 0 to 7 are written. -/
theorem C48_empty_violated (o : Op) (c : VCore) (vd vs2 vs1 : Nat) (hx : c.vs.exception = false) (hvl : c.vs.vl = 0)
    (hvs : c.vs.vstart = 0) (i : Nat) (hi : i < 8) :
    mbit (execBitwise o.fn c vd vs2 vs1).regs vd i = o.bit (mbit c.regs vs2 i) (mbit c.regs vs1 i) := by
  rw [exec_bit _ _ _ _ _ hx, if_pos (by omega), fn_bit _ _ _ _ (Nat.mod_lt _ (by decide))]
  rfl

theorem C48_empty_witness_violated : ∃ c : VCore, c.vs.vl = 0 ∧ (execBitwise Op.and.fn c 3 1 2).regs 3 0 ≠ c.regs 3 0 :=
  ⟨exCore 0 0, by decide, by decide⟩

/-! ### Loops that write single bits -/

theorem putBit_bit (d : BitVec 8) (off : Nat) (v : Bool) (k : Nat) (hk : k < 8) (ho : off < 8) :
    (putBit d off v).getLsbD k = if k = off then v else d.getLsbD k := by
  unfold putBit
  simp only [BitVec.getLsbD_or, BitVec.getLsbD_and, BitVec.getLsbD_not, hk, decide_true, Bool.true_and, BitVec.getLsbD_shiftLeft]
  by_cases h : k = off
  · subst h
    cases v <;> simp
  · rcases Nat.lt_or_gt_of_ne h with h' | h'
    · simp [h', h]
    · have h1 : ¬ k < off := by omega
      have h2 : (1#8).getLsbD (k - off) = false := by
        have hj : ∀ j : Fin 8, j.val ≠ 0 → (1#8).getLsbD j.val = false := by decide
        exact hj ⟨k - off, by omega⟩ (by show k - off ≠ 0; omega)
      have h3 : k - off ≠ 0 := by omega
      cases v <;> simp [h, h1, h3]

theorem bitLoop_bit (f : Nat → Option Bool) (n lo : Nat) (d : Buf) (i : Nat) :
    (bitLoop f n lo d (i / 8)).getLsbD (i % 8) =
      if lo ≤ i ∧ i < lo + n then (f i).getD ((d (i / 8)).getLsbD (i % 8)) else (d (i / 8)).getLsbD (i % 8) := by
  induction n generalizing lo d with
  | zero => rw [bitLoop, if_neg (by omega)]
  | succ n ih =>
    rw [bitLoop, ih]
    have hk : i % 8 < 8 := Nat.mod_lt _ (by decide)
    have hsh : lo >>> 3 = lo / 8 := Nat.shiftRight_eq_div_pow lo 3
    have han : lo &&& 0b111 = lo % 8 := Nat.and_two_pow_sub_one_eq_mod lo 3
    have hd : (putElem d lo (f lo) (i / 8)).getLsbD (i % 8)
        = if i = lo then (f lo).getD ((d (i / 8)).getLsbD (i % 8)) else (d (i / 8)).getLsbD (i % 8) := by
      cases hf : f lo with
      | none => simp [putElem]
      | some v =>
        simp only [putElem, hsh, han, Option.getD_some]
        split
        · rw [putBit_bit _ _ _ _ hk (Nat.mod_lt _ (by decide))]
          split
          · rw [if_pos (by omega)]
          · rw [if_neg (by omega)]
        · rw [if_neg (by omega)]
    simp only [hd]
    by_cases hi : i = lo
    · subst hi
      rw [if_neg (by omega), if_pos rfl, if_pos (by omega)]
    · rw [if_neg hi]
      by_cases h2 : lo + 1 ≤ i ∧ i < lo + 1 + n
      · rw [if_pos h2, if_pos (by omega)]
      · rw [if_neg h2, if_neg (by omega)]

/-- **C48, compares.** A compare writes its result to every active body bit of the destination mask, and leaves every
other bit and register alone. -/
theorem C48_compare {n2 n1 : Nat} (c : VCore) (vd vs2 : Nat) (src1 : Src n1) (vm : Bool) (op : BitVec (8 * n2) → BitVec (8 * n1) → Bool)
    (hx : c.vs.exception = false) (hv : 0 < c.vs.vlenb) (h2 : 0 < n2 ∧ n2 ∣ c.vs.vlenb) (h1 : 0 < n1 ∧ n1 ∣ c.vs.vlenb) :
    (∀ i a b, c.vs.vstart ≤ i → i < c.vs.vl → Active c.regs vm i → IsElem c.vs.vlenb n2 c.regs vs2 i a → SrcIs c.vs c.regs i src1 b →
      mbit (compare c vd vs2 src1 (maskOf c.regs vm) op).regs vd i = op a b)
    ∧ (∀ i, ¬ (c.vs.vstart ≤ i ∧ i < c.vs.vl ∧ Active c.regs vm i) →
      mbit (compare c vd vs2 src1 (maskOf c.regs vm) op).regs vd i = mbit c.regs vd i)
    ∧ (∀ r, r ≠ vd → (compare c vd vs2 src1 (maskOf c.regs vm) op).regs r = c.regs r)
    ∧ (compare c vd vs2 src1 (maskOf c.regs vm) op).vs = { c.vs with vstart := 0 } := by
  have e : ∀ i, mbit (compare c vd vs2 src1 (maskOf c.regs vm) op).regs vd i = if c.vs.vstart ≤ i ∧ i < c.vs.vl ∧ maskBit (maskOf c.regs vm) i = true
      then op (source c.vs.vlenb n2 c.regs vs2 i) (src1.get c.vs.vlenb c.regs i) else mbit c.regs vd i := by
    intro i
    unfold compare mbit
    rw [hx]
    simp only [Bool.false_eq_true, if_false, if_true]
    rw [bitLoop_bit]
    by_cases hr : c.vs.vstart ≤ i ∧ i < c.vs.vl
    · rw [if_pos (by omega)]
      cases hm : maskBit (maskOf c.regs vm) i <;> simp [hr]
    · rw [if_neg (by omega), if_neg (by rintro ⟨h1, h2, -⟩; exact hr ⟨h1, h2⟩)]
  refine ⟨?_, ?_, ?_, ?_⟩
  · intro i a b i1 i2 hA ha hb
    rw [e i, if_pos ⟨i1, i2, (maskBit_iff _ _ _).2 hA⟩, (isElem_iff h2.1 h2.2 hv _ _ _ _).1 ha]
    congr 1
    cases src1 with
    | scalar x => exact hb.symm
    | vec v => exact (isElem_iff h1.1 h1.2 hv _ _ _ _).1 hb
  · intro i hi
    rw [e i, if_neg]
    rintro ⟨i1, i2, i3⟩
    exact hi ⟨i1, i2, (maskBit_iff _ _ _).1 i3⟩
  · intro r hr
    unfold compare
    rw [hx]
    simp [hr]
  · unfold compare
    rw [hx]; rfl

/-- **C47, instruction level.** `vmadc`/`vmsbc` write the carry or borrow of every body element to its mask bit; the
carry-in is v0's bit for the masked forms and 0 for the others.  All other bits and registers keep their values. -/
theorem setMask_bits {n2 n1 : Nat} (c : VCore) (vd vs2 : Nat) (src1 : Src n1) (vm : Bool) (op : BitVec (8 * n2) → BitVec (8 * n1) → Bool → Bool)
    (hx : c.vs.exception = false) (hv : 0 < c.vs.vlenb) (h2 : 0 < n2 ∧ n2 ∣ c.vs.vlenb) (h1 : 0 < n1 ∧ n1 ∣ c.vs.vlenb) :
    (∀ i a b, c.vs.vstart ≤ i → i < c.vs.vl → IsElem c.vs.vlenb n2 c.regs vs2 i a → SrcIs c.vs c.regs i src1 b →
      mbit (setMask c vd vs2 src1 (maskOf c.regs vm) vm op).regs vd i = op a b (!vm && mbit c.regs 0 i))
    ∧ (∀ i, ¬ (c.vs.vstart ≤ i ∧ i < c.vs.vl) → mbit (setMask c vd vs2 src1 (maskOf c.regs vm) vm op).regs vd i = mbit c.regs vd i)
    ∧ (∀ r, r ≠ vd → (setMask c vd vs2 src1 (maskOf c.regs vm) vm op).regs r = c.regs r)
    ∧ (setMask c vd vs2 src1 (maskOf c.regs vm) vm op).vs = { c.vs with vstart := 0 } := by
  have e : ∀ i, mbit (setMask c vd vs2 src1 (maskOf c.regs vm) vm op).regs vd i = if c.vs.vstart ≤ i ∧ i < c.vs.vl
      then op (source c.vs.vlenb n2 c.regs vs2 i) (src1.get c.vs.vlenb c.regs i) (!vm && mbit c.regs 0 i) else mbit c.regs vd i := by
    intro i
    unfold setMask mbit
    rw [hx]
    simp only [Bool.false_eq_true, if_false, if_true]
    rw [bitLoop_bit]
    have hm : (!vm && maskBit (maskOf c.regs vm) i) = (!vm && (c.regs 0 (i / 8)).getLsbD (i % 8)) := by
      cases vm
      · rw [maskBit_eq]; rfl
      · rfl
    by_cases hr : c.vs.vstart ≤ i ∧ i < c.vs.vl
    · rw [if_pos (by omega), if_pos hr, hm]; rfl
    · rw [if_neg (by omega), if_neg hr]
  refine ⟨?_, ?_, ?_, ?_⟩
  · intro i a b i1 i2 ha hb
    rw [e i, if_pos ⟨i1, i2⟩, (isElem_iff h2.1 h2.2 hv _ _ _ _).1 ha]
    congr 1
    cases src1 with
    | scalar x => exact hb.symm
    | vec v => exact (isElem_iff h1.1 h1.2 hv _ _ _ _).1 hb
  · intro i hi
    rw [e i, if_neg hi]
  · intro r hr
    unfold setMask
    rw [hx]
    simp [hr]
  · unfold setMask
    rw [hx]; rfl

/-- **C47, vmadc as an instruction, in part.** For 8, 16 and 32 bit elements.  Missing: 64 bit elements, where the carry is
wrong (`VecFixed.C47_vmadc64_violated`). -/
theorem C47_vmadc_partial {n : Nat} (c : VCore) (vd vs2 : Nat) (src1 : Src n) (vm : Bool)
    (hx : c.vs.exception = false) (hv : 0 < c.vs.vlenb) (hn : 0 < n ∧ n ∣ c.vs.vlenb) (h8 : n ≠ 8) (i : Nat) (a b : BitVec (8 * n))
    (i1 : c.vs.vstart ≤ i) (i2 : i < c.vs.vl) (ha : IsElem c.vs.vlenb n c.regs vs2 i a) (hb : SrcIs c.vs c.regs i src1 b) :
    mbit (setMask c vd vs2 src1 (maskOf c.regs vm) vm (carryOut n)).regs vd i = true
      ↔ 2 ^ (8 * n) ≤ a.toNat + b.toNat + (if vm = false ∧ mbit c.regs 0 i = true then 1 else 0) := by
  rw [(setMask_bits c vd vs2 src1 vm (carryOut n) hx hv hn hn).1 i a b i1 i2 ha hb]
  unfold carryOut
  rw [dif_neg h8, VecFixed.C47_vmadc (by omega)]
  cases vm <;> simp

/-- **C47, vmsbc as an instruction**, for every element width. -/
theorem C47_vmsbc_elem {n : Nat} (c : VCore) (vd vs2 : Nat) (src1 : Src n) (vm : Bool)
    (hx : c.vs.exception = false) (hv : 0 < c.vs.vlenb) (hn : 0 < n ∧ n ∣ c.vs.vlenb) (i : Nat) (a b : BitVec (8 * n))
    (i1 : c.vs.vstart ≤ i) (i2 : i < c.vs.vl) (ha : IsElem c.vs.vlenb n c.regs vs2 i a) (hb : SrcIs c.vs c.regs i src1 b) :
    mbit (setMask c vd vs2 src1 (maskOf c.regs vm) vm (borrowOut n)).regs vd i = true
      ↔ a.toNat < b.toNat + (if vm = false ∧ mbit c.regs 0 i = true then 1 else 0) := by
  rw [(setMask_bits c vd vs2 src1 vm (borrowOut n) hx hv hn hn).1 i a b i1 i2 ha hb]
  unfold borrowOut
  split
  · rw [VecFixed.C47_vmsbc64]
    cases vm <;> simp
  · rw [VecFixed.C47_vmsbc (by omega)]
    cases vm <;> simp

example : let c : VCore := { vs := { VState.init 16 0#32 with vl := 10, sew := 1, lmul8 := 8 }, regs := fun r i => BitVec.ofNat 8 (100 * r + 30 * i) }
    mbit (setMask (n2 := 1) c 3 1 (Src.vec (n := 1) 2) (maskOf c.regs false) false (carryOut 1)).regs 3 0 = true
    ∧ mbit (compare (n2 := 1) c 3 1 (Src.vec (n := 1) 2) (maskOf c.regs true) (fun a b => a.ult b)).regs 3 0 = true := by decide

end Verif.VecMask
