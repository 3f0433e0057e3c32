import Verif.XStatus.Spec
import Verif.Csr.Spec
import Verif.Util.Bits
namespace Verif.XStatus
open Verif.Csr (Op)
open MStatus

/-! ### The reachable-state invariant

Only the fields of the manual and SXL/UXL (bits 32 to 35) are ever nonzero. -/

/-- Every set bit lies in a writable field or in SXL/UXL, and no update is pending. -/
def Inv (s : MStatus) : Prop :=
  (∀ i, i < 64 → s.value.getLsbD i = true →
    Spec.inFields i Spec.fields = true ∨ (32 ≤ i ∧ i < 36)) ∧
  s.buffer = 0 ∧ s.bufferMask = 0

theorem mWriteMask_bit : ∀ i, i < 64 → mWriteMask.getLsbD i = Spec.inFields i Spec.fields :=
  allLt (by decide)

theorem sWriteMask_bit : ∀ i, i < 64 → sWriteMask.getLsbD i = Spec.inFields i Spec.sFields :=
  allLt (by decide)

theorem fields_lt : ∀ i, i < 64 → Spec.inFields i Spec.fields = true → i < 23 :=
  allLt (by decide)

theorem stretch_bit (v : BitVec 32) (i : Nat) (hi : i < 64) :
    (stretch v).getLsbD i =
      if i < 26 then v.getLsbD i else if 62 ≤ i then v.getLsbD (i - 32) else false := by
  unfold stretch; bits_at
  generalize v.getLsbD i = a
  generalize v.getLsbD (i - 32) = b
  revert a b
  revert i
  exact allLt (by decide)

theorem compress_bit (v : BitVec 64) (i : Nat) (hi : i < 32) :
    (compress v).getLsbD i = if i < 30 then v.getLsbD i else v.getLsbD (i + 32) := by
  unfold compress; bits_at
  rw [Nat.add_comm 32 i]
  generalize v.getLsbD i = a
  generalize v.getLsbD (i + 32) = b
  revert a b
  revert i
  exact allLt (by decide)

theorem setMask_bit : ∀ i, i < 64 → setMaskFrom32.getLsbD i = !(decide (32 ≤ i ∧ i < 36)) :=
  allLt (by decide)

theorem writeMask32_bit : ∀ i, i < 32 → writeMask32.getLsbD i = Spec.inFields i Spec.fields :=
  allLt (by decide)

theorem set32_bit (s : MStatus) (v : BitVec 32) (i : Nat) (hi : i < 64) :
    (s.set32 v).value.getLsbD i =
      if i < 26 then v.getLsbD i else if 62 ≤ i then v.getLsbD (i - 32)
      else if 32 ≤ i ∧ i < 36 then s.value.getLsbD i else false := by
  simp only [set32, set64]
  bits_at
  rw [stretch_bit v i hi, setMask_bit i hi]
  by_cases h1 : i < 26
  · have : ¬ (32 ≤ i ∧ i < 36) := by omega
    simp [h1, this]
  · by_cases h2 : 62 ≤ i
    · have : ¬ (32 ≤ i ∧ i < 36) := by omega
      simp [h1, h2, this]
    · by_cases h3 : 32 ≤ i ∧ i < 36 <;> simp [h1, h2, h3, hi]

theorem getLsbD_lt {n : Nat} {v : BitVec n} {i : Nat} (h : v.getLsbD i = true) : i < n := by
  rcases Nat.lt_or_ge i n with h' | h'
  · exact h'
  · rw [BitVec.getLsbD_of_ge _ _ h'] at h; cases h

theorem Inv.zero {s : MStatus} (h : Inv s) {i : Nat} (h1 : Spec.inFields i Spec.fields = false)
    (h2 : ¬ (32 ≤ i ∧ i < 36)) : s.value.getLsbD i = false := by
  cases hb : s.value.getLsbD i with
  | false => rfl
  | true =>
    rcases h.1 i (getLsbD_lt hb) hb with h' | h'
    · rw [h1] at h'; cases h'
    · exact absurd h' h2

/-- Effect of `Set(uint32_t)` when the written word only differs from the current one in
writable fields. -/
theorem set32_inv (s : MStatus) (h : Inv s) (v : BitVec 32)
    (hv : ∀ i, i < 32 → Spec.inFields i Spec.fields = false → v.getLsbD i = false)
    (i : Nat) (hi : i < 64) :
    (s.set32 v).value.getLsbD i =
      if Spec.inFields i Spec.fields then v.getLsbD i else s.value.getLsbD i := by
  rw [set32_bit s v i hi]
  have hz : ∀ j, 32 ≤ j → v.getLsbD j = false := fun j hj => BitVec.getLsbD_of_ge _ _ hj
  cases hf : Spec.inFields i Spec.fields with
  | true => have := fields_lt i hi hf; simp [show i < 26 by omega]
  | false =>
    by_cases h3 : 32 ≤ i ∧ i < 36
    · simp [h3, show ¬ i < 26 by omega, show ¬ 62 ≤ i by omega]
    · rw [h.zero hf h3]
      by_cases h1 : i < 26
      · simp [h1, hv i (by omega) hf]
      · by_cases h2 : 62 ≤ i
        · have : Spec.inFields (i - 32) Spec.fields = false := by
            cases hc : Spec.inFields (i - 32) Spec.fields with
            | false => rfl
            | true => have := fields_lt (i - 32) (by omega) hc; omega
          simp [h1, h2, hv (i - 32) (by omega) this]
        · simp [h1, h2, h3]

theorem write32_inv (s : MStatus) (h : Inv s) (v : BitVec 32) (i : Nat) (hi : i < 64) :
    (s.write32 v).value.getLsbD i =
      if Spec.inFields i Spec.fields then v.getLsbD i else s.value.getLsbD i := by
  rw [write32, set32_inv s h _ _ i hi]
  · split
    · next hf =>
      have := fields_lt i hi hf
      rw [BitVec.getLsbD_and, writeMask32_bit i (by omega), hf]; simp
    · rfl
  · intro j hj hf
    rw [BitVec.getLsbD_and, writeMask32_bit j hj, hf]; simp

/-- Bits of the 32-bit view in writable fields, and zeros elsewhere. -/
theorem get32_inv (s : MStatus) (h : Inv s) (i : Nat) (hi : i < 32) :
    s.get32.getLsbD i = (Spec.inFields i Spec.fields && s.value.getLsbD i) := by
  rw [get32, compress_bit _ i hi]
  cases hf : Spec.inFields i Spec.fields with
  | true => have := fields_lt i (by omega) hf; simp [show i < 30 by omega]
  | false =>
    split
    · rw [h.zero hf (by omega)]; rfl
    · have : Spec.inFields (i + 32) Spec.fields = false := by
        cases hc : Spec.inFields (i + 32) Spec.fields with
        | false => rfl
        | true => have := fields_lt (i + 32) (by omega) hc; omega
      rw [h.zero this (by omega)]; rfl

theorem setWidth_bit_lt (v : BitVec 64) (i : Nat) (hi : i < 32) :
    (v.setWidth 32).getLsbD i = v.getLsbD i := by simp [hi]

theorem csrOp_inv (s : MStatus) (h : Inv s) (op : Op) (i : Nat) (hi : i < 64) :
    (s.csrOp op).value.getLsbD i =
      Csr.Spec.stepBit (Spec.inFields i Spec.fields) op i (s.value.getLsbD i) := by
  have h64 : ∀ v : BitVec 64, (s.write64 v).value.getLsbD i =
      if Spec.inFields i Spec.fields then v.getLsbD i else s.value.getLsbD i := by
    intro v
    simp only [write64, set64]; bits_at
    rw [mWriteMask_bit i hi]
    cases Spec.inFields i Spec.fields <;> simp [hi]
  cases op with
  | write32 v => simp only [csrOp, write32_inv s h v i hi, Csr.Spec.stepBit, Csr.Spec.bit]
  | write64 v => simp only [csrOp, h64, Csr.Spec.stepBit, Csr.Spec.bit]
  | setBits32 v =>
      simp only [csrOp, setBits32, Csr.Spec.stepBit, Csr.Spec.bit]
      rw [set32_inv s h]
      · split
        · next hf =>
          have := fields_lt i hi hf
          rw [BitVec.getLsbD_or, BitVec.getLsbD_and, get32_inv s h i (by omega),
            writeMask32_bit i (by omega), hf]; simp
        · rfl
      · intro j hj hf
        rw [BitVec.getLsbD_or, BitVec.getLsbD_and, get32_inv s h j hj, writeMask32_bit j hj, hf]
        simp
      · exact hi
  | setBits64 v =>
      simp only [csrOp, setBits64, h64, Csr.Spec.stepBit, Csr.Spec.bit, BitVec.getLsbD_or]
  | clearBits32 v =>
      simp only [csrOp, clearBits32, Csr.Spec.stepBit, Csr.Spec.bit]
      rw [set32_inv s h]
      · split
        · next hf =>
          have := fields_lt i hi hf
          rw [BitVec.getLsbD_and, BitVec.getLsbD_not, BitVec.getLsbD_and,
            get32_inv s h i (by omega), writeMask32_bit i (by omega), hf]
          simp [show i < 32 by omega]
        · rfl
      · intro j hj hf
        rw [BitVec.getLsbD_and, get32_inv s h j hj, hf]
        simp
      · exact hi
  | clearBits64 v =>
      simp only [csrOp, clearBits64, h64, Csr.Spec.stepBit, Csr.Spec.bit, BitVec.getLsbD_and,
        BitVec.getLsbD_not, hi, decide_true, Bool.true_and]

theorem inv_of_bits {s t : MStatus} (h : Inv s) (hb : t.buffer = 0) (hm : t.bufferMask = 0)
    (ht : ∀ i, i < 64 → Spec.inFields i Spec.fields = false →
      t.value.getLsbD i = s.value.getLsbD i) : Inv t := by
  refine ⟨fun i hi hbit => ?_, hb, hm⟩
  cases hf : Spec.inFields i Spec.fields with
  | true => exact Or.inl rfl
  | false =>
    right
    rw [ht i hi hf] at hbit
    rcases h.1 i hi hbit with h' | h'
    · rw [hf] at h'; cases h'
    · exact h'

theorem csrOp_keeps (s : MStatus) (h : Inv s) (op : Op) : Inv (s.csrOp op) := by
  refine inv_of_bits h ?_ ?_ fun i hi hf => ?_
  · rw [← h.2.1]; cases op <;> rfl
  · rw [← h.2.2]; cases op <;> rfl
  · rw [csrOp_inv s h op i hi, Csr.Spec.stepBit, hf]; rfl

/-! ### Batched updates -/

/-- Sequential update of one field of a value. -/
def applyF (v : BitVec 64) (f : Field) (x : BitVec 32) : BitVec 64 :=
  (v &&& ~~~(f.mask <<< f.shift)) ||| ((x.setWidth 64 &&& f.mask) <<< f.shift)

/-- The value `Submit` is going to write. -/
def pendingValue (s : MStatus) : BitVec 64 := (s.value &&& ~~~s.bufferMask) ||| s.buffer

theorem setter_pending (s : MStatus) (f : Field) (x : BitVec 32) :
    pendingValue (s.setter f x) = applyF (pendingValue s) f x := by
  simp only [pendingValue, setter, applyF]
  generalize f.mask <<< f.shift = m
  generalize (x.setWidth 64 &&& f.mask) <<< f.shift = y
  refine BitVec.eq_of_getLsbD_eq (fun i hi => ?_)
  simp only [BitVec.getLsbD_or, BitVec.getLsbD_and, BitVec.getLsbD_not, hi, decide_true,
    Bool.true_and]
  cases s.value.getLsbD i <;> cases s.bufferMask.getLsbD i <;> cases m.getLsbD i <;>
    cases s.buffer.getLsbD i <;> cases y.getLsbD i <;> rfl

theorem mem_fields (f : Field) : f ∈ Spec.fields := by cases f <;> decide

theorem applyF_bit (v : BitVec 64) (f : Field) (x : BitVec 32) (i : Nat) (hi : i < 64) :
    (applyF v f x).getLsbD i =
      if Spec.inField i f then x.getLsbD (i - (Spec.pos f).1) else v.getLsbD i := by
  unfold applyF; bits_at
  have hs : f.shift = (Spec.pos f).1 := by cases f <;> rfl
  rw [hs]
  generalize x.getLsbD (i - (Spec.pos f).1) = a
  generalize v.getLsbD i = b
  revert a b
  revert i
  cases f <;> exact allLt (by decide)

theorem field_eq_of_bits {n m : Nat} {v : BitVec n} {w : BitVec m} {f : Field}
    (h : ∀ i, i < 64 → Spec.inField i f = true → v.getLsbD i = w.getLsbD i) :
    Spec.field v f = Spec.field w f := by
  unfold Spec.field
  refine BitVec.eq_of_getLsbD_eq (fun j hj => ?_)
  rw [BitVec.getLsbD_extractLsb', BitVec.getLsbD_extractLsb']
  have hle : (Spec.pos f).1 + (Spec.pos f).2 < 64 := by cases f <;> decide
  rw [h _ (by omega) (by simp [Spec.inField]; omega)]

theorem fields_disjoint (f g : Field) (h : f ≠ g) (i : Nat) (hi : i < 64)
    (h1 : Spec.inField i f = true) : Spec.inField i g = false := by
  revert h h1
  revert i
  revert f g
  have : ∀ i : Fin 64, ∀ f ∈ Spec.fields, ∀ g ∈ Spec.fields, f ≠ g →
      Spec.inField i.val f = true → Spec.inField i.val g = false := by decide
  intro f g i hi h h1
  exact this ⟨i, hi⟩ f (mem_fields f) g (mem_fields g) h h1

theorem applyF_same (v : BitVec 64) (f : Field) (x : BitVec 32) :
    Spec.field (applyF v f x) f = x.setWidth _ := by
  unfold Spec.field
  refine BitVec.eq_of_getLsbD_eq (fun j hj => ?_)
  have hle : (Spec.pos f).1 + (Spec.pos f).2 < 64 := by cases f <;> decide
  rw [BitVec.getLsbD_extractLsb', applyF_bit _ _ _ _ (by omega), BitVec.getLsbD_setWidth]
  have : Spec.inField ((Spec.pos f).1 + j) f = true := by simp [Spec.inField]; omega
  simp [this]

theorem applyF_other (v : BitVec 64) (f g : Field) (x : BitVec 32) (h : f ≠ g) :
    Spec.field (applyF v g x) f = Spec.field v f := by
  apply field_eq_of_bits
  intro i hi hf
  rw [applyF_bit _ _ _ _ hi, fields_disjoint f g h i hi hf]; rfl

theorem applyF_outside (v : BitVec 64) (g : Field) (x : BitVec 32) (i : Nat) (hi : i < 64)
    (h : Spec.inFields i Spec.fields = false) : (applyF v g x).getLsbD i = v.getLsbD i := by
  rw [applyF_bit _ _ _ _ hi]
  have : Spec.inField i g = false := by
    have := List.any_eq_false.1 h g (mem_fields g)
    simpa using this
  rw [this]; rfl

theorem setFields_pending (us : List (Field × BitVec 32)) (s : MStatus) :
    let t := us.foldl (fun s u => s.setField u.1 u.2) s
    t.value = s.value ∧ t.hasS = s.hasS ∧
    (∀ f, Spec.field (pendingValue t) f =
      match Spec.lastValue s.hasS us f with
      | some x => x.setWidth _
      | none => Spec.field (pendingValue s) f) ∧
    (∀ i, i < 64 → Spec.inFields i Spec.fields = false →
      (pendingValue t).getLsbD i = (pendingValue s).getLsbD i) := by
  induction us generalizing s with
  | nil => exact ⟨rfl, rfl, fun _ => rfl, fun _ _ _ => rfl⟩
  | cons u us ih =>
    obtain ⟨g, x⟩ := u
    obtain ⟨h1, h2, h3, h4⟩ := ih (s.setField g x)
    simp only [List.foldl_cons]
    have hS : (s.setField g x).hasS = s.hasS := by unfold setField; split <;> rfl
    have hV : (s.setField g x).value = s.value := by unfold setField; split <;> rfl
    refine ⟨h1.trans hV, h2.trans hS, fun f => ?_, fun i hi hf => ?_⟩
    · rw [h3 f, hS, Spec.lastValue]
      cases Spec.lastValue s.hasS us f with
      | some w => rfl
      | none =>
        simp only
        by_cases hc : g = Field.mpp ∧ x = 1 ∧ s.hasS = false
        · rw [if_neg (fun h => h.2 hc)]
          simp only [setField, if_pos hc]
        · simp only [setField, if_neg hc, setter_pending]
          by_cases hg : g = f
          · subst hg; rw [if_pos ⟨rfl, hc⟩, applyF_same]
          · rw [if_neg (fun h => hg h.1), applyF_other _ _ _ _ (fun h => hg h.symm)]
    · rw [h4 i hi hf]
      unfold setField
      split
      · rfl
      · rw [setter_pending, applyF_outside _ _ _ i hi hf]

theorem submit_value (s : MStatus) : s.submit.value =
    (s.write32 ((pendingValue s).setWidth 32)).value := rfl

theorem write32_value (s t : MStatus) (h : s.value = t.value) (v : BitVec 32) :
    (s.write32 v).value = (t.write32 v).value := by
  simp [write32, set32, set64, h]

theorem update_bit (s : MStatus) (h : Inv s) (us : List (Field × BitVec 32)) (i : Nat)
    (hi : i < 64) :
    (s.update us).value.getLsbD i =
      if Spec.inFields i Spec.fields then
        (pendingValue (us.foldl (fun s u => s.setField u.1 u.2) s)).getLsbD i
      else s.value.getLsbD i := by
  have hp := setFields_pending us s
  unfold MStatus.update
  rw [submit_value, write32_value _ s hp.1, write32_inv s h _ i hi]
  split
  · next hf => rw [setWidth_bit_lt _ _ (by have := fields_lt i hi hf; omega)]
  · rfl

theorem update_keeps (s : MStatus) (h : Inv s) (us : List (Field × BitVec 32)) :
    Inv (s.update us) := by
  refine inv_of_bits h rfl rfl fun i hi hf => ?_
  rw [update_bit s h us i hi, hf]; rfl

/-! ### Views -/

theorem viewOp_bit (wm : BitVec 64) (hwm : ∀ i, i < 64 → wm.getLsbD i = true →
      Spec.inFields i Spec.fields = true) (m : MStatus) (op : Op) (i : Nat) (hi : i < 64) :
    (viewOp wm m op).value.getLsbD i =
      Csr.Spec.stepBit (wm.getLsbD i) op i (m.value.getLsbD i) := by
  have h64 : ∀ v : BitVec 64, (viewSet64 wm m v).value.getLsbD i =
      if wm.getLsbD i then v.getLsbD i else m.value.getLsbD i := by
    intro v; simp only [viewSet64, set64]; bits_at
    cases wm.getLsbD i <;> simp [hi]
  have hlt : wm.getLsbD i = true → i < 23 := fun h => fields_lt i hi (hwm i hi h)
  have h32 : ∀ v : BitVec 32, (viewSet32 wm m v).value.getLsbD i =
      if wm.getLsbD i then v.getLsbD i else m.value.getLsbD i := by
    intro v; rw [viewSet32, h64]
    split
    · next h => have := hlt h; rw [stretch_bit _ _ hi, if_pos (by omega)]
    · rfl
  have hc : wm.getLsbD i = true → ∀ v : BitVec 64, (compress v).getLsbD i = v.getLsbD i := by
    intro h v; have := hlt h; rw [compress_bit _ _ (by omega), if_pos (by omega)]
  cases op with
  | write32 v =>
      simp only [viewOp, viewWrite32, viewSetBits32, viewClearBits32, h32, Csr.Spec.stepBit, Csr.Spec.bit]
      split
      · next h => rw [BitVec.getLsbD_and, hc h, h]; simp
      · rfl
  | write64 v =>
      simp only [viewOp, viewWrite64, viewSetBits64, viewClearBits64, h64, Csr.Spec.stepBit, Csr.Spec.bit]
      split
      · next h => bits_at; rw [h]; simp
      · rfl
  | setBits32 v =>
      simp only [viewOp, viewWrite32, viewSetBits32, viewClearBits32, h32, Csr.Spec.stepBit, Csr.Spec.bit]
      split
      · next h => rw [BitVec.getLsbD_or, BitVec.getLsbD_and, hc h, hc h, h]; simp
      · rfl
  | setBits64 v =>
      simp only [viewOp, viewWrite64, viewSetBits64, viewClearBits64, h64, Csr.Spec.stepBit, Csr.Spec.bit]
      split
      · next h => bits_at; rw [h]; simp
      · rfl
  | clearBits32 v =>
      simp only [viewOp, viewWrite32, viewSetBits32, viewClearBits32, h32, Csr.Spec.stepBit, Csr.Spec.bit]
      split
      · next h =>
        have := hlt h
        rw [BitVec.getLsbD_and, BitVec.getLsbD_not, BitVec.getLsbD_and, hc h, hc h, h]
        simp [show i < 32 by omega]
      · rfl
  | clearBits64 v =>
      simp only [viewOp, viewWrite64, viewSetBits64, viewClearBits64, h64, Csr.Spec.stepBit, Csr.Spec.bit]
      split
      · next h => bits_at; rw [h]; simp [hi]
      · rfl

theorem viewOp_keeps (wm : BitVec 64) (hwm : ∀ i, i < 64 → wm.getLsbD i = true →
      Spec.inFields i Spec.fields = true) (m : MStatus) (h : Inv m) (op : Op) :
    Inv (viewOp wm m op) := by
  refine inv_of_bits h ?_ ?_ fun i hi hf => ?_
  · rw [← h.2.1]; cases op <;> rfl
  · rw [← h.2.2]; cases op <;> rfl
  · rw [viewOp_bit wm hwm m op i hi, Csr.Spec.stepBit]
    have : wm.getLsbD i = false := by
      cases hw : wm.getLsbD i with
      | false => rfl
      | true => rw [hwm i hi hw] at hf; cases hf
    rw [this]; rfl

theorem sWriteMask_sub : ∀ i, i < 64 → sWriteMask.getLsbD i = true →
    Spec.inFields i Spec.fields = true := allLt (by decide)
theorem uWriteMask_sub : ∀ i, i < 64 → uWriteMask.getLsbD i = true →
    Spec.inFields i Spec.fields = true := allLt (by decide)

theorem stepE_keeps (m : MStatus) (h : Inv m) (e : Event) : Inv (stepE m e) := by
  cases e with
  | csr op => exact csrOp_keeps m h op
  | sstatus op => exact viewOp_keeps _ sWriteMask_sub m h op
  | ustatus op => exact viewOp_keeps _ uWriteMask_sub m h op
  | update us => exact update_keeps m h us

theorem inv_init (hasS : Bool) : Inv (init hasS) := by
  refine ⟨?_, by cases hasS <;> rfl, by cases hasS <;> rfl⟩
  cases hasS <;> exact allLt (by decide)

/-- Every reachable state satisfies the invariant. -/
theorem inv_run (hasS : Bool) (es : List Event) : Inv (run (init hasS) es) := by
  have : ∀ m, Inv m → Inv (run m es) := by
    intro m hm
    induction es generalizing m with
    | nil => exact hm
    | cons e es ih => exact ih _ (stepE_keeps m hm e)
  exact this _ (inv_init hasS)

/-! ### C05 -/

/-- **C05, reads.** In every state the 32-bit and the 64-bit view of mstatus show the same value
in every field, which is the stored one, and the same SD bit. -/
theorem C05_views_agree (s : MStatus) (f : Field) :
    Spec.field s.as32 f = Spec.field s.as64 f ∧ Spec.field s.as64 f = Spec.field s.value f ∧
    s.as32.getLsbD 31 = s.as64.getLsbD 63 := by
  have hr : ∀ i, i < 32 → Spec.inFields i Spec.fields = true →
      readMask32.getLsbD i = true ∧ mReadMask.getLsbD i = true ∧ i < 23 := allLt (by decide)
  have hin : ∀ i, i < 64 → Spec.inField i f = true → Spec.inFields i Spec.fields = true :=
    fun i _ h => List.any_eq_true.2 ⟨f, mem_fields f, h⟩
  refine ⟨field_eq_of_bits fun i hi hf => ?_, field_eq_of_bits fun i hi hf => ?_, ?_⟩
  · have h23 := fields_lt i hi (hin i hi hf)
    obtain ⟨h1, h2, _⟩ := hr i (by omega) (hin i hi hf)
    rw [as32, as64, BitVec.getLsbD_and, BitVec.getLsbD_and, h1, h2, get32,
      compress_bit _ _ (by omega), if_pos (by omega)]
  · have h23 := fields_lt i hi (hin i hi hf)
    obtain ⟨h1, h2, _⟩ := hr i (by omega) (hin i hi hf)
    rw [as64, BitVec.getLsbD_and, h2]; simp
  · rw [as32, as64, BitVec.getLsbD_and, BitVec.getLsbD_and, get32, compress_bit _ _ (by omega)]
    have h1 : readMask32.getLsbD 31 = true := by decide
    have h2 : mReadMask.getLsbD 63 = true := by decide
    rw [h1, h2, if_neg (by omega)]

/-- **C05, getters.** The `<field>()` accessors return the field of the stored value. -/
theorem C05_getters (s : MStatus) (f : Field) :
    s.getter f = (Spec.field s.value f).setWidth 64 := by
  unfold getter Spec.field
  refine BitVec.eq_of_getLsbD_eq (fun i hi => ?_)
  bits_at
  have hs : f.shift = (Spec.pos f).1 := by cases f <;> rfl
  rw [hs]
  have hm : f.mask.getLsbD i = decide (i < (Spec.pos f).2) := by
    revert i; cases f <;> exact allLt (by decide)
  rw [hm]
  simp [hi, Bool.and_comm]

/-- **C05, writes.** In every reachable state, a write, bit-set or bit-clear through either view
acts as on a masked register whose writable bits are exactly the bits of the sixteen fields: no
other bit of the 64-bit register, in particular SXL, UXL and SD, changes. -/
theorem C05_write (hasS : Bool) (es : List Event) (op : Op) (i : Nat) (hi : i < 64) :
    ((run (init hasS) es).csrOp op).value.getLsbD i =
      Csr.Spec.stepBit (Spec.inFields i Spec.fields) op i
        ((run (init hasS) es).value.getLsbD i) :=
  csrOp_inv _ (inv_run hasS es) op i hi

/-- **C05, history.** SXL and UXL keep their reset value (RV64, `2`) in every reachable state,
and all bits outside the fields and SXL/UXL are zero. -/
theorem C05_xl_constant (hasS : Bool) (es : List Event) :
    (run (init hasS) es).value.extractLsb' 32 4 = 0b1010 ∧
    ∀ i, i < 64 → Spec.inFields i Spec.fields = false → ¬ (32 ≤ i ∧ i < 36) →
      (run (init hasS) es).value.getLsbD i = false := by
  refine ⟨?_, fun i _ h1 h2 => (inv_run hasS es).zero h1 h2⟩
  have key : ∀ es m, Inv m → ∀ i, i < 64 → Spec.inFields i Spec.fields = false →
      (run m es).value.getLsbD i = m.value.getLsbD i := by
    intro es
    induction es with
    | nil => intros; rfl
    | cons e es ih =>
      intro m hm i hi hf
      have := ih (stepE m e) (stepE_keeps m hm e) i hi hf
      rw [show run m (e :: es) = run (stepE m e) es from rfl, this]
      cases e with
      | csr op => rw [stepE, csrOp_inv m hm op i hi, Csr.Spec.stepBit, hf]; rfl
      | sstatus op =>
        rw [stepE, sstatusOp, viewOp_bit _ sWriteMask_sub m op i hi, Csr.Spec.stepBit]
        cases hw : sWriteMask.getLsbD i with
        | false => rfl
        | true => rw [sWriteMask_sub i hi hw] at hf; cases hf
      | ustatus op =>
        rw [stepE, ustatusOp, viewOp_bit _ uWriteMask_sub m op i hi, Csr.Spec.stepBit]
        cases hw : uWriteMask.getLsbD i with
        | false => rfl
        | true => rw [uWriteMask_sub i hi hw] at hf; cases hf
      | update us => rw [stepE, update_bit m hm us i hi, hf]; rfl
  have h0 : (init hasS).value.extractLsb' 32 4 = 0b1010 := by cases hasS <;> decide
  rw [← h0]
  refine BitVec.eq_of_getLsbD_eq (fun j hj => ?_)
  rw [BitVec.getLsbD_extractLsb', BitVec.getLsbD_extractLsb']
  have hf : ∀ k, k < 4 → Spec.inFields (32 + k) Spec.fields = false := allLt (by decide)
  rw [key es _ (inv_init hasS) (32 + j) (by omega) (hf j hj)]

/-- Non-vacuity: a reachable history that changes mstatus through both views. -/
example : (run (init true) [.csr (.write32 0xffffffff), .csr (.clearBits64 0x1800)]).value
    = 0xa007fe1bb := by decide

/-! ### C06 -/

/-- **C06.** From every reachable state, after any sequence of `set_<field>` calls followed by
`Submit`, each field reads the last value given to it (truncated to the field), or its previous
value if none was given; bits outside the fields are unchanged; the update buffer is empty. -/
theorem C06_submit (hasS : Bool) (es : List Event) (us : List (Field × BitVec 32)) :
    let s := run (init hasS) es
    let t := s.update us
    (∀ f, Spec.field t.value f =
      match Spec.lastValue s.hasS us f with
      | some x => x.setWidth _
      | none => Spec.field s.value f) ∧
    (∀ i, i < 64 → Spec.inFields i Spec.fields = false →
      t.value.getLsbD i = s.value.getLsbD i) ∧
    t.buffer = 0 ∧ t.bufferMask = 0 := by
  intro s t
  have h : Inv s := inv_run hasS es
  refine ⟨fun f => ?_, fun i hi hf => ?_, rfl, rfl⟩
  · have hp := (setFields_pending us s).2.2.1 f
    have h0 : pendingValue s = s.value := by
      rw [pendingValue, h.2.1, h.2.2]
      refine BitVec.eq_of_getLsbD_eq (fun i hi => ?_)
      bits_at; simp [hi]
    rw [h0] at hp
    rw [← hp]
    apply field_eq_of_bits
    intro i hi hf
    rw [show t = s.update us from rfl, update_bit s h us i hi,
      show Spec.inFields i Spec.fields = true from List.any_eq_true.2 ⟨f, mem_fields f, hf⟩]
    rfl
  · rw [show t = s.update us from rfl, update_bit s h us i hi, hf]; rfl

/-- Non-vacuity: a trap-entry like batch, with a field given twice and an ignored value. -/
example :
    let s := run (init false) [.csr (.write64 0x88)]
    let t := s.update [(.mpp, 3), (.mpp, 1), (.mie, 1), (.mpie, 1), (.mie, 0)]
    Spec.lastValue s.hasS [(.mpp, 3), (.mpp, 1), (.mie, 1), (.mpie, 1), (.mie, 0)] .mie = some 0 ∧
    t.value = 0xa00001880 ∧ s.value = 0xa00000088 := by decide

/-! ### C07 -/

/-- **C07, read, violated.** sstatus shows machine-level fields: here MPP. -/
theorem C07_sstatus_read_violated :
    ∃ es : List Event, ∃ i, i < 64 ∧ sReadMask.getLsbD i = false ∧
      Spec.inField i .mpp = true ∧
      (viewAs64 (run (init true) es)).getLsbD i = true :=
  ⟨[.csr (.write64 0x1800)], 11, by decide, by decide, by decide, by decide⟩

/-- **C07, read, partial.** The supervisor fields are shown correctly in both widths. Missing: the
other fields are not hidden (see `C07_sstatus_read_violated`). -/
theorem C07_sstatus_read_partial (m : MStatus) (f : Field) (_hf : f ∈ Spec.sFields) :
    Spec.field (viewAs64 m) f = Spec.field m.value f ∧
    Spec.field (viewAs32 m) f = Spec.field m.value f := by
  have h := C05_views_agree m f
  refine ⟨h.2.1, ?_⟩
  rw [← h.2.1]
  apply field_eq_of_bits
  intro i hi hf
  have := fields_lt i hi (List.any_eq_true.2 ⟨f, mem_fields f, hf⟩)
  rw [viewAs32, viewAs64, compress_bit _ _ (by omega), if_pos (by omega)]

/-- **C07, writes.** In every state, any operation on sstatus in either width acts on mstatus as on
a masked register whose writable bits are exactly the supervisor fields. -/
theorem C07_sstatus_write (m : MStatus) (op : Op) (i : Nat) (hi : i < 64) :
    (sstatusOp m op).value.getLsbD i =
      Csr.Spec.stepBit (Spec.inFields i Spec.sFields) op i (m.value.getLsbD i) := by
  rw [sstatusOp, viewOp_bit _ sWriteMask_sub m op i hi, sWriteMask_bit i hi]

/-- **C07, machine fields.** A history of supervisor (and user) accesses cannot change any
machine-level field. -/
theorem C07_machine_fields_protected (m : MStatus) (ops : List Op) (i : Nat) (hi : i < 64)
    (h : Spec.inFields i Spec.sFields = false) :
    (ops.foldl sstatusOp m).value.getLsbD i = m.value.getLsbD i := by
  induction ops generalizing m with
  | nil => rfl
  | cons op ops ih =>
    rw [List.foldl_cons, ih, C07_sstatus_write m op i hi, h]; rfl

example : (sstatusOp (init true) (.write64 0xffffffffffffffff)).value = 0xa000de133 := by decide

end Verif.XStatus
