import Verif.NaNBox.Model
import Verif.NaNBox.Spec
import Verif.Util.Bits
/-
C37: NaN boxing.
-/
namespace Verif.NaNBox
open Verif.Fp Spec

theorem mask_iff {R : Nat} (n : Nat) (r : BitVec R) :
    (BitVec.allOnes R <<< n) &&& r = BitVec.allOnes R <<< n ↔ ∀ i, n ≤ i → i < R → r.getLsbD i = true := by
  constructor
  · intro h i hn hi
    have := congrArg (fun b => b.getLsbD i) h
    simp [hi, hn] at this
    simpa [hi, BitVec.getLsbD_eq_getElem] using this
  · intro h
    apply BitVec.eq_of_getLsbD_eq
    intro i hi
    simp only [BitVec.getLsbD_and, BitVec.getLsbD_shiftLeft, BitVec.getLsbD_allOnes]
    by_cases hn : i < n
    · simp [hn]
    · rw [h i (by omega) hi]; simp

/-- **C37 (operand read).** Reading an operand with the boxing check, from a register of any width wider
than the value, gives the boxed value, or the canonical NaN if the register is not a boxed value. -/
theorem C37_read (W : Nat) (f : Fmt) (h : f.bits < W) (r : BitVec W) : Reads f r (boxedSource W f r) := by
  have hs : r.setWidth W = r := BitVec.setWidth_eq r
  have hlow : Low f r (plainSource f r) := by
    intro i hi
    show (r.setWidth f.bits).getLsbD i = _
    rw [BitVec.getLsbD_setWidth]; simp [hi]
  have e : boxedSource W f r =
      if (BitVec.allOnes W <<< f.bits) &&& r ≠ BitVec.allOnes W <<< f.bits then canonicalNaN f else plainSource f r := by
    show (if W ≤ f.bits then _ else if (BitVec.allOnes W <<< f.bits) &&& r.setWidth W ≠ _ then _ else _) = _
    rw [if_neg (by omega), hs]
  rw [e]
  constructor
  · intro hb
    rw [if_neg (fun hc => hc ((mask_iff f.bits r).2 hb))]
    exact hlow
  · intro hb
    rw [if_pos (fun hc => hb ((mask_iff f.bits r).1 hc))]

/-- The specification leaves no choice. -/
theorem C37_spec_unique (f : Fmt) {W : Nat} (r : BitVec W) (u v : BitVec f.bits) (hu : Reads f r u)
    (hv : Reads f r v) : u = v := by
  by_cases hb : Boxed f r
  · apply BitVec.eq_of_getLsbD_eq
    intro i hi
    rw [hu.1 hb i hi, hv.1 hb i hi]
  · rw [hu.2 hb, hv.2 hb]

theorem shift_writes (W : Nat) (f : Fmt) (h : f.bits < W) (v : BitVec f.bits) :
    Writes f (writeShift W f v) v := by
  have e : writeShift W f v = (BitVec.allOnes W <<< f.bits) ||| v.setWidth W := by
    show (if W > f.bits then _ else _) = _
    rw [if_pos h]
  rw [e]
  constructor
  · intro i hn hi
    simp only [BitVec.getLsbD_or, BitVec.getLsbD_shiftLeft, BitVec.getLsbD_allOnes]
    have : ¬ i < f.bits := by omega
    simp [this, hi]
    left; omega
  · intro i hi
    simp only [BitVec.getLsbD_or, BitVec.getLsbD_shiftLeft, BitVec.getLsbD_allOnes, BitVec.getLsbD_setWidth]
    have : i < W := by omega
    simp [this, hi]

/-- **C37 (result write, partial).** The write-back shared by the arithmetic helpers boxes its result when
the register is exactly twice as wide as the value: single precision in 64-bit registers. -/
theorem C37_write_partial (W : Nat) (f : Fmt) (hp : 0 < f.bits) (h : W = 2 * f.bits) (v : BitVec f.bits) :
    Writes f (writeGeneric W f v) v := by
  have e : writeGeneric W f v = writeShift W f v := by
    show (if W > f.bits then _ else _) = (if W > f.bits then _ else _)
    rw [if_pos (by omega), if_pos (by omega), show W - f.bits = f.bits by omega]
  rw [e]
  exact shift_writes W f (by omega) v

/-- **C37 (result write of loads, moves to half and conversions involving half).** Correct at every width. -/
theorem C37_write_shift (W : Nat) (f : Fmt) (h : f.bits < W) (v : BitVec f.bits) :
    Writes f (writeShift W f v) v := shift_writes W f h v

/-- **C37 (round trip).** A properly written value is read back unchanged. -/
theorem C37_roundtrip (W : Nat) (f : Fmt) (h : f.bits < W) (r : BitVec W) (v : BitVec f.bits)
    (hw : Writes f r v) : boxedSource W f r = v := by
  have := (C37_read W f h r).1 hw.1
  apply BitVec.eq_of_getLsbD_eq
  intro i hi
  rw [this i hi, hw.2 i hi]

/-- The instructions whose operand is read with the boxing check. -/
def checks (x : XLen) : Reader → Bool
  | .arith _ | .sqrt _ | .minmax _ | .sgnj _ => true
  | .fma _ | .fclass _ | .toInt _ => false
  | .cmp f => f == half || x == .rv64
  | .toFp src dst => src == half || dst == half

/-- **C37 (operands, partial).** Every instruction reads its operand as the ISA says, except the fused
multiply-adds, fclass, conversions to integers, fcvt.d.s and, on RV32, the single-precision compares. -/
theorem C37_operand_partial (x : XLen) (i : Reader) (hf : i.fmt = single ∨ i.fmt = half) (h : checks x i = true)
    (r : BitVec 64) : ∃ v, operand x i r = ⟨i.fmt, v⟩ ∧ Reads i.fmt r v := by
  have hw : i.fmt.bits < 64 := by rcases hf with e | e <;> rw [e] <;> decide
  have rd := C37_read 64 i.fmt hw r
  refine ⟨boxedSource 64 i.fmt r, ?_, rd⟩
  cases i with
  | arith f => rfl
  | sqrt f => rfl
  | minmax f => rfl
  | sgnj f => rfl
  | fma f => cases h
  | fclass f => cases h
  | toInt f => cases h
  | cmp f =>
    show (if f = half then _ else _) = _
    by_cases hh : f = half
    · rw [if_pos hh]; rfl
    · rw [if_neg hh]
      have hx : x = .rv64 := by
        unfold checks at h
        simpa [hh] using h
      subst hx; rfl
  | toFp src dst =>
    show (if src = half ∨ dst = half then _ else _) = _
    rw [if_pos (by unfold checks at h; simpa using h)]
    rfl

/-- **C37 violated (operands).** For the instructions left out above, every register that is not boxed and
whose low bits are not the canonical NaN is misread: the low bits are used. -/
theorem C37_operand_violated (x : XLen) (i : Reader) (hf : i.fmt = single ∨ i.fmt = half)
    (h : checks x i = false) (r : BitVec 64) (hb : ¬ Boxed i.fmt r)
    (hn : r.setWidth i.fmt.bits ≠ canonicalNaN i.fmt) :
    ∃ v, operand x i r = ⟨i.fmt, v⟩ ∧ Low i.fmt r v ∧ ¬ Reads i.fmt r v := by
  have hlow : Low i.fmt r (plainSource i.fmt r) := by
    intro k hk
    show (r.setWidth i.fmt.bits).getLsbD k = _
    rw [BitVec.getLsbD_setWidth]; simp [hk]
  refine ⟨plainSource i.fmt r, ?_, hlow, fun hr => hn (hr.2 hb)⟩
  cases i with
  | arith f => cases h
  | sqrt f => cases h
  | minmax f => cases h
  | sgnj f => cases h
  | fma f => rfl
  | fclass f => rfl
  | toInt f => rfl
  | cmp f =>
    show (if f = half then _ else _) = _
    have h' : f ≠ half ∧ x ≠ .rv64 := by unfold checks at h; simpa using h
    rw [if_neg h'.1]
    have hs : f = single := by
      rcases hf with e | e
      · exact e
      · exact absurd e h'.1
    subst hs
    cases x
    · show (⟨single, boxedSource 32 single r⟩ : Σ f : Fmt, BitVec f.bits) = _
      rfl
    · exact absurd rfl h'.2
  | toFp src dst =>
    show (if src = half ∨ dst = half then _ else _) = _
    rw [if_neg (by unfold checks at h; simpa using h)]
    rfl

/-- fclass.s of a register that holds a double: +1.0 stored as a double is misread as +0.0. -/
example : ¬ Boxed single (0x3ff0000000000000#64) ∧
    operand .rv64 (.fclass single) 0x3ff0000000000000#64 = ⟨single, 0#32⟩ :=
  ⟨fun h => absurd (h 62 (by decide) (by decide)) (by decide), rfl⟩

/-- Which results are written correctly. -/
def boxes : Writer → Bool
  | .arith f | .sqrt f | .minmax f | .sgnj f | .fma f => f == single
  | .fromInt _ | .move _ | .load _ => true
  | .fromFp _ _ => true

/-- **C37 (results, partial).** Every single-precision result, and every half-precision result of loads,
moves and conversions, is boxed. -/
theorem C37_result_partial (w : Writer) (hf : w.fmt = single ∨ w.fmt = half) (h : boxes w = true)
    (v : BitVec w.fmt.bits) : Writes w.fmt (result w w.fmt v) v := by
  have g : ∀ (f : Fmt), f = single → ∀ v, Writes f (writeGeneric 64 f v) v := by
    intro f e; subst e; exact fun v => C37_write_partial 64 single (by decide) (by decide) v
  have s : ∀ (f : Fmt), f = single ∨ f = half → ∀ v, Writes f (writeShift 64 f v) v := by
    intro f e v
    exact shift_writes 64 f (by rcases e with e | e <;> rw [e] <;> decide) v
  cases w with
  | arith f => exact g f (by simpa [boxes] using h) v
  | sqrt f => exact g f (by simpa [boxes] using h) v
  | minmax f => exact g f (by simpa [boxes] using h) v
  | sgnj f => exact g f (by simpa [boxes] using h) v
  | fma f => exact g f (by simpa [boxes] using h) v
  | fromInt f =>
    show Writes f (if f = half then writeShift 64 f v else writeGeneric 64 f v) v
    by_cases hh : f = half
    · rw [if_pos hh]; exact s f hf v
    · rw [if_neg hh]; exact g f (hf.resolve_right hh) v
  | move f =>
    show Writes f (if f = half then writeShift 64 f v else writeGeneric 64 f v) v
    by_cases hh : f = half
    · rw [if_pos hh]; exact s f hf v
    · rw [if_neg hh]; exact g f (hf.resolve_right hh) v
  | load f => exact s f hf v
  | fromFp src dst =>
    show Writes dst (if src = half ∨ dst = half then writeShift 64 dst v else writeGeneric 64 dst v) v
    by_cases hh : src = half ∨ dst = half
    · rw [if_pos hh]; exact s dst hf v
    · rw [if_neg hh]; exact g dst (hf.resolve_right (fun e => hh (.inr e))) v

theorem half_bit20 (v : BitVec half.bits) : (writeGeneric 64 half v).getLsbD 20 = false := by
  show (if 64 > half.bits then (BitVec.allOnes 64 <<< (64 - half.bits)) ||| v.setWidth 64 else _).getLsbD 20 = false
  rw [if_pos (by decide)]
  simp only [BitVec.getLsbD_or, BitVec.getLsbD_shiftLeft, BitVec.getLsbD_setWidth]
  rw [BitVec.getLsbD_of_ge v 20 (by decide)]
  decide

/-- **C37 violated (half-precision results).** Whatever the result of a half-precision arithmetic
instruction, the register written is not a boxed value, so the next half-precision instruction that checks
reads the canonical NaN. -/
theorem C37_half_result_violated (w : Writer) (h : boxes w = false) (hf : w.fmt = half) (v : BitVec w.fmt.bits) :
    ¬ Boxed w.fmt (result w w.fmt v) ∧ boxedSource 64 w.fmt (result w w.fmt v) = canonicalNaN w.fmt := by
  have key : ∀ f : Fmt, f = half → ∀ v : BitVec f.bits, ¬ Boxed f (writeGeneric 64 f v) ∧
      boxedSource 64 f (writeGeneric 64 f v) = canonicalNaN f := by
    intro f e; subst e; intro v
    have nb : ¬ Boxed half (writeGeneric 64 half v) := fun hb =>
      Bool.noConfusion ((hb 20 (by decide) (by decide)).symm.trans (half_bit20 v))
    exact ⟨nb, (C37_read 64 half (by decide) _).2 nb⟩
  cases w with
  | arith f => exact key f hf v
  | sqrt f => exact key f hf v
  | minmax f => exact key f hf v
  | sgnj f => exact key f hf v
  | fma f => exact key f hf v
  | fromInt f => cases h
  | move f => cases h
  | load f => cases h
  | fromFp src dst => cases h

/-- fadd.h of 1.0 and 0.0 (0x3c00) leaves 0xffff000000003c00 and fmv.x.h-style checked reads see NaN. -/
example : result (.arith half) half (0x3c00#16 : BitVec 16) = 0xffff000000003c00#64 := by decide

end Verif.NaNBox
