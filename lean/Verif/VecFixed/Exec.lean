import Verif.VecFixed.Props
import Verif.VecLoop.Props
/-
The saturating and fixed-point instructions as wholes: the element loop of VecLoop with the element operations of
VecFixed, accumulating vxsat.
-/
namespace Verif.VecFixed
open Spec Verif.VecState Verif.VecLoop Verif.VecLoop.Spec

/-- An instruction whose operation may call `set_vxsat(true)`
(riscv_vector_opi_instructions.cc:739-936, 1249-1404: RiscVBinaryVectorOp with such operations). -/
def execSat (c : VCore) (nd n2 n1 vd vs2 : Nat) (src1 : Src n1) (mask : Buf)
    (op : BitVec (8 * n2) → BitVec (8 * n1) → BitVec (8 * nd) × Bool) : Option VCore :=
  (binary c nd n2 n1 vd vs2 src1 mask (fun a b s => ((op a b).1, if (op a b).2 then true else s)) c.vs.vxsat).map
    fun r => { r.1 with vs := { r.1.vs with vxsat := r.2 } }

/-- Every active body element receives the operation's value; vxsat is set exactly when it was set or some active
body element saturates; nothing else changes. -/
theorem execSat_spec (c : VCore) (nd n2 n1 vd vs2 : Nat) (src1 : Src n1) (vm : Bool)
    (op : BitVec (8 * n2) → BitVec (8 * n1) → BitVec (8 * nd) × Bool)
    (hr : Ready c.vs [nd, n2, n1] nd vd) (h2 : SourceOk c.vs.vlenb c.vs.vl nd vd n2 vs2) (h1 : SrcOk c.vs nd vd src1) :
    ∃ c' : VCore, execSat c nd n2 n1 vd vs2 src1 (maskOf c.regs vm) op = some c'
      ∧ c'.vs = { c.vs with vstart := 0, vxsat := c'.vs.vxsat }
      ∧ (∀ i a b, c.vs.vstart ≤ i → i < c.vs.vl → Active c.regs vm i → IsElem c.vs.vlenb n2 c.regs vs2 i a → SrcIs c.vs c.regs i src1 b →
          IsElem c.vs.vlenb nd c'.regs vd i (op a b).1)
      ∧ (c'.vs.vxsat = true ↔ c.vs.vxsat = true ∨ ∃ i a b, c.vs.vstart ≤ i ∧ i < c.vs.vl ∧ Active c.regs vm i
          ∧ IsElem c.vs.vlenb n2 c.regs vs2 i a ∧ SrcIs c.vs c.regs i src1 b ∧ (op a b).2 = true)
      ∧ Undisturbed c.vs.vlenb nd vd (fun i => c.vs.vstart ≤ i ∧ i < c.vs.vl ∧ Active c.regs vm i) c.regs c'.regs := by
  obtain ⟨hnd, hdd, hv⟩ := hr.size
  obtain ⟨c', st, e1, e2, e3, e4, e5, e6⟩ := C44_binary c nd n2 n1 vd vs2 src1 vm
    (fun a b s => ((op a b).1, if (op a b).2 then true else s)) c.vs.vxsat hr h2 h1
  have hel : ∀ i, ∃ a b, IsElem c.vs.vlenb n2 c.regs vs2 i a ∧ SrcIs c.vs c.regs i src1 b := fun i =>
    ⟨_, _, (isElem_iff h2.1 h2.2.1 hv _ _ _ _).2 rfl, (src_is (nd := nd) (vd := vd) c.vs c.regs i src1 hv h1 _).2 rfl⟩
  -- the flag after the elements up to i
  have hst : ∀ k, c.vs.vstart + k ≤ max c.vs.vstart c.vs.vl → (st (c.vs.vstart + k) = true ↔ c.vs.vxsat = true ∨ ∃ i a b, c.vs.vstart ≤ i
      ∧ i < c.vs.vstart + k ∧ Active c.regs vm i ∧ IsElem c.vs.vlenb n2 c.regs vs2 i a ∧ SrcIs c.vs c.regs i src1 b ∧ (op a b).2 = true) := by
    intro k
    induction k with
    | zero =>
      intro _
      rw [Nat.add_zero, e3]
      constructor
      · exact Or.inl
      · rintro (h | ⟨i, a, b, i1, i2, -⟩)
        · exact h
        · omega
    | succ k ih =>
      intro hk
      have ih := ih (by omega)
      have hlt : c.vs.vstart + k < c.vs.vl := by omega
      have key : st (c.vs.vstart + (k + 1)) = true ↔ st (c.vs.vstart + k) = true ∨ (Active c.regs vm (c.vs.vstart + k) ∧ ∃ a b,
          IsElem c.vs.vlenb n2 c.regs vs2 (c.vs.vstart + k) a ∧ SrcIs c.vs c.regs (c.vs.vstart + k) src1 b ∧ (op a b).2 = true) := by
        rw [show c.vs.vstart + (k + 1) = c.vs.vstart + k + 1 by omega]
        by_cases hA : Active c.regs vm (c.vs.vstart + k)
        · obtain ⟨a, b, ha, hb⟩ := hel (c.vs.vstart + k)
          rw [(e4 _ a b (by omega) hlt hA ha hb).2]
          constructor
          · intro h
            cases hs : (op a b).2 with
            | true => exact Or.inr ⟨hA, a, b, ha, hb, hs⟩
            | false => rw [hs] at h; exact Or.inl h
          · rintro (h | ⟨-, a', b', ha', hb', hs⟩)
            · simp [h]
            · have : a' = a := by
                rw [← (isElem_iff h2.1 h2.2.1 hv _ _ _ _).1 ha', ← (isElem_iff h2.1 h2.2.1 hv _ _ _ _).1 ha]
              subst this
              have : b' = b := by
                rw [← (src_is (nd := nd) (vd := vd) c.vs c.regs _ src1 hv h1 _).1 hb', ← (src_is (nd := nd) (vd := vd) c.vs c.regs _ src1 hv h1 _).1 hb]
              subst this
              simp [hs]
        · rw [e5 _ (by omega) hlt hA]
          constructor
          · exact Or.inl
          · rintro (h | h)
            · exact h
            · exact absurd h.1 hA
      rw [key, ih]
      constructor
      · rintro ((h | ⟨i, a, b, i1, i2, i3⟩) | ⟨hA, a, b, h⟩)
        · exact Or.inl h
        · exact Or.inr ⟨i, a, b, i1, by omega, i3⟩
        · exact Or.inr ⟨_, a, b, by omega, by omega, hA, h⟩
      · rintro (h | ⟨i, a, b, i1, i2, i3⟩)
        · exact Or.inl (Or.inl h)
        · by_cases hi : i = c.vs.vstart + k
          · subst hi
            exact Or.inr ⟨i3.1, a, b, i3.2⟩
          · exact Or.inl (Or.inr ⟨i, a, b, i1, by omega, i3⟩)
  refine ⟨{ c' with vs := { c'.vs with vxsat := st (max c.vs.vstart c.vs.vl) } }, ?_, ?_, ?_, ?_, e6⟩
  · unfold execSat; rw [e1]; rfl
  · simp only [e2]
  · intro i a b i1 i2 hA ha hb
    exact (e4 i a b i1 i2 hA ha hb).1
  · have h := hst (max c.vs.vstart c.vs.vl - c.vs.vstart) (by omega)
    rw [show c.vs.vstart + (max c.vs.vstart c.vs.vl - c.vs.vstart) = max c.vs.vstart c.vs.vl by omega] at h
    show st (max c.vs.vstart c.vs.vl) = true ↔ _
    rw [h]
    constructor
    · rintro (h | ⟨i, a, b, i1, i2, i3⟩)
      · exact Or.inl h
      · exact Or.inr ⟨i, a, b, i1, by omega, i3⟩
    · rintro (h | ⟨i, a, b, i1, i2, i3⟩)
      · exact Or.inl h
      · exact Or.inr ⟨i, a, b, i1, by omega, i3⟩

/-- The four saturating operations and what they compute on integers. -/
inductive SatOp where
  | addu | add | subu | sub

def SatOp.sgn : SatOp → Bool
  | .addu | .subu => false
  | .add | .sub => true

def SatOp.fn {n : Nat} : SatOp → BitVec n → BitVec n → BitVec n × Bool
  | .addu => vsaddu
  | .add => vsadd
  | .subu => vssubu
  | .sub => vssub

/-- The mathematical result. -/
def SatOp.exact : SatOp → Int → Int → Int
  | .addu, a, b | .add, a, b => a + b
  | .subu, a, b | .sub, a, b => a - b

theorem satop_spec {n : Nat} (hn : 0 < n) (o : SatOp) (a b : BitVec n) :
    num o.sgn (o.fn a b).1 = clamp (lo o.sgn n) (hi o.sgn n) (o.exact (num o.sgn a) (num o.sgn b))
    ∧ ((o.fn a b).2 = true ↔ o.exact (num o.sgn a) (num o.sgn b) < lo o.sgn n ∨ hi o.sgn n < o.exact (num o.sgn a) (num o.sgn b)) := by
  cases o with
  | addu =>
    refine ⟨(C46_vsaddu a b).1, ?_⟩
    rw [show SatOp.fn .addu a b = vsaddu a b from rfl, (C46_vsaddu a b).2]
    simp only [SatOp.exact, SatOp.sgn, num, lo, hi, Bool.false_eq_true, if_false]
    omega
  | add => exact C46_vsadd hn a b
  | subu =>
    refine ⟨(C46_vssubu a b).1, ?_⟩
    rw [show SatOp.fn .subu a b = vssubu a b from rfl, (C46_vssubu a b).2]
    simp only [SatOp.exact, SatOp.sgn, num, lo, hi, Bool.false_eq_true, if_false]
    have ha := a.isLt
    have hc : ((2 ^ n : Nat) : Int) = 2 ^ n := by norm_cast
    omega
  | sub => exact C46_vssub hn a b

/-- **C46, instructions.** The saturating instructions write to every active body element the mathematical result clamped to
the element type, and vxsat ends set exactly when it was set or a result was clamped. -/
theorem C46_saturating (o : SatOp) (c : VCore) (n vd vs2 : Nat) (src1 : Src n) (vm : Bool)
    (hr : Ready c.vs [n, n, n] n vd) (h2 : SourceOk c.vs.vlenb c.vs.vl n vd n vs2) (h1 : SrcOk c.vs n vd src1) :
    ∃ c' : VCore, execSat c n n n vd vs2 src1 (maskOf c.regs vm) o.fn = some c'
      ∧ (∀ i a b, c.vs.vstart ≤ i → i < c.vs.vl → Active c.regs vm i → IsElem c.vs.vlenb n c.regs vs2 i a → SrcIs c.vs c.regs i src1 b →
          ∃ r, IsElem c.vs.vlenb n c'.regs vd i r ∧ num o.sgn r = clamp (lo o.sgn (8 * n)) (hi o.sgn (8 * n)) (o.exact (num o.sgn a) (num o.sgn b)))
      ∧ (c'.vs.vxsat = true ↔ c.vs.vxsat = true ∨ ∃ i a b, c.vs.vstart ≤ i ∧ i < c.vs.vl ∧ Active c.regs vm i
          ∧ IsElem c.vs.vlenb n c.regs vs2 i a ∧ SrcIs c.vs c.regs i src1 b
          ∧ (o.exact (num o.sgn a) (num o.sgn b) < lo o.sgn (8 * n) ∨ hi o.sgn (8 * n) < o.exact (num o.sgn a) (num o.sgn b)))
      ∧ Undisturbed c.vs.vlenb n vd (fun i => c.vs.vstart ≤ i ∧ i < c.vs.vl ∧ Active c.regs vm i) c.regs c'.regs := by
  have hn := hr.size.1
  obtain ⟨c', e1, -, e3, e4, e5⟩ := execSat_spec c n n n vd vs2 src1 vm o.fn hr h2 h1
  refine ⟨c', e1, ?_, ?_, e5⟩
  · intro i a b i1 i2 hA ha hb
    exact ⟨_, e3 i a b i1 i2 hA ha hb, (satop_spec (by omega) o a b).1⟩
  · rw [e4]
    constructor
    · rintro (h | ⟨i, a, b, i1, i2, i3, i4, i5, i6⟩)
      · exact Or.inl h
      · exact Or.inr ⟨i, a, b, i1, i2, i3, i4, i5, (satop_spec (by omega) o a b).2.1 i6⟩
    · rintro (h | ⟨i, a, b, i1, i2, i3, i4, i5, i6⟩)
      · exact Or.inl h
      · exact Or.inr ⟨i, a, b, i1, i2, i3, i4, i5, (satop_spec (by omega) o a b).2.2 i6⟩

/-- vsadd.vv v4, v4, v2 under v0 in the configuration of the VecLoop examples. -/
example := C46_saturating .add core 2 4 4 (.vec 2) false ready_core
  ⟨by decide, by decide, Or.inr (Or.inl ⟨rfl, by decide⟩)⟩ ⟨by decide, by decide, Or.inl (by decide)⟩

end Verif.VecFixed
