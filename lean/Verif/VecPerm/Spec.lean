import Verif.VecPerm.Model
import Verif.VecLoop.Spec
/-
What the permutations do, after the RISC-V vector specification (chapter 16): `R` and `R'` are the register files
before and after, `vm` says that the instruction is not masked.
-/
namespace Verif.VecPerm.Spec
open Verif.VecState Verif.VecLoop.Spec

/-- The greatest vector length of the configuration: LMUL * VLEN / SEW. -/
def vlmax (s : VState) : Nat := s.vlenb * s.lmul8 / (8 * s.sew)

/-- The elements an instruction works on. -/
def Body (s : VState) (i : Nat) : Prop := s.vstart ≤ i ∧ i < s.vl

/-- Element `i` of the index operand is the number `x`. -/
def IndexIs {n : Nat} (s : VState) (R : Regs) (i : Nat) : Index n → Nat → Prop
  | .vec vs, x => ∃ b, IsElem s.vlenb n R vs i b ∧ x = b.toNat
  | .scalar v, x => x = v.toNat

/-- vrgather: `vd[i] = (index[i] >= VLMAX) ? 0 : vs2[index[i]]`. -/
def Gathered {n1 : Nat} (s : VState) (R R' : Regs) (vd vs2 : Nat) (ix : Index n1) (vm : Bool) : Prop :=
  (∀ i x, Body s i → Active R vm i → IndexIs s R i ix x →
    (x < vlmax s → ∀ v, IsElem s.vlenb s.sew R vs2 x v → IsElem s.vlenb s.sew R' vd i v)
    ∧ (vlmax s ≤ x → IsElem s.vlenb s.sew R' vd i 0))
  ∧ Undisturbed s.vlenb s.sew vd (fun i => Body s i ∧ Active R vm i) R R'

/-- vslideup: `vd[i + offset] = vs2[i]`; the elements below the offset are left. -/
def SlidUp (s : VState) (R R' : Regs) (vd vs2 off : Nat) (vm : Bool) : Prop :=
  (∀ i, Body s i → off ≤ i → Active R vm i → ∀ v, IsElem s.vlenb s.sew R vs2 (i - off) v →
    IsElem s.vlenb s.sew R' vd i v)
  ∧ Undisturbed s.vlenb s.sew vd (fun i => Body s i ∧ off ≤ i ∧ Active R vm i) R R'

/-- vslidedown: `vd[i] = (i + offset < VLMAX) ? vs2[i + offset] : 0`. -/
def SlidDown (s : VState) (R R' : Regs) (vd vs2 off : Nat) (vm : Bool) : Prop :=
  (∀ i, Body s i → Active R vm i →
    (i + off < vlmax s → ∀ v, IsElem s.vlenb s.sew R vs2 (i + off) v → IsElem s.vlenb s.sew R' vd i v)
    ∧ (vlmax s ≤ i + off → IsElem s.vlenb s.sew R' vd i 0))
  ∧ Undisturbed s.vlenb s.sew vd (fun i => Body s i ∧ Active R vm i) R R'

/-- vslide1up: `vd[0] = x`, `vd[i + 1] = vs2[i]`. -/
def Slid1Up (s : VState) (R R' : Regs) (vd vs2 : Nat) (x : BitVec (8 * s.sew)) (vm : Bool) : Prop :=
  (∀ i, Body s i → Active R vm i →
    (i = 0 → IsElem s.vlenb s.sew R' vd i x)
    ∧ (0 < i → ∀ v, IsElem s.vlenb s.sew R vs2 (i - 1) v → IsElem s.vlenb s.sew R' vd i v))
  ∧ Undisturbed s.vlenb s.sew vd (fun i => Body s i ∧ Active R vm i) R R'

/-- vslide1down: `vd[i] = vs2[i + 1]` below the last element of the body, `vd[vl - 1] = x`. -/
def Slid1Down (s : VState) (R R' : Regs) (vd vs2 : Nat) (x : BitVec (8 * s.sew)) (vm : Bool) : Prop :=
  (∀ i, Body s i → Active R vm i →
    (i + 1 < s.vl → ∀ v, IsElem s.vlenb s.sew R vs2 (i + 1) v → IsElem s.vlenb s.sew R' vd i v)
    ∧ (i + 1 = s.vl → IsElem s.vlenb s.sew R' vd i x))
  ∧ Undisturbed s.vlenb s.sew vd (fun i => Body s i ∧ Active R vm i) R R'

/-- Bit `i` of a mask register. -/
def bit (R : Regs) (vs i : Nat) : Bool := (R vs (i / 8)).getLsbD (i % 8)

/-- The number of bits set below `i`. -/
def below (R : Regs) (vs : Nat) : Nat → Nat
  | 0 => 0
  | i + 1 => below R vs i + (if bit R vs i then 1 else 0)

/-- vcompress: the elements selected by vs1 are packed from element 0 on. -/
def Compressed (s : VState) (R R' : Regs) (vd vs2 vs1 : Nat) : Prop :=
  (∀ i, i < s.vl → bit R vs1 i = true → ∀ v, IsElem s.vlenb s.sew R vs2 i v →
    IsElem s.vlenb s.sew R' vd (below R vs1 i) v)
  ∧ Undisturbed s.vlenb s.sew vd (fun i => i < below R vs1 s.vl) R R'

/-- The registers of the first `cnt` elements of `n` bytes at `vs` and those of the first `vl` elements of `nd`
bytes at `vd` are different. -/
def Apart (vlenb vl nd vd cnt n vs : Nat) : Prop :=
  vs + (cnt * n + vlenb - 1) / vlenb ≤ vd ∨ vd + (vl * nd + vlenb - 1) / vlenb ≤ vs

/-- The same for the index operand of a gather. -/
def IndexApart {n : Nat} (s : VState) (vd : Nat) : Index n → Prop
  | .vec vs => 0 < n ∧ n ∣ s.vlenb ∧ Apart s.vlenb s.vl s.sew vd s.vl n vs
  | .scalar _ => True

/-- A configuration the instruction can run in: SEW and LMUL as vsetvl sets them, no pending exception, and a
destination aligned to a group that is large enough. -/
structure Config (s : VState) (vd : Nat) : Prop where
  sew : s.sew = 1 ∨ s.sew = 2 ∨ s.sew = 4 ∨ s.sew = 8
  ready : Ready s [] s.sew vd
  max : s.vmax = vlmax s
  small : s.vmax < 2 ^ 31

end Verif.VecPerm.Spec
