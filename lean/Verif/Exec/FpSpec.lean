import Verif.Exec.SpecS
import Verif.Exec.FpModel
import Verif.FpMem.Spec
import Verif.NaNBox.Spec
import Verif.FpClass.Spec
import Verif.FpState.Spec

/-!
# Floating-point instructions that do not round, by the manual

`FSem` serves as a list of the instructions.
-/

namespace Verif.Exec.Spec

open Decode Decode.Isa Core
open FpClass.Spec (NaN Before scaled)

def fkind (x : Xlen) : Op → Option FSem
  | .flw => some (.load 4)
  | .fld => some (.load 8)
  | .fsw => some (.store 4)
  | .fsd => some (.store 8)
  | .fsgnj_s => some (.sign .s .copy)
  | .fsgnjn_s => some (.sign .s .negate)
  | .fsgnjx_s => some (.sign .s .xor)
  | .fsgnj_d => some (.sign .d .copy)
  | .fsgnjn_d => some (.sign .d .negate)
  | .fsgnjx_d => some (.sign .d .xor)
  | .fmin_s => some (.minMax .s false)
  | .fmax_s => some (.minMax .s true)
  | .fmin_d => some (.minMax .d false)
  | .fmax_d => some (.minMax .d true)
  | .fcmpeq_s => some (.cmp .s .eq)
  | .fcmplt_s => some (.cmp .s .lt)
  | .fcmple_s => some (.cmp .s .le)
  | .fcmpeq_d => some (.cmp .d .eq)
  | .fcmplt_d => some (.cmp .d .lt)
  | .fcmple_d => some (.cmp .d .le)
  | .fclass_s => some (.classify .s)
  | .fclass_d => some (.classify .d)
  | .fmv_xw => some (.toX .s)
  | .fmv_wx => some (.fromX .s)
  | .fmv_xd => if x = .rv64 then some (.toX .d) else none
  | .fmv_dx => if x = .rv64 then some (.fromX .d) else none
  | _ => none

/-- The word `w` is such an instruction. -/
def IsF (x : Xlen) (w : Nat) (k : FSem) : Prop := ∃ o, fkind x o = some k ∧ Listed x o w

variable {n : Nat} {ρ : Type} {H : FpState.Host}

/-- The floating-point unit is off: FS (bits 13 and 14 of mstatus) is 0. -/
def OffF (st : FSt n ρ H) : Prop :=
  st.core.hart.mstatus.value.getLsbD 13 = false ∧ st.core.hart.mstatus.value.getLsbD 14 = false

/-- The rest of the state is as before. -/
def Rest (st st' : FSt n ρ H) : Prop := st'.x.base.resv = st.x.base.resv ∧ st'.x.csrs = st.x.csrs

/-- The rounding mode stays; the flag "invalid operation" is added to the accrued flags if `nv`, and
otherwise they stay, too. -/
def Accrues (st st' : FSt n ρ H) (nv : Prop) : Prop :=
  FpState.frmRead st'.fp = FpState.frmRead st.fp ∧
  (nv → FpState.fflagsRead st'.fp = FpState.fflagsRead st.fp ||| 16#32) ∧
  (¬ nv → FpState.fflagsRead st'.fp = FpState.fflagsRead st.fp)

/-- On to the next instruction with a floating-point register changed. -/
def GivesF (p : Prec) (st st' : FSt n ρ H) (d : BitVec 5) (P : BitVec p.fmt.bits → Prop) : Prop :=
  Passes st.core st'.core 4 ∧ Rest st st' ∧ (∀ q, q ≠ d → st'.fregs q = st.fregs q) ∧
  ∃ v, P v ∧ NaNBox.Spec.Writes p.fmt (st'.fregs d) v

/-- On to the next instruction with an integer register changed. -/
def GivesX (st st' : FSt n ρ H) (d : BitVec 5) (P : BitVec n → Prop) : Prop :=
  Computes st.core st'.core { rd := d, size := 4 } P ∧ Rest st st' ∧ st'.fregs = st.fregs

/-- An exception and nothing else. -/
def RaisesF (st st' : FSt n ρ H) (tval code : BitVec 64) : Prop :=
  Raises st.core st'.core tval code ∧ Rest st st' ∧ st'.fregs = st.fregs ∧ st'.fp = st.fp

/-- The sign of the result of sign injection. -/
def newSign (o : SignOp) (a b : Bool) : Bool :=
  match o with
  | .copy => b
  | .negate => !b
  | .xor => a ^^ b

/-- The result of minimum and maximum. -/
def Extreme (max : Bool) {f : Fp.Fmt} (a b v : BitVec f.bits) : Prop :=
  (NaN a → NaN b → v = Fp.canonicalNaN f) ∧ (NaN a → ¬ NaN b → v = b) ∧ (¬ NaN a → NaN b → v = a) ∧
  (¬ NaN a → ¬ NaN b → (v = a ∨ v = b) ∧
    (max = false → Before v a ∧ Before v b) ∧ (max = true → Before a v ∧ Before b v))

/-- The outcome of a comparison. -/
def Compares (o : CmpOp) {f : Fp.Fmt} (a b : BitVec f.bits) : Prop :=
  ¬ NaN a ∧ ¬ NaN b ∧
  match o with
  | .eq => scaled a = scaled b
  | .lt => scaled a < scaled b
  | .le => scaled a ≤ scaled b

/-- When a comparison is invalid. -/
def InvalidCmp (o : CmpOp) {f : Fp.Fmt} (a b : BitVec f.bits) : Prop :=
  match o with
  | .eq => FpClass.Spec.Is a .sNaN ∨ FpClass.Spec.Is b .sNaN
  | .lt | .le => NaN a ∨ NaN b

/-- The number in a register: the canonical NaN if it is one of single precision and not boxed. -/
def ValueF (p : Prec) (st : FSt n ρ H) (r : BitVec 5) (v : BitVec p.fmt.bits) : Prop :=
  NaNBox.Spec.Reads p.fmt (st.fregs r) v

/-- The memory after a store of the low bytes of a register. -/
def StoresF (st st' : FSt n ρ H) (a : BitVec 64) (bytes : Nat) (r : BitVec 5) : Prop :=
  ∃ p m, IsNext st.core 4 p ∧
    st'.core = { st.core with mem := m, hart := { st.core.hart with pc := p } } ∧
    Mem.Spec.Holds m a bytes (st.fregs r).toNat ∧ ∀ b, ¬ Mem.Spec.InRange a bytes b → m b = st.core.mem b

/-- The effect of an instruction when the unit is on. -/
def DoesF (k : FSem) (w : Nat) (st st' : FSt n ρ H) : Prop :=
  match k with
  | .load bytes => ∃ a, IsAddr a n (X st.core (rs1 w)) (immI w) ∧
      (a.toNat ≤ st.core.limit.toNat →
        Passes st.core st'.core 4 ∧ Rest st st' ∧ st'.fp = st.fp ∧
        (∀ q, q ≠ rd w → st'.fregs q = st.fregs q) ∧
        ∃ v, Mem.Spec.Holds st.core.mem a bytes v ∧ v < 256 ^ bytes ∧
          FpMem.Spec.Boxed bytes v (st'.fregs (rd w))) ∧
      (st.core.limit.toNat < a.toNat → RaisesF st st' a 5#64)
  | .store bytes => ∃ a, IsAddr a n (X st.core (rs1 w)) (immS w) ∧
      (a.toNat ≤ st.core.limit.toNat →
        StoresF st st' a bytes (rs2 w) ∧ Rest st st' ∧ st'.fp = st.fp ∧ st'.fregs = st.fregs) ∧
      (st.core.limit.toNat < a.toNat → RaisesF st st' a 7#64)
  | .sign p o => ∃ a b, ValueF p st (rs1 w) a ∧ ValueF p st (rs2 w) b ∧ st'.fp = st.fp ∧
      GivesF p st st' (rd w) fun v => ∀ i, i < p.fmt.bits →
        v.getLsbD i = if i = p.fmt.bits - 1 then newSign o (a.getLsbD i) (b.getLsbD i) else a.getLsbD i
  | .minMax p m => ∃ a b, ValueF p st (rs1 w) a ∧ ValueF p st (rs2 w) b ∧
      Accrues st st' (FpClass.Spec.Is a .sNaN ∨ FpClass.Spec.Is b .sNaN) ∧ GivesF p st st' (rd w) (Extreme m a b)
  | .cmp p o => ∃ a b, ValueF p st (rs1 w) a ∧ ValueF p st (rs2 w) b ∧
      Accrues st st' (InvalidCmp o a b) ∧
      GivesX st st' (rd w) fun v => (Compares o a b → v.toNat = 1) ∧ (¬ Compares o a b → v.toNat = 0)
  | .classify p => ∃ a, ValueF p st (rs1 w) a ∧ st'.fp = st.fp ∧
      GivesX st st' (rd w) fun v => ∃ c, FpClass.Spec.Is a c ∧ v.toNat = 2 ^ c.bit
  | .toX .s => st'.fp = st.fp ∧
      GivesX st st' (rd w) fun v => v.toInt = ((st.fregs (rs1 w)).toNat : Int).bmod (2 ^ 32)
  | .toX .d => st'.fp = st.fp ∧ GivesX st st' (rd w) fun v => v.toNat = (st.fregs (rs1 w)).toNat
  | .fromX p => st'.fp = st.fp ∧
      GivesF p st st' (rd w) fun v => v.toNat = (X st.core (rs1 w)).toNat % 2 ^ p.fmt.bits

/-- Register `r` holds a boxed number of single precision. -/
def BoxedS (st : FSt n ρ H) (r : BitVec 5) : Prop := NaNBox.Spec.Boxed Fp.single (st.fregs r)

/-- The cases in which the simulator does something else: `fclass.s` of a register that is not boxed, on
RV64 also `fclass.s` into a register whose upper half is not 0, and on RV32 comparisons of registers that
are not boxed. -/
def WrongF (x : Xlen) (k : FSem) (w : Nat) (st : FSt x.bits ρ H) : Prop :=
  match k with
  | .classify .s => ¬ BoxedS st (rs1 w) ∨ (x = .rv64 ∧ 2 ^ 32 ≤ (X st.core (rd w)).toNat)
  | .cmp .s _ => x = .rv32 ∧ (¬ BoxedS st (rs1 w) ∨ ¬ BoxedS st (rs2 w))
  | _ => False

end Verif.Exec.Spec
