import Verif.Exec.FkSpec
import Verif.Exec.CfModel

/-!
# Compressed loads and stores of floating-point registers, by the manual

`c.flw`, `c.fld`, `c.fsw` and `c.fsd` name eight registers of each kind by three bits; the others have x2 as the
base.  The offset is not negative and a multiple of the number of bytes.
-/

namespace Verif.Exec.Spec

open Decode Decode.Isa Core

/-- What the instruction is short for. -/
structure QArgs where
  /-- load or store -/
  load : Bool
  bytes : Nat
  /-- the floating-point register, three bits of which are in the instruction if `short` -/
  fr : BitVec 5
  short : Bool
  rs1 : BitVec 5
  imm : Nat
  deriving DecidableEq

/-- `c.flw`, `c.fsw`, … of RV32 only, `c.fld`, `c.fsd`, … of both. -/
def qargs (x : Xlen) (o : Op) (w : Nat) : Option QArgs :=
  match o, x with
  | .cflw, .rv32 => some ⟨true, 4, cRs2' w, true, cRs1' w, cLw w⟩
  | .cfld, _ => some ⟨true, 8, cRs2' w, true, cRs1' w, cLd w⟩
  | .cfsw, .rv32 => some ⟨false, 4, cRs2' w, true, cRs1' w, cLw w⟩
  | .cfsd, _ => some ⟨false, 8, cRs2' w, true, cRs1' w, cLd w⟩
  | .cflwsp, .rv32 => some ⟨true, 4, cRd w, false, sp, cLwsp w⟩
  | .cfldsp, _ => some ⟨true, 8, cRd w, false, sp, cLdsp w⟩
  | .cfswsp, .rv32 => some ⟨false, 4, cRs2 w, false, sp, cSwsp w⟩
  | .cfsdsp, _ => some ⟨false, 8, cRs2 w, false, sp, cSdsp w⟩
  | _, _ => none

/-- The low half of the word `w` is such an instruction. -/
def IsQ (x : Xlen) (w : Nat) (z : QArgs) : Prop :=
  ∃ o, qargs x o (w % 2 ^ 16) = some z ∧ Listed x o (w % 2 ^ 16)

variable {n : Nat} {ρ : Type} {H : FpState.Host}

/-- The memory after a store of the low bytes of a register, with the next instruction two bytes away. -/
def StoresQ (st st' : FSt n ρ H) (a : BitVec 64) (bytes : Nat) (r : BitVec 5) : Prop :=
  ∃ p m, IsNext st.core 2 p ∧
    st'.core = { st.core with mem := m, hart := { st.core.hart with pc := p } } ∧
    Mem.Spec.Holds m a bytes (st.fregs r).toNat ∧ ∀ b, ¬ Mem.Spec.InRange a bytes b → m b = st.core.mem b

/-- The effect when the unit is on. -/
def DoesQ (z : QArgs) (st st' : FSt n ρ H) : Prop :=
  ∃ a, IsAddr a n (X st.core z.rs1) z.imm ∧
  (z.load = true →
    (a.toNat ≤ st.core.limit.toNat →
      Passes st.core st'.core 2 ∧ Rest st st' ∧ st'.fp = st.fp ∧
      (∀ q, q ≠ z.fr → st'.fregs q = st.fregs q) ∧
      ∃ v, Mem.Spec.Holds st.core.mem a z.bytes v ∧ v < 256 ^ z.bytes ∧
        FpMem.Spec.Boxed z.bytes v (st'.fregs z.fr)) ∧
    (st.core.limit.toNat < a.toNat → RaisesF st st' a 5#64)) ∧
  (z.load = false →
    (a.toNat ≤ st.core.limit.toNat →
      StoresQ st st' a z.bytes z.fr ∧ Rest st st' ∧ st'.fp = st.fp ∧ st'.fregs = st.fregs) ∧
    (st.core.limit.toNat < a.toNat → RaisesF st st' a 7#64))

/-- The simulators in which the destination of `c.fld`, and of `c.flw` if there is one, is an integer
register. -/
def intDest : Sim → Bool
  | .rv64g | .rv64gv | .rv32gv => true
  | _ => false

/-- The cases in which the simulator does something else: the loads of these simulators, loads of four bytes into
registers whose upper half does not consist of ones, and on RV32 the instructions with functions of RV64 when the
sum of base and offset does not fit into 32 bits. -/
def WrongQ (s : Sim) (z : QArgs) (st : FSt n ρ H) : Prop :=
  (z.load = true ∧ z.short = true ∧ intDest s = true) ∨
  (z.load = true ∧ z.bytes = 4 ∧ (st.fregs z.fr).toNat < 2 ^ 64 - 2 ^ 32) ∨
  (s.xlen = .rv32 ∧ z.bytes = 8 ∧ (z.load = true ∨ z.short = false) ∧ 2 ^ 32 ≤ (X st.core z.rs1).toNat + z.imm)

end Verif.Exec.Spec
