import Verif.Alu.Model
/-
Model of the multiply/divide instructions (riscv/riscv_m_instructions.cc). `BinaryOp` of mpact-sim
reads operand 0 and 1 at the type of the lambda's parameters, sign- or zero-extending a register
according to the signedness of that type, and writes the result to the destination.
-/
namespace Verif.MulDiv

inductive Op where
  | mul | mulh | mulhu | mulhsu | div | divu | rem | remu
deriving DecidableEq, Repr

/-- RV32 (riscv_m_instructions.cc:41-111). `WideIntReg` is `int64_t`. -/
def op32 (o : Op) (a b : BitVec 32) : BitVec 32 :=
  match o with
  | .mul => ((a.signExtend 64 * b.signExtend 64) &&& 0xffffffff#64).setWidth 32
  | .mulh => ((a.signExtend 64 * b.signExtend 64).sshiftRight 32).setWidth 32
  | .mulhu => ((a.setWidth 64 * b.setWidth 64) >>> 32).setWidth 32
  | .mulhsu => ((a.signExtend 64 * b.setWidth 64).sshiftRight 32).setWidth 32
  | .div =>
    if b = 0#32 then -1#32
    else if b = -1#32 ∧ a = 0x80000000#32 then 0x80000000#32
    else a.sdiv b
  | .divu => if b = 0#32 then 0xffffffff#32 else a / b
  | .rem =>
    if b = 0#32 then a
    else if b = -1#32 ∧ a = 0x80000000#32 then 0#32
    else a.srem b
  | .remu => if b = 0#32 then a else a % b

/-- The negation dance of the RV64 mulhsu (riscv_m_instructions.cc:147-164), on `absl::int128`. -/
def mulhsu64 (a b : BitVec 64) : BitVec 64 :=
  let aw : BitVec 128 := a.signExtend 128
  let negate := aw.slt 0#128
  let au := if negate then -aw else aw
  let cu := au * b.setWidth 128
  let c := if negate then -cu else cu
  (c.sshiftRight 64).setWidth 64

/-- RV64 (riscv_m_instructions.cc:125-202). `WideIntReg` is `absl::int128`. -/
def op64 (o : Op) (a b : BitVec 64) : BitVec 64 :=
  match o with
  | .mul => ((a.signExtend 128 * b.signExtend 128) &&& 0xffffffffffffffff#128).setWidth 64
  | .mulh => ((a.signExtend 128 * b.signExtend 128).sshiftRight 64).setWidth 64
  | .mulhu => ((a.setWidth 128 * b.setWidth 128) >>> 64).setWidth 64
  | .mulhsu => mulhsu64 a b
  | .div =>
    if b = 0#64 then -1#64
    else if b = -1#64 ∧ a = 0x8000000000000000#64 then 0x8000000000000000#64
    else a.sdiv b
  | .divu => if b = 0#64 then 0xffffffffffffffff#64 else a / b
  | .rem =>
    if b = 0#64 then a
    else if b = -1#64 ∧ a = 0x8000000000000000#64 then 0#64
    else a.srem b
  | .remu => if b = 0#64 then a else a % b

inductive OpW where
  | mulw | divw | divuw | remw | remuw
deriving DecidableEq, Repr

/-- The W forms on the low words (riscv_m_instructions.cc:204-258). `NarrowIntReg c = a * b` is
undefined on signed overflow. -/
def narrow (o : OpW) (a b : BitVec 32) : Option (BitVec 64) :=
  match o with
  | .mulw => (Alu.toInt32? (a.toInt * b.toInt)).map fun c => c.signExtend 64
  | .divw => some <|
    if b = 0#32 then -1#64
    else if b = -1#32 ∧ a = 0x80000000#32 then (0x80000000#32).signExtend 64
    else (a.sdiv b).signExtend 64
  | .divuw => some <| if b = 0#32 then 0xffffffffffffffff#64 else (a / b).signExtend 64
  | .remw => some <|
    if b = 0#32 then a.signExtend 64
    else if b = -1#32 ∧ a = 0x80000000#32 then 0#64
    else (a.srem b).signExtend 64
  | .remuw => some <| if b = 0#32 then a.signExtend 64 else (a % b).signExtend 64

def opW (o : OpW) (a b : BitVec 64) : Option (BitVec 64) :=
  narrow o (a.setWidth 32) (b.setWidth 32)

end Verif.MulDiv
