import Verif.Csr.Model
/-
Specification of a masked register, bit by bit, from the RISC-V privileged manual's
description of CSR instructions and of writable/read-only fields.
-/
namespace Verif.Csr.Spec

/-- What a CSR operation asks one bit to become: `write` takes the operand bit, `setBits`
ors it in, `clearBits` clears where the operand is one. Bits beyond the operand count as
operand bits equal to zero. -/
def bit (op : Op) (i : Nat) (old : Bool) : Bool :=
  match op with
  | .write32 v => v.getLsbD i
  | .write64 v => v.getLsbD i
  | .setBits32 v => old || v.getLsbD i
  | .setBits64 v => old || v.getLsbD i
  | .clearBits32 v => old && !v.getLsbD i
  | .clearBits64 v => old && !v.getLsbD i

/-- A masked register applies the request to writable bits only. -/
def stepBit (writable : Bool) (op : Op) (i : Nat) (old : Bool) : Bool :=
  if writable then bit op i old else old

/-- The value of bit `i` after a history. -/
def runBit (writable : Bool) (ops : List Op) (i : Nat) (old : Bool) : Bool :=
  ops.foldl (fun b op => stepBit writable op i b) old

end Verif.Csr.Spec
