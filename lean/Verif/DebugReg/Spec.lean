import Verif.DebugReg.Model
/-
What the RISC-V specifications and the gdb protocol say about register names and numbers.
-/
namespace Verif.DebugReg.Spec

/-- Integer register names of the RISC-V calling convention, x0 to x31. -/
def abiX : List String :=
  ["zero", "ra", "sp", "gp", "tp", "t0", "t1", "t2",
   "s0", "s1", "a0", "a1", "a2", "a3", "a4", "a5",
   "a6", "a7", "s2", "s3", "s4", "s5", "s6", "s7",
   "s8", "s9", "s10", "s11", "t3", "t4", "t5", "t6"]

/-- Floating-point register names, f0 to f31. -/
def abiF : List String :=
  ["ft0", "ft1", "ft2", "ft3", "ft4", "ft5", "ft6", "ft7",
   "fs0", "fs1", "fa0", "fa1", "fa2", "fa3", "fa4", "fa5",
   "fa6", "fa7", "fs2", "fs3", "fs4", "fs5", "fs6", "fs7",
   "fs8", "fs9", "fs10", "fs11", "ft8", "ft9", "ft10", "ft11"]

/-- Abstract register numbers of the RISC-V debug specification: `dpc` is CSR 0x7b1, general
registers from 0x1000, floating-point registers from 0x1020. -/
def regno : Slot → Nat
  | .pc => 0x7b1
  | .x n => 0x1000 + n.toNat
  | .f n => 0x1020 + n.toNat

/-- How many bits a register has: the integer registers and the pc XLEN, the floating-point registers
64 (the D extension is always there). -/
def width (xlen : Nat) : Slot → Nat
  | .pc => xlen
  | .x _ => xlen
  | .f _ => 64

/-- The gdb remote protocol's inverse of escaping: `}` is followed by the character xor 0x20. -/
def unescape : List Char → List Char
  | '}' :: c :: cs => Char.ofNat (c.toNat ^^^ 0x20) :: unescape cs
  | c :: cs => c :: unescape cs
  | [] => []

end Verif.DebugReg.Spec
