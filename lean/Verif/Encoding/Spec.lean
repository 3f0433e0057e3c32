import Verif.Encoding.Model

/-!
# What operand encoding has to do
-/

namespace Verif.Encoding.Spec

open BinFmt

/-- A value a field can hold: some word shows it. -/
def Representable (f : Format) (n : Fld) (v : Int) : Prop :=
  ∃ w bs, f.bits n = some bs ∧ extract (f.isSigned n) bs w = v

/-- The field or overlay names of a format. -/
def names (f : Format) : List Fld := f.fields.map (·.name) ++ f.overlays.map (·.name)

/-- ABI names of the integer registers, by number (RISC-V psABI). -/
def abiX : List String :=
  ["zero", "ra", "sp", "gp", "tp", "t0", "t1", "t2", "s0", "s1"] ++
  ["a0", "a1", "a2", "a3", "a4", "a5", "a6", "a7"] ++
  ["s2", "s3", "s4", "s5", "s6", "s7", "s8", "s9", "s10", "s11", "t3", "t4", "t5", "t6"]

/-- ABI names of the floating-point registers without their leading letter. -/
def abiF : List String :=
  ["t0", "t1", "t2", "t3", "t4", "t5", "t6", "t7", "s0", "s1"] ++
  ["a0", "a1", "a2", "a3", "a4", "a5", "a6", "a7"] ++
  ["s2", "s3", "s4", "s5", "s6", "s7", "s8", "s9", "s10", "s11", "t8", "t9", "t10", "t11"]

/-- Kinds of register names. -/
inductive Class where
  | x | f | d | csr | aq | rl
  deriving DecidableEq, Repr

/-- `base`, `base+1`, … -/
def family (pre post : String) (lo n base : Nat) : List (String × Nat) :=
  (List.range n).map fun i => (pre ++ toString (lo + i) ++ post, base + i)

/-- The CSR addresses of the privileged architecture. -/
def csrs : List (String × Nat) :=
  [("fflags", 1), ("frm", 2), ("fcsr", 3), ("cycle", 0xc00), ("time", 0xc01), ("instret", 0xc02),
   ("cycleh", 0xc80), ("timeh", 0xc81), ("instreth", 0xc82),
   ("sstatus", 0x100), ("sie", 0x104), ("stvec", 0x105), ("scounteren", 0x106),
   ("senvcfg", 0x10a), ("scountinhibit", 0x120), ("sscratch", 0x140), ("sepc", 0x141),
   ("scause", 0x142), ("stval", 0x143), ("sip", 0x144), ("scountovf", 0xda0), ("satp", 0x180),
   ("scontext", 0x5a8),
   ("hstatus", 0x600), ("hedeleg", 0x602), ("hideleg", 0x603), ("hie", 0x604),
   ("hcounteren", 0x606), ("hgeie", 0x607), ("hedelegh", 0x612), ("htval", 0x643),
   ("hip", 0x644), ("hvip", 0x645), ("htinst", 0x64a), ("hgeip", 0xe12), ("henvcfg", 0x60a),
   ("henvcfgh", 0x61a), ("hgatp", 0x680), ("hcontext", 0x6a8), ("htimedelta", 0x605),
   ("htimedeltah", 0x615),
   ("vsstatus", 0x200), ("vsie", 0x204), ("vstvec", 0x205), ("vsscratch", 0x240),
   ("vsepc", 0x241), ("vscause", 0x242), ("vstval", 0x243), ("vsip", 0x244), ("vsatp", 0x280),
   ("mvendorid", 0xf11), ("marchid", 0xf12), ("mimpid", 0xf13), ("mhartid", 0xf14),
   ("mconfigptr", 0xf15), ("mstatus", 0x300), ("misa", 0x301), ("medeleg", 0x302),
   ("mideleg", 0x303), ("mie", 0x304), ("mtvec", 0x305), ("mcounteren", 0x306),
   ("mstatush", 0x310), ("medelegh", 0x312), ("mscratch", 0x340), ("mepc", 0x341),
   ("mcause", 0x342), ("mtval", 0x343), ("mip", 0x344), ("mtinst", 0x34a), ("mtval2", 0x34b),
   ("menvcfg", 0x30a), ("menvcfgh", 0x31a), ("mseccfg", 0x747), ("mseccfgh", 0x757),
   ("mnscratch", 0x740), ("mnepc", 0x741), ("mncause", 0x742), ("mnstatus", 0x744),
   ("mcycle", 0xb00), ("minstret", 0xb02), ("mcycleh", 0xb80), ("minstreth", 0xb82),
   ("mcountinhibit", 0x320)] ++
  family "hpmcounter" "" 3 29 0xc03 ++ family "hpmcounter" "h" 3 29 0xc83 ++
  family "sstateen" "" 0 4 0x10c ++ family "hstateen" "" 0 4 0x60c ++
  family "hstateen" "h" 0 4 0x61c ++ family "mstateen" "" 0 4 0x30c ++
  family "mstateen" "h" 0 4 0x31c ++ family "pmpcfg" "" 0 16 0x3a0 ++
  family "pmpaddr" "" 0 64 0x3b0 ++ family "mhpmcounter" "" 3 29 0xb03 ++
  family "mhpmcounter" "h" 3 29 0xb83 ++ family "mhpmevent" "" 3 29 0x323 ++
  family "mhpmevent" "h" 3 29 0x723

/-- `s` is a name of number `n`: the letter followed by the number, or the ABI
name.  The simulator spells double precision registers with the letter `d`. -/
def Named : Class → String → Nat → Prop
  | .x, s, n => n < 32 ∧ (s = "x" ++ toString n ∨ abiX[n]? = some s)
  | .f, s, n => n < 32 ∧ (s = "f" ++ toString n ∨ abiF[n]?.map ("f" ++ ·) = some s)
  | .d, s, n => n < 32 ∧ (s = "d" ++ toString n ∨ abiF[n]?.map ("d" ++ ·) = some s)
  | .csr, s, n => csrs.lookup s = some n
  | .aq, s, n => (s = "" ∧ n = 0) ∨ (s = ".aq" ∧ n = 1)
  | .rl, s, n => (s = "" ∧ n = 0) ∨ (s = ".rl" ∧ n = 1)

instance (c : Class) (s : String) (n : Nat) : Decidable (Named c s n) := by
  cases c <;> unfold Named <;> infer_instance

/-- What an operand stands for: a named thing, a number, or a branch target
given by its address. -/
inductive Kind where
  | named (c : Class)
  | number
  | target
  deriving DecidableEq, Repr

/-- The kind of each operand, from the assembly syntax. -/
def kind : Operand → Kind
  | .src .AAq => .named .aq
  | .src .ARl => .named .rl
  | .src .BImm12 | .src .ICbImm8 | .src .ICjImm11 | .src .JImm20 => .target
  | .src .C3drs2 | .src .Cdrs2 | .src .Drs1 | .src .Drs2 | .src .Drs3 => .named .d
  | .src .C3rs1 | .src .C3rs2 | .src .Crs1 | .src .Crs2 | .src .Rd | .src .Rs1 | .src .Rs2 =>
    .named .x
  | .src .Csr => .named .csr
  | .src .Frs1 | .src .Frs2 | .src .Frs3 => .named .f
  | .dst .C3drd | .dst .Drd => .named .d
  | .dst .C3rd | .dst .C3rs1 | .dst .Rd => .named .x
  | .dst .Csr => .named .csr
  | .dst .Frd => .named .f
  | _ => .number

/-- The number written by a text. -/
def written : Text → Option Int
  | .hex n => some n
  | .dec i => some i
  | .symbol a => some a.toNat
  | .name _ => none

/-- The value an operand text stands for in an instruction at `address`: the
register or CSR named, the number written, or the distance to the target. -/
def Means (o : Operand) (address : BitVec 64) (t : Text) (v : Int) : Prop :=
  match kind o with
  | .named c => ∃ s n, t = .name s ∧ Named c s n ∧ v = (n : Int)
  | .number => written t = some v
  | .target => ∃ a, written t = some a ∧ v = a - address.toNat

/-- Two 32 bit values are the same up to the choice of signed or unsigned
reading. -/
def Same32 (a b : Int) : Prop := a % 2 ^ 32 = b % 2 ^ 32

end Verif.Encoding.Spec
