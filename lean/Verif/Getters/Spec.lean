import Verif.Getters.Model

/-!
# The operands of the RISC-V instruction formats

The bits each operand occupies, from the instruction set manual: chapter 2 (base
formats), chapter 27 (compressed formats), the vector extension (section 5) and
the code size extensions.  Nothing here refers to the simulator's format files.
-/

namespace Verif.Getters.Spec

/-- The word bits `hi, hi-1, …, lo` of a list of ranges, most significant
first. -/
def positions : List (Nat × Nat) → List Nat
  | [] => []
  | (hi, lo) :: rest => (List.range (hi + 1 - lo)).map (hi - ·) ++ positions rest

/-- The number whose binary digits, most significant first, are the given bits
of the word. -/
def unsigned (w : Nat) : List Nat → Nat
  | [] => 0
  | p :: ps => (if w.testBit p then 2 ^ ps.length else 0) + unsigned w ps

/-- The same in two's complement: the first bit counts negative. -/
def signed (w : Nat) : List Nat → Int
  | [] => 0
  | p :: ps => (if w.testBit p then -2 ^ ps.length else 0) + (unsigned w ps : Int)

/-- What an operand is. -/
inductive Meaning where
  /-- a signed number: the bits, times a power of two -/
  | simm (bits : List (Nat × Nat)) (scale : Nat)
  /-- an unsigned number -/
  | uimm (bits : List (Nat × Nat)) (scale : Nat)
  /-- the integer register with that number -/
  | x (bits : List (Nat × Nat))
  /-- one of the eight registers `x8` … `x15` -/
  | x3 (bits : List (Nat × Nat))
  /-- the floating-point register with that number -/
  | f (bits : List (Nat × Nat))
  /-- one of `f8` … `f15` -/
  | f3 (bits : List (Nat × Nat))
  /-- a vector register group -/
  | v (bits : List (Nat × Nat))
  /-- one of `s0` … `s7` -/
  | s (bits : List (Nat × Nat))
  /-- every element enabled if the bit is one, `v0` otherwise -/
  | mask (bit : Nat)
  /-- every element enabled -/
  | always
  /-- a fixed number -/
  | lit (n : Nat)
  /-- a fixed integer register -/
  | reg (n : Nat)

/-- The integer registers called `s0` … `s7`. -/
def sreg (n : Nat) : Nat := if n < 2 then 8 + n else 16 + n

/-- Source operands by the name they have in the instruction descriptions. -/
def source : Opd → Option Meaning
  -- base formats
  | .Rs1 => some (.x [(19, 15)])
  | .Rs2 => some (.x [(24, 20)])
  | .Rd => some (.x [(11, 7)])
  | .Frs1 | .Drs1 | .Fs1 => some (.f [(19, 15)])
  | .Frs2 | .Drs2 => some (.f [(24, 20)])
  | .Frs3 | .Drs3 => some (.f [(31, 27)])
  | .IImm12 | .JImm12 => some (.simm [(31, 20)] 1)
  | .SImm12 => some (.simm [(31, 25), (11, 7)] 1)
  | .BImm12 => some (.simm [(31, 31), (7, 7), (30, 25), (11, 8)] 2)
  | .UImm20 => some (.simm [(31, 12)] 4096)
  | .JImm20 => some (.simm [(31, 31), (19, 12), (20, 20), (30, 21)] 2)
  | .IUimm5 | .RUimm5 => some (.uimm [(24, 20)] 1)
  | .IUimm6 | .RUimm6 => some (.uimm [(25, 20)] 1)
  | .Csr => some (.uimm [(31, 20)] 1)
  | .CSRUimm5 => some (.uimm [(19, 15)] 1)
  | .Pred => some (.uimm [(27, 24)] 1)
  | .Succ => some (.uimm [(23, 20)] 1)
  | .AAq => some (.uimm [(26, 26)] 1)
  | .ARl => some (.uimm [(25, 25)] 1)
  | .Rm => some (.uimm [(14, 12)] 1)
  -- compressed formats
  | .Crs1 | .Crd => some (.x [(11, 7)])
  | .Crs2 => some (.x [(6, 2)])
  | .Cdrs2 | .Cfrs2 => some (.f [(6, 2)])
  | .C3rs1 => some (.x3 [(9, 7)])
  | .C3rs2 => some (.x3 [(4, 2)])
  | .C3drs2 | .C3frs2 => some (.f3 [(4, 2)])
  | .ICiImm6 => some (.simm [(12, 12), (6, 2)] 1)
  | .ICiUimm6 => some (.uimm [(12, 12), (6, 2)] 1)
  | .ICiImm612 => some (.simm [(12, 12), (6, 2)] 4096)
  | .ICiImm6x16 => some (.simm [(12, 12), (4, 3), (5, 5), (2, 2), (6, 6)] 16)
  | .ICiUimm6x4 => some (.uimm [(3, 2), (12, 12), (6, 4)] 4)
  | .ICiUimm6x8 => some (.uimm [(4, 2), (12, 12), (6, 5)] 8)
  | .ICssUimm6x4 => some (.uimm [(8, 7), (12, 9)] 4)
  | .ICssUimm6x8 => some (.uimm [(9, 7), (12, 10)] 8)
  | .ICiwUimm8x4 => some (.uimm [(10, 7), (12, 11), (5, 5), (6, 6)] 4)
  | .IClUimm5x4 => some (.uimm [(5, 5), (12, 10), (6, 6)] 4)
  | .IClUimm5x8 => some (.uimm [(6, 5), (12, 10)] 8)
  | .ICbImm8 => some (.simm [(12, 12), (6, 5), (2, 2), (11, 10), (4, 3)] 2)
  | .ICjImm11 =>
    some (.simm [(12, 12), (8, 8), (10, 9), (6, 6), (7, 7), (2, 2), (11, 11), (5, 3)] 2)
  | .X0 => some (.lit 0)
  | .X2 => some (.reg 2)
  | .X10 => some (.reg 10)
  | .X11 => some (.reg 11)
  -- code size extensions
  | .Uimm2b => some (.uimm [(5, 5), (6, 6)] 1)
  | .Uimm2h => some (.uimm [(5, 5)] 2)
  | .Rlist => some (.uimm [(7, 4)] 1)
  | .Spimm => some (.uimm [(3, 2)] 1)
  | .Sreg1 => some (.s [(9, 7)])
  | .Sreg2 => some (.s [(4, 2)])
  -- vector extension
  | .Vs1 => some (.v [(19, 15)])
  | .Vs2 => some (.v [(24, 20)])
  | .Vs3 | .Vd => some (.v [(11, 7)])
  | .Vm => some (.uimm [(25, 25)] 1)
  | .Vmask => some (.mask 25)
  | .VmaskTrue => some .always
  | .Simm5 => some (.simm [(19, 15)] 1)
  | .Uimm5 => some (.uimm [(19, 15)] 1)
  | .Uimm6 => some (.uimm [(26, 26), (19, 15)] 1)
  | .Zimm10 => some (.uimm [(29, 20)] 1)
  | .Zimm11 => some (.uimm [(30, 20)] 1)
  | .Nf => some (.uimm [(31, 29)] 1)
  | .Const1 => some (.lit 1)
  | .Const2 => some (.lit 2)
  | .Const3 => some (.lit 3)
  | .Const4 => some (.lit 4)
  | .Const8 => some (.lit 8)
  | _ => none

/-- Destination operands.  The CSR, the program counter and the accrued flags
are not named by bits of the instruction word. -/
def dest : Opd → Option Meaning
  | .Rd => some (.x [(11, 7)])
  | .Frd | .Drd | .Fd => some (.f [(11, 7)])
  | .C3rd | .C3rs2 => some (.x3 [(4, 2)])
  | .C3rs1 => some (.x3 [(9, 7)])
  | .C3frd | .C3drd => some (.f3 [(4, 2)])
  | .Vd => some (.v [(11, 7)])
  | .Sreg1 => some (.s [(9, 7)])
  | .Sreg2 => some (.s [(4, 2)])
  | .X0 => some (.reg 0)
  | .X1 => some (.reg 1)
  | .X2 => some (.reg 2)
  | .X10 => some (.reg 10)
  | .X11 => some (.reg 11)
  | _ => none

/-- The registers given for a vector operand `n` hold every group that may
start there: `m` registers for every group size `m` dividing `n`; and there are
only 32. -/
def Group (n : Nat) (o : Val) : Prop :=
  ∃ count, o = .v n count ∧ (∀ m, m = 1 ∨ m = 2 ∨ m = 4 ∨ m = 8 → n % m = 0 → m ≤ count) ∧
    n + count ≤ 32

/-- A source operand `o` is what the bits of `w` say.  Integer register 0 may be
given as the number zero. -/
def Reads (w : Nat) (o : Val) : Meaning → Prop
  | .simm b k => o = .number (signed w (positions b) * k)
  | .uimm b k => o = .number ((unsigned w (positions b) : Int) * k)
  | .x b => o = .x (unsigned w (positions b)) ∨
      (unsigned w (positions b) = 0 ∧ o = .number 0)
  | .x3 b => o = .x (8 + unsigned w (positions b))
  | .f b => o = .f (unsigned w (positions b))
  | .f3 b => o = .f (8 + unsigned w (positions b))
  | .v b => Group (unsigned w (positions b)) o
  | .s b => o = .x (sreg (unsigned w (positions b)))
  | .mask b => o = if w.testBit b then .allTrue else .v 0 1
  | .always => o = .allTrue
  | .lit n => o = .number n
  | .reg n => o = .x n

/-- A destination operand is what the bits of `w` say.  What is written to
integer register 0 is dropped. -/
def Writes (w : Nat) (o : Val) : Meaning → Prop
  | .x b => o = if unsigned w (positions b) = 0 then .discard else .x (unsigned w (positions b))
  | .reg n => o = if n = 0 then .discard else .x n
  | m => Reads w o m

end Verif.Getters.Spec
