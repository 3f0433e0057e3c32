import Verif.Csr.Model
import Verif.Regs.Model
/-
Model of register access by debuggers: by name (`RiscVTop::ReadRegister`, `WriteRegister`,
riscv/riscv_top.cc), the names the simulators register (rv32g_sim.cc and alike), and by number
(riscv/riscv_debug_info.{h,cc}, riscv/riscv_gdb_debug_info.{h,cc}).

Simplified: control and status registers are those of the plain class (`Csr.SimpleCsr`); the
classes with side effects are modelled elsewhere. Vector registers, whose size is not 1, 2, 4
or 8 bytes, are refused by `ReadRegister` and `WriteRegister` and appear only as names.
-/
namespace Verif.DebugReg

/-- A register object of the hart. -/
inductive Slot where
  | x (n : BitVec 5)
  | f (n : BitVec 5)
  | pc
deriving DecidableEq, Repr

/-- `kXRegisterAliases` (riscv_register_aliases.h:22-25). -/
def xAliases : List String :=
  ["zero", "ra", "sp", "gp", "tp",  "t0",  "t1", "t2", "s0", "s1", "a0",
   "a1",   "a2", "a3", "a4", "a5",  "a6",  "a7", "s2", "s3", "s4", "s5",
   "s6",   "s7", "s8", "s9", "s10", "s11", "t3", "t4", "t5", "t6"]

/-- `kFRegisterAliases` (riscv_register_aliases.h:26-30). -/
def fAliases : List String :=
  ["ft0", "ft1", "ft2",  "ft3",  "ft4", "ft5", "ft6",  "ft7",
   "fs0", "fs1", "fa0",  "fa1",  "fa2", "fa3", "fa4",  "fa5",
   "fa6", "fa7", "fs2",  "fs3",  "fs4", "fs5", "fs6",  "fs7",
   "fs8", "fs9", "fs10", "fs11", "ft8", "ft9", "ft10", "ft11"]

/-- The register map after the set-up loops (rv32g_sim.cc:299-312, rv64g_sim.cc:263-276,
riscv_renode.cc:107-132); `pc` is created by the state's constructor (riscv_state.cc:454,465).
-/
def registers : List (String × Slot) :=
  ("pc", .pc) ::
  ((List.range 32).flatMap fun i =>
    [("x" ++ toString i, Slot.x (BitVec.ofNat 5 i)),
     (xAliases.getD i "", Slot.x (BitVec.ofNat 5 i))]) ++
  ((List.range 32).flatMap fun i =>
    [("f" ++ toString i, Slot.f (BitVec.ofNat 5 i)),
     (fAliases.getD i "", Slot.f (BitVec.ofNat 5 i))])

/-- `registers()->find(name)`. -/
def find (name : String) : Option Slot := registers.lookup name

/-- The width of a register's data buffer: `RV32Register`, `RV64Register`, `RVFpRegister`
(riscv_register.h). -/
def bits (w : Nat) : Slot → Nat
  | .x _ => w
  | .pc => w
  | .f _ => 64

/-- The part of the simulator these functions work on. A slot holds its value in the low
`bits w s` bits. -/
structure Top (w : Nat) where
  halted : Bool
  slots : Slot → BitVec 64
  csrs : String → Option (Csr.SimpleCsr w)
  traceHead : BitVec 64
  traceSize : BitVec 64

inductive Err where
  | notFound | notHalted | invalid
deriving DecidableEq, Repr

variable {w : Nat}

/-- `ReadRegister` (riscv_top.cc:523-567). -/
def readRegister (t : Top w) (name : String) : Except Err (BitVec 64) :=
  match find name with
  | some s => .ok ((t.slots s).setWidth (bits w s) |>.setWidth 64)
  | none =>
    match t.csrs name with
    | some c => .ok (if w = 32 then (c.get 32).setWidth 64 else c.get 64)
    | none =>
      if name = "$branch_trace_head" then .ok t.traceHead
      else if name = "$branch_trace_size" then .ok t.traceSize
      else .error .notFound

/-- `WriteRegister` (riscv_top.cc:569-624), without the halt reason. Of resizing the branch
trace (883-919, modelled in full for C55) only the size and the head are kept; it is refused
unless exactly one bit of the size is set. -/
def writeRegister (t : Top w) (name : String) (v : BitVec 64) : Except Err (Top w) :=
  if !t.halted then .error .notHalted
  else
    match find name with
    | some s =>
      .ok { t with slots := fun r =>
              if r = s then (v.setWidth (bits w s)).setWidth 64 else t.slots r }
    | none =>
      match t.csrs name with
      | some c =>
        let c' := if w = 32 then c.set (v.setWidth 32) else c.set v
        .ok { t with csrs := fun n => if n = name then some c' else t.csrs n }
      | none =>
        if name = "$branch_trace_size" then
          if v ≠ 0 ∧ v &&& (v - 1) = 0 then .ok { t with traceSize := v, traceHead := v - 1 }
          else .error .invalid
        else .error .notFound

/-- The integer registers as instructions see them (`Regs.read`): the same objects. -/
def file (t : Top w) : Regs.File w := fun r => (t.slots (.x r)).setWidth w

/-! ### Numbers -/

/-- The enumeration `DebugRegisterEnum` (riscv_debug_info.h:28-136): pc, then x, f and v
registers, with their numbers. -/
def enumeration : List (Nat × String) :=
  (0x07b1, "pc") ::
  ((List.range 32).map fun i => (0x1000 + i, "x" ++ toString i)) ++
  ((List.range 32).map fun i => (0x1020 + i, "f" ++ toString i)) ++
  ((List.range 32).map fun i => (0x1020 + i, "v" ++ toString i))

/-- `debug_register_map_` (riscv_debug_info.cc:126-222): a hash map initialised from the list
above; the first of two entries with the same key stays. -/
def debugName (n : Nat) : Option String := enumeration.lookup n

/-- The number of a register in the enumeration `RiscVGdbRegisterEnum`
(riscv_gdb_debug_info.h:30-145). -/
inductive GdbReg where
  | x (i : Nat) | pc | f (i : Nat) | fcsr | v (i : Nat)
  | vstart | vxsat | vxrm | vcsr | vl | vtype | vlenb
deriving DecidableEq, Repr

def GdbReg.number : GdbReg → Nat
  | .x i => i
  | .pc => 32
  | .f i => 33 + i
  | .fcsr => 65
  | .v i => 66 + i
  | .vstart => 98 | .vxsat => 99 | .vxrm => 100 | .vcsr => 101 | .vl => 102 | .vtype => 103
  | .vlenb => 104

/-- The entries of the gdb register map (riscv_gdb_debug_info.cc:80-108): number and register
name. -/
def gdbMap (fp vec : Bool) : List (Nat × GdbReg) :=
  [(GdbReg.pc.number, .pc)] ++
  ((List.range 32).map fun i => ((GdbReg.x i).number, .x i)) ++
  (if fp then ((List.range 32).map fun i => ((GdbReg.f i).number, .f i)) ++
      [(GdbReg.fcsr.number, .fcsr)] else []) ++
  (if vec then [.vstart, .vxsat, .vxrm, .vcsr, .vl, .vtype, .vlenb].map fun r =>
      ((r : GdbReg).number, r) else [])

/-- The registers of the target description in order (riscv_gdb_debug_info.cc:110-187).
`regnum` counts up from 0; the vector control registers carry no `regnum`, and then gdb gives
a register the number after that of the register before it. So the number is the position. -/
def targetXml (fp vec : Bool) : List GdbReg :=
  ((List.range 32).map GdbReg.x) ++ [.pc] ++
  (if fp then ((List.range 32).map GdbReg.f) ++ [.fcsr] else []) ++
  (if vec then ((List.range 32).map GdbReg.v) ++
      [.vstart, .vxsat, .vxrm, .vcsr, .vl, .vtype, .vlenb] else [])

/-- The bit size a register has in the target description. -/
def xmlBits (gpr fp vec : Nat) : GdbReg → Nat
  | .x _ => gpr
  | .pc => gpr
  | .f _ => fp
  | .v _ => vec
  | _ => 32

/-- `GetRegisterByteWidth` (riscv_gdb_debug_info.h:169-171). -/
def gdbByteWidth (gpr : Nat) (_ : Nat) : Nat := gpr / 8

/-- The widths an information object is for. -/
abbrev Widths := Nat × Nat × Nat

/-- Result of `Instance`: null, an object, or undefined behaviour. -/
inductive Inst where
  | null
  | obj (ws : Widths)
  | ub
deriving DecidableEq, Repr

/-- The widths `Instance` accepts (riscv_gdb_debug_info.cc:51-56). -/
def validWidths (ws : Widths) : Bool :=
  (ws.1 == 32 || ws.1 == 64) && (ws.2.1 == 0 || ws.2.1 == 32 || ws.2.1 == 64) &&
    (ws.2.2 == 0 || ws.2.2 == 128 || ws.2.2 == 256 || ws.2.2 == 512 || ws.2.2 == 1024)

/-- The key, `gpr | fp << 16 | vec << 24` in `int` (riscv_gdb_debug_info.cc:57); shifting left
a value of `int` whose result does not fit `unsigned int` is undefined. The three parts do not
overlap. -/
def key (ws : Widths) : Option Nat :=
  if 2 ^ 32 ≤ ws.2.2 * 2 ^ 24 then none else some (ws.1 ||| (ws.2.1 <<< 16) ||| (ws.2.2 <<< 24))

/-- `Instance` (riscv_gdb_debug_info.cc:47-66) on the static instance map. -/
def instance_ (m : List (Nat × Widths)) (ws : Widths) : Inst × List (Nat × Widths) :=
  if !validWidths ws then (.null, m)
  else
    match key ws with
    | none => (.ub, m)
    | some k =>
      match m.lookup k with
      | some o => (.obj o, m)
      | none => (.obj ws, (k, ws) :: m)

/-- The instance map after calls with the widths given. -/
def afterCalls (calls : List Widths) : List (Nat × Widths) :=
  calls.foldl (fun m ws => (instance_ m ws).2) []

/-- `EscapeString` (riscv_gdb_debug_info.cc:27-39). -/
def escape : List Char → List Char
  | [] => []
  | c :: cs =>
    if c = '$' ∨ c = '#' ∨ c = '*' ∨ c = '}' then
      '}' :: Char.ofNat (c.toNat ^^^ 0x20) :: escape cs
    else c :: escape cs

end Verif.DebugReg
