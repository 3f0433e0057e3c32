import Verif.Exec.Names
import Verif.Exec.Spec
import Verif.Operands.Model
import Verif.Bitmanip.Model
import Verif.Getters.Model
import Verif.Decode.Decoders
import Verif.Decode.Modules

/-!
# From an instruction word to its effect

The decoder finds an entry that matches the word (`Decode`); the opcode of the entry selects an
instruction description, which lists operands and names a semantic function (`Operands`); the
encoding class makes the operands from the word (`Getters`); the semantic function reads its
operands by position and acts on the state (`Alu`, `MulDiv`, `Control`, `Mem`).  Here the parts are
put together for the base integer instructions and M, as one turn of the loop of `RiscVTop`.

The glue (`GetInstructionSource`, the generated decoder, the instruction object) is mpact-sim's and
is assumed to do as documented there.
-/

namespace Verif.Exec

open Decode Decode.Isa Core Operands

/-- The simulated cores that have a decoder of their own. -/
inductive Sim where
  | rv32g | rv32gzb | rv32gv | rv32gvzb | rv64g | rv64gzb | rv64gv | rv64gvzb
  deriving DecidableEq, Repr

/-- The decoder of 32-bit words. -/
def Sim.decoder : Sim → Decoder
  | .rv32g => .rv32g_32
  | .rv32gzb => .rv32gzb_32
  | .rv32gv => .rv32gv_32
  | .rv32gvzb => .rv32gvzb_32
  | .rv64g => .rv64g_32
  | .rv64gzb => .rv64gzb_32
  | .rv64gv => .rv64gv_32
  | .rv64gvzb => .rv64gvzb_32

/-- The decoder of 16-bit words. -/
def Sim.decoder16 : Sim → Decoder
  | .rv32g => .rv32g_16
  | .rv32gzb => .rv32gzb_16
  | .rv32gv => .rv32gv_16
  | .rv32gvzb => .rv32gvzb_16
  | .rv64g => .rv64g_16
  | .rv64gzb => .rv64gzb_16
  | .rv64gv => .rv64gv_16
  | .rv64gvzb => .rv64gvzb_16

/-- The instruction descriptions (riscv32_decoder.cc, riscv32g_vec_decoder.cc,
riscv32gzb_vec_decoder.cc, riscv32zb_decoder.cc and the 64-bit ones: the generated `InstructionSet`
each of them creates). -/
def Sim.isa : Sim → Operands.Isa
  | .rv32g => .riscv32g
  | .rv32gzb => .riscv32gzb
  | .rv32gv => .riscv32gv
  | .rv32gvzb => .riscv32gvzb
  | .rv64g => .riscv64g
  | .rv64gzb => .riscv64gzb
  | .rv64gv => .riscv64gv
  | .rv64gvzb => .riscv64gvzb

/-- The register width. -/
def Sim.xlen (s : Sim) : Xlen := s.decoder.xlen

/-- The getters of source and destination operands. -/
def Sim.source (s : Sim) (o : Getters.Opd) : Option Getters.What :=
  s.isa.enc.bind fun e => e.source o

def Sim.dest (s : Sim) (o : Getters.Opd) : Option Getters.What :=
  s.isa.enc.bind fun e => e.dest o

/-- What a semantic function does. -/
inductive Sem where
  | nop
  | alu (o : Alu.Op)
  | aluW (o : Alu.OpW)
  | mul (o : MulDiv.Op)
  | mulW (o : MulDiv.OpW)
  | lui
  | auipc
  | jal
  | jalr
  | branch (k : Control.Cond)
  | load (sz : Mem.Size)
  | child (sz : Mem.Size) (sgn : Bool)
  | store (sz : Mem.Size)
  | shAdd
  | shAddUw
  | bit (o : Bitmanip.Bin)
  | bitUn (o : Bitmanip.Un)
  | bitW (o : Bitmanip.BinW)
  | bitUnW (o : Bitmanip.UnW)
  deriving DecidableEq, Repr

/-- The functions of Zba, Zbb, Zbc and Zbs of RV32 (riscv_bitmanip_instructions.cc:42-247). -/
def fnsB32 : List (String × Sem) :=
  [("RV32::RiscVShAdd", .shAdd),
   ("RV32::RiscVAndn", .bit .andn),
   ("RV32::RiscVOrn", .bit .orn),
   ("RV32::RiscVXnor", .bit .xnor),
   ("RV32::RiscVClz", .bitUn .clz),
   ("RV32::RiscVCtz", .bitUn .ctz),
   ("RV32::RiscVCpop", .bitUn .cpop),
   ("RV32::RiscVMax", .bit .max),
   ("RV32::RiscVMaxu", .bit .maxu),
   ("RV32::RiscVMin", .bit .min),
   ("RV32::RiscVMinu", .bit .minu),
   ("RV32::RiscVSextB", .bitUn .sextB),
   ("RV32::RiscVSextH", .bitUn .sextH),
   ("RV32::RiscVZextH", .bitUn .zextH),
   ("RV32::RiscVRol", .bit .rol),
   ("RV32::RiscVRor", .bit .ror),
   ("RV32::RiscVOrcb", .bitUn .orcb),
   ("RV32::RiscVRev8", .bitUn .rev8),
   ("RV32::RiscVClmul", .bit .clmul),
   ("RV32::RiscVClmulh", .bit .clmulh),
   ("RV32::RiscVClmulr", .bit .clmulr),
   ("RV32::RiscVBclr", .bit .bclr),
   ("RV32::RiscVBext", .bit .bext),
   ("RV32::RiscVBinv", .bit .binv),
   ("RV32::RiscVBset", .bit .bset)]

/-- The same of RV64 (riscv_bitmanip_instructions.cc:266-527). -/
def fnsB64 : List (String × Sem) :=
  [("RV64::RiscVShAdd", .shAdd),
   ("RV64::RiscVAndn", .bit .andn),
   ("RV64::RiscVOrn", .bit .orn),
   ("RV64::RiscVXnor", .bit .xnor),
   ("RV64::RiscVClz", .bitUn .clz),
   ("RV64::RiscVCtz", .bitUn .ctz),
   ("RV64::RiscVCpop", .bitUn .cpop),
   ("RV64::RiscVMax", .bit .max),
   ("RV64::RiscVMaxu", .bit .maxu),
   ("RV64::RiscVMin", .bit .min),
   ("RV64::RiscVMinu", .bit .minu),
   ("RV64::RiscVSextB", .bitUn .sextB),
   ("RV64::RiscVSextH", .bitUn .sextH),
   ("RV64::RiscVZextH", .bitUn .zextH),
   ("RV64::RiscVRol", .bit .rol),
   ("RV64::RiscVRor", .bit .ror),
   ("RV64::RiscVOrcb", .bitUn .orcb),
   ("RV64::RiscVRev8", .bitUn .rev8),
   ("RV64::RiscVClmul", .bit .clmul),
   ("RV64::RiscVClmulh", .bit .clmulh),
   ("RV64::RiscVClmulr", .bit .clmulr),
   ("RV64::RiscVBclr", .bit .bclr),
   ("RV64::RiscVBext", .bit .bext),
   ("RV64::RiscVBinv", .bit .binv),
   ("RV64::RiscVBset", .bit .bset)]

/-- The functions of RV64 only (riscv_bitmanip_instructions.cc:259-286, 316-341, 403-435). -/
def fnsBW : List (String × Sem) :=
  [("RV64::RiscVAddUw", .bitW .addUw),
   ("RV64::RiscVShAddUw", .shAddUw),
   ("RV64::RiscVSlliUw", .bitW .slliUw),
   ("RV64::RiscVClzw", .bitUnW .clzw),
   ("RV64::RiscVCtzw", .bitUnW .ctzw),
   ("RV64::RiscVCpopw", .bitUnW .cpopw),
   ("RV64::RiscVRolw", .bitW .rolw),
   ("RV64::RiscVRorw", .bitW .rorw)]

/-- The semantic functions of RV32 (riscv_i_instructions.cc:69-183, 345-386, 429-477,
541-561; riscv_m_instructions.cc:33-105). -/
def fns32 : List (String × Sem) :=
  [("RiscVINop", .nop),
   ("RV32::RiscVIAdd", .alu .add),
   ("RV32::RiscVISub", .alu .sub),
   ("RV32::RiscVISlt", .alu .slt),
   ("RV32::RiscVISltu", .alu .sltu),
   ("RV32::RiscVIAnd", .alu .and),
   ("RV32::RiscVIOr", .alu .or),
   ("RV32::RiscVIXor", .alu .xor),
   ("RV32::RiscVISll", .alu .sll),
   ("RV32::RiscVISrl", .alu .srl),
   ("RV32::RiscVISra", .alu .sra),
   ("RV32::MMul", .mul .mul),
   ("RV32::MMulh", .mul .mulh),
   ("RV32::MMulhu", .mul .mulhu),
   ("RV32::MMulhsu", .mul .mulhsu),
   ("RV32::MDiv", .mul .div),
   ("RV32::MDivu", .mul .divu),
   ("RV32::MRem", .mul .rem),
   ("RV32::MRemu", .mul .remu),
   ("RV32::RiscVILui", .lui),
   ("RV32::RiscVIAuipc", .auipc),
   ("RV32::RiscVIJal", .jal),
   ("RV32::RiscVIJalr", .jalr),
   ("RV32::RiscVIBeq", .branch .eq),
   ("RV32::RiscVIBne", .branch .ne),
   ("RV32::RiscVIBlt", .branch .lt),
   ("RV32::RiscVIBltu", .branch .ltu),
   ("RV32::RiscVIBge", .branch .ge),
   ("RV32::RiscVIBgeu", .branch .geu),
   ("RV32::RiscVILb", .load .b),
   ("RV32::RiscVILbu", .load .b),
   ("RV32::RiscVILh", .load .h),
   ("RV32::RiscVILhu", .load .h),
   ("RV32::RiscVILw", .load .w),
   ("RV32::RiscVILbChild", .child .b true),
   ("RV32::RiscVILbuChild", .child .b false),
   ("RV32::RiscVILhChild", .child .h true),
   ("RV32::RiscVILhuChild", .child .h false),
   ("RV32::RiscVILwChild", .child .w true),
   ("RV32::RiscVISb", .store .b),
   ("RV32::RiscVISh", .store .h),
   ("RV32::RiscVISw", .store .w)]

/-- The semantic functions of RV64 (riscv_i_instructions.cc:185-345, 388-427, 479-539,
563-583; riscv_m_instructions.cc:107-241). -/
def fns64 : List (String × Sem) :=
  [("RiscVINop", .nop),
   ("RV64::RiscVIAdd", .alu .add),
   ("RV64::RiscVISub", .alu .sub),
   ("RV64::RiscVISlt", .alu .slt),
   ("RV64::RiscVISltu", .alu .sltu),
   ("RV64::RiscVIAnd", .alu .and),
   ("RV64::RiscVIOr", .alu .or),
   ("RV64::RiscVIXor", .alu .xor),
   ("RV64::RiscVISll", .alu .sll),
   ("RV64::RiscVISrl", .alu .srl),
   ("RV64::RiscVISra", .alu .sra),
   ("RV64::MMul", .mul .mul),
   ("RV64::MMulh", .mul .mulh),
   ("RV64::MMulhu", .mul .mulhu),
   ("RV64::MMulhsu", .mul .mulhsu),
   ("RV64::MDiv", .mul .div),
   ("RV64::MDivu", .mul .divu),
   ("RV64::MRem", .mul .rem),
   ("RV64::MRemu", .mul .remu),
   ("RV64::RiscVIAddw", .aluW .addw),
   ("RV64::RiscVISubw", .aluW .subw),
   ("RV64::RiscVISllw", .aluW .sllw),
   ("RV64::RiscVISrlw", .aluW .srlw),
   ("RV64::RiscVISraw", .aluW .sraw),
   ("RV64::MMulw", .mulW .mulw),
   ("RV64::MDivw", .mulW .divw),
   ("RV64::MDivuw", .mulW .divuw),
   ("RV64::MRemw", .mulW .remw),
   ("RV64::MRemuw", .mulW .remuw),
   ("RV64::RiscVILui", .lui),
   ("RV64::RiscVIAuipc", .auipc),
   ("RV64::RiscVIJal", .jal),
   ("RV64::RiscVIJalr", .jalr),
   ("RV64::RiscVIBeq", .branch .eq),
   ("RV64::RiscVIBne", .branch .ne),
   ("RV64::RiscVIBlt", .branch .lt),
   ("RV64::RiscVIBltu", .branch .ltu),
   ("RV64::RiscVIBge", .branch .ge),
   ("RV64::RiscVIBgeu", .branch .geu),
   ("RV64::RiscVILb", .load .b),
   ("RV64::RiscVILbu", .load .b),
   ("RV64::RiscVILh", .load .h),
   ("RV64::RiscVILhu", .load .h),
   ("RV64::RiscVILw", .load .w),
   ("RV64::RiscVILd", .load .d),
   ("RV64::RiscVILbChild", .child .b true),
   ("RV64::RiscVILbuChild", .child .b false),
   ("RV64::RiscVILhChild", .child .h true),
   ("RV64::RiscVILhuChild", .child .h false),
   ("RV64::RiscVILwChild", .child .w true),
   ("RV64::RiscVILwuChild", .child .w false),
   ("RV64::RiscVILdChild", .child .d true),
   ("RV64::RiscVISb", .store .b),
   ("RV64::RiscVISh", .store .h),
   ("RV64::RiscVISw", .store .w),
   ("RV64::RiscVISd", .store .d)]

/-- The semantic functions of the name space `RV32` or `RV64`. -/
def fns : Xlen → List (String × Sem)
  | .rv32 => fns32 ++ fnsB32
  | .rv64 => fns64 ++ fnsB64 ++ fnsBW

/-- The semantic function of that name. -/
def fn (x : Xlen) (name : String) : Option Sem :=
  ((fns x).find? fun p => p.1 == name).map fun p => p.2

/-- An instruction or the write-back part of a load: what it does and its operands. -/
structure Act where
  sem : Sem
  srcs : List Arg
  dsts : List Arg
  deriving DecidableEq, Repr

/-- The part of a description that is used when the instruction is carried out. -/
def act (x : Xlen) (p : Phase) : Option Act :=
  (p.fn.bind fun c => fn x c.name).map fun m => ⟨m, p.srcs, p.dsts⟩

/-- The parts of the instruction an opcode stands for. -/
def acts (s : Sim) (o : Op) : Option (List Act) :=
  (s.isa.instrs.find? fun i => i.name == opName o).bind fun i => i.phases.mapM (act s.xlen)

/-! ## Operands -/

variable {n : Nat}

/-- The value of a source operand as a semantic function gets it (`AsUint32`, `AsUint64`, … of
`ImmediateOperand` and `RegisterSourceOperand`, mpact-sim). -/
def get (c : Core n) : Getters.Val → Option (BitVec n)
  | .number z => some (BitVec.ofInt n z)
  | .x r => some (c.regs (BitVec.ofNat 5 r))
  | _ => none

/-- Operand `k` of an instruction. -/
def srcAt (s : Sim) (w : Nat) (c : Core n) (a : Act) (k : Nat) : Option (BitVec n) :=
  match a.srcs[k]? with
  | some (.one o) => (s.source o).bind fun g => get c (g.source w)
  | _ => none

/-- A destination. -/
inductive Dst where
  | pc
  | reg (r : Nat)
  | drop
  deriving DecidableEq, Repr

def dstAt (s : Sim) (w : Nat) (a : Act) (k : Nat) : Option Dst :=
  match a.dsts[k]? with
  | some (.one o) => (s.dest o).bind fun g =>
    match g, g.dest w with
    | .pc, _ => some .pc
    | _, .x r => some (.reg r)
    | _, .discard => some .drop
    | _, _ => none
  | _ => none

/-- A value written to a destination register (`RegisterDestinationOperand`). -/
def put (c : Core n) (d : Dst) (v : BitVec n) : Option (Core n) :=
  match d with
  | .reg r => some { c with regs := fun q => if q = BitVec.ofNat 5 r then v else c.regs q }
  | .drop => some c
  | .pc => none

/-! ## Semantic functions -/

/-- `a OP b` at the register width (riscv_i_instructions.cc:79-128, 196-260). -/
def aluOp (x : Xlen) (o : Alu.Op) : BitVec x.bits → BitVec x.bits → BitVec x.bits :=
  match x with
  | .rv32 => Alu.op32 o
  | .rv64 => Alu.op64 o

/-- riscv_m_instructions.cc:41-103, 117-191. -/
def mulOp (x : Xlen) (o : MulDiv.Op) : BitVec x.bits → BitVec x.bits → BitVec x.bits :=
  match x with
  | .rv32 => MulDiv.op32 o
  | .rv64 => MulDiv.op64 o

/-- riscv_bitmanip_instructions.cc:49-247, 293-527. -/
def bitOp (x : Xlen) (o : Bitmanip.Bin) : BitVec x.bits → BitVec x.bits → BitVec x.bits :=
  match x with
  | .rv32 => Bitmanip.bin32 o
  | .rv64 => Bitmanip.bin64 o

def bitUnOp (x : Xlen) (o : Bitmanip.Un) : BitVec x.bits → BitVec x.bits :=
  match x with
  | .rv32 => Bitmanip.un32 o
  | .rv64 => Bitmanip.un64 o

/-- The content of a destination register before the instruction, of which a function that stores
fewer bits keeps the rest. -/
def before (c : Core n) : Dst → BitVec n
  | .reg r => c.regs (BitVec.ofNat 5 r)
  | _ => 0#n

/-- riscv_i_instructions.cc:131-134, 286-292. -/
def luiOp (x : Xlen) (imm : BitVec x.bits) : BitVec x.bits :=
  match x with
  | .rv32 => Alu.lui32 (imm.setWidth 32)
  | .rv64 => Alu.lui64 (imm.setWidth 32)

/-- riscv_i_instructions.cc:139-144, 296-302. -/
def auipcOp (x : Xlen) (imm : BitVec x.bits) (addr : BitVec 64) : BitVec x.bits :=
  match x with
  | .rv32 => Alu.auipc32 (imm.setWidth 32) addr
  | .rv64 => Alu.auipc64 (imm.setWidth 32) addr

/-- The end of a jump: the link register, the program counter and the branch flag
(riscv_i_instructions.cc:154-162 and its copies). -/
def link (c : Core n) (target : BitVec n) (d₀ d₁ : Dst) (addr : BitVec 64) (size : Nat) :
    Option (Core n) :=
  match d₀ with
  | .pc => put { c with hart := { c.hart with pc := target, branch := true } } d₁
      ((addr + BitVec.ofNat 64 size).setWidth n)
  | _ => none

/-- An instruction with one part, at address `addr`, `size` bytes long; `none` is undefined
behaviour or an operand that does not exist. -/
def single (s : Sim) (w : Nat) (addr : BitVec 64) (size : Nat) (a : Act) (c : Core s.xlen.bits) :
    Option (Core s.xlen.bits) :=
  match a.sem with
  | .nop => some c
  | .alu o => do
    put c (← dstAt s w a 0) (aluOp s.xlen o (← srcAt s w c a 0) (← srcAt s w c a 1))
  | .mul o => do
    put c (← dstAt s w a 0) (mulOp s.xlen o (← srcAt s w c a 0) (← srcAt s w c a 1))
  | .aluW o => do
    let v ← Alu.opW o ((← srcAt s w c a 0).setWidth 64) ((← srcAt s w c a 1).setWidth 64)
    put c (← dstAt s w a 0) (v.setWidth s.xlen.bits)
  | .mulW o => do
    let v ← MulDiv.opW o ((← srcAt s w c a 0).setWidth 64) ((← srcAt s w c a 1).setWidth 64)
    put c (← dstAt s w a 0) (v.setWidth s.xlen.bits)
  | .lui => do put c (← dstAt s w a 0) (luiOp s.xlen (← srcAt s w c a 0))
  | .auipc => do put c (← dstAt s w a 0) (auipcOp s.xlen (← srcAt s w c a 0) addr)
  | .shAdd => do
    let u ← srcAt s w c a 0
    let v ← srcAt s w c a 1
    let k ← srcAt s w c a 2
    put c (← dstAt s w a 0) (v + (u <<< k.toNat))
  | .shAddUw => do
    let u ← srcAt s w c a 0
    let v ← srcAt s w c a 1
    let k ← srcAt s w c a 2
    put c (← dstAt s w a 0) (v + ((u &&& BitVec.ofNat _ 0xffffffff) <<< k.toNat))
  | .bit o => do
    put c (← dstAt s w a 0) (bitOp s.xlen o (← srcAt s w c a 0) (← srcAt s w c a 1))
  | .bitUn o => do
    put c (← dstAt s w a 0) (bitUnOp s.xlen o (← srcAt s w c a 0))
  | .bitW o => do
    let v := Bitmanip.binW o ((← srcAt s w c a 0).setWidth 64) ((← srcAt s w c a 1).setWidth 64)
    put c (← dstAt s w a 0) (v.setWidth s.xlen.bits)
  | .bitUnW o => do
    let d ← dstAt s w a 0
    let v := Bitmanip.unW o ((before c d).setWidth 64) ((← srcAt s w c a 0).setWidth 64)
    put c d (v.setWidth s.xlen.bits)
  | .jal => do
    let offset ← srcAt s w c a 0
    let target := ((offset.setWidth 64 + addr) &&& ~~~1#64).setWidth s.xlen.bits
    if Control.misaligned c target then
      some (raise c (target.setWidth 64) Control.kMisaligned addr false)
    else link c target (← dstAt s w a 0) (← dstAt s w a 1) addr size
  | .jalr => do
    let target := ((← srcAt s w c a 1) + (← srcAt s w c a 0)) &&& ~~~1#s.xlen.bits
    if Control.misaligned c target then
      some (raise c (target.setWidth 64) Control.kMisaligned addr false)
    else link c target (← dstAt s w a 0) (← dstAt s w a 1) addr size
  | .branch k => do
    if Control.cond k (← srcAt s w c a 0) (← srcAt s w c a 1) then
      let target := ((← srcAt s w c a 2).setWidth 64 + addr).setWidth s.xlen.bits
      if Control.misaligned c target then some (raise c addr Control.kMisaligned addr false)
      else match ← dstAt s w a 0 with
        | .pc => some { c with hart := { c.hart with pc := target, branch := true } }
        | _ => none
    else some c
  | .store sz => do
    let address := ((← srcAt s w c a 0) + (← srcAt s w c a 1)).setWidth 64
    some (Mem.store c address sz.bytes ((← srcAt s w c a 2).toNat % 2 ^ (8 * sz.bytes)) addr false)
  | .load _ | .child _ _ => none

/-- A load and its write-back part (`RVLoad`, `RVLoadChild`, riscv_instruction_helpers.h:374-409);
the latency of the data buffer is zero, so the write-back part runs at once. -/
def pair (s : Sim) (w : Nat) (addr : BitVec 64) (a b : Act) (c : Core s.xlen.bits) :
    Option (Core s.xlen.bits) :=
  match a.sem, b.sem with
  | .load sz, .child sz' sgn => do
    let address := ((← srcAt s w c a 0) + (← srcAt s w c a 1)).setWidth 64
    match Mem.load c address sz.bytes addr false with
    | .trapped c' => some c'
    | .value v => put c (← dstAt s w b 0) (Mem.extend s.xlen.bits sgn sz'.bytes v)
  | _, _ => none

/-- The instruction. -/
def carry (s : Sim) (w : Nat) (addr : BitVec 64) (size : Nat) (c : Core s.xlen.bits) :
    List Act → Option (Core s.xlen.bits)
  | [a] => single s w addr size a c
  | [a, b] => pair s w addr a b c
  | _ => none

/-- The end of a turn of the loop (riscv_top.cc:259, 282-288, and the same in 333, 356-362 and 435,
460-466), when no interrupt is available. -/
def next (c : Core n) (pc : BitVec 64) (size : Nat) : Core n :=
  if c.hart.branch then { c with hart := { c.hart with branch := false } }
  else { c with hart := { c.hart with pc := (pc + BitVec.ofNat 64 size).setWidth n } }

/-- One turn, with the word at the program counter decoded as entry `i`. -/
def turn (s : Sim) (i : Inst) (w : Nat) (size : Nat) (c : Core s.xlen.bits) :
    Option (Core s.xlen.bits) :=
  let pc : BitVec 64 := c.hart.pc.setWidth 64
  (acts s i.op).bind fun as => (carry s w pc size c as).map fun c' => next c' pc size

/-- The word at the program counter, as the decoders read it (`Fetch`). -/
def wordAt (c : Core n) : Nat := readLE c.mem (c.hart.pc.setWidth 64) 4

/-- The entry of the decoder that `ParseInstruction` finds, and the size of the instruction: the two
low bits of the word select the decoder (riscv32g_encoding.cc:482-492 and the same in the other
encoding classes); the instructions of the 16-bit slots have size 2 (riscv32g.isa, riscv64g.isa).  If
several entries match, any of them may be used. -/
def Finds (s : Sim) (w : Nat) (i : Inst) (size : Nat) : Prop :=
  if w &&& 3 = 3 then i ∈ s.decoder.insts ∧ i.matches w = true ∧ size = 4
  else i ∈ s.decoder16.insts ∧ i.matches (w &&& 0xffff) = true ∧ size = 2

/-- One turn of the simulator. -/
def Turn (s : Sim) (c c' : Core s.xlen.bits) : Prop :=
  ∃ i size, Finds s (wordAt c) i size ∧ turn s i (wordAt c) size c = some c'

end Verif.Exec
