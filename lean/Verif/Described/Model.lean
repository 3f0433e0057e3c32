import Verif.Described.Spec

/-!
# The descriptions, by group

The slots of the `.isa` files (see `Operands.Tables`), and the groups each
instruction set is made of.
-/

namespace Verif.Described

open Operands Spec

/-- The instructions of a slot: riscv32g.isa, riscv64g.isa, riscv32zb.isa,
riscv64zb.isa, riscv_zicond.isa, riscv_zfh.isa, riscv_zc.isa, riscv_vector.isa,
riscv_zvbb.isa. -/
def _root_.Verif.Described.Spec.Group.instrs : Group → List Instr
  | .i32 => slot_riscv32i | .c32 => slot_riscv32c | .chints32 => slot_riscv32chints
  | .m32 => slot_riscv32m | .a32 => slot_riscv32_amo_arithmetic | .f32 => slot_riscv32f
  | .d32 => slot_riscv32d | .hints32 => slot_riscv32_hints | .zicsr32 => slot_zicsr
  | .zfencei32 => slot_zfencei | .privileged32 => slot_privileged
  | .zba32 => slot_riscv32_zba | .zbb32 => slot_riscv32_zbb | .zbbImm32 => slot_riscv32_zbb_imm
  | .zbc32 => slot_riscv32_zbc | .zbs32 => slot_riscv32_zbs | .zbsImm32 => slot_riscv32_zbs_imm
  | .zicond32 => slot_riscv32_zicond | .zfh32 => slot_riscv32_zfh
  | .i64 => slot_riscv64i | .c64 => slot_riscv64c | .chints64 => slot_riscv64chints
  | .m64 => slot_riscv64m | .a64 => slot_riscv64_amo_arithmetic | .f64 => slot_riscv64f
  | .d64 => slot_riscv64d | .hints64 => slot_riscv64_hints | .zicsr64 => slot_zicsr64
  | .zfencei64 => slot_zfencei64 | .privileged64 => slot_privileged64
  | .zba64 => slot_riscv64_zba | .zbb64 => slot_riscv64_zbb | .zbbImm64 => slot_riscv64_zbb_imm
  | .zbc64 => slot_riscv64_zbc | .zbs64 => slot_riscv64_zbs | .zbsImm64 => slot_riscv64_zbs_imm
  | .zicond64 => slot_riscv64_zicond | .zfh64 => slot_riscv64_zfh
  | .zca32 => slot_riscv_zca32 | .zcb32 => slot_riscv_zcb32 | .zcf32 => slot_riscv_zcf32
  | .zcd32 => slot_riscv_zcd32 | .zca64 => slot_riscv_zca64
  | .vector => slot_riscv_vector | .zve32x => slot_riscv_zve32x | .zvbb => slot_riscv_zvbb

/-- The groups of the instruction sets that have a decoder (riscv32g.isa:23-35,
riscv32gzb.isa, riscv32gv.isa, riscv32gvzb.isa and the 64-bit ones), and of the
half-precision and `Zvbb` ones. -/
def groups32 : List Group :=
  [.i32, .c32, .chints32, .m32, .a32, .f32, .d32, .hints32, .zicsr32, .zfencei32, .privileged32]

def groups32b : List Group := [.zba32, .zbb32, .zbbImm32, .zbc32, .zbs32, .zbsImm32]

def groups64 : List Group :=
  [.i64, .c64, .chints64, .m64, .hints64, .a64, .f64, .d64, .zicsr64, .zfencei64, .privileged64]

def groups64b : List Group := [.zba64, .zbb64, .zbbImm64, .zbc64, .zbs64, .zbsImm64]

def isaGroups : Isa → Option (List Group)
  | .riscv32g => some groups32
  | .riscv32gzb => some (groups32 ++ groups32b)
  | .riscv32gv => some (groups32 ++ [.vector])
  | .riscv32gvzb => some (groups32 ++ groups32b ++ [.vector])
  | .riscv64g => some groups64
  | .riscv64gzb => some (groups64 ++ groups64b)
  | .riscv64gv => some (groups64 ++ [.vector])
  | .riscv64gvzb => some (groups64 ++ groups64b ++ [.vector])
  | .zfh32 => some [.zfh32]
  | .zfh64 => some [.zfh64]
  | .zvbb => some [.zvbb]
  | .rvm23 => none

end Verif.Described
