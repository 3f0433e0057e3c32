import Verif.Exec.Half
import Verif.Exec.Tables

/-!
# The entries of the 16-bit decoders and their descriptions

Finite checks over the whole tables.
-/

namespace Verif.Exec

open Decode Decode.Isa Core Operands Spec

/-- The mask and value of an entry fix the bits of `m` to zero. -/
def zeros (i : Inst) (m : Nat) : Bool := i.maskVal.1 &&& m == m && i.maskVal.2 &&& m == 0

/-- An entry that does nothing may do so. -/
def okHint (i : Inst) : Op → Bool
  | .cnop => true
  | .cli | .clui | .cmv | .cslli | .cadd => zeros i 0xf80
  | .caddi => zeros i 0x107c
  | _ => false

def okEntry16 (s : Sim) (i : Inst) : Bool :=
  (expand s.xlen (canon i.op) 0).isNone ||
    ((expectC (canon i.op)).isSome && acts s i.op == expectC (canon i.op)) ||
    (isNop (acts s i.op) && okHint i (canon i.op))

theorem entries16_rv32g : Sim.rv32g.decoder16.insts.all (okEntry16 .rv32g) = true := by
  decide +kernel

theorem entries16_rv32gzb : Sim.rv32gzb.decoder16.insts.all (okEntry16 .rv32gzb) = true := by
  decide +kernel

theorem entries16_rv32gv : Sim.rv32gv.decoder16.insts.all (okEntry16 .rv32gv) = true := by
  decide +kernel

theorem entries16_rv32gvzb : Sim.rv32gvzb.decoder16.insts.all (okEntry16 .rv32gvzb) = true := by
  decide +kernel

theorem entries16_rv64g : Sim.rv64g.decoder16.insts.all (okEntry16 .rv64g) = true := by
  decide +kernel

theorem entries16_rv64gzb : Sim.rv64gzb.decoder16.insts.all (okEntry16 .rv64gzb) = true := by
  decide +kernel

theorem entries16_rv64gv : Sim.rv64gv.decoder16.insts.all (okEntry16 .rv64gv) = true := by
  decide +kernel

theorem entries16_rv64gvzb : Sim.rv64gvzb.decoder16.insts.all (okEntry16 .rv64gvzb) = true := by
  decide +kernel

theorem entries16_ok (s : Sim) : s.decoder16.insts.all (okEntry16 s) = true := by
  cases s
  · exact entries16_rv32g
  · exact entries16_rv32gzb
  · exact entries16_rv32gv
  · exact entries16_rv32gvzb
  · exact entries16_rv64g
  · exact entries16_rv64gzb
  · exact entries16_rv64gv
  · exact entries16_rv64gvzb

end Verif.Exec
