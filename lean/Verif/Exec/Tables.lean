import Verif.Exec.Carry

/-!
# The entries of the decoders and their descriptions

Finite checks over the whole tables.
-/

namespace Verif.Exec

open Decode Decode.Isa Core Operands Spec


def isNop : Option (List Act) → Bool
  | some [a] => a.sem == .nop
  | _ => false

/-- An entry of a decoder has the description its instruction should have, or is a hint with
destination register 0. -/
def okEntry (s : Sim) (i : Inst) : Bool :=
  match kind s.xlen (canon i.op) with
  | none => true
  | some k => acts s i.op == some (expect s.xlen k) ||
      (plain k && isNop (acts s i.op) && i.maskVal.1 &&& 0xf80 == 0xf80 && i.maskVal.2 &&& 0xf80 == 0)

theorem entries_rv32g : Sim.rv32g.decoder.insts.all (okEntry .rv32g) = true := by
  decide +kernel

theorem entries_rv32gzb : Sim.rv32gzb.decoder.insts.all (okEntry .rv32gzb) = true := by
  decide +kernel

theorem entries_rv32gv : Sim.rv32gv.decoder.insts.all (okEntry .rv32gv) = true := by
  decide +kernel

theorem entries_rv32gvzb : Sim.rv32gvzb.decoder.insts.all (okEntry .rv32gvzb) = true := by
  decide +kernel

theorem entries_rv64g : Sim.rv64g.decoder.insts.all (okEntry .rv64g) = true := by
  decide +kernel

theorem entries_rv64gzb : Sim.rv64gzb.decoder.insts.all (okEntry .rv64gzb) = true := by
  decide +kernel

theorem entries_rv64gv : Sim.rv64gv.decoder.insts.all (okEntry .rv64gv) = true := by
  decide +kernel

theorem entries_rv64gvzb : Sim.rv64gvzb.decoder.insts.all (okEntry .rv64gvzb) = true := by
  decide +kernel

theorem entries_ok (s : Sim) : s.decoder.insts.all (okEntry s) = true := by
  cases s
  · exact entries_rv32g
  · exact entries_rv32gzb
  · exact entries_rv32gv
  · exact entries_rv32gvzb
  · exact entries_rv64g
  · exact entries_rv64gzb
  · exact entries_rv64gv
  · exact entries_rv64gvzb

end Verif.Exec
