import Verif.Exec.Bits

/-!
# The entries of the decoders and their descriptions: bit manipulation

Finite checks over the whole tables.
-/

namespace Verif.Exec

open Decode Decode.Isa Core Operands Spec

/-- An entry of a decoder has the description its instruction should have. -/
def okEntryB (s : Sim) (i : Inst) : Bool :=
  match bkind s.xlen (canon i.op) with
  | none => true
  | some k => acts s i.op == some (bexpect s.xlen k)

theorem entriesB_rv32gzb : Sim.rv32gzb.decoder.insts.all (okEntryB .rv32gzb) = true := by
  decide +kernel

theorem entriesB_rv32gvzb : Sim.rv32gvzb.decoder.insts.all (okEntryB .rv32gvzb) = true := by
  decide +kernel

theorem entriesB_rv64gzb : Sim.rv64gzb.decoder.insts.all (okEntryB .rv64gzb) = true := by
  decide +kernel

theorem entriesB_rv64gvzb : Sim.rv64gvzb.decoder.insts.all (okEntryB .rv64gvzb) = true := by
  decide +kernel

theorem entriesB_ok (s : Sim) (hs : s.zb = true) : s.decoder.insts.all (okEntryB s) = true := by
  cases s with
  | rv32gzb => exact entriesB_rv32gzb
  | rv32gvzb => exact entriesB_rv32gvzb
  | rv64gzb => exact entriesB_rv64gzb
  | rv64gvzb => exact entriesB_rv64gvzb
  | _ => cases hs

end Verif.Exec
