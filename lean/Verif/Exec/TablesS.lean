import Verif.Exec.SysStep

/-!
# The entries of the decoders and their descriptions: system and atomic instructions

Finite checks over the whole tables.
-/

namespace Verif.Exec

open Decode Decode.Isa Core Operands Spec

/-- A description that does nothing. -/
def nopOnly : List Act → Bool
  | [a] => a.sem == .nop
  | _ => false

/-- The description of `o` is that of an instruction of kind `k`; a `fence` may do nothing. -/
def okDesc (s : Sim) (o : Op) (k : SKind) : Bool :=
  match acts s o with
  | some as => k == .quiet && nopOnly as
  | none => (sysActs s o).any (okSys k)

/-- An entry of a decoder has the description its instruction should have. -/
def okEntryS (s : Sim) (i : Inst) : Bool :=
  match skind s.xlen (canon i.op) with
  | none => true
  | some k => okDesc s i.op k

theorem entriesS_rv32g : Sim.rv32g.decoder.insts.all (okEntryS .rv32g) = true := by decide +kernel
theorem entriesS_rv32gv : Sim.rv32gv.decoder.insts.all (okEntryS .rv32gv) = true := by decide +kernel
theorem entriesS_rv32gzb : Sim.rv32gzb.decoder.insts.all (okEntryS .rv32gzb) = true := by decide +kernel
theorem entriesS_rv32gvzb : Sim.rv32gvzb.decoder.insts.all (okEntryS .rv32gvzb) = true := by decide +kernel
theorem entriesS_rv64g : Sim.rv64g.decoder.insts.all (okEntryS .rv64g) = true := by decide +kernel
theorem entriesS_rv64gv : Sim.rv64gv.decoder.insts.all (okEntryS .rv64gv) = true := by decide +kernel
theorem entriesS_rv64gzb : Sim.rv64gzb.decoder.insts.all (okEntryS .rv64gzb) = true := by decide +kernel
theorem entriesS_rv64gvzb : Sim.rv64gvzb.decoder.insts.all (okEntryS .rv64gvzb) = true := by decide +kernel

theorem entriesS_ok (s : Sim) : s.decoder.insts.all (okEntryS s) = true := by
  cases s with
  | rv32g => exact entriesS_rv32g
  | rv32gv => exact entriesS_rv32gv
  | rv32gzb => exact entriesS_rv32gzb
  | rv32gvzb => exact entriesS_rv32gvzb
  | rv64g => exact entriesS_rv64g
  | rv64gv => exact entriesS_rv64gv
  | rv64gzb => exact entriesS_rv64gzb
  | rv64gvzb => exact entriesS_rv64gvzb

/-- The same of `c.ebreak`. -/
theorem entriesS16_ok (s : Sim) : s.decoder16.insts.all (fun i =>
    canon i.op != .cebreak || okDesc s i.op .ebreak) = true := by
  cases s <;> decide +kernel

end Verif.Exec
