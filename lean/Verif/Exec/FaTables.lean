import Verif.Exec.FaStep
import Verif.Exec.FpTables

/-!
# The entries of the decoders and their descriptions: floating-point arithmetic

Finite checks over the whole tables.
-/

namespace Verif.Exec

open Decode Decode.Isa Core Operands Spec

/-- An entry of a decoder has the description its instruction should have. -/
def okEntryA (s : Sim) (e : Inst) : Bool :=
  match akind (canon e.op) with
  | none => true
  | some k => (arActs s e.op).any (okA k)

/-- The instructions. -/
def arOps : List Op :=
  [.fadd_s, .fsub_s, .fmul_s, .fdiv_s, .fsqrt_s, .fmadd_s, .fmsub_s, .fnmadd_s, .fnmsub_s,
   .fadd_d, .fsub_d, .fmul_d, .fdiv_d, .fsqrt_d, .fmadd_d, .fmsub_d, .fnmadd_d, .fnmsub_d]

theorem entriesA_rv32g : Sim.rv32g.decoder.insts.all (okEntryA .rv32g) = true := by decide +kernel
theorem entriesA_rv32gv : Sim.rv32gv.decoder.insts.all (okEntryA .rv32gv) = true := by decide +kernel
theorem entriesA_rv32gzb : Sim.rv32gzb.decoder.insts.all (okEntryA .rv32gzb) = true := by decide +kernel
theorem entriesA_rv32gvzb : Sim.rv32gvzb.decoder.insts.all (okEntryA .rv32gvzb) = true := by decide +kernel
theorem entriesA_rv64g : Sim.rv64g.decoder.insts.all (okEntryA .rv64g) = true := by decide +kernel
theorem entriesA_rv64gv : Sim.rv64gv.decoder.insts.all (okEntryA .rv64gv) = true := by decide +kernel
theorem entriesA_rv64gzb : Sim.rv64gzb.decoder.insts.all (okEntryA .rv64gzb) = true := by decide +kernel
theorem entriesA_rv64gvzb : Sim.rv64gvzb.decoder.insts.all (okEntryA .rv64gvzb) = true := by decide +kernel

theorem entriesA_ok (s : Sim) : s.decoder.insts.all (okEntryA s) = true := by
  cases s with
  | rv32g => exact entriesA_rv32g
  | rv32gv => exact entriesA_rv32gv
  | rv32gzb => exact entriesA_rv32gzb
  | rv32gvzb => exact entriesA_rv32gvzb
  | rv64g => exact entriesA_rv64g
  | rv64gv => exact entriesA_rv64gv
  | rv64gzb => exact entriesA_rv64gzb
  | rv64gvzb => exact entriesA_rv64gvzb

theorem has_entryA (s : Sim) : arOps.all (hasF s) = true := by
  cases s <;> decide +kernel

theorem akind_mem {o : Op} {k : ASem} (h : akind o = some k) : o ∈ arOps := by
  unfold akind at h
  split at h <;> first
    | (cases h; done)
    | decide

theorem decodesA (s : Sim) (o : Op) (k : ASem) (hk : akind o = some k) (w : Nat) (hw : w < 2 ^ 32)
    (hl : Listed s.xlen o w) :
    (∃ i ∈ s.decoder.insts, i.matches w = true) ∧
      ∀ i ∈ s.decoder.insts, i.matches w = true → canon i.op = o := by
  have he := List.all_eq_true.1 (has_entryA s) o (akind_mem hk)
  unfold hasF at he
  simp only [Bool.and_eq_true, beq_iff_eq, List.any_eq_true, List.isEmpty_iff] at he
  obtain ⟨⟨hc, e, hi, hio⟩, hg⟩ := he
  subst hio
  obtain ⟨j, hj, hjc, hjm⟩ := C71_implemented_partial s.decoder e hi w hw (by rw [hc]; exact hl) (by
    intro p hp
    rw [hc, hg] at hp
    exact absurd hp List.not_mem_nil)
  refine ⟨⟨j, hj, hjm⟩, fun a ha ham => ?_⟩
  rw [← hc, ← hjc]
  exact pairwise_both (C59_same_instruction s.decoder (decoder_ne s) w hw) ha hj ham hjm

theorem listed_lowA (x : Xlen) (o : Op) (k : ASem) (hk : akind o = some k) (w : Nat)
    (hl : Listed x o w) : w &&& 3 = 3 := by
  have t : arOps.all (fun o => (enc x o).all fun e => e.mask &&& 3 == 3 && e.value &&& 3 == 3) = true := by
    cases x <;> decide +kernel
  obtain ⟨e, he, ha, _⟩ := hl
  have h := List.all_eq_true.1 t o (akind_mem hk)
  rw [he] at h
  simp only [Option.all_some, Bool.and_eq_true, beq_iff_eq] at h
  rw [← h.1, ← Nat.and_assoc, ha, h.2, h.1]

/-! ## Other instructions -/

theorem arFn_other (x : Xlen) (name : String) (m : ASem) (h : byName arFns name = some m) :
    fn x name = none ∧ sysFn x name = none ∧ csrFn x name = none ∧ name ≠ "RiscVIUnimplemented" ∧
      byName (fpFns x) name = none := by
  have t : ∀ x, arFns.all (fun p => (fn x p.1).isNone && (sysFn x p.1).isNone && (csrFn x p.1).isNone &&
      p.1 != "RiscVIUnimplemented" && (byName (fpFns x) p.1).isNone) = true := by
    intro x; cases x <;> decide +kernel
  have := List.all_eq_true.1 (t x) _ (byName_mem h)
  simp only [Bool.and_eq_true, Option.isNone_iff_eq_none, bne_iff_ne] at this
  exact ⟨this.1.1.1.1, this.1.1.1.2, this.1.1.2, this.1.2, this.2⟩

end Verif.Exec
