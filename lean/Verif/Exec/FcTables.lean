import Verif.Exec.FcStep
import Verif.Exec.FaTables

/-!
# The entries of the decoders and their descriptions: conversions

Finite checks over the whole tables.
-/

namespace Verif.Exec

open Decode Decode.Isa Core Operands Spec

/-- An entry of a decoder has the description its instruction should have. -/
def okEntryV (s : Sim) (e : Inst) : Bool :=
  match vkind s.xlen (canon e.op) with
  | none => true
  | some k => (cvActs s e.op).any (okV k)

/-- The instructions. -/
def cvOps : Xlen → List Op
  | .rv32 => [.fcvt_ws, .fcvt_wus, .fcvt_sw, .fcvt_swu, .fcvt_wd, .fcvt_wud, .fcvt_dw, .fcvt_dwu, .fcvt_sd, .fcvt_ds]
  | .rv64 => [.fcvt_ws, .fcvt_wus, .fcvt_sw, .fcvt_swu, .fcvt_wd, .fcvt_wud, .fcvt_dw, .fcvt_dwu, .fcvt_sd, .fcvt_ds,
      .fcvt_ls, .fcvt_lus, .fcvt_sl, .fcvt_slu, .fcvt_ld, .fcvt_lud, .fcvt_dl, .fcvt_dlu]

theorem entriesV_rv32g : Sim.rv32g.decoder.insts.all (okEntryV .rv32g) = true := by decide +kernel
theorem entriesV_rv32gv : Sim.rv32gv.decoder.insts.all (okEntryV .rv32gv) = true := by decide +kernel
theorem entriesV_rv32gzb : Sim.rv32gzb.decoder.insts.all (okEntryV .rv32gzb) = true := by decide +kernel
theorem entriesV_rv32gvzb : Sim.rv32gvzb.decoder.insts.all (okEntryV .rv32gvzb) = true := by decide +kernel
theorem entriesV_rv64g : Sim.rv64g.decoder.insts.all (okEntryV .rv64g) = true := by decide +kernel
theorem entriesV_rv64gv : Sim.rv64gv.decoder.insts.all (okEntryV .rv64gv) = true := by decide +kernel
theorem entriesV_rv64gzb : Sim.rv64gzb.decoder.insts.all (okEntryV .rv64gzb) = true := by decide +kernel
theorem entriesV_rv64gvzb : Sim.rv64gvzb.decoder.insts.all (okEntryV .rv64gvzb) = true := by decide +kernel

theorem entriesV_ok (s : Sim) : s.decoder.insts.all (okEntryV s) = true := by
  cases s with
  | rv32g => exact entriesV_rv32g
  | rv32gv => exact entriesV_rv32gv
  | rv32gzb => exact entriesV_rv32gzb
  | rv32gvzb => exact entriesV_rv32gvzb
  | rv64g => exact entriesV_rv64g
  | rv64gv => exact entriesV_rv64gv
  | rv64gzb => exact entriesV_rv64gzb
  | rv64gvzb => exact entriesV_rv64gvzb

theorem has_entryV (s : Sim) : (cvOps s.xlen).all (hasF s) = true := by
  cases s <;> decide +kernel

theorem vkind_mem {x : Xlen} {o : Op} {k : VSem} (h : vkind x o = some k) : o ∈ cvOps x := by
  cases x <;> unfold vkind at h <;> split at h <;> first
    | (cases h; done)
    | decide

/-- The types of integers that occur fit in the registers. -/
theorem vkind_width {x : Xlen} {o : Op} {k : VSem} (h : vkind x o = some k) :
    ∀ p t, (k = .toInt p t ∨ k = .ofInt p t) → Width x t := by
  have t : ∀ x, (cvOps x).all (fun o => (vkind x o).all fun k => match k with
      | .toInt _ t => (t.bits == 32 || t.bits == 64) && decide (t.bits ≤ x.bits)
      | .ofInt _ t => (t.bits == 32 || t.bits == 64) && decide (t.bits ≤ x.bits)
      | _ => true) = true := by
    intro x; cases x <;> decide
  have := List.all_eq_true.1 (t x) o (vkind_mem h)
  rw [h, Option.all_some] at this
  rintro p t (rfl | rfl) <;>
  · simp only [Bool.and_eq_true, Bool.or_eq_true, beq_iff_eq, decide_eq_true_eq] at this
    exact this

theorem decodesV (s : Sim) (o : Op) (k : VSem) (hk : vkind s.xlen o = some k) (w : Nat) (hw : w < 2 ^ 32)
    (hl : Listed s.xlen o w) :
    (∃ i ∈ s.decoder.insts, i.matches w = true) ∧
      ∀ i ∈ s.decoder.insts, i.matches w = true → canon i.op = o := by
  have he := List.all_eq_true.1 (has_entryV s) o (vkind_mem hk)
  unfold hasF at he
  simp only [Bool.and_eq_true, beq_iff_eq, List.any_eq_true, List.isEmpty_iff] at he
  obtain ⟨⟨hc, e, hi, hio⟩, hg⟩ := he
  subst hio
  obtain ⟨j, hj, hjc, hjm⟩ := C71_implemented_partial s.decoder e hi w hw (by rw [hc]; exact hl) (by
    intro p hp
    rw [hc, hg] at hp
    exact absurd hp List.not_mem_nil)
  refine ⟨⟨j, hj, hjm⟩, fun a ha ham => ?_⟩
  rw [← hc, ← hjc]
  exact pairwise_both (C59_same_instruction s.decoder (decoder_ne s) w hw) ha hj ham hjm

theorem listed_lowV (x : Xlen) (o : Op) (k : VSem) (hk : vkind x o = some k) (w : Nat)
    (hl : Listed x o w) : w &&& 3 = 3 := by
  have t : (cvOps x).all (fun o => (enc x o).all fun e => e.mask &&& 3 == 3 && e.value &&& 3 == 3) = true := by
    cases x <;> decide +kernel
  obtain ⟨e, he, ha, _⟩ := hl
  have h := List.all_eq_true.1 t o (vkind_mem hk)
  rw [he] at h
  simp only [Option.all_some, Bool.and_eq_true, beq_iff_eq] at h
  rw [← h.1, ← Nat.and_assoc, ha, h.2, h.1]

/-! ## Other instructions -/

theorem cvFn_other (x : Xlen) (name : String) (m : VSem) (h : byName (cvFns x) name = some m) :
    fn x name = none ∧ sysFn x name = none ∧ csrFn x name = none ∧ name ≠ "RiscVIUnimplemented" ∧
      byName (fpFns x) name = none ∧ byName arFns name = none := by
  have t : ∀ x, (cvFns x).all (fun p => (fn x p.1).isNone && (sysFn x p.1).isNone && (csrFn x p.1).isNone &&
      p.1 != "RiscVIUnimplemented" && (byName (fpFns x) p.1).isNone && (byName arFns p.1).isNone) = true := by
    intro x; cases x <;> decide +kernel
  have := List.all_eq_true.1 (t x) _ (byName_mem h)
  simp only [Bool.and_eq_true, Option.isNone_iff_eq_none, bne_iff_ne] at this
  exact ⟨this.1.1.1.1.1, this.1.1.1.1.2, this.1.1.1.2, this.1.1.2, this.1.2, this.2⟩

end Verif.Exec
