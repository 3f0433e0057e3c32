import Verif.Exec.FpStep
import Verif.Exec.PropsI

/-!
# The entries of the decoders and their descriptions: floating-point instructions

Finite checks over the whole tables.
-/

namespace Verif.Exec

open Decode Decode.Isa Core Operands Spec

/-- An entry of a decoder has the description its instruction should have. -/
def okEntryF (s : Sim) (e : Inst) : Bool :=
  match fkind s.xlen (canon e.op) with
  | none => true
  | some k => (fpActs s e.op).any (okF k)

/-- The instructions. -/
def fOps : List Op :=
  [.flw, .fld, .fsw, .fsd, .fsgnj_s, .fsgnjn_s, .fsgnjx_s, .fsgnj_d, .fsgnjn_d, .fsgnjx_d, .fmin_s, .fmax_s,
   .fmin_d, .fmax_d, .fcmpeq_s, .fcmplt_s, .fcmple_s, .fcmpeq_d, .fcmplt_d, .fcmple_d, .fclass_s, .fclass_d,
   .fmv_xw, .fmv_wx]

/-- Those that only RV64 has. -/
def fOps64 : List Op := [.fmv_xd, .fmv_dx]

def fOpsOf : Xlen → List Op
  | .rv32 => fOps
  | .rv64 => fOps ++ fOps64

def hasF (s : Sim) (o : Op) : Bool :=
  canon o == o && s.decoder.insts.any (fun i => i.op == o) && (s.decoder.gaps o).isEmpty

theorem entriesF_rv32g : Sim.rv32g.decoder.insts.all (okEntryF .rv32g) = true := by decide +kernel
theorem entriesF_rv32gv : Sim.rv32gv.decoder.insts.all (okEntryF .rv32gv) = true := by decide +kernel
theorem entriesF_rv32gzb : Sim.rv32gzb.decoder.insts.all (okEntryF .rv32gzb) = true := by decide +kernel
theorem entriesF_rv32gvzb : Sim.rv32gvzb.decoder.insts.all (okEntryF .rv32gvzb) = true := by decide +kernel
theorem entriesF_rv64g : Sim.rv64g.decoder.insts.all (okEntryF .rv64g) = true := by decide +kernel
theorem entriesF_rv64gv : Sim.rv64gv.decoder.insts.all (okEntryF .rv64gv) = true := by decide +kernel
theorem entriesF_rv64gzb : Sim.rv64gzb.decoder.insts.all (okEntryF .rv64gzb) = true := by decide +kernel
theorem entriesF_rv64gvzb : Sim.rv64gvzb.decoder.insts.all (okEntryF .rv64gvzb) = true := by decide +kernel

theorem entriesF_ok (s : Sim) : s.decoder.insts.all (okEntryF s) = true := by
  cases s with
  | rv32g => exact entriesF_rv32g
  | rv32gv => exact entriesF_rv32gv
  | rv32gzb => exact entriesF_rv32gzb
  | rv32gvzb => exact entriesF_rv32gvzb
  | rv64g => exact entriesF_rv64g
  | rv64gv => exact entriesF_rv64gv
  | rv64gzb => exact entriesF_rv64gzb
  | rv64gvzb => exact entriesF_rv64gvzb

theorem has_entryF (s : Sim) : (fOpsOf s.xlen).all (hasF s) = true := by
  cases s <;> decide +kernel

theorem fkind_mem {x : Xlen} {o : Op} {k : FSem} (h : fkind x o = some k) : o ∈ fOpsOf x := by
  unfold fkind at h
  split at h <;> first
    | (cases h; done)
    | (cases x <;> decide)
    | (split at h
       · rename_i hx; subst hx; decide
       · cases h)

theorem fkind_toX {x : Xlen} {o : Op} (h : fkind x o = some (.toX .d)) : x = .rv64 := by
  unfold fkind at h
  split at h <;> first
    | (cases h; done)
    | (split at h
       · assumption
       · cases h)

theorem decodesF (s : Sim) (o : Op) (k : FSem) (hk : fkind s.xlen o = some k) (w : Nat) (hw : w < 2 ^ 32)
    (hl : Listed s.xlen o w) :
    (∃ i ∈ s.decoder.insts, i.matches w = true) ∧
      ∀ i ∈ s.decoder.insts, i.matches w = true → canon i.op = o := by
  have he := List.all_eq_true.1 (has_entryF s) o (fkind_mem hk)
  unfold hasF at he
  simp only [Bool.and_eq_true, beq_iff_eq, List.any_eq_true, List.isEmpty_iff] at he
  obtain ⟨⟨hc, e, hi, hio⟩, hg⟩ := he
  subst hio
  obtain ⟨j, hj, hjc, hjm⟩ := C71_implemented_partial s.decoder e hi w hw (by rw [hc]; exact hl) (by
    intro p hp
    rw [hc, hg] at hp
    exact absurd hp List.not_mem_nil)
  refine ⟨⟨j, hj, hjm⟩, fun a ha ham => ?_⟩
  rw [← hc, ← hjc]
  exact pairwise_both (C59_same_instruction s.decoder (decoder_ne s) w hw) ha hj ham hjm

theorem listed_lowF (x : Xlen) (o : Op) (k : FSem) (hk : fkind x o = some k) (w : Nat)
    (hl : Listed x o w) : w &&& 3 = 3 := by
  have t : (fOpsOf x).all (fun o => (enc x o).all fun e => e.mask &&& 3 == 3 && e.value &&& 3 == 3) = true := by
    cases x <;> decide +kernel
  obtain ⟨e, he, ha, _⟩ := hl
  have h := List.all_eq_true.1 t o (fkind_mem hk)
  rw [he] at h
  simp only [Option.all_some, Bool.and_eq_true, beq_iff_eq] at h
  rw [← h.1, ← Nat.and_assoc, ha, h.2, h.1]

/-! ## Other instructions -/

theorem byName_mem {α : Type} {l : List (String × α)} {name : String} {a : α} (h : byName l name = some a) :
    (name, a) ∈ l := by
  unfold byName at h
  obtain ⟨p, hp, rfl⟩ := Option.map_eq_some_iff.1 h
  have hn := List.find?_some hp
  simp only [beq_iff_eq] at hn
  subst hn
  exact List.mem_of_find?_eq_some hp

theorem fpFn_other (x : Xlen) (name : String) (m : FSem) (h : byName (fpFns x) name = some m) :
    fn x name = none ∧ sysFn x name = none ∧ csrFn x name = none ∧ name ≠ "RiscVIUnimplemented" := by
  have t : ∀ x, (fpFns x).all (fun p => (fn x p.1).isNone && (sysFn x p.1).isNone && (csrFn x p.1).isNone &&
      p.1 != "RiscVIUnimplemented") = true := by
    intro x; cases x <;> decide +kernel
  have := List.all_eq_true.1 (t x) _ (byName_mem h)
  simp only [Bool.and_eq_true, Option.isNone_iff_eq_none, bne_iff_ne] at this
  exact ⟨this.1.1.1, this.1.1.2, this.1.2, this.2⟩

/-- The first part of a load in the smaller model. -/
theorem fpLoad_fn (x : Xlen) (name : String) (n : Nat) (h : byName (fpLoads x) name = some n) :
    sysFn x name = none ∧ ∀ m, fn x name = some m → ∃ z : Mem.Size, m = .load z ∧ z.bytes = n := by
  have t : ∀ x, (fpLoads x).all (fun p => (sysFn x p.1).isNone &&
      (fn x p.1).all fun m => m == .load .w && p.2 == 4 || m == .load .d && p.2 == 8) = true := by
    intro x; cases x <;> decide +kernel
  have := List.all_eq_true.1 (t x) _ (byName_mem h)
  simp only [Bool.and_eq_true, Option.isNone_iff_eq_none] at this
  refine ⟨this.1, fun m hm => ?_⟩
  have h2 := this.2
  rw [hm, Option.all_some] at h2
  simp only [Bool.or_eq_true, Bool.and_eq_true, beq_iff_eq] at h2
  rcases h2 with ⟨rfl, rfl⟩ | ⟨rfl, rfl⟩
  · exact ⟨.w, rfl, rfl⟩
  · exact ⟨.d, rfl, rfl⟩

end Verif.Exec
