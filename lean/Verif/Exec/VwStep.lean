import Verif.Exec.VwSpec
import Verif.Exec.VaStep

/-!
# Operands and tables for the narrowing, widening and multiply-add instructions
-/

namespace Verif.Exec

open Decode Decode.Isa Core Operands Spec
open VecState (VState)
open VecLoop (VCore VRegs)
open VecInt (Src1)

variable {n : Nat}

/-! ## Operands -/

/-- vd as a source. -/
theorem vw_old (s : Sim) (hs : s.vec = true) (w : Nat) (a : Act) (k : Nat) (h : a.srcs[k]? = some (.one .Vd)) :
    (vaSrc s w a k).bind vaReg = some (vdOf w) := by
  have t : s.vec = true → s.isa.enc.any (fun e => (e.source .Vd).isSome && !Getters.oddSource e .Vd) = true := by
    cases s <;> decide +kernel
  have t := t hs
  unfold vaSrc Sim.source
  rw [h]
  dsimp only
  cases he : s.isa.enc with
  | none => rw [he] at t; simp at t
  | some e =>
    rw [he] at t
    simp only [Option.any_some, Bool.and_eq_true, Bool.not_eq_true'] at t
    obtain ⟨g, hg⟩ := Option.isSome_iff_exists.1 t.1
    obtain ⟨m, hm, hr⟩ := Getters.C84_source_partial e .Vd g hg t.2 w
    obtain rfl : Getters.Spec.Meaning.v [(11, 7)] = m := Option.some.inj hm
    obtain ⟨count, hr, -⟩ := hr
    rw [Option.bind_some, hg, Option.map_some, Option.bind_some, hr]
    rfl

/-- The operand of a form. -/
def vwOpd : VForm → Getters.Opd
  | .vv => .Vs1
  | .vx => .Rs1
  | .vi => .Simm5
  | .vu => .Uimm5

/-- What the functions are given for operand 1 has the value it should have. -/
theorem vw_operand (s : Sim) (hs : s.vec = true) (w : Nat) (c : Core s.xlen.bits) (a : Act) (k : Nat) (f : VForm)
    (h : a.srcs[k]? = some (.one (vwOpd f))) :
    ∃ s1, (vaSrc s w a k).bind (vaSrc1 c) = some s1 ∧
      (s1 = operand1 c w f ∨ ∀ v nd d m, VecInt.Spec.OperandOk v nd d m s1) ∧
      (∀ sg sew, VecInt.Fits sg sew (operand1 c w f) → VecInt.Fits sg sew s1) ∧
      ∀ sew, (sew = 1 ∨ sew = 2 ∨ sew = 4 ∨ sew = 8) → ∀ v R i (b : BitVec (8 * sew)),
        VecInt.Spec.Operand v R i b s1 ↔ VecInt.Spec.Operand v R i b (operand1 c w f) := by
  cases f with
  | vv => exact va_operand s hs w c a k .vv h
  | vx => exact va_operand s hs w c a k .vx h
  | vi => exact va_operand s hs w c a k .vi h
  | vu =>
    obtain ⟨g, hg, hr⟩ := source_uimm5 s hs w
    refine ⟨operand1 c w .vu, ?_, Or.inl rfl, fun _ _ h => h, fun _ _ _ _ _ _ => Iff.rfl⟩
    unfold vaSrc
    rw [h]
    dsimp only [vwOpd]
    rw [hg, Option.map_some, Option.bind_some, hr, Int.natCast_one, Int.mul_one]
    show some (if 0 ≤ ((vs1Of w : Nat) : Int) then _ else _) = _
    rw [if_pos (Int.natCast_nonneg _)]
    show some (Src1.uimm (BitVec.ofInt 5 ((vs1Of w : Nat) : Int))) = _
    rw [BitVec.ofInt_natCast]
    rfl

/-! ## Descriptions -/

/-- The sources after operand 1. -/
def vwRest : VwFn → List Arg
  | .mac _ | .wmac _ => [.one .Vd, .one .Vmask]
  | _ => [.one .Vmask]

/-- The description an instruction should have. -/
def okVw (k : VwFn × VForm) (p : VwAct) : Bool :=
  decide (p.fn = k.1) && p.ops.srcs == .one .Vs2 :: .one (vwOpd k.2) :: vwRest k.1 && p.ops.dsts == [.one .Vd]

def okEntryVw (s : Sim) (e : Inst) : Bool :=
  match vwKind (canon e.op) with
  | none => true
  | some k => (vwActs s e.op).any (okVw k)

theorem entriesVw_ok (s : Sim) (hs : s.vec = true) : s.decoder.insts.all (okEntryVw s) = true := by
  revert hs; cases s <;> decide +kernel

/-! ## Decoding -/

def vwOps : List Op :=
  [.vnsrl_vv, .vnsrl_vx, .vnsrl_vi, .vnsra_vv, .vnsra_vx, .vnsra_vi, .vwaddu_vv, .vwaddu_vx, .vwsubu_vv,
   .vwsubu_vx, .vwadd_vv, .vwadd_vx, .vwsub_vv, .vwsub_vx, .vwmulu_vv, .vwmulu_vx, .vwmulsu_vv,
   .vwmulsu_vx, .vwmul_vv, .vwmul_vx, .vwaddu_w_vv, .vwaddu_w_vx, .vwsubu_w_vv, .vwsubu_w_vx, .vwadd_w_vv,
   .vwadd_w_vx, .vwsub_w_vv, .vwsub_w_vx, .vmadd_vv, .vmadd_vx, .vnmsub_vv, .vnmsub_vx, .vmacc_vv,
   .vmacc_vx, .vnmsac_vv, .vnmsac_vx, .vwmaccu_vv, .vwmaccu_vx, .vwmacc_vv, .vwmacc_vx, .vwmaccus_vx,
   .vwmaccsu_vv, .vwmaccsu_vx]

theorem vwKind_mem {o : Op} {k : VwFn × VForm} (h : vwKind o = some k) : o ∈ vwOps := by
  unfold vwKind at h
  split at h <;> first
    | (cases h; done)
    | decide

theorem has_entryVw (s : Sim) (hs : s.vec = true) : vwOps.all (fun o =>
    canon o == o && s.decoder.insts.any (fun i => i.op == o) && (s.decoder.gaps o).isEmpty) = true := by
  revert hs; cases s <;> decide +kernel

theorem decodesVw (s : Sim) (hs : s.vec = true) (o : Op) (k : VwFn × VForm) (hk : vwKind o = some k) (w : Nat)
    (hw : w < 2 ^ 32) (hl : Listed s.xlen o w) :
    (∃ i ∈ s.decoder.insts, i.matches w = true) ∧
      ∀ i ∈ s.decoder.insts, i.matches w = true → canon i.op = o := by
  have he := List.all_eq_true.1 (has_entryVw s hs) o (vwKind_mem hk)
  simp only [Bool.and_eq_true, beq_iff_eq, List.any_eq_true, List.isEmpty_iff] at he
  obtain ⟨⟨hc, e, hi, hio⟩, hg⟩ := he
  subst hio
  obtain ⟨j, hj, hjc, hjm⟩ := C71_implemented_partial s.decoder e hi w hw (by rw [hc]; exact hl) (by
    intro p hp h
    rw [hc, hg] at hp
    cases hp)
  refine ⟨⟨j, hj, hjm⟩, fun a ha ham => ?_⟩
  rw [← hc, ← hjc]
  exact pairwise_both (C59_same_instruction s.decoder (decoder_ne s) w hw) ha hj ham hjm

theorem listed_lowVw (x : Xlen) (o : Op) (k : VwFn × VForm) (hk : vwKind o = some k) (w : Nat)
    (hl : Listed x o w) : w &&& 3 = 3 := by
  have t : vwOps.all (fun o => (enc x o).all fun e => e.mask &&& 3 == 3 && e.value &&& 3 == 3) = true := by
    cases x <;> decide +kernel
  obtain ⟨e, he, ha, _⟩ := hl
  have h := List.all_eq_true.1 t o (vwKind_mem hk)
  rw [he] at h
  simp only [Option.all_some, Bool.and_eq_true, beq_iff_eq] at h
  rw [← h.1, ← Nat.and_assoc, ha, h.2, h.1]

/-! ## Other instructions -/

theorem vw_other (x : Xlen) : vwFns.all (fun p => (fn x p.1).isNone && (vaFns.lookup p.1).isNone) = true := by
  cases x <;> decide +kernel

/-- An instruction of the smaller models is none of these. -/
theorem not_vw (s : Sim) (o : Op) (h : acts s o ≠ none ∨ vsActs s o ≠ none ∨ vaActs s o ≠ none) : vwActs s o = none := by
  cases hc : vwActs s o with
  | none => rfl
  | some a =>
    exfalso
    unfold vwActs at hc
    unfold acts vsActs vaActs at h
    cases hf : (s.isa.instrs.find? fun i => i.name == opName o) with
    | none => rw [hf] at hc; cases hc
    | some i =>
      rw [hf, Option.bind_some] at hc h
      rw [Option.bind_some, Option.bind_some] at h
      revert hc h
      generalize i.phases = ps
      intro h hc
      rcases ps with _ | ⟨p, _ | ⟨q, l⟩⟩
      · cases hc
      · have hp : vwAct p = some a := hc
        unfold vwAct at hp
        split at hp
        · rename_i c hcc ha
          obtain ⟨b, hb, -⟩ := Option.map_eq_some_iff.1 hp
          have := List.all_eq_true.1 (vw_other s.xlen) _ (lookup_mem hb)
          simp only [Bool.and_eq_true, Option.isNone_iff_eq_none] at this
          rcases h with h | h | h
          · apply h
            simp [List.mapM_cons, act, hcc, this.1]
          · apply h
            show vsAct p = none
            unfold vsAct
            rw [ha]
            split
            · rename_i hx; cases hx
            · rfl
          · apply h
            show vaAct p = none
            unfold vaAct
            rw [hcc, ha]
            dsimp only
            rw [this.2]
            rfl
        · cases hp
      · cases hc

end Verif.Exec
