import Verif.Exec.FkSpec
import Verif.Exec.FcStep
import Verif.Exec.CsrStep

/-!
# What accesses to fflags, frm and fcsr do, from their descriptions
-/

namespace Verif.Exec

open Decode Decode.Isa Core Operands Spec
open Zicsr (Insn)
open Zicsr.Spec (writes newBit)

variable {n : Nat} {ρ : Type} {H : FpState.Host}

theorem fcsrAt_number (r : FReg) : fcsrAt (fregNumber r) = some r := by cases r <;> rfl

theorem flags_reg {fp : FpState.Fp H} {r : FpState.Spec.Reg} (h : FpState.Rep fp r) :
    (FpState.fflagsRead fp).setWidth 5 = r.flags := by
  rw [FpState.fflags_read _ _ h, BitVec.setWidth_setWidth_of_le _ (by omega), BitVec.setWidth_eq]

theorem frm_reg {fp : FpState.Fp H} {r : FpState.Spec.Reg} (h : FpState.Rep fp r) :
    (FpState.frmRead fp).setWidth 3 = r.frm := by
  rw [FpState.frm_read _ _ h, BitVec.setWidth_setWidth_of_le _ (by omega), BitVec.setWidth_eq]

/-- The value read. -/
theorem valueK_held (st : FSt n ρ H) (hn : n ≤ 64) (r : FReg) (k : Nat) (hk : k < n) :
    (valueK n st.fp r).getLsbD k = heldK st r k := by
  have h5 : ∀ (v : BitVec 5) k, 5 ≤ k → v.getLsbD k = false := fun v k h => BitVec.getLsbD_of_ge v k h
  have h3 : ∀ (v : BitVec 3) k, 3 ≤ k → v.getLsbD k = false := fun v k h => BitVec.getLsbD_of_ge v k h
  have hr := rep_self st.fp
  unfold valueK heldK flagsOf frmOf
  rw [BitVec.getLsbD_setWidth, decide_eq_true hk, Bool.true_and]
  cases r with
  | fflags =>
    show (FpState.fflagsRead st.fp).getLsbD k = ((FpState.fflagsRead st.fp).setWidth 5).getLsbD k
    rw [flags_reg hr, FpState.fflags_read _ _ hr, BitVec.getLsbD_setWidth]
    by_cases h : k < 32
    · rw [decide_eq_true h, Bool.true_and]
    · rw [decide_eq_false h, h5 _ k (by omega)]; rfl
  | frm =>
    show (FpState.frmRead st.fp).getLsbD k = ((FpState.frmRead st.fp).setWidth 3).getLsbD k
    rw [frm_reg hr, FpState.frm_read _ _ hr, BitVec.getLsbD_setWidth]
    by_cases h : k < 32
    · rw [decide_eq_true h, Bool.true_and]
    · rw [decide_eq_false h, h3 _ k (by omega)]; rfl
  | fcsr =>
    show (FpState.fcsrRead st.fp).getLsbD k = if k < 5 then ((FpState.fflagsRead st.fp).setWidth 5).getLsbD k
      else ((FpState.frmRead st.fp).setWidth 3).getLsbD (k - 5)
    rw [flags_reg hr, frm_reg hr, FpState.read_eq _ _ hr]
    unfold FpState.Spec.Reg.fcsr
    rw [BitVec.getLsbD_setWidth, BitVec.getLsbD_append]
    by_cases h : k < 32
    · rw [decide_eq_true h, Bool.true_and]
    · rw [decide_eq_false h, if_neg (by omega), h3 _ (k - 5) (by omega)]; rfl

/-- Which of the functions of a register an instruction uses. -/
theorem plain_op (i : Insn) (r : FReg) (v : BitVec 32) (h : r = .fcsr → i = .rw ∨ i = .rwi) :
    FpState.Plain (opK (csrFunc i) v r) := by
  cases r with
  | fcsr => rcases h rfl with rfl | rfl <;> trivial
  | fflags => cases i <;> trivial
  | frm => cases i <;> trivial

theorem low_bit (u : BitVec n) (m k : Nat) (hk : k < m) (hm : m ≤ 32) :
    ((u.setWidth 32).setWidth m).getLsbD k = u.getLsbD k := by
  rw [BitVec.getLsbD_setWidth, BitVec.getLsbD_setWidth, decide_eq_true hk, decide_eq_true (by omega : k < 32)]
  rfl

/-- What a write does. -/
theorem takes_ok (hH : FpState.HostOk H) (i : Insn) (u : BitVec n) (r : FReg)
    (h : r = .fcsr → i = .rw ∨ i = .rwi) (st st' : FSt n ρ H)
    (e : st'.fp = FpState.step st.fp (opK (csrFunc i) (u.setWidth 32) r)) : TakesK i u r st st' := by
  have hr := rep_self st.fp
  have hr' := FpState.step_rep hH st.fp _ hr _ (plain_op i r (u.setWidth 32) h)
  rw [← e] at hr'
  have f0 : flagsOf st = (regOf st.fp).flags := flags_reg hr
  have m0 : frmOf st = (regOf st.fp).frm := frm_reg hr
  have f1 : flagsOf st' = _ := flags_reg hr'
  have m1 : frmOf st' = _ := frm_reg hr'
  cases r with
  | fflags =>
    refine ⟨fun k hk => ?_, ?_⟩
    · rw [f1, f0]
      have hl := low_bit u 5 k hk (by omega)
      cases i <;> simp only [csrFunc, opK, FpState.Spec.step, newBit, BitVec.getLsbD_or, BitVec.getLsbD_and,
        BitVec.getLsbD_not, hl, decide_eq_true hk, Bool.true_and]
    · rw [m1, m0]; cases i <;> rfl
  | frm =>
    refine ⟨fun k hk => ?_, ?_⟩
    · rw [m1, m0]
      have hl := low_bit u 3 k hk (by omega)
      cases i <;> simp only [csrFunc, opK, FpState.Spec.step, newBit, BitVec.getLsbD_or, BitVec.getLsbD_and,
        BitVec.getLsbD_not, hl, decide_eq_true hk, Bool.true_and, Nat.add_zero]
    · rw [f1, f0]; cases i <;> rfl
  | fcsr =>
    have hx : csrFunc i = .write ∧ ∀ a b, newBit i a b = b := by
      rcases h rfl with rfl | rfl <;> exact ⟨rfl, fun _ _ => rfl⟩
    rw [hx.1] at f1 m1
    refine ⟨fun k hk => ?_, fun k hk => ?_⟩
    · rw [f1, hx.2]
      exact low_bit u 5 k hk (by omega)
    · rw [m1, hx.2]
      show ((u.setWidth 32).extractLsb' 5 3).getLsbD k = _
      rw [BitVec.getLsbD_extractLsb', BitVec.getLsbD_setWidth, decide_eq_true hk,
        decide_eq_true (by omega : 5 + k < 32), Nat.add_comm 5 k]
      rfl

/-! ## The dynamic mode -/

theorem write_valid (fp : FpState.Fp H) (hv : fp.valid = true) (v : BitVec 32)
    (hm : (v.extractLsb' 5 3).toNat ≤ 4) : (FpState.fcsrWrite fp v).valid = true := by
  unfold FpState.fcsrWrite
  rw [show ((v &&& 0xff#32) >>> 5) &&& 0b111#32 = (v.extractLsb' 5 3).setWidth 32 from FpState.modeOf_eq v]
  simp only [FpState.setRoundingMode]
  split
  · rw [if_pos ((FpState.mode_cases _).2 (by rw [FpState.setWidth32_toNat]; exact hm))]
  · exact hv

/-- A write to one of these registers that leaves a rounding mode in frm leaves the dynamic mode valid. -/
theorem step_valid (fp : FpState.Fp H) (hv : fp.valid = true) (k : Csr.DbKind) (v : BitVec 32) (r : FReg)
    (hp : FpState.Plain (opK k v r)) (hm : (FpState.Spec.step (regOf fp) (opK k v r)).frm.toNat ≤ 4) :
    (FpState.step fp (opK k v r)).valid = true := by
  have hr := rep_self fp
  have hf : ∀ u, (regOf fp).frm.toNat ≤ 4 → (FpState.fflagsWrite fp u).valid = true := by
    intro u h
    simp only [FpState.fflagsWrite]
    split
    · exact hv
    · refine write_valid fp hv _ ?_
      rw [FpState.combine2_frm, FpState.read_eq _ _ hr, FpState.fcsr_frm]; exact h
  have hw : ∀ u : BitVec 32, (u.setWidth 3).toNat ≤ 4 → (FpState.frmWrite fp u).valid = true := by
    intro u h
    refine write_valid fp hv _ ?_
    rw [FpState.combine_frm]; exact h
  cases r with
  | fflags => cases k <;> exact hf _ hm
  | frm =>
    cases k with
    | write => exact hw _ hm
    | setBits => exact hw _ (by rw [FpState.frm_or fp _ hr]; exact hm)
    | clearBits => exact hw _ (by rw [FpState.frm_andnot fp _ hr]; exact hm)
  | fcsr =>
    cases k with
    | write => exact write_valid fp hv _ hm
    | setBits => exact hp.elim
    | clearBits => exact hp.elim

/-! ## The functions -/

/-- What the function does, whether it is the one to set bits of fcsr or not. -/
theorem access_any (s : Sim) (w : Nat) (i : Insn) (r : FReg) (st : FSt s.xlen.bits ρ H) (rd0 rs0 rs1n : Bool)
    (p : CAct) (hp : okCsr i rd0 rs0 rs1n p = true) (h1 : rd0 = true → rd w = 0#5) (h2 : rs0 = true → rs1 w = 0#5)
    (h3 : rs1n = true → rs1 w ≠ 0#5) (hb : st.core.hart.branch = false) (hi : Hart.HInv st.core.hart) :
    ∃ st₁, accessK s w p.ops r st p.sem = some st₁ ∧
      GivesX st (closeF st₁ (st.core.hart.pc.setWidth 64) 4) (rd w)
        (fun v => ∀ k, k < s.xlen.bits → v.getLsbD k = heldK st r k) ∧
      st₁.fp = (if writes i (rs1 w) then
        FpState.step st.fp (opK (csrFunc i) ((csrOperand st.core i w).setWidth 32) r) else st.fp) ∧
      Hart.HInv st₁.core.hart ∧ st₁.core.regs 0#5 = st.core.regs 0#5 := by
  have hv := valueK_held st (bits_le s.xlen) r
  have hg : ∀ fp, GivesX st (closeF ({ st.withCore { st.core with
      regs := Regs.write st.core.regs (rd w) (valueK _ st.fp r) } with fp := fp } : FSt s.xlen.bits ρ H)
      (st.core.hart.pc.setWidth 64) 4) (rd w) (fun v => ∀ k, k < s.xlen.bits → v.getLsbD k = heldK st r k) :=
    fun fp => gives_x st { st with fp := fp } (bits_le _) hb (rd w) (valueK _ st.fp r) _ rfl rfl hv
  obtain ⟨sem, ops⟩ := p
  have hw : ∀ fp : FpState.Fp H, Hart.HInv ({ st.withCore { st.core with
      regs := Regs.write st.core.regs (rd w) (valueK _ st.fp r) } with fp := fp } : FSt s.xlen.bits ρ H).core.hart ∧
      ({ st.withCore { st.core with
      regs := Regs.write st.core.regs (rd w) (valueK _ st.fp r) } with fp := fp } : FSt s.xlen.bits ρ H).core.regs 0#5 =
        st.core.regs 0#5 := fun _ => ⟨hi, write_zero _ _ _⟩
  have rw_case : writes i (rs1 w) = true → ops.srcs = [.one (csrOpd i), .one .Csr] →
      ops.dsts[0]? = some (.one .Rd) → ∃ st₁,
      ((srcAt s w st.core ops 0).bind fun v =>
        (putX s w ops (valueK _ st.fp r) st).map fun st' => writeK st' r (csrFunc i) v) = some st₁ ∧
      GivesX st (closeF st₁ (st.core.hart.pc.setWidth 64) 4) (rd w)
        (fun v => ∀ k, k < s.xlen.bits → v.getLsbD k = heldK st r k) ∧
      st₁.fp = (if writes i (rs1 w) then
        FpState.step st.fp (opK (csrFunc i) ((csrOperand st.core i w).setWidth 32) r) else st.fp) ∧
      Hart.HInv st₁.core.hart ∧ st₁.core.regs 0#5 = st.core.regs 0#5 := by
    intro hwr hs hd
    rw [src_operand s w st.core ops i (by rw [hs]; rfl), Option.bind_some, putX_rd s w ops st _ hd, Option.map_some]
    exact ⟨_, rfl, hg _, (if_pos hwr).symm, hw _⟩
  cases sem with
  | csrrw =>
    simp only [okCsr, Bool.and_eq_true, Bool.or_eq_true, beq_iff_eq] at hp
    have hk : csrFunc i = .write ∧ writes i (rs1 w) = true := by
      rcases hp.1.1 with rfl | rfl <;> exact ⟨rfl, rfl⟩
    have := rw_case hk.2 hp.1.2 hp.2
    rw [hk.1] at this ⊢
    exact this
  | csrrs =>
    simp only [okCsr, Bool.and_eq_true, Bool.or_eq_true, beq_iff_eq] at hp
    have hne := h3 hp.1.1.2
    have hk : csrFunc i = .setBits ∧ writes i (rs1 w) = true := by
      rcases hp.1.1.1 with rfl | rfl <;> exact ⟨rfl, by simpa [writes] using hne⟩
    have := rw_case hk.2 hp.1.2 hp.2
    rw [hk.1] at this ⊢
    exact this
  | csrrc =>
    simp only [okCsr, Bool.and_eq_true, Bool.or_eq_true, beq_iff_eq] at hp
    have hne := h3 hp.1.1.2
    have hk : csrFunc i = .clearBits ∧ writes i (rs1 w) = true := by
      rcases hp.1.1.1 with rfl | rfl <;> exact ⟨rfl, by simpa [writes] using hne⟩
    have := rw_case hk.2 hp.1.2 hp.2
    rw [hk.1] at this ⊢
    exact this
  | csrrwNr =>
    simp only [okCsr, Bool.and_eq_true, Bool.or_eq_true, beq_iff_eq] at hp
    have hk : csrFunc i = .write ∧ writes i (rs1 w) = true := by
      rcases hp.1.1 with rfl | rfl <;> exact ⟨rfl, rfl⟩
    have hst : st.withCore { st.core with regs := Regs.write st.core.regs (rd w) (valueK _ st.fp r) } = st := by
      rw [h1 hp.1.2, write_0]; rfl
    have e : accessK s w ops r st .csrrwNr = some (writeK st r .write (csrOperand st.core i w)) := by
      show (srcAt s w st.core ops 0).map _ = _
      rw [src_operand s w st.core ops i (by rw [hp.2]; rfl)]
      rfl
    rw [hst] at hg hw
    exact ⟨_, e, hg _, by rw [hk.1]; exact (if_pos hk.2).symm, hw _⟩
  | csrrNw =>
    simp only [okCsr, Bool.and_eq_true, Bool.or_eq_true, beq_iff_eq] at hp
    have hk : writes i (rs1 w) = false := by
      have h0 := h2 hp.1.1.2
      rcases hp.1.1.1 with ((rfl | rfl) | rfl) | rfl <;> simp [writes, h0]
    have e : accessK s w ops r st .csrrNw = _ := putX_rd s w ops st (valueK _ st.fp r) hp.2
    exact ⟨_, e, hg st.fp, (if_neg (by rw [hk]; decide)).symm, hw st.fp⟩

theorem access_ok (hH : FpState.HostOk H) (s : Sim) (w : Nat) (i : Insn) (r : FReg) (st : FSt s.xlen.bits ρ H)
    (rd0 rs0 rs1n : Bool) (p : CAct) (hp : okCsr i rd0 rs0 rs1n p = true) (h1 : rd0 = true → rd w = 0#5)
    (h2 : rs0 = true → rs1 w = 0#5) (h3 : rs1n = true → rs1 w ≠ 0#5) (hb : st.core.hart.branch = false)
    (hi : Hart.HInv st.core.hart) (hv : FInv st.fp) (hw : ¬ WrongCsr i r w) :
    ∃ st₁, accessK s w p.ops r st p.sem = some st₁ ∧
      DoesK i r w st (closeF st₁ (st.core.hart.pc.setWidth 64) 4) ∧
      Hart.HInv st₁.core.hart ∧ st₁.core.regs 0#5 = st.core.regs 0#5 ∧ FInv st₁.fp ∧
      (st.fp.valid = true → (frmOf st₁).toNat ≤ 4 → st₁.fp.valid = true) := by
  obtain ⟨st₁, e1, e2, e3, e4, e5⟩ := access_any s w i r st rd0 rs0 rs1n p hp h1 h2 h3 hb hi
  have hx : writes i (rs1 w) = true → r = .fcsr → i = .rw ∨ i = .rwi := fun h hr =>
    Classical.byContradiction fun hc => by rw [not_or] at hc; exact hw ⟨hr, h, hc.1, hc.2⟩
  refine ⟨st₁, e1, ⟨fun h => ?_, fun h => ?_, e2⟩, e4, e5, ?_, fun hva hm => ?_⟩
  · rw [h, if_pos rfl] at e3
    exact takes_ok hH i _ r (hx h) st _ e3
  · rw [h, if_neg (by decide)] at e3
    unfold flagsOf frmOf
    constructor
    · show (FpState.fflagsRead st₁.fp).setWidth 5 = _
      rw [e3]
    · show (FpState.frmRead st₁.fp).setWidth 3 = _
      rw [e3]
  · rw [e3]
    split
    · rename_i h
      exact finv_step hH hv _ (plain_op i r _ (hx h))
    · exact hv
  · unfold frmOf at hm
    rw [e3] at hm ⊢
    split
    · rename_i h
      rw [if_pos h] at hm
      have hp := plain_op i r ((csrOperand st.core i w).setWidth 32) (hx h)
      rw [frm_reg (FpState.step_rep hH st.fp _ (rep_self st.fp) _ hp)] at hm
      exact step_valid st.fp hva _ _ r hp hm
    · exact hva

end Verif.Exec
