import Verif.Exec.CfStep
import Verif.Exec.PropsK

/-!
# The entries of the decoders and their descriptions: compressed loads and stores of floating-point registers
-/

namespace Verif.Exec

open Decode Decode.Isa Core Operands Spec

variable {n : Nat} {ρ : Type} {H : FpState.Host}

theorem qargs_half (x : Xlen) (o : Op) (w : Nat) (z : QArgs)
    (h : qargs x o (w % 2 ^ 16) = some z) : qargs x o w = some z := by
  unfold qargs at h
  simp only [cRd_half, cRs2_half, cRs1'_half, cRs2'_half, cLwsp_half, cLdsp_half, cSwsp_half, cSdsp_half,
    cLw_half, cLd_half] at h
  exact h

/-- The registers are of the width the function expects, or there is no carry. -/
theorem fits32 (s : Sim) (hs : s.xlen = .rv32) (x : BitVec s.xlen.bits) (imm : Nat) : Fits s.xlen.bits 32 x imm := by
  refine .inl ⟨?_, rfl⟩
  rw [hs]; rfl

theorem fits64 (s : Sim) (x : BitVec s.xlen.bits) (imm : Nat)
    (h : s.xlen = .rv32 → ¬ 2 ^ 32 ≤ x.toNat + imm) : Fits s.xlen.bits 64 x imm := by
  have t : s.xlen = .rv32 ∨ s.xlen = .rv64 := by cases s <;> decide
  rcases t with e | e
  · have := h e
    refine .inr (.inr ⟨?_, rfl, by omega⟩)
    rw [e]; rfl
  · refine .inr (.inl ⟨?_, rfl⟩)
    rw [e]; rfl

theorem imm_lt (w : Nat) (b : List (Nat × Nat)) (k : Nat)
    (h : (Getters.Spec.positions b).length ≤ 10) (hk : k ≤ 8) :
    Getters.Spec.unsigned w (Getters.Spec.positions b) * k < 2 ^ 31 := by
  have := (unsigned_small w b k h hk).2
  omega

section
variable (s : Sim) (w : Nat) (st : FSt s.xlen.bits ρ H)

/-- What an instruction with the right description does. -/
theorem carry_q (hb : st.core.hart.branch = false) (hi : Hart.HInv st.core.hart)
    (x : Xlen) (hx : s.xlen = x) (o : Op) (z : QArgs) (hz : qargs x o w = some z)
    (hon : s.xlen = .rv32 → z.load = false → z.bytes = 8 → z.short = true → ¬ OffF st)
    (hw : ¬ WrongQ s z st) (p : QAct) (hp : qexpect x o = some p) :
    CarriesQ s w st p (DoesQ z st) := by
  have w1 : z.load = true → z.short = true → intDest s = false := fun a b => by
    cases h : intDest s
    · rfl
    · exact absurd (.inl ⟨a, b, h⟩) hw
  have w2 : z.load = true → z.bytes = 4 → ¬ (st.fregs z.fr).toNat < 2 ^ 64 - 2 ^ 32 :=
    fun a b c => hw (.inr (.inl ⟨a, b, c⟩))
  have w3 : s.xlen = .rv32 → z.bytes = 8 → (z.load = true ∨ z.short = false) →
      ¬ 2 ^ 32 ≤ (X st.core z.rs1).toNat + z.imm := fun a b c d => hw (.inr (.inr ⟨a, b, c, d⟩))
  clear hw
  unfold qargs at hz
  split at hz
  · -- c.flw
    obtain rfl := Option.some.inj hz
    obtain rfl := Option.some.inj hp
    exact loadQ_ok s w st ⟨true, 4, cRs2' w, true, cRs1' w, cLw w⟩ hb hi rfl _ _ _ _
      (src_c3rs1 s w st.core _ 0 rfl) (src_clw s w st.core _ 1 rfl) (imm_lt w _ _ (by decide) (by decide))
      (fits32 s hx _ _) (fdst_c3 s w _ 0 (w1 rfl rfl) .C3frd (by rw [hx]; decide) rfl rfl)
      fun v hv => low_boxed _ (w2 rfl rfl) v hv
  · -- c.fld
    obtain rfl := Option.some.inj hz
    have hp' : qexpect .rv64 .cfld = some p := by cases x <;> exact hp
    obtain rfl := Option.some.inj hp'
    exact loadQ_ok s w st ⟨true, 8, cRs2' w, true, cRs1' w, cLd w⟩ hb hi rfl _ _ _ _
      (src_c3rs1 s w st.core _ 0 rfl) (src_cld s w st.core _ 1 rfl) (imm_lt w _ _ (by decide) (by decide))
      (fits64 s _ _ fun e => w3 e rfl (.inl rfl))
      (fdst_c3 s w _ 0 (w1 rfl rfl) .C3drd (by rw [hx]; cases x <;> decide) rfl rfl)
      fun v hv => FpMem.whole_toNat v hv _
  · -- c.fsw
    obtain rfl := Option.some.inj hz
    obtain rfl := Option.some.inj hp
    exact storeQ_ok s w st ⟨false, 4, cRs2' w, true, cRs1' w, cLw w⟩ hb hi rfl (.inl rfl) _ false (fun h => nomatch h) _
      (src_c3rs1 s w st.core _ 0 rfl) (src_clw s w st.core _ 1 rfl) (imm_lt w _ _ (by decide) (by decide))
      (fits32 s hx _ _) (fsrc_c3 s w _ 2 .C3frs2 (by rw [hx]; decide) rfl rfl)
  · -- c.fsd
    obtain rfl := Option.some.inj hz
    cases x with
    | rv32 =>
      obtain rfl := Option.some.inj hp
      exact storeQ_ok s w st ⟨false, 8, cRs2' w, true, cRs1' w, cLd w⟩ hb hi rfl (.inr rfl) _ _ (fun _ => hon hx rfl rfl rfl) _
        (src_c3rs1 s w st.core _ 0 rfl) (src_cld s w st.core _ 1 rfl) (imm_lt w _ _ (by decide) (by decide))
        (fits32 s hx _ _) (fsrc_c3 s w _ 2 .C3drs2 (by rw [hx]; decide) rfl rfl)
    | rv64 =>
      obtain rfl := Option.some.inj hp
      exact storeQ_ok s w st ⟨false, 8, cRs2' w, true, cRs1' w, cLd w⟩ hb hi rfl (.inr rfl) _ false (fun h => nomatch h) _
        (src_c3rs1 s w st.core _ 0 rfl) (src_cld s w st.core _ 1 rfl) (imm_lt w _ _ (by decide) (by decide))
        (fits64 s _ _ fun e => absurd (hx.symm.trans e) (by decide))
        (fsrc_c3 s w _ 2 .C3drs2 (by rw [hx]; decide) rfl rfl)
  · -- c.flwsp
    obtain rfl := Option.some.inj hz
    obtain rfl := Option.some.inj hp
    exact loadQ_ok s w st ⟨true, 4, cRd w, false, sp, cLwsp w⟩ hb hi rfl _ _ _ _
      (src_sp s w st.core _ 0 rfl) (src_clwsp s w st.core _ 1 rfl) (imm_lt w _ _ (by decide) (by decide))
      (fits32 s hx _ _) (fdst_crd s w _ 0 .Frd (by decide) rfl rfl)
      fun v hv => low_boxed _ (w2 rfl rfl) v hv
  · -- c.fldsp
    obtain rfl := Option.some.inj hz
    have hp' : qexpect .rv64 .cfldsp = some p := by cases x <;> exact hp
    obtain rfl := Option.some.inj hp'
    exact loadQ_ok s w st ⟨true, 8, cRd w, false, sp, cLdsp w⟩ hb hi rfl _ _ _ _
      (src_sp s w st.core _ 0 rfl) (src_cldsp s w st.core _ 1 rfl) (imm_lt w _ _ (by decide) (by decide))
      (fits64 s _ _ fun e => w3 e rfl (.inl rfl))
      (fdst_crd s w _ 0 .Drd (by decide) rfl rfl)
      fun v hv => FpMem.whole_toNat v hv _
  · -- c.fswsp
    obtain rfl := Option.some.inj hz
    obtain rfl := Option.some.inj hp
    exact storeQ_ok s w st ⟨false, 4, cRs2 w, false, sp, cSwsp w⟩ hb hi rfl (.inl rfl) _ false (fun h => nomatch h) _
      (src_sp s w st.core _ 0 rfl) (src_cswsp s w st.core _ 1 rfl) (imm_lt w _ _ (by decide) (by decide))
      (fits32 s hx _ _) (fsrc_c s w _ 2 .Cfrs2 (by rw [hx]; decide) rfl rfl)
  · -- c.fsdsp
    obtain rfl := Option.some.inj hz
    have hp' : qexpect .rv64 .cfsdsp = some p := by cases x <;> exact hp
    obtain rfl := Option.some.inj hp'
    exact storeQ_ok s w st ⟨false, 8, cRs2 w, false, sp, cSdsp w⟩ hb hi rfl (.inr rfl) _ false (fun h => nomatch h) _
      (src_sp s w st.core _ 0 rfl) (src_csdsp s w st.core _ 1 rfl) (imm_lt w _ _ (by decide) (by decide))
      (fits64 s _ _ fun e => w3 e rfl (.inr rfl))
      (fsrc_c s w _ 2 .Cdrs2 (by rw [hx]; cases x <;> decide) rfl rfl)
  · cases hz

end

/-! ## The decoders -/

def qOpsOf : Xlen → List Op
  | .rv32 => qOps
  | .rv64 => [.cfld, .cfsd, .cfldsp, .cfsdsp]

theorem qargs_mem {x : Xlen} {o : Op} {w : Nat} {z : QArgs} (h : qargs x o w = some z) : o ∈ qOpsOf x := by
  unfold qargs at h
  split at h <;> first
    | (cases h; done)
    | decide
    | (cases x <;> decide)

/-- Entries of the decoders of halfwords have the description their instruction should have, and all others
have none. -/
def okEntryQ (s : Sim) (e : Inst) : Bool :=
  if (qOpsOf s.xlen).contains (canon e.op) then decide (qActs s e.op = qexpect s.xlen (canon e.op))
  else !qOps.contains e.op

theorem entriesQ_ok (s : Sim) : s.decoder16.insts.all (okEntryQ s) = true := by
  cases s <;> decide +kernel

/-- None of the entries for words. -/
theorem entriesQ32 (s : Sim) : s.decoder.insts.all (fun e => !qOps.contains e.op) = true := by
  cases s <;> decide +kernel

theorem hasQ (s : Sim) : (qOpsOf s.xlen).all (fun o => canon o == o && s.decoder16.insts.any (fun i => i.op == o) &&
    (s.decoder16.gaps o).isEmpty && (qexpect s.xlen o).isSome) = true := by
  cases s <;> decide +kernel

theorem decodesQ (s : Sim) (o : Op) (w : Nat) (ho : o ∈ qOpsOf s.xlen) (hw : w < 2 ^ 16) (hl : Listed s.xlen o w) :
    (∃ i ∈ s.decoder16.insts, i.matches w = true) ∧
      (∀ i ∈ s.decoder16.insts, i.matches w = true → canon i.op = o) ∧ (qexpect s.xlen o).isSome = true := by
  have he := List.all_eq_true.1 (hasQ s) o ho
  simp only [Bool.and_eq_true, beq_iff_eq, List.any_eq_true, List.isEmpty_iff] at he
  obtain ⟨⟨⟨hc, i, hi, hio⟩, hg⟩, hsome⟩ := he
  subst hio
  obtain ⟨j, hj, hjc, hjm⟩ := C71_implemented_partial s.decoder16 i hi w (by omega)
    (by rw [hc, xlen16]; exact hl) (by
      intro p hp
      rw [hc, hg] at hp
      exact absurd hp List.not_mem_nil)
  refine ⟨⟨j, hj, hjm⟩, fun a ha ham => ?_, hsome⟩
  rw [← hc, ← hjc]
  exact pairwise_both (C59_same_instruction s.decoder16 (decoder16_ne s) w (by omega)) ha hj ham hjm

theorem listed_lowQ (x : Xlen) (o : Op) (ho : o ∈ qOpsOf x) (w : Nat) (hl : Listed x o (w % 2 ^ 16)) :
    w &&& 3 ≠ 3 := by
  have t : (qOpsOf x).all (fun o => (enc x o).all fun e => e.mask &&& 3 == 3 && e.value &&& 3 != 3) = true := by
    cases x <;> decide +kernel
  obtain ⟨e, he, ha, _⟩ := hl
  have h := List.all_eq_true.1 t o ho
  rw [he] at h
  simp only [Option.all_some, Bool.and_eq_true, beq_iff_eq, bne_iff_ne] at h
  intro hc
  apply h.2
  have h4 : ∀ a : Nat, a &&& 3 = a % 4 := fun a => Nat.and_two_pow_sub_one_eq_mod a 2
  rw [h4] at hc
  rw [← ha, Nat.and_assoc, h.1, h4]
  omega

end Verif.Exec
