import Verif.Exec.CsrStep
import Verif.Exec.PropsS

/-!
# The entries of the decoders and their descriptions: CSR instructions

Finite checks over the whole tables.
-/

namespace Verif.Exec

open Decode Decode.Isa Core Operands Spec
open Zicsr (Insn)

/-- The entry asks for this of its word. -/
def asks (i : Inst) (c : Con) : Bool := i.cons.contains c

/-- An entry of a decoder has the description its instruction should have; `unimp` has none. -/
def okEntryZ (s : Sim) (e : Inst) : Bool :=
  match ckind (canon e.op) with
  | none => true
  | some i => e.fmt == .IType && (asks e ⟨.u_imm12, .eq, .num 0xc00⟩ ||
      (csrActs s e.op).any (okCsr i (asks e ⟨.rd, .eq, .num 0⟩) (asks e ⟨.rs1, .eq, .num 0⟩)
        (asks e ⟨.rs1, .ne, .num 0⟩)))

theorem entriesZ_rv32g : Sim.rv32g.decoder.insts.all (okEntryZ .rv32g) = true := by decide +kernel
theorem entriesZ_rv32gv : Sim.rv32gv.decoder.insts.all (okEntryZ .rv32gv) = true := by decide +kernel
theorem entriesZ_rv32gzb : Sim.rv32gzb.decoder.insts.all (okEntryZ .rv32gzb) = true := by decide +kernel
theorem entriesZ_rv32gvzb : Sim.rv32gvzb.decoder.insts.all (okEntryZ .rv32gvzb) = true := by decide +kernel
theorem entriesZ_rv64g : Sim.rv64g.decoder.insts.all (okEntryZ .rv64g) = true := by decide +kernel
theorem entriesZ_rv64gv : Sim.rv64gv.decoder.insts.all (okEntryZ .rv64gv) = true := by decide +kernel
theorem entriesZ_rv64gzb : Sim.rv64gzb.decoder.insts.all (okEntryZ .rv64gzb) = true := by decide +kernel
theorem entriesZ_rv64gvzb : Sim.rv64gvzb.decoder.insts.all (okEntryZ .rv64gvzb) = true := by decide +kernel

theorem entriesZ_ok (s : Sim) : s.decoder.insts.all (okEntryZ s) = true := by
  cases s with
  | rv32g => exact entriesZ_rv32g
  | rv32gv => exact entriesZ_rv32gv
  | rv32gzb => exact entriesZ_rv32gzb
  | rv32gvzb => exact entriesZ_rv32gvzb
  | rv64g => exact entriesZ_rv64g
  | rv64gv => exact entriesZ_rv64gv
  | rv64gzb => exact entriesZ_rv64gzb
  | rv64gvzb => exact entriesZ_rv64gvzb

/-- Only one entry asks for number 0xc00. -/
theorem only_csrrw (s : Sim) : s.decoder.insts.all (fun e =>
    !asks e ⟨.u_imm12, .eq, .num 0xc00⟩ || canon e.op == .csrrw) = true := by
  cases s <;> decide +kernel

/-! ## The fields an entry asks about -/

theorem value_rd (w : Nat) : fieldValue (BinFmt.Fmt.decl .IType) .rd w =
    some (Getters.Spec.unsigned w (Getters.Spec.positions [(11, 7)])) := rfl
theorem value_rs1 (w : Nat) : fieldValue (BinFmt.Fmt.decl .IType) .rs1 w =
    some (Getters.Spec.unsigned w (Getters.Spec.positions [(19, 15)])) := rfl
theorem value_imm (w : Nat) : fieldValue (BinFmt.Fmt.decl .IType) .u_imm12 w =
    some (Getters.Spec.unsigned w (Getters.Spec.positions [(31, 20)])) := rfl

theorem rd_lt (w : Nat) : Getters.Spec.unsigned w (Getters.Spec.positions [(11, 7)]) < 32 :=
  unsigned5_lt w 11 (by decide)
theorem rs1_lt (w : Nat) : Getters.Spec.unsigned w (Getters.Spec.positions [(19, 15)]) < 32 :=
  unsigned5_lt w 19 (by decide)

theorem ask {e : Inst} {w : Nat} {c : Con} (hm : e.matches w = true) (hf : e.fmt = .IType) (h : asks e c = true) :
    c.holds (BinFmt.Fmt.decl .IType) w = true := by
  have := List.all_eq_true.1 hm c (List.contains_iff_mem.1 h)
  rw [hf] at this
  exact this

theorem ask_rd {e : Inst} {w : Nat} (hm : e.matches w = true) (hf : e.fmt = .IType)
    (h : asks e ⟨.rd, .eq, .num 0⟩ = true) : rd w = 0#5 := by
  have := ask hm hf h
  unfold Con.holds at this
  rw [value_rd] at this
  have h0 : Getters.Spec.unsigned w (Getters.Spec.positions [(11, 7)]) = 0 := by simpa [Rhs.value, Rel.eval] using this
  unfold rd
  rw [h0]

theorem ask_rs1 {e : Inst} {w : Nat} (hm : e.matches w = true) (hf : e.fmt = .IType)
    (h : asks e ⟨.rs1, .eq, .num 0⟩ = true) : rs1 w = 0#5 := by
  have := ask hm hf h
  unfold Con.holds at this
  rw [value_rs1] at this
  have h0 : Getters.Spec.unsigned w (Getters.Spec.positions [(19, 15)]) = 0 := by simpa [Rhs.value, Rel.eval] using this
  unfold rs1
  rw [h0]

theorem ask_rs1n {e : Inst} {w : Nat} (hm : e.matches w = true) (hf : e.fmt = .IType)
    (h : asks e ⟨.rs1, .ne, .num 0⟩ = true) : rs1 w ≠ 0#5 := by
  have := ask hm hf h
  unfold Con.holds at this
  rw [value_rs1] at this
  have h0 : Getters.Spec.unsigned w (Getters.Spec.positions [(19, 15)]) ≠ 0 := by simpa [Rhs.value, Rel.eval] using this
  intro hz
  apply h0
  have := congrArg BitVec.toNat hz
  unfold rs1 at this
  rw [BitVec.toNat_ofNat, Nat.mod_eq_of_lt (rs1_lt w)] at this
  exact this

theorem ask_imm {e : Inst} {w : Nat} (hm : e.matches w = true) (hf : e.fmt = .IType)
    (h : asks e ⟨.u_imm12, .eq, .num 0xc00⟩ = true) : csrNo w = 0xc00#12 := by
  have := ask hm hf h
  unfold Con.holds at this
  rw [value_imm] at this
  have h0 : Getters.Spec.unsigned w (Getters.Spec.positions [(31, 20)]) = 0xc00 := by
    simpa [Rhs.value, Rel.eval] using this
  unfold csrNo
  rw [h0]

/-! ## Decoding -/

theorem unsigned_and (w m : Nat) (ps : List Nat) (h : ∀ p ∈ ps, m.testBit p = true) :
    Getters.Spec.unsigned (w &&& m) ps = Getters.Spec.unsigned w ps := by
  induction ps with
  | nil => rfl
  | cons p ps ih =>
    unfold Getters.Spec.unsigned
    rw [ih fun q hq => h q (List.mem_cons_of_mem _ hq), Nat.testBit_and, h p (by simp), Bool.and_true]

theorem gap_csr {w m v : Nat} (h : w &&& m = v) (hm : m &&& 0xfff00000 = 0xfff00000)
    (hv : v &&& 0xfff00000 = 0xc0000000) : csrNo w = 0xc00#12 := by
  have e : w &&& 0xfff00000 = 0xc0000000 := by
    rw [← hv, ← h, Nat.and_assoc, hm]
  unfold csrNo
  rw [← unsigned_and w 0xfff00000 _ (by decide), e]
  decide

/-- The CSR instructions. -/
def zOps : List Op := [.csrrw, .csrrs, .csrrc, .csrrwi, .csrrsi, .csrrci]

theorem ckind_mem {o : Op} {i : Insn} (h : ckind o = some i) : o ∈ zOps := by
  unfold ckind at h
  split at h <;> first
    | (cases h; done)
    | decide

theorem has_entryZ (s : Sim) : zOps.all (fun o =>
    canon o == o && s.decoder.insts.any (fun i => i.op == o) &&
      (s.decoder.gaps o).all fun p => o == .csrrw && p.1 &&& 0xfff00000 == 0xfff00000 &&
        p.2 &&& 0xfff00000 == 0xc0000000) = true := by
  cases s <;> decide +kernel

theorem decodesZ (s : Sim) (o : Op) (i : Insn) (hk : ckind o = some i) (w : Nat) (hw : w < 2 ^ 32)
    (hl : Listed s.xlen o w) (hn : i = .rw → csrNo w ≠ 0xc00#12) :
    (∃ i ∈ s.decoder.insts, i.matches w = true) ∧
      ∀ i ∈ s.decoder.insts, i.matches w = true → canon i.op = o := by
  have he := List.all_eq_true.1 (has_entryZ s) o (ckind_mem hk)
  simp only [Bool.and_eq_true, beq_iff_eq, List.any_eq_true, List.all_eq_true] at he
  obtain ⟨⟨hc, e, hi, hio⟩, hg⟩ := he
  subst hio
  obtain ⟨j, hj, hjc, hjm⟩ := C71_implemented_partial s.decoder e hi w hw (by rw [hc]; exact hl) (by
    intro p hp h
    rw [hc] at hp
    obtain ⟨⟨ho, hm⟩, hv⟩ := hg p hp
    rw [ho] at hk
    exact hn (by cases hk; rfl) (gap_csr h hm hv))
  refine ⟨⟨j, hj, hjm⟩, fun a ha ham => ?_⟩
  rw [← hc, ← hjc]
  exact pairwise_both (C59_same_instruction s.decoder (decoder_ne s) w hw) ha hj ham hjm

theorem listed_lowZ (x : Xlen) (o : Op) (i : Insn) (hk : ckind o = some i) (w : Nat)
    (hl : Listed x o w) : w &&& 3 = 3 := by
  have t : zOps.all (fun o => (enc x o).all fun e => e.mask &&& 3 == 3 && e.value &&& 3 == 3) = true := by
    cases x <;> decide +kernel
  obtain ⟨e, he, ha, _⟩ := hl
  have h := List.all_eq_true.1 t o (ckind_mem hk)
  rw [he] at h
  simp only [Option.all_some, Bool.and_eq_true, beq_iff_eq] at h
  rw [← h.1, ← Nat.and_assoc, ha, h.2, h.1]

/-! ## Other instructions -/

theorem csrFn_other (x : Xlen) (name : String) (m : Zicsr.Sem) (h : csrFn x name = some m) :
    fn x name = none ∧ sysFn x name = none := by
  unfold csrFn at h
  obtain ⟨p, hp, _⟩ := Option.map_eq_some_iff.1 h
  have hmem := List.mem_of_find?_eq_some hp
  have hn := List.find?_some hp
  simp only [beq_iff_eq] at hn
  subst hn
  have t : ∀ x, (csrFns x).all (fun p => (fn x p.1).isNone && (sysFn x p.1).isNone) = true := by
    intro x; cases x <;> decide +kernel
  have := List.all_eq_true.1 (t x) p hmem
  simpa [Option.isNone_iff_eq_none] using this

/-- An instruction of the smaller model is no CSR instruction. -/
theorem not_csr (s : Sim) (o : Op) (h : acts s o ≠ none ∨ sysActs s o ≠ none) : csrActs s o = none := by
  cases hc : csrActs s o with
  | none => rfl
  | some a =>
    exfalso
    unfold csrActs at hc
    unfold acts sysActs at h
    cases hf : (s.isa.instrs.find? fun i => i.name == opName o) with
    | none => rw [hf] at hc; cases hc
    | some i =>
      rw [hf, Option.bind_some] at hc h
      rw [Option.bind_some] at h
      revert hc h
      generalize i.phases = ps
      intro h hc
      rcases ps with _ | ⟨p, _ | ⟨q, l⟩⟩
      · cases hc
      · have hp : csrAct s.xlen p = some a := hc
        unfold csrAct at hp
        obtain ⟨m, hm, _⟩ := Option.map_eq_some_iff.1 hp
        obtain ⟨c, hcc, hm⟩ := Option.bind_eq_some_iff.1 hm
        obtain ⟨h1, h2⟩ := csrFn_other _ _ _ hm
        rcases h with h | h
        · apply h
          simp [List.mapM_cons, act, hcc, h1]
        · apply h
          simp [sysParts, sysAct, hcc, h2]
      · cases hc

end Verif.Exec
