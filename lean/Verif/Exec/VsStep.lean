import Verif.Exec.VsModel
import Verif.Exec.VsSpec
import Verif.Exec.CsrTables
import Verif.VecState.Props

/-!
# Operands and tables for the instructions that configure the vector unit
-/

namespace Verif.Exec

open Decode Decode.Isa Core Operands Spec
open VecState (VState)

variable {n : Nat}

/-! ## Operands -/

/-- The number in bits 19 to 15. -/
theorem source_uimm5 (s : Sim) (hs : s.vec = true) (w : Nat) :
    ∃ g, s.source .Uimm5 = some g ∧
      g.source w = .number ((Getters.Spec.unsigned w (Getters.Spec.positions [(19, 15)]) : Int) * (1 : Nat)) := by
  have t : s.isa.enc.any (fun e => (e.source .Uimm5).isSome && !Getters.oddSource e .Uimm5) = true := by
    revert hs; cases s <;> decide +kernel
  unfold Sim.source
  cases he : s.isa.enc with
  | none => rw [he] at t; simp at t
  | some e =>
    rw [he] at t
    simp only [Option.any_some, Bool.and_eq_true, Bool.not_eq_true'] at t
    obtain ⟨g, hg⟩ := Option.isSome_iff_exists.1 t.1
    obtain ⟨m, hm, hr⟩ := Getters.C84_source_partial e .Uimm5 g hg t.2 w
    obtain rfl : Getters.Spec.Meaning.uimm [(19, 15)] 1 = m := Option.some.inj hm
    exact ⟨g, hg, hr⟩

theorem src_uimm5 (s : Sim) (hs : s.vec = true) (w : Nat) (c : Core n) (a : Act) (k : Nat)
    (h : a.srcs[k]? = some (.one .Uimm5)) :
    srcAt s w c a k = some (BitVec.ofNat n (Getters.Spec.unsigned w (Getters.Spec.positions [(19, 15)]))) := by
  obtain ⟨g, hg, hr⟩ := source_uimm5 s hs w
  rw [src_one s w c a k _ h, hg, Option.bind_some, hr]
  show some (BitVec.ofInt n _) = _
  rw [Int.natCast_one, Int.mul_one, BitVec.ofInt_natCast]

theorem value_z11 (w : Nat) : BinFmt.value w (((BinFmt.Fmt.decl .VConfig).bits .zimm11).getD []) =
    Getters.Spec.unsigned w (Getters.Spec.positions [(30, 20)]) := rfl
theorem value_z10 (w : Nat) : BinFmt.value w (((BinFmt.Fmt.decl .VConfig).bits .zimm10).getD []) =
    Getters.Spec.unsigned w (Getters.Spec.positions [(29, 20)]) := rfl

/-- The immediates are sign extended (C84), which makes no difference to those below 256. -/
theorem read_zimm (fld : BinFmt.Fld) (w t : Nat)
    (hl : 9 ≤ (((BinFmt.Fmt.decl .VConfig).bits fld).getD []).length)
    (hv : BinFmt.value w (((BinFmt.Fmt.decl .VConfig).bits fld).getD []) = t) (ht : t < 256) :
    (Getters.What.imm true .VConfig fld).source w = .number t := by
  have e : Getters.read .VConfig fld w = t := by
    unfold Getters.read BinFmt.extract
    rw [hv, if_neg]
    rintro ⟨_, h⟩
    have := Nat.pow_le_pow_right (n := 2) (by decide) hl
    omega
  show Getters.Val.number (Getters.convert true (Getters.read .VConfig fld w)) = _
  rw [e]
  congr 1
  unfold Getters.convert
  rw [if_pos rfl, BitVec.ofInt_natCast, BitVec.toInt_eq_toNat_bmod, BitVec.toNat_ofNat]
  unfold Int.bmod
  dsimp only
  omega

theorem src_zimm11 (s : Sim) (hs : s.vec = true) (w : Nat) (c : Core n) (a : Act) (k : Nat)
    (h : a.srcs[k]? = some (.one .Zimm11))
    (ht : Getters.Spec.unsigned w (Getters.Spec.positions [(30, 20)]) < 256) :
    srcAt s w c a k = some (BitVec.ofNat n (Getters.Spec.unsigned w (Getters.Spec.positions [(30, 20)]))) := by
  have hg : s.source .Zimm11 = some (.imm true .VConfig .zimm11) := by revert hs; cases s <;> decide
  rw [src_one s w c a k _ h, hg, Option.bind_some, read_zimm .zimm11 w _ (by decide) (value_z11 w) ht]
  show some (BitVec.ofInt n _) = _
  rw [BitVec.ofInt_natCast]

theorem src_zimm10 (s : Sim) (hs : s.vec = true) (w : Nat) (c : Core n) (a : Act) (k : Nat)
    (h : a.srcs[k]? = some (.one .Zimm10))
    (ht : Getters.Spec.unsigned w (Getters.Spec.positions [(29, 20)]) < 256) :
    srcAt s w c a k = some (BitVec.ofNat n (Getters.Spec.unsigned w (Getters.Spec.positions [(29, 20)]))) := by
  have hg : s.source .Zimm10 = some (.imm true .VConfig .zimm10) := by revert hs; cases s <;> decide
  rw [src_one s w c a k _ h, hg, Option.bind_some, read_zimm .zimm10 w _ (by decide) (value_z10 w) ht]
  show some (BitVec.ofInt n _) = _
  rw [BitVec.ofInt_natCast]

/-! ## Descriptions -/

/-- The operands an instruction should have. -/
def vsSrcs : VInsn → List Arg
  | .vsetvli => [.one .Rs1, .one .Zimm11]
  | .vsetivli => [.one .Uimm5, .one .Zimm10]
  | .vsetvl => [.one .Rs1, .one .Rs2]

/-- The description an instruction should have; what its entry asks of rd and rs1 is in `rd0`, `rdn`, `rs0` and
`rsn`. -/
def okVs (i : VInsn) (rd0 rdn rs0 rsn : Bool) (p : VsAct) : Bool :=
  p.ops.srcs == vsSrcs i && p.ops.dsts[0]? == some (.one .Rd) &&
    (if i == .vsetivli then !p.rdZero && !p.rs1Zero
     else (!p.rs1Zero && !p.rdZero && rsn) || (p.rs1Zero && !p.rdZero && rs0 && rdn) ||
       (p.rs1Zero && p.rdZero && rs0 && rd0))

def okEntryVs (s : Sim) (e : Inst) : Bool :=
  match vsKind (canon e.op) with
  | none => true
  | some i => e.fmt == .VConfig && (vsActs s e.op).any (okVs i (asks e ⟨.rd, .eq, .num 0⟩)
      (asks e ⟨.rd, .ne, .num 0⟩) (asks e ⟨.rs1, .eq, .num 0⟩) (asks e ⟨.rs1, .ne, .num 0⟩))

theorem entriesVs_ok (s : Sim) (hs : s.vec = true) : s.decoder.insts.all (okEntryVs s) = true := by
  revert hs; cases s <;> decide +kernel

/-! ## The fields an entry asks about -/

theorem value_rdV (w : Nat) : fieldValue (BinFmt.Fmt.decl .VConfig) .rd w =
    some (Getters.Spec.unsigned w (Getters.Spec.positions [(11, 7)])) := rfl
theorem value_rs1V (w : Nat) : fieldValue (BinFmt.Fmt.decl .VConfig) .rs1 w =
    some (Getters.Spec.unsigned w (Getters.Spec.positions [(19, 15)])) := rfl

theorem askV {e : Inst} {w : Nat} {c : Con} (hm : e.matches w = true) (hf : e.fmt = .VConfig) (h : asks e c = true) :
    c.holds (BinFmt.Fmt.decl .VConfig) w = true := by
  have := List.all_eq_true.1 hm c (List.contains_iff_mem.1 h)
  rw [hf] at this
  exact this

theorem ask_rdV {e : Inst} {w : Nat} (hm : e.matches w = true) (hf : e.fmt = .VConfig)
    (h : asks e ⟨.rd, .eq, .num 0⟩ = true) : rd w = 0#5 := by
  have := askV hm hf h
  unfold Con.holds at this
  rw [value_rdV] at this
  have h0 : Getters.Spec.unsigned w (Getters.Spec.positions [(11, 7)]) = 0 := by simpa [Rhs.value, Rel.eval] using this
  unfold rd
  rw [h0]

theorem ask_rdnV {e : Inst} {w : Nat} (hm : e.matches w = true) (hf : e.fmt = .VConfig)
    (h : asks e ⟨.rd, .ne, .num 0⟩ = true) : rd w ≠ 0#5 := by
  have := askV hm hf h
  unfold Con.holds at this
  rw [value_rdV] at this
  have h0 : Getters.Spec.unsigned w (Getters.Spec.positions [(11, 7)]) ≠ 0 := by simpa [Rhs.value, Rel.eval] using this
  intro hz
  apply h0
  have := congrArg BitVec.toNat hz
  unfold rd at this
  rw [BitVec.toNat_ofNat, Nat.mod_eq_of_lt (rd_lt w)] at this
  exact this

theorem ask_rs1V {e : Inst} {w : Nat} (hm : e.matches w = true) (hf : e.fmt = .VConfig)
    (h : asks e ⟨.rs1, .eq, .num 0⟩ = true) : rs1 w = 0#5 := by
  have := askV hm hf h
  unfold Con.holds at this
  rw [value_rs1V] at this
  have h0 : Getters.Spec.unsigned w (Getters.Spec.positions [(19, 15)]) = 0 := by simpa [Rhs.value, Rel.eval] using this
  unfold rs1
  rw [h0]

theorem ask_rs1nV {e : Inst} {w : Nat} (hm : e.matches w = true) (hf : e.fmt = .VConfig)
    (h : asks e ⟨.rs1, .ne, .num 0⟩ = true) : rs1 w ≠ 0#5 := by
  have := askV hm hf h
  unfold Con.holds at this
  rw [value_rs1V] at this
  have h0 : Getters.Spec.unsigned w (Getters.Spec.positions [(19, 15)]) ≠ 0 := by simpa [Rhs.value, Rel.eval] using this
  intro hz
  apply h0
  have := congrArg BitVec.toNat hz
  unfold rs1 at this
  rw [BitVec.toNat_ofNat, Nat.mod_eq_of_lt (rs1_lt w)] at this
  exact this

/-! ## Decoding -/

def vsOps : List Op := [.vsetvli_xn, .vsetivli, .vsetvl_xn]

theorem vsKind_mem {o : Op} {i : VInsn} (h : vsKind o = some i) : o ∈ vsOps := by
  unfold vsKind at h
  split at h <;> first
    | (cases h; done)
    | decide

theorem has_entryVs (s : Sim) (hs : s.vec = true) : vsOps.all (fun o =>
    canon o == o && s.decoder.insts.any (fun i => i.op == o) && (s.decoder.gaps o).isEmpty) = true := by
  revert hs; cases s <;> decide +kernel

theorem decodesVs (s : Sim) (hs : s.vec = true) (o : Op) (i : VInsn) (hk : vsKind o = some i) (w : Nat)
    (hw : w < 2 ^ 32) (hl : Listed s.xlen o w) :
    (∃ i ∈ s.decoder.insts, i.matches w = true) ∧
      ∀ i ∈ s.decoder.insts, i.matches w = true → canon i.op = o := by
  have he := List.all_eq_true.1 (has_entryVs s hs) o (vsKind_mem hk)
  simp only [Bool.and_eq_true, beq_iff_eq, List.any_eq_true, List.isEmpty_iff] at he
  obtain ⟨⟨hc, e, hi, hio⟩, hg⟩ := he
  subst hio
  obtain ⟨j, hj, hjc, hjm⟩ := C71_implemented_partial s.decoder e hi w hw (by rw [hc]; exact hl) (by
    intro p hp h
    rw [hc, hg] at hp
    cases hp)
  refine ⟨⟨j, hj, hjm⟩, fun a ha ham => ?_⟩
  rw [← hc, ← hjc]
  exact pairwise_both (C59_same_instruction s.decoder (decoder_ne s) w hw) ha hj ham hjm

theorem listed_lowVs (x : Xlen) (o : Op) (i : VInsn) (hk : vsKind o = some i) (w : Nat)
    (hl : Listed x o w) : w &&& 3 = 3 := by
  have t : vsOps.all (fun o => (enc x o).all fun e => e.mask &&& 3 == 3 && e.value &&& 3 == 3) = true := by
    cases x <;> decide +kernel
  obtain ⟨e, he, ha, _⟩ := hl
  have h := List.all_eq_true.1 t o (vsKind_mem hk)
  rw [he] at h
  simp only [Option.all_some, Bool.and_eq_true, beq_iff_eq] at h
  rw [← h.1, ← Nat.and_assoc, ha, h.2, h.1]

/-! ## Other instructions -/

theorem vsetvl_other (x : Xlen) : fn x "Vsetvl" = none := by cases x <;> decide +kernel

/-- An instruction of the smaller model is none of these. -/
theorem not_vs (s : Sim) (o : Op) (h : acts s o ≠ none) : vsActs s o = none := by
  cases hc : vsActs s o with
  | none => rfl
  | some a =>
    exfalso
    unfold vsActs at hc
    unfold acts at h
    cases hf : (s.isa.instrs.find? fun i => i.name == opName o) with
    | none => rw [hf] at hc; cases hc
    | some i =>
      rw [hf, Option.bind_some] at hc h
      revert hc h
      generalize i.phases = ps
      intro h hc
      rcases ps with _ | ⟨p, _ | ⟨q, l⟩⟩
      · cases hc
      · have hp : vsAct p = some a := hc
        unfold vsAct at hp
        split at hp
        · rename_i c x y hcc _
          split at hp
          · rename_i hn
            apply h
            simp only [beq_iff_eq] at hn
            simp [List.mapM_cons, act, hcc, hn, vsetvl_other]
          · cases hp
        · cases hp
      · cases hc

/-! ## One instruction -/

theorem unsigned5 (w : Nat) : Getters.Spec.unsigned w (Getters.Spec.positions [(19, 15)]) < 32 := rs1_lt w

/-- The operands of a right description. -/
theorem vs_operands (s : Sim) (hs : s.vec = true) (w : Nat) (c : Core s.xlen.bits) (i : VInsn) (a : Act)
    (h : a.srcs = vsSrcs i) (ht : newType c w i < 256) :
    ∃ x t, srcAt s w c a 0 = some x ∧ srcAt s w c a 1 = some t ∧ t.toNat = newType c w i ∧
      (i = .vsetivli → x.toNat = Getters.Spec.unsigned w (Getters.Spec.positions [(19, 15)])) ∧
      (i ≠ .vsetivli → x = X c (rs1 w)) := by
  have hn : 2 ^ 32 ≤ 2 ^ s.xlen.bits := Nat.pow_le_pow_right (by decide) (bits_32 s.xlen)
  cases i with
  | vsetvli =>
    refine ⟨_, _, src_rs1 s w c a 0 (by rw [h]; rfl), src_zimm11 s hs w c a 1 (by rw [h]; rfl) ht, ?_,
      fun e => (by cases e), fun _ => rfl⟩
    rw [BitVec.toNat_ofNat]
    change newType c w .vsetvli % _ = _
    exact Nat.mod_eq_of_lt (by omega)
  | vsetivli =>
    refine ⟨_, _, src_uimm5 s hs w c a 0 (by rw [h]; rfl), src_zimm10 s hs w c a 1 (by rw [h]; rfl) ht, ?_,
      fun _ => ?_, fun e => absurd rfl e⟩
    · rw [BitVec.toNat_ofNat]
      change newType c w .vsetivli % _ = _
      exact Nat.mod_eq_of_lt (by omega)
    · rw [BitVec.toNat_ofNat]
      have := unsigned5 w
      exact Nat.mod_eq_of_lt (by omega)
  | vsetvl =>
    exact ⟨_, _, src_rs1 s w c a 0 (by rw [h]; rfl), src_rs2 s w c a 1 (by rw [h]; rfl), rfl,
      fun e => (by cases e), fun _ => rfl⟩

theorem length_min (a m : Nat) : LengthFor (some a) m (min a m) := by
  refine ⟨fun h => Nat.min_eq_left h, fun h1 h2 => ⟨?_, Nat.min_le_right _ _⟩, fun h => ?_⟩ <;> omega

end Verif.Exec
