import Verif.Exec.VaModel
import Verif.Exec.VaSpec
import Verif.Exec.VsStep
import Verif.VecInt.Props

/-!
# Operands and tables for the element-wise integer instructions
-/

namespace Verif.Exec

open Decode Decode.Isa Core Operands Spec
open VecState (VState)
open VecLoop (VCore VRegs)
open VecInt (Src1)

variable {n : Nat}

/-! ## Operands -/

def vaSrcs : List Getters.Opd := [.Vs2, .Vs1, .Rs1, .Simm5, .Vmask]

theorem source_okVa (s : Sim) (hs : s.vec = true) (o : Getters.Opd) (ho : o ∈ vaSrcs) (w : Nat) :
    ∃ g m, s.source o = some g ∧ Getters.Spec.source o = some m ∧ Getters.Spec.Reads w (g.source w) m := by
  have t : s.vec = true → vaSrcs.all (fun o => s.isa.enc.any fun e =>
      (e.source o).isSome && !Getters.oddSource e o) = true := by
    cases s <;> decide +kernel
  have h := List.all_eq_true.1 (t hs) o ho
  unfold Sim.source
  cases he : s.isa.enc with
  | none => rw [he] at h; simp at h
  | some e =>
    rw [he] at h
    simp only [Option.any_some, Bool.and_eq_true, Bool.not_eq_true'] at h
    obtain ⟨g, hg⟩ := Option.isSome_iff_exists.1 h.1
    obtain ⟨m, hm, hr⟩ := Getters.C84_source_partial e o g hg h.2 w
    exact ⟨g, m, hg, hm, hr⟩

theorem dest_okVa (s : Sim) (hs : s.vec = true) (w : Nat) :
    ∃ g, s.dest .Vd = some g ∧ Getters.Spec.Group (vdOf w) (g.dest w) := by
  have t : s.vec = true → s.isa.enc.any (fun e => (e.dest .Vd).isSome && !Getters.oddDest e .Vd) = true := by
    cases s <;> decide +kernel
  have h := t hs
  unfold Sim.dest
  cases he : s.isa.enc with
  | none => rw [he] at h; simp at h
  | some e =>
    rw [he] at h
    simp only [Option.any_some, Bool.and_eq_true, Bool.not_eq_true'] at h
    obtain ⟨g, hg⟩ := Option.isSome_iff_exists.1 h.1
    obtain ⟨m, hm, hr⟩ := Getters.C84_dest_partial e .Vd g hg h.2 (by decide) w
    obtain rfl : Getters.Spec.Meaning.v [(11, 7)] = m := Option.some.inj hm
    exact ⟨g, hg, hr⟩

theorem va_vs2 (s : Sim) (hs : s.vec = true) (w : Nat) (a : Act) (k : Nat) (h : a.srcs[k]? = some (.one .Vs2)) :
    (vaSrc s w a k).bind vaReg = some (vs2Of w) := by
  obtain ⟨g, m, hg, hm, hr⟩ := source_okVa s hs .Vs2 (by decide) w
  obtain rfl : Getters.Spec.Meaning.v [(24, 20)] = m := Option.some.inj hm
  obtain ⟨count, hr, -⟩ := hr
  unfold vaSrc
  rw [h]
  dsimp only
  rw [hg, Option.map_some, Option.bind_some, hr]
  rfl

theorem va_vd (s : Sim) (hs : s.vec = true) (w : Nat) (a : Act) (k : Nat) (h : a.dsts[k]? = some (.one .Vd)) :
    (vaDst s w a k).bind vaReg = some (vdOf w) := by
  obtain ⟨g, hg, count, hr, -⟩ := dest_okVa s hs w
  unfold vaDst
  rw [h]
  dsimp only
  rw [hg, Option.map_some, Option.bind_some, hr]
  rfl

theorem va_mask (s : Sim) (hs : s.vec = true) (w : Nat) (a : Act) (k : Nat) (h : a.srcs[k]? = some (.one .Vmask)) :
    (vaSrc s w a k).bind vaMask = some (vmOf w) := by
  obtain ⟨g, m, hg, hm, hr⟩ := source_okVa s hs .Vmask (by decide) w
  obtain rfl : Getters.Spec.Meaning.mask 25 = m := Option.some.inj hm
  have hr : g.source w = if w.testBit 25 then .allTrue else .v 0 1 := hr
  unfold vaSrc
  rw [h]
  dsimp only
  rw [hg, Option.map_some, Option.bind_some, hr]
  unfold vmOf
  cases w.testBit 25 <;> rfl

/-- The operand of a form. -/
def vaOpd : VForm → Getters.Opd
  | .vv => .Vs1
  | .vx => .Rs1
  | .vi | .vu => .Simm5

/-- The bits 19 to 15 with a sign. -/
theorem signed5 (w : Nat) : Getters.Spec.signed w (Getters.Spec.positions [(19, 15)]) =
    (BitVec.ofNat 5 (vs1Of w)).toInt := by
  have hl : vs1Of w < 2 ^ 5 := rs1_lt w
  rw [BitVec.toInt_eq_toNat_cond, BitVec.toNat_ofNat, Nat.mod_eq_of_lt hl]
  have e : vs1Of w = (if w.testBit 19 then 16 else 0) +
      Getters.Spec.unsigned w (Getters.Spec.positions [(18, 15)]) := rfl
  have e' : Getters.Spec.signed w (Getters.Spec.positions [(19, 15)]) = (if w.testBit 19 then -16 else 0) +
      (Getters.Spec.unsigned w (Getters.Spec.positions [(18, 15)]) : Int) := rfl
  have hq : Getters.Spec.unsigned w (Getters.Spec.positions [(18, 15)]) < 16 :=
    Getters.unsigned_lt w (Getters.Spec.positions [(18, 15)])
  rw [e', e]
  cases w.testBit 19
  · simp only [Bool.false_eq_true, if_false]; split <;> omega
  · simp only [if_true]; split <;> omega

theorem toInt_pos {w : Nat} (b : BitVec w) (k : Nat) (hk : 2 * k < 2 ^ w) : b.toInt = (k : Int) ↔ b.toNat = k := by
  have := b.isLt
  rw [BitVec.toInt_eq_toNat_cond]
  constructor
  · intro h; split at h <;> omega
  · intro h; rw [h, if_pos hk]

/-- A number as an operand. -/
theorem number_operand (sew : Nat) (hn : sew = 1 ∨ sew = 2 ∨ sew = 4 ∨ sew = 8) (v : VState) (R : VRegs) (i : Nat)
    (b : BitVec (8 * sew)) (z : Int) (h1 : -16 ≤ z) (h2 : z < 16) :
    VecInt.Spec.Operand (xlen := n) v R i b
      (if 0 ≤ z then .uimm (BitVec.ofInt 5 z) else .simm (BitVec.ofInt 5 z)) ↔ b.toInt = z := by
  split
  · rename_i h0
    obtain ⟨k, rfl⟩ := Int.eq_ofNat_of_zero_le h0
    show b.toNat = _ ↔ _
    rw [BitVec.ofInt_natCast, BitVec.toNat_ofNat, Nat.mod_eq_of_lt (by omega)]
    exact (toInt_pos b k (by
      have : 2 ^ 8 ≤ 2 ^ (8 * sew) := Nat.pow_le_pow_right (by decide) (by omega)
      omega)).symm
  · rename_i h0
    show b.toInt = _ ↔ _
    have : (BitVec.ofInt 5 z).toInt = z := by
      rw [BitVec.toInt_ofInt]
      unfold Int.bmod
      dsimp only
      omega
    rw [this]

/-- What the functions are given for operand 1 has the value it should have, except for the immediates of shifts,
which have a sign. -/
theorem va_operand (s : Sim) (hs : s.vec = true) (w : Nat) (c : Core s.xlen.bits) (a : Act) (k : Nat) (f : VForm)
    (h : a.srcs[k]? = some (.one (vaOpd f))) :
    ∃ s1, (vaSrc s w a k).bind (vaSrc1 c) = some s1 ∧
      (s1 = operand1 c w f ∨ ∀ v nd d m, VecInt.Spec.OperandOk v nd d m s1) ∧
      (∀ sg sew, VecInt.Fits sg sew (operand1 c w f) → VecInt.Fits sg sew s1) ∧
      ∀ sew, (sew = 1 ∨ sew = 2 ∨ sew = 4 ∨ sew = 8) → ∀ v R i (b : BitVec (8 * sew)),
        VecInt.Spec.Operand v R i b s1 ↔
          VecInt.Spec.Operand v R i b (if f = .vu then operand1 c w .vi else operand1 c w f) := by
  have number : ∀ z : Int, -16 ≤ z → z < 16 → (∀ v nd d m, VecInt.Spec.OperandOk (xlen := s.xlen.bits) v nd d m
        (if 0 ≤ z then .uimm (BitVec.ofInt 5 z) else .simm (BitVec.ofInt 5 z))) ∧
      ∀ sg sew, VecInt.Fits (xlen := s.xlen.bits) sg sew
        (if 0 ≤ z then .uimm (BitVec.ofInt 5 z) else .simm (BitVec.ofInt 5 z)) := by
    intro z _ _
    split <;> exact ⟨fun _ _ _ _ => trivial, fun _ _ => trivial⟩
  obtain ⟨g, m, hg, hm, hr⟩ := source_okVa s hs (vaOpd f) (by cases f <;> decide) w
  have e : (vaSrc s w a k).bind (vaSrc1 c) = vaSrc1 c (g.source w) := by
    unfold vaSrc
    rw [h]
    dsimp only
    rw [hg, Option.map_some, Option.bind_some]
  rw [e]
  have imm : ∀ g : Getters.Val, g = .number (Getters.Spec.signed w (Getters.Spec.positions [(19, 15)]) * (1 : Nat)) →
      ∃ s1, vaSrc1 c g = some s1 ∧ (∀ v nd d m, VecInt.Spec.OperandOk v nd d m s1) ∧
        (∀ sg sew, VecInt.Fits sg sew s1) ∧
        ∀ sew, (sew = 1 ∨ sew = 2 ∨ sew = 4 ∨ sew = 8) → ∀ v R i (b : BitVec (8 * sew)),
          VecInt.Spec.Operand v R i b s1 ↔ VecInt.Spec.Operand v R i b (operand1 c w .vi) := by
    rintro _ rfl
    rw [Int.natCast_one, Int.mul_one, signed5]
    have hz1 : -16 ≤ (BitVec.ofNat 5 (vs1Of w)).toInt := BitVec.le_toInt _
    have hz2 : (BitVec.ofNat 5 (vs1Of w)).toInt < 16 := BitVec.toInt_lt
    exact ⟨_, rfl, (number _ hz1 hz2).1, (number _ hz1 hz2).2,
      fun sew hn v R i b => number_operand sew hn v R i b _ hz1 hz2⟩
  cases f with
  | vv =>
    obtain rfl : Getters.Spec.Meaning.v [(19, 15)] = m := Option.some.inj hm
    obtain ⟨count, hr, -⟩ := hr
    rw [hr]
    exact ⟨.vec (vs1Of w), rfl, Or.inl rfl, fun _ _ h => h, fun _ _ _ _ _ _ => Iff.rfl⟩
  | vx =>
    obtain rfl : Getters.Spec.Meaning.x [(19, 15)] = m := Option.some.inj hm
    have hx : get c (g.source w) = some (X c (rs1 w)) := by
      have := src_rs1 s w c a k h
      rw [src_one s w c a k _ h, hg, Option.bind_some] at this
      exact this
    rcases hr with hr | ⟨h0, hr⟩
    · rw [hr] at hx ⊢
      have hx : some (c.regs (BitVec.ofNat 5 _)) = some (X c (rs1 w)) := hx
      refine ⟨.x (X c (rs1 w)), ?_, Or.inl rfl, fun _ _ h => h, fun _ _ _ _ _ _ => Iff.rfl⟩
      show some (Src1.x (c.regs _)) = _
      rw [Option.some.inj hx]
    · rw [hr]
      have hX : X c (rs1 w) = 0#_ := by
        unfold X
        rw [if_pos]
        unfold rs1
        rw [h0]
      refine ⟨_, rfl, Or.inr (number 0 (by decide) (by decide)).1, fun sg sew _ => (number 0 (by decide) (by decide)).2 sg sew,
        fun sew hn v R i b => (number_operand sew hn v R i b 0 (by decide) (by decide)).trans ?_⟩
      show _ ↔ (_ ∧ _)
      rw [hX]
      have hz : b.toInt = 0 ↔ b.toNat = 0 := toInt_pos b 0 (Nat.pow_pos (by decide))
      simp only [BitVec.toInt_zero, BitVec.toNat_zero, Nat.zero_mod]
      constructor
      · intro h; exact ⟨fun _ => h, fun _ => hz.1 h⟩
      · rintro ⟨h, h'⟩
        rcases Nat.lt_or_ge (8 * sew) s.xlen.bits with hlt | hge
        · exact hz.2 (h' hlt)
        · exact h hge
  | vi =>
    obtain rfl : Getters.Spec.Meaning.simm [(19, 15)] 1 = m := Option.some.inj hm
    obtain ⟨s1, a1, a2, a3, a4⟩ := imm _ hr
    exact ⟨s1, a1, Or.inr a2, fun sg sew _ => a3 sg sew, a4⟩
  | vu =>
    obtain rfl : Getters.Spec.Meaning.simm [(19, 15)] 1 = m := Option.some.inj hm
    obtain ⟨s1, a1, a2, a3, a4⟩ := imm _ hr
    exact ⟨s1, a1, Or.inr a2, fun sg sew _ => a3 sg sew, a4⟩

/-! ## Descriptions -/

/-- The description an instruction should have. -/
def okVa (k : VecInt.Same × VForm) (p : VaAct) : Bool :=
  decide (p.fn = k.1) && p.ops.srcs == [.one .Vs2, .one (vaOpd k.2), .one .Vmask] && p.ops.dsts == [.one .Vd]

def okEntryVa (s : Sim) (e : Inst) : Bool :=
  match vaKind (canon e.op) with
  | none => true
  | some k => (vaActs s e.op).any (okVa k)

theorem entriesVa_ok (s : Sim) (hs : s.vec = true) : s.decoder.insts.all (okEntryVa s) = true := by
  revert hs; cases s <;> decide +kernel

/-! ## Decoding -/

def vaOps : List Op :=
  [.vadd_vv, .vadd_vx, .vadd_vi, .vsub_vv, .vsub_vx, .vrsub_vx, .vrsub_vi, .vminu_vv, .vminu_vx, .vmin_vv,
   .vmin_vx, .vmaxu_vv, .vmaxu_vx, .vmax_vv, .vmax_vx, .vand_vv, .vand_vx, .vand_vi, .vor_vv, .vor_vx,
   .vor_vi, .vxor_vv, .vxor_vx, .vxor_vi, .vsll_vv, .vsll_vx, .vsll_vi, .vsrl_vv, .vsrl_vx, .vsrl_vi,
   .vsra_vv, .vsra_vx, .vsra_vi, .vdivu_vv, .vdivu_vx, .vdiv_vv, .vdiv_vx, .vremu_vv, .vremu_vx, .vrem_vv,
   .vrem_vx, .vmulhu_vv, .vmulhu_vx, .vmul_vv, .vmul_vx, .vmulhsu_vv, .vmulhsu_vx, .vmulh_vv, .vmulh_vx]

theorem vaKind_mem {o : Op} {k : VecInt.Same × VForm} (h : vaKind o = some k) : o ∈ vaOps := by
  unfold vaKind at h
  split at h <;> first
    | (cases h; done)
    | decide

theorem has_entryVa (s : Sim) (hs : s.vec = true) : vaOps.all (fun o =>
    canon o == o && s.decoder.insts.any (fun i => i.op == o) && (s.decoder.gaps o).isEmpty) = true := by
  revert hs; cases s <;> decide +kernel

theorem decodesVa (s : Sim) (hs : s.vec = true) (o : Op) (k : VecInt.Same × VForm) (hk : vaKind o = some k) (w : Nat)
    (hw : w < 2 ^ 32) (hl : Listed s.xlen o w) :
    (∃ i ∈ s.decoder.insts, i.matches w = true) ∧
      ∀ i ∈ s.decoder.insts, i.matches w = true → canon i.op = o := by
  have he := List.all_eq_true.1 (has_entryVa s hs) o (vaKind_mem hk)
  simp only [Bool.and_eq_true, beq_iff_eq, List.any_eq_true, List.isEmpty_iff] at he
  obtain ⟨⟨hc, e, hi, hio⟩, hg⟩ := he
  subst hio
  obtain ⟨j, hj, hjc, hjm⟩ := C71_implemented_partial s.decoder e hi w hw (by rw [hc]; exact hl) (by
    intro p hp h
    rw [hc, hg] at hp
    cases hp)
  refine ⟨⟨j, hj, hjm⟩, fun a ha ham => ?_⟩
  rw [← hc, ← hjc]
  exact pairwise_both (C59_same_instruction s.decoder (decoder_ne s) w hw) ha hj ham hjm

theorem listed_lowVa (x : Xlen) (o : Op) (k : VecInt.Same × VForm) (hk : vaKind o = some k) (w : Nat)
    (hl : Listed x o w) : w &&& 3 = 3 := by
  have t : vaOps.all (fun o => (enc x o).all fun e => e.mask &&& 3 == 3 && e.value &&& 3 == 3) = true := by
    cases x <;> decide +kernel
  obtain ⟨e, he, ha, _⟩ := hl
  have h := List.all_eq_true.1 t o (vaKind_mem hk)
  rw [he] at h
  simp only [Option.all_some, Bool.and_eq_true, beq_iff_eq] at h
  rw [← h.1, ← Nat.and_assoc, ha, h.2, h.1]

/-! ## Other instructions -/

theorem va_other (x : Xlen) : vaFns.all (fun p => (fn x p.1).isNone && p.1 != "Vsetvl") = true := by
  cases x <;> decide +kernel

theorem lookup_mem {β : Type} {l : List (String × β)} {a : String} {b : β} (h : l.lookup a = some b) : (a, b) ∈ l := by
  induction l with
  | nil => cases h
  | cons p l ih =>
    rcases p with ⟨a', b'⟩
    rw [List.lookup_cons] at h
    split at h
    · rename_i he
      rw [beq_iff_eq.1 he, ← Option.some.inj h]
      exact List.mem_cons_self
    · exact List.mem_cons_of_mem _ (ih h)

/-- An instruction of the smaller models is none of these. -/
theorem not_va (s : Sim) (o : Op) (h : acts s o ≠ none ∨ vsActs s o ≠ none) : vaActs s o = none := by
  cases hc : vaActs s o with
  | none => rfl
  | some a =>
    exfalso
    unfold vaActs at hc
    unfold acts vsActs at h
    cases hf : (s.isa.instrs.find? fun i => i.name == opName o) with
    | none => rw [hf] at hc; cases hc
    | some i =>
      rw [hf, Option.bind_some] at hc h
      rw [Option.bind_some] at h
      revert hc h
      generalize i.phases = ps
      intro h hc
      rcases ps with _ | ⟨p, _ | ⟨q, l⟩⟩
      · cases hc
      · have hp : vaAct p = some a := hc
        unfold vaAct at hp
        split at hp
        · rename_i c hcc ha
          obtain ⟨b, hb, -⟩ := Option.map_eq_some_iff.1 hp
          have := List.all_eq_true.1 (va_other s.xlen) _ (lookup_mem hb)
          simp only [Bool.and_eq_true, Option.isNone_iff_eq_none] at this
          rcases h with h | h
          · apply h
            simp [List.mapM_cons, act, hcc, this.1]
          · apply h
            show vsAct p = none
            unfold vsAct
            rw [ha]
            split
            · rename_i hx; cases hx
            · rfl
        · cases hp
      · cases hc

end Verif.Exec
