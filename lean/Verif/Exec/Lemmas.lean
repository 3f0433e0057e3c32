import Verif.Exec.Model
import Verif.Decode.IsaProps
import Verif.Getters.Props
import Verif.Alu.Props
import Verif.MulDiv.Props
import Verif.Control.Props
import Verif.Mem.Props

/-!
# Operands and effects of the parts of an instruction
-/

namespace Verif.Exec

open Decode Decode.Isa Core Operands Spec

/-! ## The tables -/

/-- The operands used by the base instructions, M and C. -/
def usedSrcs (x : Xlen) : List Getters.Opd :=
  [.Rs1, .Rs2, .IImm12, .JImm12, .SImm12, .BImm12, .UImm20, .JImm20, .IUimm5,
    .Rd, .Crs1, .Crs2, .C3rs1, .C3rs2, .X0, .X2, .ICiImm6, .ICiUimm6, .ICiImm612, .ICiImm6x16,
    .ICiUimm6x4, .ICiUimm6x8, .ICssUimm6x4, .ICssUimm6x8, .ICiwUimm8x4, .IClUimm5x4, .IClUimm5x8,
    .ICbImm8, .ICjImm11] ++
    match x with
    | .rv32 => []
    | .rv64 => [.IUimm6]

def usedDsts : List Getters.Opd := [.Rd, .C3rd, .C3rs1, .X0, .X1, .X2]

/-- The register operands of sources that make a constant of register 0. -/
theorem source_reg (s : Sim) (o : Getters.Opd) (ho : o = .Rs1 ∨ o = .Rs2) :
    ∃ fmt fld, s.source o = some (.xreg true fmt fld) := by
  rcases ho with rfl | rfl <;> cases s <;> exact ⟨_, _, rfl⟩

theorem source_ok (s : Sim) (o : Getters.Opd) (ho : o ∈ usedSrcs s.xlen) (w : Nat) :
    ∃ g m, s.source o = some g ∧ Getters.Spec.source o = some m ∧
      Getters.Spec.Reads w (g.source w) m := by
  have t : (usedSrcs s.xlen).all (fun o => s.isa.enc.any fun e =>
      (e.source o).isSome && !Getters.oddSource e o) = true := by
    cases s <;> decide +kernel
  have h := List.all_eq_true.1 t o ho
  unfold Sim.source
  cases he : s.isa.enc with
  | none => rw [he] at h; simp at h
  | some e =>
    rw [he] at h
    simp only [Option.any_some, Bool.and_eq_true, Bool.not_eq_true'] at h
    obtain ⟨g, hg⟩ := Option.isSome_iff_exists.1 h.1
    obtain ⟨m, hm, hr⟩ := Getters.C84_source_partial e o g hg h.2 w
    exact ⟨g, m, hg, hm, hr⟩

theorem dest_ok (s : Sim) (o : Getters.Opd) (ho : o ∈ usedDsts) (w : Nat) :
    ∃ g m, s.dest o = some g ∧ g ≠ .pc ∧ Getters.Spec.dest o = some m ∧
      Getters.Spec.Writes w (g.dest w) m := by
  have t : usedDsts.all (fun o => s.isa.enc.any fun e =>
      (e.dest o).any (fun g => g != .pc) && !Getters.oddDest e o) = true := by
    cases s <;> decide +kernel
  have t := List.all_eq_true.1 t o ho
  unfold Sim.dest
  cases he : s.isa.enc with
  | none => rw [he] at t; simp at t
  | some e =>
    rw [he] at t
    simp only [Option.any_some, Bool.and_eq_true, Bool.not_eq_true'] at t
    cases hg : e.dest o with
    | none => rw [hg] at t; simp at t
    | some g =>
      rw [hg] at t
      simp only [Option.any_some, bne_iff_ne, ne_eq] at t
      obtain ⟨m, hm, hr⟩ := Getters.C84_dest_partial e o g hg t.2 (by
        revert ho; clear t hg; unfold usedDsts; cases o <;> decide) w
      exact ⟨g, m, hg, t.1, hm, hr⟩

theorem dest_pc (s : Sim) : s.dest .NextPc = some .pc := by cases s <;> decide +kernel

/-! ## Values of operands -/

variable {n : Nat}

theorem X_eq (c : Core n) (r : BitVec 5) : X c r = Regs.read c.regs r := rfl

theorem ofNat5_ne {k : Nat} (h : k < 32) (h0 : k ≠ 0) : BitVec.ofNat 5 k ≠ 0#5 := by
  intro he
  have := congrArg BitVec.toNat he
  simp only [BitVec.toNat_ofNat] at this
  omega

theorem get_rs (s : Sim) (c : Core n) (o : Getters.Opd) (b : List (Nat × Nat)) (ho : o = .Rs1 ∨ o = .Rs2)
    (hm : Getters.Spec.source o = some (.x b)) (hb : (Getters.Spec.positions b).length = 5) (w : Nat) :
    ((s.source o).bind fun g => get c (g.source w)) =
      some (X c (BitVec.ofNat 5 (Getters.Spec.unsigned w (Getters.Spec.positions b)))) := by
  have hl := Getters.unsigned_lt w (Getters.Spec.positions b)
  rw [hb] at hl
  obtain ⟨g, m, hg, hm', h⟩ := source_ok s o (by
    rcases ho with rfl | rfl <;> (unfold usedSrcs; simp)) w
  obtain rfl : Getters.Spec.Meaning.x b = m := Option.some.inj (hm.symm.trans hm')
  obtain ⟨fmt, fld, hg'⟩ := source_reg s o ho
  rw [hg'] at hg ⊢
  obtain rfl := Option.some.inj hg
  rw [Option.bind_some]
  unfold X
  rcases h with h | ⟨h0, h⟩
  · rw [h]
    have h0 : Getters.Spec.unsigned w (Getters.Spec.positions b) ≠ 0 := by
      intro h0
      rw [h0] at h
      change (if _ then _ else _) = _ at h
      split at h
      · cases h
      · rename_i hn
        exact hn ⟨rfl, Getters.Val.x.inj h⟩
    rw [if_neg (ofNat5_ne hl h0)]; rfl
  · rw [h, h0]; rfl

/-- The same for any register operand, if register 0 has its value. -/
theorem get_x (s : Sim) (c : Core n) (hz : c.regs 0#5 = 0#n) (o : Getters.Opd) (b : List (Nat × Nat))
    (ho : o ∈ usedSrcs s.xlen) (hm : Getters.Spec.source o = some (.x b)) (w : Nat) :
    ((s.source o).bind fun g => get c (g.source w)) =
      some (X c (BitVec.ofNat 5 (Getters.Spec.unsigned w (Getters.Spec.positions b)))) := by
  obtain ⟨g, m, hg, hm', h⟩ := source_ok s o ho w
  obtain rfl : Getters.Spec.Meaning.x b = m := Option.some.inj (hm.symm.trans hm')
  rw [hg, Option.bind_some]
  unfold X
  rcases h with h | ⟨h0, h⟩
  · rw [h]
    show some (c.regs _) = _
    split
    · rename_i he; rw [he, hz]
    · rfl
  · rw [h, h0]; rfl

theorem get_x3 (s : Sim) (c : Core n) (o : Getters.Opd) (b : List (Nat × Nat))
    (ho : o ∈ usedSrcs s.xlen) (hm : Getters.Spec.source o = some (.x3 b))
    (hb : (Getters.Spec.positions b).length = 3) (w : Nat) :
    ((s.source o).bind fun g => get c (g.source w)) =
      some (X c (BitVec.ofNat 5 (8 + Getters.Spec.unsigned w (Getters.Spec.positions b)))) := by
  have hl := Getters.unsigned_lt w (Getters.Spec.positions b)
  rw [hb] at hl
  obtain ⟨g, m, hg, hm', h⟩ := source_ok s o ho w
  obtain rfl : Getters.Spec.Meaning.x3 b = m := Option.some.inj (hm.symm.trans hm')
  have h' : g.source w = .x (8 + Getters.Spec.unsigned w (Getters.Spec.positions b)) := h
  rw [hg, Option.bind_some, h']
  unfold X
  rw [if_neg (ofNat5_ne (by omega) (by omega))]
  rfl

theorem get_imm (s : Sim) (c : Core n) (o : Getters.Opd) (ho : o ∈ usedSrcs s.xlen)
    (b : List (Nat × Nat)) (k : Nat) (hm : Getters.Spec.source o = some (.simm b k)) (w : Nat) :
    ((s.source o).bind fun g => get c (g.source w)) =
      some (BitVec.ofInt n (Getters.Spec.signed w (Getters.Spec.positions b) * k)) := by
  obtain ⟨g, m, hg, hm', h⟩ := source_ok s o ho w
  obtain rfl : Getters.Spec.Meaning.simm b k = m := Option.some.inj (hm.symm.trans hm')
  have h' : g.source w = .number (Getters.Spec.signed w (Getters.Spec.positions b) * k) := h
  rw [hg, Option.bind_some, h']; rfl

theorem get_uimm (s : Sim) (c : Core n) (o : Getters.Opd) (ho : o ∈ usedSrcs s.xlen)
    (b : List (Nat × Nat)) (k : Nat) (hm : Getters.Spec.source o = some (.uimm b k)) (w : Nat) :
    ((s.source o).bind fun g => get c (g.source w)) =
      some (BitVec.ofInt n ((Getters.Spec.unsigned w (Getters.Spec.positions b) * k : Nat) : Int)) := by
  obtain ⟨g, m, hg, hm', h⟩ := source_ok s o ho w
  obtain rfl : Getters.Spec.Meaning.uimm b k = m := Option.some.inj (hm.symm.trans hm')
  have h' : g.source w = .number ((Getters.Spec.unsigned w (Getters.Spec.positions b) : Int) * k) := h
  rw [hg, Option.bind_some, h']
  show some (BitVec.ofInt n _) = _
  rw [Int.natCast_mul]

theorem get_x0 (s : Sim) (c : Core n) (w : Nat) :
    ((s.source .X0).bind fun g => get c (g.source w)) = some (0#n) := by
  obtain ⟨g, m, hg, hm', h⟩ := source_ok s .X0 (by simp [usedSrcs]) w
  obtain rfl : Getters.Spec.Meaning.lit 0 = m := Option.some.inj hm'
  have h' : g.source w = .number ((0 : Nat) : Int) := h
  rw [hg, Option.bind_some, h']
  show some (BitVec.ofInt n _) = _
  rw [BitVec.ofInt_natCast]

theorem get_x2 (s : Sim) (c : Core n) (w : Nat) :
    ((s.source .X2).bind fun g => get c (g.source w)) = some (X c sp) := by
  obtain ⟨g, m, hg, hm', h⟩ := source_ok s .X2 (by simp [usedSrcs]) w
  obtain rfl : Getters.Spec.Meaning.reg 2 = m := Option.some.inj hm'
  have h' : g.source w = .x 2 := h
  rw [hg, Option.bind_some, h']
  unfold X sp
  rw [if_neg (by decide)]; rfl

/-! ## Operands by position -/

theorem src_one (s : Sim) (w : Nat) (c : Core n) (a : Act) (k : Nat) (o : Getters.Opd)
    (h : a.srcs[k]? = some (.one o)) :
    srcAt s w c a k = (s.source o).bind fun g => get c (g.source w) := by
  unfold srcAt; rw [h]

theorem src_rs1 (s : Sim) (w : Nat) (c : Core n) (a : Act) (k : Nat)
    (h : a.srcs[k]? = some (.one .Rs1)) : srcAt s w c a k = some (X c (rs1 w)) := by
  rw [src_one s w c a k _ h]; exact get_rs s c .Rs1 _ (.inl rfl) rfl rfl w

theorem src_rs2 (s : Sim) (w : Nat) (c : Core n) (a : Act) (k : Nat)
    (h : a.srcs[k]? = some (.one .Rs2)) : srcAt s w c a k = some (X c (rs2 w)) := by
  rw [src_one s w c a k _ h]; exact get_rs s c .Rs2 _ (.inr rfl) rfl rfl w

theorem src_immI (s : Sim) (w : Nat) (c : Core n) (a : Act) (k : Nat)
    (h : a.srcs[k]? = some (.one .IImm12) ∨ a.srcs[k]? = some (.one .JImm12)) :
    srcAt s w c a k = some (BitVec.ofInt n (immI w)) := by
  rcases h with h | h
  · rw [src_one s w c a k _ h, get_imm s c .IImm12 (by simp [usedSrcs]) _ 1 rfl w]
    unfold immI; rw [Int.natCast_one, Int.mul_one]
  · rw [src_one s w c a k _ h, get_imm s c .JImm12 (by simp [usedSrcs]) _ 1 rfl w]
    unfold immI; rw [Int.natCast_one, Int.mul_one]

theorem src_immS (s : Sim) (w : Nat) (c : Core n) (a : Act) (k : Nat)
    (h : a.srcs[k]? = some (.one .SImm12)) : srcAt s w c a k = some (BitVec.ofInt n (immS w)) := by
  rw [src_one s w c a k _ h, get_imm s c .SImm12 (by simp [usedSrcs]) _ 1 rfl w]
  unfold immS; rw [Int.natCast_one, Int.mul_one]

theorem src_immB (s : Sim) (w : Nat) (c : Core n) (a : Act) (k : Nat)
    (h : a.srcs[k]? = some (.one .BImm12)) : srcAt s w c a k = some (BitVec.ofInt n (immB w)) := by
  rw [src_one s w c a k _ h, get_imm s c .BImm12 (by simp [usedSrcs]) _ 2 rfl w]; rfl

theorem src_immU (s : Sim) (w : Nat) (c : Core n) (a : Act) (k : Nat)
    (h : a.srcs[k]? = some (.one .UImm20)) : srcAt s w c a k = some (BitVec.ofInt n (immU w)) := by
  rw [src_one s w c a k _ h, get_imm s c .UImm20 (by simp [usedSrcs]) _ 4096 rfl w]; rfl

theorem src_immJ (s : Sim) (w : Nat) (c : Core n) (a : Act) (k : Nat)
    (h : a.srcs[k]? = some (.one .JImm20)) : srcAt s w c a k = some (BitVec.ofInt n (immJ w)) := by
  rw [src_one s w c a k _ h, get_imm s c .JImm20 (by simp [usedSrcs]) _ 2 rfl w]; rfl

theorem src_sh5 (s : Sim) (w : Nat) (c : Core n) (a : Act) (k : Nat)
    (h : a.srcs[k]? = some (.one .IUimm5)) : srcAt s w c a k = some (BitVec.ofInt n (shamt5 w)) := by
  rw [src_one s w c a k _ h, get_uimm s c .IUimm5 (by simp [usedSrcs]) _ 1 rfl w]
  unfold shamt5; rw [Nat.mul_one]

theorem src_sh6 (s : Sim) (hs : s.xlen = .rv64) (w : Nat) (c : Core n) (a : Act) (k : Nat)
    (h : a.srcs[k]? = some (.one .IUimm6)) : srcAt s w c a k = some (BitVec.ofInt n (shamt6 w)) := by
  rw [src_one s w c a k _ h, get_uimm s c .IUimm6 (by rw [hs]; simp [usedSrcs]) _ 1 rfl w]
  unfold shamt6; rw [Nat.mul_one]

theorem dst_pc (s : Sim) (w : Nat) (a : Act) (k : Nat)
    (h : a.dsts[k]? = some (.one .NextPc)) : dstAt s w a k = some .pc := by
  unfold dstAt; rw [h]
  simp only [dest_pc, Option.bind_some]

/-- Destination `k` of the instruction is register `r`. -/
def Puts (s : Sim) (w : Nat) (a : Act) (k : Nat) (r : BitVec 5) : Prop :=
  ∃ d, dstAt s w a k = some d ∧ ∀ (c : Core s.xlen.bits) (v : BitVec s.xlen.bits),
    put c d v = some { c with regs := Regs.write c.regs r v }

theorem puts_of (s : Sim) (w : Nat) (a : Act) (k : Nat) (o : Getters.Opd) (g : Getters.What) (r : Nat)
    (h : a.dsts[k]? = some (.one o)) (hg : s.dest o = some g) (hp : g ≠ .pc) (hr : r < 32)
    (hw : g.dest w = if r = 0 then .discard else .x r) : Puts s w a k (BitVec.ofNat 5 r) := by
  by_cases h0 : r = 0
  · rw [if_pos h0] at hw
    refine ⟨.drop, ?_, fun c v => ?_⟩
    · unfold dstAt; rw [h]; simp only [hg, Option.bind_some]
      split
      · exact absurd rfl hp
      · rename_i h'; rw [hw] at h'; cases h'
      · rfl
      · rename_i h₁ h₂; first | exact absurd hw h₁ | exact absurd hw h₂
    · unfold Regs.write
      rw [h0]; rfl
  · rw [if_neg h0] at hw
    refine ⟨.reg r, ?_, fun c v => ?_⟩
    · unfold dstAt; rw [h]; simp only [hg, Option.bind_some]
      split
      · exact absurd rfl hp
      · rename_i h'; rw [hw] at h'; cases h'; rfl
      · rename_i h'; rw [hw] at h'; cases h'
      · rename_i h₁ h₂; first | exact absurd hw (h₁ _) | exact absurd hw (h₂ _)
    · unfold Regs.write
      rw [if_neg (ofNat5_ne hr h0)]; rfl

theorem puts_rd (s : Sim) (w : Nat) (a : Act) (k : Nat) (h : a.dsts[k]? = some (.one .Rd)) :
    Puts s w a k (rd w) := by
  obtain ⟨g, m, hg, hp, hm, hw⟩ := dest_ok s .Rd (by decide) w
  obtain rfl : Getters.Spec.Meaning.x [(11, 7)] = m := Option.some.inj hm
  exact puts_of s w a k .Rd g _ h hg hp (Getters.unsigned_lt w (Getters.Spec.positions [(11, 7)])) hw

theorem puts_x3 (s : Sim) (w : Nat) (a : Act) (k : Nat) (o : Getters.Opd) (ho : o ∈ usedDsts)
    (b : Nat × Nat) (hm : Getters.Spec.dest o = some (.x3 [b]))
    (hb : (Getters.Spec.positions [b]).length = 3) (h : a.dsts[k]? = some (.one o)) :
    Puts s w a k (cReg' w b) := by
  obtain ⟨g, m, hg, hp, hm', hw⟩ := dest_ok s o ho w
  obtain rfl : Getters.Spec.Meaning.x3 [b] = m := Option.some.inj (hm.symm.trans hm')
  have hl := Getters.unsigned_lt w (Getters.Spec.positions [b])
  rw [hb] at hl
  have hw' : g.dest w = .x (8 + Getters.Spec.unsigned w (Getters.Spec.positions [b])) := hw
  exact puts_of s w a k o g _ h hg hp (by omega) (by rw [hw', if_neg (by omega)])

theorem puts_reg (s : Sim) (w : Nat) (a : Act) (k : Nat) (o : Getters.Opd) (ho : o ∈ usedDsts)
    (r : Nat) (hr : r < 32) (hm : Getters.Spec.dest o = some (.reg r)) (h : a.dsts[k]? = some (.one o)) :
    Puts s w a k (BitVec.ofNat 5 r) := by
  obtain ⟨g, m, hg, hp, hm', hw⟩ := dest_ok s o ho w
  obtain rfl : Getters.Spec.Meaning.reg r = m := Option.some.inj (hm.symm.trans hm')
  exact puts_of s w a k o g _ h hg hp hr hw

end Verif.Exec
