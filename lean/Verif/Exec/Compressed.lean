import Verif.Exec.Step

/-!
# Compressed instructions
-/

namespace Verif.Exec

open Decode Decode.Isa Core Operands Spec

/-- The parts of a compressed instruction. -/
def expectC : Op → Option (List Act)
  | .caddi4spn => some [⟨.alu .add, [.one .X2, .one .ICiwUimm8x4], [.one .C3rd]⟩]
  | .clw => some [⟨.load .w, [.one .C3rs1, .one .IClUimm5x4], []⟩, ⟨.child .w true, [], [.one .C3rd]⟩]
  | .cld => some [⟨.load .d, [.one .C3rs1, .one .IClUimm5x8], []⟩, ⟨.child .d true, [], [.one .C3rd]⟩]
  | .csw => some [⟨.store .w, [.one .C3rs1, .one .IClUimm5x4, .one .C3rs2], []⟩]
  | .csd => some [⟨.store .d, [.one .C3rs1, .one .IClUimm5x8, .one .C3rs2], []⟩]
  | .caddi => some [⟨.alu .add, [.one .Rd, .one .ICiImm6], [.one .Rd]⟩]
  | .cjal => some [⟨.jal, [.one .ICjImm11, .one .X0], [.one .NextPc, .one .X1]⟩]
  | .caddiw => some [⟨.aluW .addw, [.one .Rd, .one .ICiImm6], [.one .Rd]⟩]
  | .cli => some [⟨.alu .add, [.one .X0, .one .ICiImm6], [.one .Rd]⟩]
  | .caddi16sp => some [⟨.alu .add, [.one .X2, .one .ICiImm6x16], [.one .X2]⟩]
  | .clui => some [⟨.lui, [.one .ICiImm612], [.one .Rd]⟩]
  | .csrli => some [⟨.alu .srl, [.one .C3rs1, .one .ICiUimm6], [.one .C3rs1]⟩]
  | .csrai => some [⟨.alu .sra, [.one .C3rs1, .one .ICiUimm6], [.one .C3rs1]⟩]
  | .candi => some [⟨.alu .and, [.one .C3rs1, .one .ICiImm6], [.one .C3rs1]⟩]
  | .csub => some [⟨.alu .sub, [.one .C3rs1, .one .C3rs2], [.one .C3rs1]⟩]
  | .cxor => some [⟨.alu .xor, [.one .C3rs1, .one .C3rs2], [.one .C3rs1]⟩]
  | .cor => some [⟨.alu .or, [.one .C3rs1, .one .C3rs2], [.one .C3rs1]⟩]
  | .cand => some [⟨.alu .and, [.one .C3rs1, .one .C3rs2], [.one .C3rs1]⟩]
  | .csubw => some [⟨.aluW .subw, [.one .C3rs1, .one .C3rs2], [.one .C3rs1]⟩]
  | .caddw => some [⟨.aluW .addw, [.one .C3rs1, .one .C3rs2], [.one .C3rs1]⟩]
  | .cj => some [⟨.jal, [.one .ICjImm11, .one .X0], [.one .NextPc, .one .X0]⟩]
  | .cbeqz => some [⟨.branch .eq, [.one .C3rs1, .one .X0, .one .ICbImm8], [.one .NextPc]⟩]
  | .cbnez => some [⟨.branch .ne, [.one .C3rs1, .one .X0, .one .ICbImm8], [.one .NextPc]⟩]
  | .cslli => some [⟨.alu .sll, [.one .Rd, .one .ICiUimm6], [.one .Rd]⟩]
  | .clwsp => some [⟨.load .w, [.one .X2, .one .ICiUimm6x4], []⟩, ⟨.child .w true, [], [.one .Rd]⟩]
  | .cldsp => some [⟨.load .d, [.one .X2, .one .ICiUimm6x8], []⟩, ⟨.child .d true, [], [.one .Rd]⟩]
  | .cjr => some [⟨.jalr, [.one .Crs1, .one .X0], [.one .NextPc, .one .X0]⟩]
  | .cmv => some [⟨.alu .add, [.one .Crs2, .one .X0], [.one .Rd]⟩]
  | .cjalr => some [⟨.jalr, [.one .Crs1, .one .X0], [.one .NextPc, .one .X1]⟩]
  | .cadd => some [⟨.alu .add, [.one .Crs2, .one .Rd], [.one .Rd]⟩]
  | .cswsp => some [⟨.store .w, [.one .X2, .one .ICssUimm6x4, .one .Crs2], []⟩]
  | .csdsp => some [⟨.store .d, [.one .X2, .one .ICssUimm6x8, .one .Crs2], []⟩]
  | _ => none

/-! ## Operands -/

section
variable {n : Nat} (s : Sim) (w : Nat) (c : Core n) (a : Act) (k : Nat)

theorem X_zero : X c 0#5 = 0#n := by unfold X; rw [if_pos rfl]

theorem src_x0 (h : a.srcs[k]? = some (.one .X0)) : srcAt s w c a k = some (X c 0#5) := by
  rw [src_one s w c a k _ h, get_x0, X_zero]

theorem src_x0i (h : a.srcs[k]? = some (.one .X0)) : srcAt s w c a k = some (BitVec.ofInt n 0) := by
  rw [src_one s w c a k _ h, get_x0]; simp

theorem src_sp (h : a.srcs[k]? = some (.one .X2)) : srcAt s w c a k = some (X c sp) := by
  rw [src_one s w c a k _ h, get_x2]

theorem src_c3rs1 (h : a.srcs[k]? = some (.one .C3rs1)) : srcAt s w c a k = some (X c (cRs1' w)) := by
  rw [src_one s w c a k _ h, get_x3 s c .C3rs1 _ (by simp [usedSrcs]) rfl rfl w]; rfl

theorem src_c3rs2 (h : a.srcs[k]? = some (.one .C3rs2)) : srcAt s w c a k = some (X c (cRs2' w)) := by
  rw [src_one s w c a k _ h, get_x3 s c .C3rs2 _ (by simp [usedSrcs]) rfl rfl w]; rfl

theorem src_crd (hz : c.regs 0#5 = 0#n) (h : a.srcs[k]? = some (.one .Rd)) :
    srcAt s w c a k = some (X c (cRd w)) := by
  rw [src_one s w c a k _ h, get_x s c hz .Rd _ (by simp [usedSrcs]) rfl w]; rfl

theorem src_crs1 (hz : c.regs 0#5 = 0#n) (h : a.srcs[k]? = some (.one .Crs1)) :
    srcAt s w c a k = some (X c (cRd w)) := by
  rw [src_one s w c a k _ h, get_x s c hz .Crs1 _ (by simp [usedSrcs]) rfl w]; rfl

theorem src_crs2 (hz : c.regs 0#5 = 0#n) (h : a.srcs[k]? = some (.one .Crs2)) :
    srcAt s w c a k = some (X c (cRs2 w)) := by
  rw [src_one s w c a k _ h, get_x s c hz .Crs2 _ (by simp [usedSrcs]) rfl w]; rfl

theorem src_cimm (h : a.srcs[k]? = some (.one .ICiImm6)) :
    srcAt s w c a k = some (BitVec.ofInt n (cImm w)) := by
  rw [src_one s w c a k _ h, get_imm s c .ICiImm6 (by simp [usedSrcs]) _ 1 rfl w]
  unfold cImm; rw [Int.natCast_one, Int.mul_one]

theorem src_clui (h : a.srcs[k]? = some (.one .ICiImm612)) :
    srcAt s w c a k = some (BitVec.ofInt n (cImm w * 4096)) := by
  rw [src_one s w c a k _ h, get_imm s c .ICiImm612 (by simp [usedSrcs]) _ 4096 rfl w]; rfl

theorem src_csp16 (h : a.srcs[k]? = some (.one .ICiImm6x16)) :
    srcAt s w c a k = some (BitVec.ofInt n (cSp16 w)) := by
  rw [src_one s w c a k _ h, get_imm s c .ICiImm6x16 (by simp [usedSrcs]) _ 16 rfl w]; rfl

theorem src_cimmB (h : a.srcs[k]? = some (.one .ICbImm8)) :
    srcAt s w c a k = some (BitVec.ofInt n (cImmB w)) := by
  rw [src_one s w c a k _ h, get_imm s c .ICbImm8 (by simp [usedSrcs]) _ 2 rfl w]; rfl

theorem src_cimmJ (h : a.srcs[k]? = some (.one .ICjImm11)) :
    srcAt s w c a k = some (BitVec.ofInt n (cImmJ w)) := by
  rw [src_one s w c a k _ h, get_imm s c .ICjImm11 (by simp [usedSrcs]) _ 2 rfl w]; rfl

theorem src_cshamt (h : a.srcs[k]? = some (.one .ICiUimm6)) :
    srcAt s w c a k = some (BitVec.ofInt n (cShamt w)) := by
  rw [src_one s w c a k _ h, get_uimm s c .ICiUimm6 (by simp [usedSrcs]) _ 1 rfl w]
  unfold cShamt; rw [Nat.mul_one]

theorem src_cspn (h : a.srcs[k]? = some (.one .ICiwUimm8x4)) :
    srcAt s w c a k = some (BitVec.ofInt n (cSpn w)) := by
  rw [src_one s w c a k _ h, get_uimm s c .ICiwUimm8x4 (by simp [usedSrcs]) _ 4 rfl w]; rfl

theorem src_clw (h : a.srcs[k]? = some (.one .IClUimm5x4)) :
    srcAt s w c a k = some (BitVec.ofInt n (cLw w)) := by
  rw [src_one s w c a k _ h, get_uimm s c .IClUimm5x4 (by simp [usedSrcs]) _ 4 rfl w]; rfl

theorem src_cld (h : a.srcs[k]? = some (.one .IClUimm5x8)) :
    srcAt s w c a k = some (BitVec.ofInt n (cLd w)) := by
  rw [src_one s w c a k _ h, get_uimm s c .IClUimm5x8 (by simp [usedSrcs]) _ 8 rfl w]; rfl

theorem src_clwsp (h : a.srcs[k]? = some (.one .ICiUimm6x4)) :
    srcAt s w c a k = some (BitVec.ofInt n (cLwsp w)) := by
  rw [src_one s w c a k _ h, get_uimm s c .ICiUimm6x4 (by simp [usedSrcs]) _ 4 rfl w]; rfl

theorem src_cldsp (h : a.srcs[k]? = some (.one .ICiUimm6x8)) :
    srcAt s w c a k = some (BitVec.ofInt n (cLdsp w)) := by
  rw [src_one s w c a k _ h, get_uimm s c .ICiUimm6x8 (by simp [usedSrcs]) _ 8 rfl w]; rfl

theorem src_cswsp (h : a.srcs[k]? = some (.one .ICssUimm6x4)) :
    srcAt s w c a k = some (BitVec.ofInt n (cSwsp w)) := by
  rw [src_one s w c a k _ h, get_uimm s c .ICssUimm6x4 (by simp [usedSrcs]) _ 4 rfl w]; rfl

theorem src_csdsp (h : a.srcs[k]? = some (.one .ICssUimm6x8)) :
    srcAt s w c a k = some (BitVec.ofInt n (cSdsp w)) := by
  rw [src_one s w c a k _ h, get_uimm s c .ICssUimm6x8 (by simp [usedSrcs]) _ 8 rfl w]; rfl

theorem puts_crd (h : a.dsts[k]? = some (.one .Rd)) : Puts s w a k (cRd w) := puts_rd s w a k h

theorem puts_c3rd (h : a.dsts[k]? = some (.one .C3rd)) : Puts s w a k (cRs2' w) :=
  puts_x3 s w a k .C3rd (by decide) (4, 2) rfl rfl h

theorem puts_c3rs1 (h : a.dsts[k]? = some (.one .C3rs1)) : Puts s w a k (cRs1' w) :=
  puts_x3 s w a k .C3rs1 (by decide) (9, 7) rfl rfl h

theorem puts_x0 (h : a.dsts[k]? = some (.one .X0)) : Puts s w a k 0#5 :=
  puts_reg s w a k .X0 (by decide) 0 (by decide) rfl h

theorem puts_x1 (h : a.dsts[k]? = some (.one .X1)) : Puts s w a k 1#5 :=
  puts_reg s w a k .X1 (by decide) 1 (by decide) rfl h

theorem puts_sp (h : a.dsts[k]? = some (.one .X2)) : Puts s w a k sp :=
  puts_reg s w a k .X2 (by decide) 2 (by decide) rfl h

end

theorem unsigned_small (w : Nat) (b : List (Nat × Nat)) (k : Nat)
    (h : (Getters.Spec.positions b).length ≤ 10) (hk : k ≤ 8) :
    Small ((Getters.Spec.unsigned w (Getters.Spec.positions b) * k : Nat) : Int) := by
  have h1 := Getters.unsigned_lt w (Getters.Spec.positions b)
  have h2 : (2 : Nat) ^ (Getters.Spec.positions b).length ≤ 2 ^ 10 := Nat.pow_le_pow_right (by decide) h
  have h3 : Getters.Spec.unsigned w (Getters.Spec.positions b) * k ≤ 2 ^ 10 * 8 :=
    Nat.mul_le_mul (by omega) hk
  unfold Small
  omega

theorem cImmB_small (w : Nat) : Small (cImmB w) :=
  signed_small w [(12, 12), (6, 5), (2, 2), (11, 10), (4, 3)] 2 (by decide) (by decide) (by decide) _
    (by unfold cImmB; omega)

theorem cImmJ_small (w : Nat) : Small (cImmJ w) :=
  signed_small w [(12, 12), (8, 8), (10, 9), (6, 6), (7, 7), (2, 2), (11, 11), (5, 3)] 2 (by decide)
    (by decide) (by decide) _ (by unfold cImmJ; omega)

theorem cImm_is (w : Nat) : IsU (cImm w * 4096) := by
  have h := Getters.signed_bound w (Getters.Spec.positions [(12, 12), (6, 2)]) (by decide)
  rw [show (Getters.Spec.positions [(12, 12), (6, 2)]).length = 6 from rfl] at h
  unfold IsU cImm
  omega

theorem carries_mono {s : Sim} {w : Nat} {c : Core s.xlen.bits} {z : Args} {as : List Act}
    {P Q : Core s.xlen.bits → Prop} (h : Carries s w c z as P) (hpq : ∀ c', P c' → Q c') :
    Carries s w c z as Q := by
  obtain ⟨c', hc, hp⟩ := h
  exact ⟨c', hc, hpq _ hp⟩

theorem result_comm {n : Nat} {a b r : BitVec n} (h : Alu.Spec.result n .add a b r) :
    Alu.Spec.result n .add b a r := by
  have h' : r.toNat = (a.toNat + b.toNat) % 2 ^ n := h
  show r.toNat = (b.toNat + a.toNat) % 2 ^ n
  rw [h', Nat.add_comm]

/-- The description of a compressed instruction is carried out as what it is short for. -/
theorem carry_expectC (s : Sim) (w : Nat) (c : Core s.xlen.bits) (hb : c.hart.branch = false)
    (hpc : c.hart.pc.toNat % 2 = 0) (hz : c.regs 0#5 = 0#s.xlen.bits) (x : Xlen) (hx : s.xlen = x)
    (o : Op) (k : Kind) (z : Args) (h : expand x o w = some (k, z)) (ho : NoOverflow c k z)
    (as : List Act) (ha : expectC o = some as) : Carries s w c z as (Does s.xlen k z c) := by
  unfold expand at h
  split at h <;> first
    | (cases h; done)
    | (obtain ⟨rfl, rfl⟩ := Prod.mk.inj (Option.some.inj h); obtain rfl := Option.some.inj ha)
    | (cases ha; done)
  · exact does_alu hb rfl (src_sp s w c _ 0 rfl) (src_cspn s w c _ 1 rfl) (puts_c3rd s w _ 0 rfl)
  · exact does_ld hb (by cases s <;> rfl) rfl rfl (src_c3rs1 s w c _ 0 rfl) (src_clw s w c _ 1 rfl) (puts_c3rd s w _ 0 rfl)
      (unsigned_small w [(5, 5), (12, 10), (6, 6)] 4 (by decide) (by decide))
  · exact does_ld hb (by rw [hx]; rfl) rfl rfl (src_c3rs1 s w c _ 0 rfl) (src_cld s w c _ 1 rfl) (puts_c3rd s w _ 0 rfl)
      (unsigned_small w [(6, 5), (12, 10)] 8 (by decide) (by decide))
  · exact does_st hb rfl (src_c3rs1 s w c _ 0 rfl) (src_clw s w c _ 1 rfl) (src_c3rs2 s w c _ 2 rfl)
      (unsigned_small w [(5, 5), (12, 10), (6, 6)] 4 (by decide) (by decide))
  · exact does_st hb rfl (src_c3rs1 s w c _ 0 rfl) (src_cld s w c _ 1 rfl) (src_c3rs2 s w c _ 2 rfl)
      (unsigned_small w [(6, 5), (12, 10)] 8 (by decide) (by decide))
  · exact does_alu hb rfl (src_crd s w c _ 0 hz rfl) (src_cimm s w c _ 1 rfl) (puts_crd s w _ 0 rfl)
  · exact does_jal hb hpc rfl (src_cimmJ s w c _ 0 rfl) (dst_pc s w _ 0 rfl) (puts_x1 s w _ 1 rfl)
      (show cImmJ w % 2 = 0 by unfold cImmJ; omega) (cImmJ_small w)
  · exact does_aluW hb rfl (src_crd s w c _ 0 hz rfl) (src_cimm s w c _ 1 rfl) (puts_crd s w _ 0 rfl)
      (aluW_defined s.xlen _ _ _ _ (.inr (.inl rfl)) (by rw [hx]; rfl) (ho _ _ rfl))
  · exact does_alu hb rfl (src_x0 s w c _ 0 rfl) (src_cimm s w c _ 1 rfl) (puts_crd s w _ 0 rfl)
  · exact does_alu hb rfl (src_sp s w c _ 0 rfl) (src_csp16 s w c _ 1 rfl) (puts_sp s w _ 0 rfl)
  · exact does_lui hb rfl (src_clui s w c _ 0 rfl) (cImm_is w) (puts_crd s w _ 0 rfl)
  · exact does_alu hb rfl (src_c3rs1 s w c _ 0 rfl) (src_cshamt s w c _ 1 rfl) (puts_c3rs1 s w _ 0 rfl)
  · exact does_alu hb rfl (src_c3rs1 s w c _ 0 rfl) (src_cshamt s w c _ 1 rfl) (puts_c3rs1 s w _ 0 rfl)
  · exact does_alu hb rfl (src_c3rs1 s w c _ 0 rfl) (src_cimm s w c _ 1 rfl) (puts_c3rs1 s w _ 0 rfl)
  · exact does_alu hb rfl (src_c3rs1 s w c _ 0 rfl) (src_c3rs2 s w c _ 1 rfl) (puts_c3rs1 s w _ 0 rfl)
  · exact does_alu hb rfl (src_c3rs1 s w c _ 0 rfl) (src_c3rs2 s w c _ 1 rfl) (puts_c3rs1 s w _ 0 rfl)
  · exact does_alu hb rfl (src_c3rs1 s w c _ 0 rfl) (src_c3rs2 s w c _ 1 rfl) (puts_c3rs1 s w _ 0 rfl)
  · exact does_alu hb rfl (src_c3rs1 s w c _ 0 rfl) (src_c3rs2 s w c _ 1 rfl) (puts_c3rs1 s w _ 0 rfl)
  · exact does_aluW hb rfl (src_c3rs1 s w c _ 0 rfl) (src_c3rs2 s w c _ 1 rfl) (puts_c3rs1 s w _ 0 rfl)
      (aluW_defined s.xlen _ _ _ _ (.inl rfl) (by rw [hx]; rfl) (ho _ _ rfl))
  · exact does_aluW hb rfl (src_c3rs1 s w c _ 0 rfl) (src_c3rs2 s w c _ 1 rfl) (puts_c3rs1 s w _ 0 rfl)
      (aluW_defined s.xlen _ _ _ _ (.inl rfl) (by rw [hx]; rfl) (ho _ _ rfl))
  · exact does_jal hb hpc rfl (src_cimmJ s w c _ 0 rfl) (dst_pc s w _ 0 rfl) (puts_x0 s w _ 1 rfl)
      (show cImmJ w % 2 = 0 by unfold cImmJ; omega) (cImmJ_small w)
  · exact does_br hb rfl (src_c3rs1 s w c _ 0 rfl) (src_x0 s w c _ 1 rfl) (src_cimmB s w c _ 2 rfl) (dst_pc s w _ 0 rfl) (cImmB_small w)
  · exact does_br hb rfl (src_c3rs1 s w c _ 0 rfl) (src_x0 s w c _ 1 rfl) (src_cimmB s w c _ 2 rfl) (dst_pc s w _ 0 rfl) (cImmB_small w)
  · exact does_alu hb rfl (src_crd s w c _ 0 hz rfl) (src_cshamt s w c _ 1 rfl) (puts_crd s w _ 0 rfl)
  · exact does_ld hb (by cases s <;> rfl) rfl rfl (src_sp s w c _ 0 rfl) (src_clwsp s w c _ 1 rfl) (puts_crd s w _ 0 rfl)
      (unsigned_small w [(3, 2), (12, 12), (6, 4)] 4 (by decide) (by decide))
  · exact does_ld hb (by rw [hx]; rfl) rfl rfl (src_sp s w c _ 0 rfl) (src_cldsp s w c _ 1 rfl) (puts_crd s w _ 0 rfl)
      (unsigned_small w [(4, 2), (12, 12), (6, 5)] 8 (by decide) (by decide))
  · exact does_jalr hb rfl (src_crs1 s w c _ 0 hz rfl) (src_x0i s w c _ 1 rfl) (dst_pc s w _ 0 rfl) (puts_x0 s w _ 1 rfl)
      (show Small 0 from ⟨by decide, by decide⟩)
  · exact carries_mono (does_alu hb rfl (src_crs2 s w c _ 0 hz rfl) (src_x0 s w c _ 1 rfl) (puts_crd s w _ 0 rfl))
      fun _ h => computes_mono h fun _ => result_comm
  · exact does_jalr hb rfl (src_crs1 s w c _ 0 hz rfl) (src_x0i s w c _ 1 rfl) (dst_pc s w _ 0 rfl) (puts_x1 s w _ 1 rfl)
      (show Small 0 from ⟨by decide, by decide⟩)
  · exact carries_mono (does_alu hb rfl (src_crs2 s w c _ 0 hz rfl) (src_crd s w c _ 1 hz rfl) (puts_crd s w _ 0 rfl))
      fun _ h => computes_mono h fun _ => result_comm
  · exact does_st hb rfl (src_sp s w c _ 0 rfl) (src_cswsp s w c _ 1 rfl) (src_crs2 s w c _ 2 hz rfl)
      (unsigned_small w [(8, 7), (12, 9)] 4 (by decide) (by decide))
  · exact does_st hb rfl (src_sp s w c _ 0 rfl) (src_csdsp s w c _ 1 rfl) (src_crs2 s w c _ 2 hz rfl)
      (unsigned_small w [(9, 7), (12, 10)] 8 (by decide) (by decide))

end Verif.Exec
