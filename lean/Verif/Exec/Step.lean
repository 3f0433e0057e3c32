import Verif.Exec.Carry

/-!
# What an instruction does, from its operands
-/

namespace Verif.Exec

open Decode Decode.Isa Core Operands Spec

theorem computes_mono {n : Nat} {c c' : Core n} {z : Args} {P Q : BitVec n → Prop}
    (h : Computes c c' z P) (hpq : ∀ v, P v → Q v) : Computes c c' z Q := by
  obtain ⟨v, p, hp, h⟩ := h
  exact ⟨v, p, hpq v hp, h⟩

/-- The outcome of a turn with the given parts. -/
def Carries (s : Sim) (w : Nat) (c : Core s.xlen.bits) (z : Args) (as : List Act)
    (Q : Core s.xlen.bits → Prop) : Prop :=
  ∃ c', carry s w (c.hart.pc.setWidth 64) z.size c as = some c' ∧
    Q (next c' (c.hart.pc.setWidth 64) z.size)

section
variable {s : Sim} {w : Nat} {c : Core s.xlen.bits} {z : Args} {a : Act}

theorem does_alu (hb : c.hart.branch = false) {o : Alu.Op} (ha : a.sem = .alu o)
    {u v : BitVec s.xlen.bits} (h0 : srcAt s w c a 0 = some u) (h1 : srcAt s w c a 1 = some v)
    (hd : Puts s w a 0 z.rd) :
    Carries s w c z [a] fun c' => Computes c c' z (Alu.Spec.result s.xlen.bits o u v) := by
  obtain ⟨d, hd, hp⟩ := hd
  refine ⟨{ c with regs := Regs.write c.regs z.rd (aluOp s.xlen o u v) }, ?_, ?_⟩
  · simp only [carry, single, ha, hd, h0, h1, Option.bind_eq_bind, Option.bind_some, hp]
  · exact computes_put (bits_le _) c hb _ _ _ (aluOp_ok _ _ _ _)

theorem does_mul (hb : c.hart.branch = false) {o : MulDiv.Op} (ha : a.sem = .mul o)
    {u v : BitVec s.xlen.bits} (h0 : srcAt s w c a 0 = some u) (h1 : srcAt s w c a 1 = some v)
    (hd : Puts s w a 0 z.rd) :
    Carries s w c z [a] fun c' => Computes c c' z (MulDiv.Spec.result s.xlen.bits o u v) := by
  obtain ⟨d, hd, hp⟩ := hd
  refine ⟨{ c with regs := Regs.write c.regs z.rd (mulOp s.xlen o u v) }, ?_, ?_⟩
  · simp only [carry, single, ha, hd, h0, h1, Option.bind_eq_bind, Option.bind_some, hp]
  · exact computes_put (bits_le _) c hb _ _ _ (mulOp_ok _ _ _ _)

theorem setWidth_back {n : Nat} (v : BitVec 64) (h : n = 64) : (v.setWidth n).setWidth 64 = v := by
  subst h; rw [BitVec.setWidth_eq, BitVec.setWidth_eq]

theorem does_aluW (hb : c.hart.branch = false) {o : Alu.OpW} (ha : a.sem = .aluW o)
    {u v : BitVec s.xlen.bits} (h0 : srcAt s w c a 0 = some u) (h1 : srcAt s w c a 1 = some v)
    (hd : Puts s w a 0 z.rd) (ho : (Alu.opW o (u.setWidth 64) (v.setWidth 64)).isSome = true) :
    Carries s w c z [a] fun c' => Computes c c' z (LowWord (Alu.Spec.resultW o) u v) := by
  obtain ⟨d, hd, hp⟩ := hd
  obtain ⟨r, hr⟩ := Option.isSome_iff_exists.1 ho
  refine ⟨{ c with regs := Regs.write c.regs z.rd (r.setWidth s.xlen.bits) }, ?_, ?_⟩
  · simp only [carry, single, ha, hd, h0, h1, Option.bind_eq_bind, Option.bind_some, hr, hp]
  · exact computes_put (bits_le _) c hb _ _ _ fun hn => by
      rw [setWidth_back r hn]; exact Alu.C27_w_partial o _ _ _ hr

theorem does_mulW (hb : c.hart.branch = false) {o : MulDiv.OpW} (ha : a.sem = .mulW o)
    {u v : BitVec s.xlen.bits} (h0 : srcAt s w c a 0 = some u) (h1 : srcAt s w c a 1 = some v)
    (hd : Puts s w a 0 z.rd) (ho : (MulDiv.opW o (u.setWidth 64) (v.setWidth 64)).isSome = true) :
    Carries s w c z [a] fun c' => Computes c c' z (LowWord (MulDiv.Spec.resultW o) u v) := by
  obtain ⟨d, hd, hp⟩ := hd
  obtain ⟨r, hr⟩ := Option.isSome_iff_exists.1 ho
  refine ⟨{ c with regs := Regs.write c.regs z.rd (r.setWidth s.xlen.bits) }, ?_, ?_⟩
  · simp only [carry, single, ha, hd, h0, h1, Option.bind_eq_bind, Option.bind_some, hr, hp]
  · exact computes_put (bits_le _) c hb _ _ _ fun hn => by
      rw [setWidth_back r hn]; exact MulDiv.C28_w_partial o _ _ _ hr

theorem does_lui (hb : c.hart.branch = false) (ha : a.sem = .lui)
    (h0 : srcAt s w c a 0 = some (BitVec.ofInt _ z.imm)) (hz : IsU z.imm) (hd : Puts s w a 0 z.rd) :
    Carries s w c z [a] (Does s.xlen .lui z c) := by
  obtain ⟨d, hd, hp⟩ := hd
  refine ⟨{ c with regs := Regs.write c.regs z.rd (luiOp s.xlen (BitVec.ofInt _ z.imm)) }, ?_, ?_⟩
  · simp only [carry, single, ha, hd, h0, Option.bind_eq_bind, Option.bind_some, hp]
  · exact computes_put (bits_le _) c hb _ _ _ (lui_ok _ hz)

theorem does_auipc (hb : c.hart.branch = false) (ha : a.sem = .auipc)
    (h0 : srcAt s w c a 0 = some (BitVec.ofInt _ z.imm)) (hz : IsU z.imm) (hd : Puts s w a 0 z.rd) :
    Carries s w c z [a] (Does s.xlen .auipc z c) := by
  obtain ⟨d, hd, hp⟩ := hd
  refine ⟨{ c with regs := Regs.write c.regs z.rd (auipcOp s.xlen (BitVec.ofInt _ z.imm)
    (c.hart.pc.setWidth 64)) }, ?_, ?_⟩
  · simp only [carry, single, ha, hd, h0, Option.bind_eq_bind, Option.bind_some, hp]
  · exact computes_put (bits_le _) c hb _ _ _ (auipc_ok _ hz _)

end

/-- What follows a jump. -/
theorem goes_next {n : Nat} (c c₁ : Core n) (t : BitVec n) (pc : BitVec 64) (size : Nat)
    (hb : c.hart.branch = false) (h : Control.Spec.Goes c c₁ t) :
    GoesTo c (next c₁ pc size) t ∧ (next c₁ pc size).regs = c₁.regs := by
  obtain ⟨h1, h2, h3, h4⟩ := h
  have hbr : c₁.hart.branch = true := by rw [h1]
  unfold next
  rw [if_pos hbr]
  refine ⟨⟨?_, h2, h3, h4⟩, rfl⟩
  show ({ c₁.hart with branch := false } : Hart.Hart n) = _
  rw [h1, ← hb]

theorem raises_ctl {n : Nat} (c c₁ : Core n) (size : Nat) (tval code : BitVec 64)
    (h : Control.Spec.Raises c c₁ tval code (c.hart.pc.setWidth 64) false) :
    Raises c (next c₁ (c.hart.pc.setWidth 64) size) tval code := by
  obtain ⟨h1, h2, h3, h4, h5⟩ := h
  refine raises_next c c₁ size tval code ?_
  cases c₁; cases c
  simp only [Core.mk.injEq] at *
  exact ⟨h1, h2, h3, h4, h5⟩

theorem link_jump {n : Nat} (c : Core n) (t : BitVec n) (d : Dst) (r : BitVec 5) (a : BitVec 64)
    (size : Nat)
    (hp : ∀ (c : Core n) (v : BitVec n), put c d v = some { c with regs := Regs.write c.regs r v }) :
    link c t .pc d a size = some (Control.jump c t r a size) := by
  unfold link
  dsimp only
  rw [hp]
  rfl

/-- A number that fits a word. -/
def Small (z : Int) : Prop := -2 ^ 31 ≤ z ∧ z < 2 ^ 31

theorem ofInt_toInt {n : Nat} (z : Int) (hn : 32 ≤ n) (h : Small z) : (BitVec.ofInt n z).toInt = z := by
  obtain ⟨h1, h2⟩ := h
  rw [BitVec.toInt_ofInt]
  have hp : (2 : Nat) ^ 32 ≤ 2 ^ n := Nat.pow_le_pow_right (by decide) hn
  exact Int.bmod_eq_of_le (by omega) (by omega)

theorem signed_small (w : Nat) (b : List (Nat × Nat)) (k : Nat)
    (h1 : 1 ≤ (Getters.Spec.positions b).length) (h2 : (Getters.Spec.positions b).length ≤ 20)
    (hk : k ≤ 2) (z : Int) (hz : z = Getters.Spec.signed w (Getters.Spec.positions b) * k) : Small z := by
  have h := Getters.signed_bound w (Getters.Spec.positions b) h1
  have hp : (2 : Nat) ^ ((Getters.Spec.positions b).length - 1) ≤ 2 ^ 19 :=
    Nat.pow_le_pow_right (by decide) (by omega)
  have hp' : (2 : Int) ^ ((Getters.Spec.positions b).length - 1) ≤ 2 ^ 19 := by exact_mod_cast hp
  unfold Small
  rw [hz]
  have : k = 0 ∨ k = 1 ∨ k = 2 := by omega
  rcases this with rfl | rfl | rfl <;> omega

theorem bits_32 (x : Xlen) : 32 ≤ x.bits := by cases x <;> decide

theorem ofInt_even (x : Xlen) {z : Int} (hz : z % 2 = 0) : (BitVec.ofInt x.bits z).toNat % 2 = 0 := by
  have h : ((BitVec.ofInt x.bits z).toNat : Int) = z % 2 ^ x.bits := by
    rw [BitVec.toNat_ofInt, Int.toNat_of_nonneg (Int.emod_nonneg _ (by
      have := Nat.two_pow_pos x.bits; omega))]
    push_cast; rfl
  cases x
  · change _ = _ % (2 : Int) ^ 32 at h; omega
  · change _ = _ % (2 : Int) ^ 64 at h; omega

section
variable {s : Sim} {w : Nat} {c : Core s.xlen.bits} {z : Args} {a : Act}

theorem does_jal (hb : c.hart.branch = false) (hpc : c.hart.pc.toNat % 2 = 0) (ha : a.sem = .jal)
    (h1 : srcAt s w c a 0 = some (BitVec.ofInt _ z.imm)) (h0 : dstAt s w a 0 = some .pc)
    (hd : Puts s w a 1 z.rd) (he : z.imm % 2 = 0) (hs : Small z.imm) :
    Carries s w c z [a] (Does s.xlen .jal z c) := by
  obtain ⟨d, hd, hp⟩ := hd
  have hc : carry s w (c.hart.pc.setWidth 64) z.size c [a] =
      some (Control.jal c (BitVec.ofInt _ z.imm) z.rd (c.hart.pc.setWidth 64) z.size false) := by
    simp only [carry, single, ha, hd, h0, h1, Option.bind_eq_bind, Option.bind_some, Control.jal,
      link_jump _ _ _ _ _ _ hp]
    split <;> rfl
  refine ⟨_, hc, ?_⟩
  obtain ⟨t, ht, hg, hr⟩ := Control.C31_jal (bits_ge s.xlen) (bits_le s.xlen) c (BitVec.ofInt _ z.imm) z.rd
    (c.hart.pc.setWidth 64) z.size false (by rw [pc_nat (bits_le _)]; exact hpc) (ofInt_even s.xlen he)
  refine ⟨t, ?_, fun h => ?_, fun h => raises_ctl _ _ _ _ _ (hr h)⟩
  · unfold Control.Spec.IsSum at ht
    rw [pc_nat (bits_le _), ofInt_toInt _ (bits_32 _) hs] at ht
    exact ht
  · obtain ⟨h1, v, hv, hreg⟩ := hg h
    have h2 := goes_next c _ t (c.hart.pc.setWidth 64) z.size hb h1
    refine ⟨h2.1, v, ?_, fun r => ?_, ?_⟩
    · unfold Control.Spec.IsLink at hv
      rw [pc_nat (bits_le _)] at hv
      exact hv
    · rw [X_eq, h2.2]; exact hreg r
    · rw [h2.2]
      unfold Control.jal
      dsimp only
      split
      · rfl
      · exact write_zero _ _ _

theorem does_jalr (hb : c.hart.branch = false) (ha : a.sem = .jalr)
    (h1 : srcAt s w c a 0 = some (X c z.rs1)) (h2 : srcAt s w c a 1 = some (BitVec.ofInt _ z.imm))
    (h0 : dstAt s w a 0 = some .pc) (hd : Puts s w a 1 z.rd) (hs : Small z.imm) :
    Carries s w c z [a] (Does s.xlen .jalr z c) := by
  obtain ⟨d, hd, hp⟩ := hd
  have hc : carry s w (c.hart.pc.setWidth 64) z.size c [a] =
      some (Control.jalr c z.rs1 (BitVec.ofInt _ z.imm) z.rd (c.hart.pc.setWidth 64) z.size false) := by
    simp only [carry, single, ha, hd, h0, h1, h2, Option.bind_eq_bind, Option.bind_some, Control.jalr,
      link_jump _ _ _ _ _ _ hp, X_eq]
    split <;> rfl
  refine ⟨_, hc, ?_⟩
  obtain ⟨u, t, hu, ht, hg, hr⟩ := Control.C31_jalr (bits_ge s.xlen) (bits_le s.xlen) c z.rs1
    (BitVec.ofInt _ z.imm) z.rd (c.hart.pc.setWidth 64) z.size false
  refine ⟨u, t, ?_, ht, fun h => ?_, fun h => raises_ctl _ _ _ _ _ (hr h)⟩
  · unfold Control.Spec.IsSum at hu
    rw [ofInt_toInt _ (bits_32 _) hs] at hu
    exact hu
  · obtain ⟨h1, v, hv, hreg⟩ := hg h
    have h2 := goes_next c _ t (c.hart.pc.setWidth 64) z.size hb h1
    refine ⟨h2.1, v, ?_, fun r => ?_, ?_⟩
    · unfold Control.Spec.IsLink at hv
      rw [pc_nat (bits_le _)] at hv
      exact hv
    · rw [X_eq, h2.2]; exact hreg r
    · rw [h2.2]
      unfold Control.jalr
      dsimp only
      split
      · rfl
      · exact write_zero _ _ _

theorem does_br (hb : c.hart.branch = false) {k : Control.Cond} (ha : a.sem = .branch k)
    (h1 : srcAt s w c a 0 = some (X c z.rs1)) (h2 : srcAt s w c a 1 = some (X c z.rs2))
    (h3 : srcAt s w c a 2 = some (BitVec.ofInt _ z.imm)) (h0 : dstAt s w a 0 = some .pc)
    (hs : Small z.imm) : Carries s w c z [a] (Does s.xlen (.br k) z c) := by
  have hc : carry s w (c.hart.pc.setWidth 64) z.size c [a] =
      some (Control.branch c k z.rs1 z.rs2 (BitVec.ofInt _ z.imm) (c.hart.pc.setWidth 64) false) := by
    simp only [carry, single, ha, h0, h1, h2, h3, Option.bind_eq_bind, Option.bind_some, Control.branch, X_eq]
    split
    · split <;> rfl
    · rfl
  refine ⟨_, hc, ?_⟩
  obtain ⟨hn, ht⟩ := Control.C31_branch_partial (bits_ge s.xlen) (bits_le s.xlen) c k z.rs1 z.rs2
    (BitVec.ofInt _ z.imm) (c.hart.pc.setWidth 64) false
  refine ⟨fun h => ?_, fun h => ?_⟩
  · rw [hn h]
    refine ⟨_, next_is (bits_le _) c z.size, ?_, ?_⟩
    · unfold next; rw [if_neg (by rw [hb]; decide)]; exact ⟨rfl, rfl, rfl, rfl⟩
    · unfold next; rw [if_neg (by rw [hb]; decide)]
  · obtain ⟨t, hs', hg, hr⟩ := ht h
    refine ⟨t, ?_, fun h => ?_, fun h => ⟨_, raises_ctl _ _ _ _ _ (hr h)⟩⟩
    · unfold Control.Spec.IsSum at hs'
      rw [pc_nat (bits_le _), ofInt_toInt _ (bits_32 _) hs] at hs'
      exact hs'
    · obtain ⟨h1, h2⟩ := hg h
      have h3 := goes_next c _ t (c.hart.pc.setWidth 64) z.size hb h1
      exact ⟨h3.1, h3.2.trans h2⟩

theorem ea_addr (r : BitVec 5) (off : BitVec s.xlen.bits) (z : Int) (hz : off.toInt = z) :
    IsAddr (Mem.ea c r off) s.xlen.bits (X c r) z := by
  have h := (Mem.address_iff (bits_le s.xlen) c r off _).2 rfl
  unfold Mem.Spec.IsAddress at h
  unfold IsAddr
  rw [h, hz]
  have : (if r = 0#5 then 0 else (c.regs r).toNat) = (X c r).toNat := by
    unfold X; split <;> simp
  rw [this]

theorem does_ld (hb : c.hart.branch = false) {sz : Mem.Size} {sgn : Bool}
    (hk : okKind s.xlen (.ld sz sgn) = true) {b : Act} (ha : a.sem = .load sz) (hb' : b.sem = .child sz sgn)
    (h1 : srcAt s w c a 0 = some (X c z.rs1)) (h2 : srcAt s w c a 1 = some (BitVec.ofInt _ z.imm))
    (hd : Puts s w b 0 z.rd) (hs : Small z.imm) :
    Carries s w c z [a, b] (Does s.xlen (.ld sz sgn) z c) := by
  obtain ⟨d, hd, hp⟩ := hd
  have hc : carry s w (c.hart.pc.setWidth 64) z.size c [a, b] =
      some (Mem.execLoad c sz sgn z.rd z.rs1 (BitVec.ofInt _ z.imm) (c.hart.pc.setWidth 64) false) := by
    simp only [carry, pair, ha, hb', hd, h1, h2, Option.bind_eq_bind, Option.bind_some, Mem.execLoad, X_eq,
      Mem.ea]
    cases Mem.load c ((Regs.read c.regs z.rs1 + BitVec.ofInt s.xlen.bits z.imm).setWidth 64) sz.bytes
        (c.hart.pc.setWidth 64) false with
    | trapped c' => rfl
    | value v => exact hp c _
  refine ⟨_, hc, Mem.ea c z.rs1 (BitVec.ofInt _ z.imm), ea_addr _ _ _ (ofInt_toInt _ (bits_32 _) hs), ?_, ?_⟩
  · intro h
    obtain ⟨v, r, hv, hlt, he, hx⟩ := (Mem.load_ea c sz (fits_ok hk) sgn z.rd z.rs1 (BitVec.ofInt _ z.imm)
      (c.hart.pc.setWidth 64) false).1 h
    rw [hx]
    exact computes_put (bits_le _) c hb _ _ _ ⟨v, hv, hlt, he⟩
  · intro h
    exact raises_next _ _ _ _ _ ((Mem.load_ea c sz (fits_ok hk) sgn z.rd z.rs1 (BitVec.ofInt _ z.imm)
      (c.hart.pc.setWidth 64) false).2 h)

theorem does_st (hb : c.hart.branch = false) {sz : Mem.Size} (ha : a.sem = .store sz)
    (h1 : srcAt s w c a 0 = some (X c z.rs1)) (h2 : srcAt s w c a 1 = some (BitVec.ofInt _ z.imm))
    (h3 : srcAt s w c a 2 = some (X c z.rs2)) (hs : Small z.imm) :
    Carries s w c z [a] (Does s.xlen (.st sz) z c) := by
  have hc : carry s w (c.hart.pc.setWidth 64) z.size c [a] =
      some (Mem.execStore c sz z.rs2 z.rs1 (BitVec.ofInt _ z.imm) (c.hart.pc.setWidth 64) false) := by
    simp only [carry, single, ha, h1, h2, h3, Option.bind_eq_bind, Option.bind_some, Mem.execStore, X_eq,
      Mem.ea]
  refine ⟨_, hc, Mem.ea c z.rs1 (BitVec.ofInt _ z.imm), ea_addr _ _ _ (ofInt_toInt _ (bits_32 _) hs), ?_, ?_⟩
  · intro h
    obtain ⟨m, hm, hh, hf⟩ := (Mem.store_ea c sz z.rs2 z.rs1 (BitVec.ofInt _ z.imm)
      (c.hart.pc.setWidth 64) false).1 h
    rw [hm]
    refine ⟨_, m, next_is (bits_le _) c z.size, ?_, hh, hf⟩
    unfold next; rw [if_neg (by rw [show ({ c with mem := m } : Core s.xlen.bits).hart = c.hart from rfl, hb]; decide)]
  · intro h
    exact raises_next _ _ _ _ _ ((Mem.store_ea c sz z.rs2 z.rs1 (BitVec.ofInt _ z.imm)
      (c.hart.pc.setWidth 64) false).2 h)

end

theorem aluW_defined (x : Xlen) (k : Kind) (o : Alu.OpW) (a b : BitVec 64)
    (hk : k = .rrw o ∨ k = .riw o ∨ k = .shw o) (hx : okKind x k = true) (hr : ¬ Overflow k a b) :
    (Alu.opW o a b).isSome = true := by
  have h := Alu.C27_w_defined a b
  cases x with
  | rv32 => rcases hk with rfl | rfl | rfl <;> cases hx
  | rv64 =>
    cases o with
    | addw =>
      refine h.1.2 ?_
      rcases hk with rfl | rfl | rfl
      · exact Decidable.not_not.1 hr
      · exact Decidable.not_not.1 hr
      · cases hx
    | subw =>
      refine h.2.1.2 ?_
      rcases hk with rfl | rfl | rfl
      · exact Decidable.not_not.1 hr
      · cases hx
      · cases hx
    | sllw =>
      refine h.2.2.1.2 ?_
      rcases hk with rfl | rfl | rfl
      · exact Decidable.not_not.1 hr
      · cases hx
      · exact Decidable.not_not.1 hr
    | srlw => exact h.2.2.2.1
    | sraw => exact h.2.2.2.2

/-! ## 32-bit instructions -/

theorem immI_small (w : Nat) : Small (immI w) :=
  signed_small w [(31, 20)] 1 (by decide) (by decide) (by decide) _ (by unfold immI; omega)

theorem immS_small (w : Nat) : Small (immS w) :=
  signed_small w [(31, 25), (11, 7)] 1 (by decide) (by decide) (by decide) _ (by unfold immS; omega)

theorem immB_small (w : Nat) : Small (immB w) :=
  signed_small w [(31, 31), (7, 7), (30, 25), (11, 8)] 2 (by decide) (by decide) (by decide) _
    (by unfold immB; omega)

theorem immJ_small (w : Nat) : Small (immJ w) :=
  signed_small w [(31, 31), (19, 12), (20, 20), (30, 21)] 2 (by decide) (by decide) (by decide) _
    (by unfold immJ; omega)

section
variable (s : Sim) (w : Nat) (c : Core s.xlen.bits)

/-- The description of a kind of instruction is carried out as the manual says. -/
theorem carry_expect (k : Kind) (hk : okKind s.xlen k = true) (hb : c.hart.branch = false)
    (hpc : c.hart.pc.toNat % 2 = 0) (ho : NoOverflow c k (args s.xlen k w)) :
    Carries s w c (args s.xlen k w) (expect s.xlen k) (Does s.xlen k (args s.xlen k w) c) := by
  cases k with
  | rr o => exact does_alu hb rfl (src_rs1 s w c _ 0 rfl) (src_rs2 s w c _ 1 rfl) (puts_rd s w _ 0 rfl)
  | ri o =>
    exact does_alu hb rfl (src_rs1 s w c _ 0 rfl) (src_immI s w c _ 1 (.inl rfl)) (puts_rd s w _ 0 rfl)
  | sh o => exact does_alu hb rfl (src_rs1 s w c _ 0 rfl) (src_sh s w c _ 1 rfl) (puts_rd s w _ 0 rfl)
  | md o => exact does_mul hb rfl (src_rs1 s w c _ 0 rfl) (src_rs2 s w c _ 1 rfl) (puts_rd s w _ 0 rfl)
  | rrw o =>
    exact does_aluW hb rfl (src_rs1 s w c _ 0 rfl) (src_rs2 s w c _ 1 rfl) (puts_rd s w _ 0 rfl)
      (aluW_defined s.xlen _ o _ _ (.inl rfl) hk (ho _ _ rfl))
  | riw o =>
    exact does_aluW hb rfl (src_rs1 s w c _ 0 rfl) (src_immI s w c _ 1 (.inl rfl)) (puts_rd s w _ 0 rfl)
      (aluW_defined s.xlen _ o _ _ (.inr (.inl rfl)) hk (ho _ _ rfl))
  | shw o =>
    exact does_aluW hb rfl (src_rs1 s w c _ 0 rfl) (src_sh5 s w c _ 1 rfl) (puts_rd s w _ 0 rfl)
      (aluW_defined s.xlen _ o _ _ (.inr (.inr rfl)) hk (ho _ _ rfl))
  | mdw o =>
    refine does_mulW hb rfl (src_rs1 s w c _ 0 rfl) (src_rs2 s w c _ 1 rfl) (puts_rd s w _ 0 rfl)
      ((MulDiv.C28_w_defined o _ _).2 fun h => ?_)
    subst h
    exact Decidable.not_not.1 (ho _ _ rfl)
  | lui => exact does_lui hb rfl (src_immU s w c _ 0 rfl) (immU_is w) (puts_rd s w _ 0 rfl)
  | auipc => exact does_auipc hb rfl (src_immU s w c _ 0 rfl) (immU_is w) (puts_rd s w _ 0 rfl)
  | jal =>
    exact does_jal hb hpc rfl (src_immJ s w c _ 0 rfl) (dst_pc s w _ 0 rfl) (puts_rd s w _ 1 rfl)
      (show immJ w % 2 = 0 by unfold immJ; omega) (immJ_small w)
  | jalr =>
    exact does_jalr hb rfl (src_rs1 s w c _ 0 rfl) (src_immI s w c _ 1 (.inr rfl)) (dst_pc s w _ 0 rfl)
      (puts_rd s w _ 1 rfl) (immI_small w)
  | br k =>
    exact does_br hb rfl (src_rs1 s w c _ 0 rfl) (src_rs2 s w c _ 1 rfl) (src_immB s w c _ 2 rfl)
      (dst_pc s w _ 0 rfl) (immB_small w)
  | ld sz sgn =>
    exact does_ld hb hk rfl rfl (src_rs1 s w c _ 0 rfl) (src_immI s w c _ 1 (.inl rfl))
      (puts_rd s w _ 0 rfl) (immI_small w)
  | st sz =>
    exact does_st hb rfl (src_rs1 s w c _ 0 rfl) (src_immS s w c _ 1 rfl) (src_rs2 s w c _ 2 rfl)
      (immS_small w)

/-- A hint: doing nothing is what an instruction with destination register 0 does. -/
theorem nop_does (k : Kind) (hk : plain k = true) (hb : c.hart.branch = false) (z : Args)
    (hz : z.rd = 0#5) (hu : k = .lui ∨ k = .auipc → IsU z.imm) :
    Does s.xlen k z c (next c (c.hart.pc.setWidth 64) z.size) := by
  cases k with
  | rr o => exact computes_nop (bits_le _) c hb _ _ (.inl hz) _ (aluOp_ok _ _ _ _)
  | ri o => exact computes_nop (bits_le _) c hb _ _ (.inl hz) _ (aluOp_ok _ _ _ _)
  | sh o => exact computes_nop (bits_le _) c hb _ _ (.inl hz) _ (aluOp_ok _ _ _ _)
  | md o => exact computes_nop (bits_le _) c hb _ _ (.inl hz) _ (mulOp_ok _ _ _ _)
  | lui => exact computes_nop (bits_le _) c hb _ _ (.inl hz) _ (lui_ok _ (hu (.inl rfl)))
  | auipc => exact computes_nop (bits_le _) c hb _ _ (.inl hz) _ (auipc_ok _ (hu (.inr rfl)) _)
  | _ => cases hk

end

end Verif.Exec
