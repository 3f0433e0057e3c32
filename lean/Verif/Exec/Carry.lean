import Verif.Exec.Lemmas

/-!
# What the parts of an instruction do
-/

namespace Verif.Exec

open Decode Decode.Isa Core Operands Spec

/-- The operand with the shift amount. -/
def shOpd : Xlen → Getters.Opd
  | .rv32 => .IUimm5
  | .rv64 => .IUimm6

/-- The parts of an instruction of each kind. -/
def expect (x : Xlen) : Kind → List Act
  | .rr o => [⟨.alu o, [.one .Rs1, .one .Rs2], [.one .Rd]⟩]
  | .ri o => [⟨.alu o, [.one .Rs1, .one .IImm12], [.one .Rd]⟩]
  | .sh o => [⟨.alu o, [.one .Rs1, .one (shOpd x)], [.one .Rd]⟩]
  | .md o => [⟨.mul o, [.one .Rs1, .one .Rs2], [.one .Rd]⟩]
  | .rrw o => [⟨.aluW o, [.one .Rs1, .one .Rs2], [.one .Rd]⟩]
  | .riw o => [⟨.aluW o, [.one .Rs1, .one .IImm12], [.one .Rd]⟩]
  | .shw o => [⟨.aluW o, [.one .Rs1, .one .IUimm5], [.one .Rd]⟩]
  | .mdw o => [⟨.mulW o, [.one .Rs1, .one .Rs2], [.one .Rd]⟩]
  | .lui => [⟨.lui, [.one .UImm20], [.one .Rd]⟩]
  | .auipc => [⟨.auipc, [.one .UImm20], [.one .Rd]⟩]
  | .jal => [⟨.jal, [.one .JImm20], [.one .NextPc, .one .Rd]⟩]
  | .jalr => [⟨.jalr, [.one .Rs1, .one .JImm12], [.one .NextPc, .one .Rd]⟩]
  | .br k => [⟨.branch k, [.one .Rs1, .one .Rs2, .one .BImm12], [.one .NextPc]⟩]
  | .ld sz sgn => [⟨.load sz, [.one .Rs1, .one .IImm12], []⟩, ⟨.child sz sgn, [], [.one .Rd]⟩]
  | .st sz => [⟨.store sz, [.one .Rs1, .one .SImm12, .one .Rs2], []⟩]

/-- The kinds that have hints: they only compute a value for a register. -/
def plain : Kind → Bool
  | .rr _ | .ri _ | .sh _ | .md _ | .lui | .auipc => true
  | _ => false

theorem src_sh {n : Nat} (s : Sim) (w : Nat) (c : Core n) (a : Act) (k : Nat)
    (h : a.srcs[k]? = some (.one (shOpd s.xlen))) :
    srcAt s w c a k = some (BitVec.ofInt n (shamt s.xlen w)) := by
  cases hs : s.xlen with
  | rv32 => rw [hs] at h; exact src_sh5 s w c a k h
  | rv64 => rw [hs] at h; exact src_sh6 s hs w c a k h

/-- The kinds that exist at a register width. -/
def okKind : Xlen → Kind → Bool
  | .rv64, .riw o => o == .addw
  | .rv64, .shw o => o != .addw && o != .subw
  | .rv64, _ => true
  | .rv32, .rrw _ | .rv32, .riw _ | .rv32, .shw _ | .rv32, .mdw _ => false
  | .rv32, .ld .d _ | .rv32, .st .d => false
  | .rv32, .ld .w false => false
  | .rv32, _ => true

theorem kind_ok {x : Xlen} {o : Op} {k : Kind} (h : kind x o = some k) : okKind x k = true := by
  unfold kind at h
  split at h <;> first
    | (obtain rfl := Option.some.inj h; first | rfl | (cases x <;> rfl) | (rename_i x _; cases x <;> rfl))
    | cases h

theorem bits_ge (x : Xlen) : 2 ≤ x.bits := by cases x <;> decide
theorem bits_le (x : Xlen) : x.bits ≤ 64 := by cases x <;> decide

theorem fits_ok {x : Xlen} {sz : Mem.Size} {sgn : Bool} (h : okKind x (.ld sz sgn) = true) :
    Mem.Fits x.bits sz := by
  unfold Mem.Fits
  cases x <;> cases sz <;> first | decide | (cases sgn <;> first | decide | cases h)

/-! ## Results -/

theorem aluOp_ok (x : Xlen) (o : Alu.Op) (a b : BitVec x.bits) :
    Alu.Spec.result x.bits o a b (aluOp x o a b) := by
  cases x
  · exact Alu.C27_op32 o a b
  · exact Alu.C27_op64 o a b

theorem mulOp_ok (x : Xlen) (o : MulDiv.Op) (a b : BitVec x.bits) :
    MulDiv.Spec.result x.bits o a b (mulOp x o a b) := by
  cases x
  · exact MulDiv.C28_op32 o a b
  · exact MulDiv.C28_op64 o a b

theorem immU_bounds (w : Nat) : -2 ^ 31 ≤ immU w ∧ immU w < 2 ^ 31 := by
  have := Getters.signed_bound w (Getters.Spec.positions [(31, 12)]) (by decide)
  rw [show (Getters.Spec.positions [(31, 12)]).length = 20 from rfl] at this
  unfold immU
  omega

/-- A number whose upper 20 bits are the immediate. -/
def IsU (z : Int) : Prop := z % 4096 = 0 ∧ -2 ^ 31 ≤ z ∧ z < 2 ^ 31

theorem immU_is (w : Nat) : IsU (immU w) := ⟨by unfold immU; omega, immU_bounds w⟩

theorem isU_word {z : Int} (hz : IsU z) :
    ∃ i : BitVec 20, BitVec.ofInt 32 z = i ++ 0#12 ∧ Alu.Spec.imm20 i * 2 ^ 12 = z := by
  obtain ⟨h0, h1, h2⟩ := hz
  obtain ⟨q, rfl⟩ : ∃ q, z = q * 4096 := ⟨z / 4096, by omega⟩
  refine ⟨BitVec.ofInt 20 q, ?_, ?_⟩
  · refine BitVec.eq_of_toInt_eq ?_
    rw [BitVec.toInt_append, BitVec.toInt_ofInt, BitVec.toInt_ofInt,
      Int.bmod_eq_of_le (n := q * 4096) (by omega) (by omega),
      Int.bmod_eq_of_le (n := q) (by omega) (by omega)]
    simp
    omega
  · show (BitVec.ofInt 20 _).toInt * _ = _
    rw [BitVec.toInt_ofInt, Int.bmod_eq_of_le (by omega) (by omega)]
    omega

theorem ofInt_32 (x : Xlen) (z : Int) : (BitVec.ofInt x.bits z).setWidth 32 = BitVec.ofInt 32 z := by
  cases x
  · show (BitVec.ofInt 32 z).setWidth 32 = _
    rw [BitVec.setWidth_eq]
  · show (BitVec.ofInt 64 z).setWidth 32 = _
    refine BitVec.eq_of_toNat_eq ?_
    rw [BitVec.toNat_setWidth, BitVec.toNat_ofInt, BitVec.toNat_ofInt]
    omega

theorem lui_ok (x : Xlen) {z : Int} (hz : IsU z) :
    (luiOp x (BitVec.ofInt x.bits z)).toInt = z := by
  obtain ⟨i, hi, hv⟩ := isU_word hz
  have h := Alu.C27_lui i
  cases x
  · show (Alu.lui32 ((BitVec.ofInt 32 z).setWidth 32)).toInt = _
    rw [BitVec.setWidth_eq, hi, h.1, hv]
  · show (Alu.lui64 ((BitVec.ofInt Xlen.rv64.bits z).setWidth 32)).toInt = _
    rw [ofInt_32, hi, h.2, hv]

theorem auipc_ok (x : Xlen) {z : Int} (hz : IsU z) (pc : BitVec x.bits) :
    ((auipcOp x (BitVec.ofInt x.bits z) (pc.setWidth 64)).toNat : Int)
      = (pc.toNat + z) % 2 ^ x.bits := by
  obtain ⟨i, hi, hv⟩ := isU_word hz
  have h := Alu.C27_auipc i (pc.setWidth 64)
  have hp : (pc.setWidth 64).toNat = pc.toNat := by
    rw [BitVec.toNat_setWidth]
    exact Nat.mod_eq_of_lt (Nat.lt_of_lt_of_le pc.isLt
      (Nat.pow_le_pow_right (by decide) (bits_le x)))
  rw [hp, hv] at h
  cases x
  · show ((Alu.auipc32 ((BitVec.ofInt Xlen.rv32.bits z).setWidth 32) _).toNat : Int) = _
    rw [ofInt_32, hi]; exact h.1
  · show ((Alu.auipc64 ((BitVec.ofInt Xlen.rv64.bits z).setWidth 32) _).toNat : Int) = _
    rw [ofInt_32, hi]; exact h.2

/-! ## The end of the turn -/

variable {n : Nat}

theorem next_is (hn : n ≤ 64) (c : Core n) (size : Nat) :
    IsNext c size ((c.hart.pc.setWidth 64 + BitVec.ofNat 64 size).setWidth n) := by
  have h := Control.link_ok hn (c.hart.pc.setWidth 64) size
  unfold Control.Spec.IsLink at h
  unfold IsNext
  rw [h, BitVec.toNat_setWidth, Nat.mod_eq_of_lt (Nat.lt_of_lt_of_le c.hart.pc.isLt
      (Nat.pow_le_pow_right (by decide) hn))]

theorem pc_nat (hn : n ≤ 64) (p : BitVec n) : (p.setWidth 64).toNat = p.toNat := by
  rw [BitVec.toNat_setWidth]
  exact Nat.mod_eq_of_lt (Nat.lt_of_lt_of_le p.isLt (Nat.pow_le_pow_right (by decide) hn))

theorem write_zero (f : Regs.File n) (r : BitVec 5) (v : BitVec n) : Regs.write f r v 0#5 = f 0#5 := by
  unfold Regs.write
  split
  · rfl
  · rename_i h
    simp [Ne.symm h]

/-- A computed result. -/
theorem computes_put (hn : n ≤ 64) (c : Core n) (hb : c.hart.branch = false) (z : Args) (v : BitVec n)
    (P : BitVec n → Prop) (h : P v) :
    Computes c (next { c with regs := Regs.write c.regs z.rd v } (c.hart.pc.setWidth 64) z.size) z P := by
  refine ⟨v, _, h, next_is hn c z.size, ?_, fun r => ?_, ?_⟩
  · unfold next
    rw [if_neg (by rw [show ({ c with regs := Regs.write c.regs z.rd v } : Core n).hart.branch
      = c.hart.branch from rfl, hb]; decide)]
    exact ⟨rfl, rfl, rfl, rfl⟩
  · unfold next
    rw [if_neg (by rw [show ({ c with regs := Regs.write c.regs z.rd v } : Core n).hart.branch
      = c.hart.branch from rfl, hb]; decide)]
    exact Regs.read_write _ _ _ _
  · unfold next
    rw [if_neg (by rw [show ({ c with regs := Regs.write c.regs z.rd v } : Core n).hart.branch
      = c.hart.branch from rfl, hb]; decide)]
    exact write_zero _ _ _

/-- An instruction without effect, which would write what is there, or register 0. -/
theorem computes_nop (hn : n ≤ 64) (c : Core n) (hb : c.hart.branch = false) (z : Args)
    (v : BitVec n) (hd : z.rd = 0#5 ∨ v = X c z.rd) (P : BitVec n → Prop) (h : P v) :
    Computes c (next c (c.hart.pc.setWidth 64) z.size) z P := by
  refine ⟨v, _, h, next_is hn c z.size, ?_, fun r => ?_, ?_⟩
  · unfold next
    rw [if_neg (by rw [hb]; decide)]
    exact ⟨rfl, rfl, rfl, rfl⟩
  · unfold next
    rw [if_neg (by rw [hb]; decide)]
    show X c r = _
    rcases hd with hd | rfl
    · unfold X
      split
      · rfl
      · rename_i h; rw [if_neg (by rw [hd]; exact h)]
    · split
      · rename_i h; unfold X; rw [if_pos h]
      · split
        · rename_i h; rw [h]
        · rfl
  · unfold next
    rw [if_neg (by rw [hb]; decide)]

theorem setMstatus_branch (g : Hart.Hart n) (m : XStatus.MStatus) :
    (g.setMstatus m).branch = g.branch := by
  have hc : ∀ g : Hart.Hart n, g.check.branch = g.branch := by
    intro g; unfold Hart.Hart.check; dsimp only; repeat' split
    all_goals rfl
  unfold Hart.Hart.setMstatus
  dsimp only
  split
  · rw [hc]
  · rfl

theorem trap_branch (h : Hart.Hart n) (tval code epc : BitVec 64) :
    (h.trap false tval code epc false).branch = true := by
  have hd : h.dest false code = Hart.M ∨ h.dest false code = Hart.S := by
    unfold Hart.Hart.dest
    rw [if_neg (by decide)]
    split
    · exact .inr rfl
    · exact .inl rfl
  unfold Hart.Hart.trap
  rw [if_neg (by decide)]
  dsimp only
  rcases hd with hd | hd
  · rw [if_pos hd, setMstatus_branch]
  · rw [if_neg (by rw [hd]; decide), if_pos hd, setMstatus_branch]

theorem raises_next (c c₁ : Core n) (size : Nat) (tval code : BitVec 64)
    (h : c₁ = { c with hart := c.hart.trap false tval code (c.hart.pc.setWidth 64) false }) :
    Raises c (next c₁ (c.hart.pc.setWidth 64) size) tval code := by
  subst h
  unfold next
  rw [if_pos (trap_branch _ _ _ _)]
  exact ⟨rfl, rfl, rfl, rfl, rfl⟩

end Verif.Exec
