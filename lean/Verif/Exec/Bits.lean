import Verif.Exec.Step
import Verif.Exec.SpecB
import Verif.Bitmanip.Props

/-!
# What the instructions of Zba, Zbb, Zbc and Zbs do, from their descriptions
-/

namespace Verif.Exec

open Decode Decode.Isa Core Operands Spec

/-- The cores with the bit manipulation instructions. -/
def Sim.zb : Sim → Bool
  | .rv32gzb | .rv32gvzb | .rv64gzb | .rv64gvzb => true
  | _ => false

/-- Those with vectors too. -/
def Sim.vec : Sim → Bool
  | .rv32gv | .rv32gvzb | .rv64gv | .rv64gvzb => true
  | _ => false

variable {n : Nat}

def bSrcs (x : Xlen) : List Getters.Opd :=
  [.Const1, .Const2, .Const3] ++
    match x with
    | .rv32 => [.RUimm5]
    | .rv64 => [.RUimm6]

theorem source_okB (s : Sim) (hs : s.zb = true) (o : Getters.Opd) (ho : o ∈ bSrcs s.xlen) (w : Nat) :
    ∃ g m, s.source o = some g ∧ Getters.Spec.source o = some m ∧
      Getters.Spec.Reads w (g.source w) m := by
  have t : (bSrcs s.xlen).all (fun o => s.isa.enc.any fun e =>
      (e.source o).isSome && !Getters.oddSource e o) = true := by
    cases s <;> first | (cases hs; done) | decide +kernel
  have h := List.all_eq_true.1 t o ho
  unfold Sim.source
  cases he : s.isa.enc with
  | none => rw [he] at h; simp at h
  | some e =>
    rw [he] at h
    simp only [Option.any_some, Bool.and_eq_true, Bool.not_eq_true'] at h
    obtain ⟨g, hg⟩ := Option.isSome_iff_exists.1 h.1
    obtain ⟨m, hm, hr⟩ := Getters.C84_source_partial e o g hg h.2 w
    exact ⟨g, m, hg, hm, hr⟩

theorem get_uimmB (s : Sim) (hs : s.zb = true) (c : Core n) (o : Getters.Opd) (ho : o ∈ bSrcs s.xlen)
    (b : List (Nat × Nat)) (hm : Getters.Spec.source o = some (.uimm b 1)) (w : Nat) :
    ((s.source o).bind fun g => get c (g.source w)) =
      some (BitVec.ofInt n ((Getters.Spec.unsigned w (Getters.Spec.positions b) : Nat) : Int)) := by
  obtain ⟨g, m, hg, hm', h⟩ := source_okB s hs o ho w
  obtain rfl : Getters.Spec.Meaning.uimm b 1 = m := Option.some.inj (hm.symm.trans hm')
  have h' : g.source w = .number ((Getters.Spec.unsigned w (Getters.Spec.positions b) : Int) * (1 : Nat)) := h
  rw [hg, Option.bind_some, h']
  show some (BitVec.ofInt n _) = _
  rw [Int.natCast_one, Int.mul_one]

/-- The constant of `sh1add`, `sh2add` and `sh3add`. -/
def constOpd : Fin 3 → Getters.Opd
  | 0 => .Const1
  | 1 => .Const2
  | 2 => .Const3

theorem get_const (s : Sim) (hs : s.zb = true) (c : Core n) (k : Fin 3) (w : Nat) :
    ((s.source (constOpd k)).bind fun g => get c (g.source w)) = some (BitVec.ofNat n (k.val + 1)) := by
  obtain ⟨g, m, hg, hm', h⟩ := source_okB s hs (constOpd k) (by
    rcases k with ⟨_ | _ | _ | k, hk⟩
    · exact List.mem_append_left _ (by simp [constOpd])
    · exact List.mem_append_left _ (by simp [constOpd])
    · exact List.mem_append_left _ (by simp [constOpd])
    · omega) w
  obtain rfl : Getters.Spec.Meaning.lit (k.val + 1) = m := Option.some.inj (Eq.trans (by
    rcases k with ⟨_ | _ | _ | k, hk⟩ <;> first | rfl | omega) hm')
  have h' : g.source w = .number ((k.val + 1 : Nat) : Int) := h
  rw [hg, Option.bind_some, h']
  show some (BitVec.ofInt n _) = _
  rw [BitVec.ofInt_natCast]

/-- The operand of a shift amount. -/
def bshOpd : Xlen → Getters.Opd
  | .rv32 => .RUimm5
  | .rv64 => .RUimm6

theorem src_bsh (s : Sim) (hs : s.zb = true) (w : Nat) (c : Core n) (a : Act) (k : Nat) (x : Xlen)
    (hx : s.xlen = x) (h : a.srcs[k]? = some (.one (bshOpd x))) :
    srcAt s w c a k = some (BitVec.ofInt n (shamt x w)) := by
  rw [src_one s w c a k _ h]
  cases x with
  | rv32 => exact get_uimmB s hs c .RUimm5 (by rw [hx]; decide) _ rfl w
  | rv64 => exact get_uimmB s hs c .RUimm6 (by rw [hx]; decide) _ rfl w

/-- The description an instruction should have. -/
def bexpect (x : Xlen) : BKind → List Act
  | .bin (.shAdd k) => [⟨.shAdd, [.one .Rs1, .one .Rs2, .one (constOpd k)], [.one .Rd]⟩]
  | .bin o => [⟨.bit o, [.one .Rs1, .one .Rs2], [.one .Rd]⟩]
  | .bini o => [⟨.bit o, [.one .Rs1, .one (bshOpd x)], [.one .Rd]⟩]
  | .un o => [⟨.bitUn o, [.one .Rs1], [.one .Rd]⟩]
  | .binw (.shAddUw k) => [⟨.shAddUw, [.one .Rs1, .one .Rs2, .one (constOpd k)], [.one .Rd]⟩]
  | .binw o => [⟨.bitW o, [.one .Rs1, .one .Rs2], [.one .Rd]⟩]
  | .biniw o => [⟨.bitW o, [.one .Rs1, .one .RUimm6], [.one .Rd]⟩]
  | .unw o => [⟨.bitUnW o, [.one .Rs1], [.one .Rd]⟩]

theorem bitOp_ok (x : Xlen) (o : Bitmanip.Bin) (u v : BitVec x.bits)
    (h : ¬ (o = .clmulr ∧ x = .rv32 ∧ v.getLsbD 31 = true ∧ u ≠ 0#x.bits)) :
    Bitmanip.Spec.bin o u v (bitOp x o u v) := by
  cases x with
  | rv32 =>
    by_cases ho : o = .clmulr
    · subst ho
      refine (Bitmanip.C29_clmulr32_partial u v).2 ?_
      by_cases h1 : v.getLsbD 31 = true
      · exact .inr (Classical.not_not.1 fun h2 => h ⟨rfl, rfl, h1, h2⟩)
      · exact .inl (Bool.not_eq_true _ ▸ h1)
    · exact Bitmanip.C29_bin32_partial o ho u v
  | rv64 => exact Bitmanip.C29_bin64 o u v

theorem bitUnOp_ok (x : Xlen) (o : Bitmanip.Un) (u : BitVec x.bits) :
    Bitmanip.Spec.un o u (bitUnOp x o u) := by
  cases x
  · exact Bitmanip.C29_un32 o u
  · exact Bitmanip.C29_un64 o u

theorem shAdd_ok (x : Xlen) (k : Fin 3) (u v : BitVec x.bits) :
    Bitmanip.Spec.bin (.shAdd k) u v (v + (u <<< (BitVec.ofNat x.bits (k.val + 1)).toNat)) := by
  have e : (BitVec.ofNat x.bits (k.val + 1)).toNat = k.val + 1 := by
    rw [BitVec.toNat_ofNat]
    refine Nat.mod_eq_of_lt (Nat.lt_of_lt_of_le (show k.val + 1 < 2 ^ 2 by have := k.isLt; omega) ?_)
    exact Nat.pow_le_pow_right (by decide) (by have := bits_32 x; omega)
  rw [e]
  have h := bitOp_ok x (.shAdd k) u v (by rintro ⟨h, _⟩; cases h)
  cases x <;> exact h

theorem low_word (v : BitVec 64) : v &&& BitVec.ofNat 64 0xffffffff = v &&& 0xffffffff#64 := rfl

theorem shAddUw_ok (x : Xlen) (k : Fin 3) (u v : BitVec x.bits) :
    LowWord (Bitmanip.Spec.binW (.shAddUw k)) u v
      (v + ((u &&& BitVec.ofNat _ 0xffffffff) <<< (BitVec.ofNat x.bits (k.val + 1)).toNat)) := by
  intro h64
  cases x with
  | rv32 => cases h64
  | rv64 =>
    have e : (BitVec.ofNat Xlen.rv64.bits (k.val + 1)).toNat = k.val + 1 := by
      rw [BitVec.toNat_ofNat]
      refine Nat.mod_eq_of_lt (Nat.lt_of_lt_of_le (show k.val + 1 < 2 ^ 2 by have := k.isLt; omega) ?_)
      exact Nat.pow_le_pow_right (by decide) (by decide)
    rw [e]
    have h := Bitmanip.C29_binW (.shAddUw k) (u.setWidth 64) (v.setWidth 64) (fun h => by cases h)
    simp only [show Xlen.rv64.bits = 64 from rfl] at *
    exact h

section
variable {s : Sim} {w : Nat} {c : Core s.xlen.bits} {z : Args} {a : Act}

/-- A result computed from operands that exist. -/
theorem does_put (hb : c.hart.branch = false) {v : BitVec s.xlen.bits} (hd : Puts s w a 0 z.rd)
    (h : ∀ d, dstAt s w a 0 = some d →
      single s w (c.hart.pc.setWidth 64) z.size a c = put c d v)
    {P : BitVec s.xlen.bits → Prop} (hv : P v) :
    Carries s w c z [a] fun c' => Computes c c' z P := by
  obtain ⟨d, hd, hp⟩ := hd
  refine ⟨{ c with regs := Regs.write c.regs z.rd v }, ?_, ?_⟩
  · rw [carry, h d hd, hp]
  · exact computes_put (bits_le _) c hb _ _ _ hv

end

/-- What the destination register held. -/
theorem before_rd (s : Sim) (w : Nat) (c : Core s.xlen.bits) (a : Act) (h : a.dsts[0]? = some (.one .Rd))
    (d : Dst) (hd : dstAt s w a 0 = some d) : before c d = X c (rd w) := by
  obtain ⟨d', hd', hp⟩ := puts_rd s w a 0 h
  obtain rfl : d' = d := Option.some.inj (hd'.symm.trans hd)
  cases d' with
  | pc => have := hp c 0#_; cases this
  | drop =>
    have h1 := congrArg Core.regs (Option.some.inj (hp c (~~~ c.regs (rd w))))
    have h1 := congrFun h1 (rd w)
    unfold Regs.write at h1
    unfold X
    split
    · rfl
    · rename_i h0
      rw [if_neg h0] at h1
      simp only [if_true] at h1
      exact absurd h1 (by
        intro h
        have := congrArg (fun v : BitVec s.xlen.bits => v.getLsbD 0) h
        have hn := bits_32 s.xlen
        simp [show 0 < s.xlen.bits by omega] at this)
  | reg r =>
    have h1 := congrArg Core.regs (Option.some.inj (hp c (~~~ c.regs (BitVec.ofNat 5 r))))
    have h2 := congrFun h1 (BitVec.ofNat 5 r)
    unfold Regs.write at h2
    show c.regs (BitVec.ofNat 5 r) = _
    have hne : ~~~ c.regs (BitVec.ofNat 5 r) ≠ c.regs (BitVec.ofNat 5 r) := by
      intro h
      have := congrArg (fun v : BitVec s.xlen.bits => v.getLsbD 0) h
      have hn := bits_32 s.xlen
      simp [show 0 < s.xlen.bits by omega] at this
    simp only [if_true] at h2
    split at h2
    · exact absurd h2 hne
    · rename_i h0
      dsimp only at h2
      split at h2
      · rename_i he
        rw [he]; unfold X; rw [if_neg h0]
      · exact absurd h2 hne

theorem shamt_mod (w : Nat) : shamt6 w % 32 = shamt5 w := by
  have e5 : Getters.Spec.positions [(24, 20)] = [24, 23, 22, 21, 20] := by decide
  have e6 : Getters.Spec.positions [(25, 20)] = [25, 24, 23, 22, 21, 20] := by decide
  unfold shamt6 shamt5
  rw [e5, e6]
  simp only [Getters.Spec.unsigned, List.length_cons, List.length_nil]
  cases w.testBit 25 <;> cases w.testBit 24 <;> cases w.testBit 23 <;> cases w.testBit 22 <;>
    cases w.testBit 21 <;> cases w.testBit 20 <;> rfl

theorem shamt6_lt (w : Nat) : shamt6 w < 64 :=
  Getters.unsigned_lt w (Getters.Spec.positions [(25, 20)])

theorem ofInt_nat64 (k : Nat) (h : k < 2 ^ 64) : (BitVec.ofInt 64 (k : Int)).toNat = k := by
  rw [BitVec.ofInt_natCast, BitVec.toNat_ofNat, Nat.mod_eq_of_lt h]

/-- The kinds of an RV32 or RV64 core. -/
def okB (x : Xlen) : BKind → Bool
  | .bini (.shAdd _) => false
  | .biniw (.shAddUw _) | .biniw .addUw | .biniw .rolw | .binw .slliUw => false
  | .binw _ | .biniw _ | .unw _ => x == .rv64
  | _ => true

theorem bkind_ok {x : Xlen} {o : Op} {k : BKind} (h : bkind x o = some k) : okB x k = true := by
  unfold bkind at h
  split at h <;> first
    | (cases h; done)
    | (obtain rfl := Option.some.inj h; first | rfl | (cases x <;> rfl))

theorem carry_bexpect (s : Sim) (hs : s.zb = true) (w : Nat) (c : Core s.xlen.bits) (x : Xlen)
    (hx : s.xlen = x) (k : BKind) (hk : okB s.xlen k = true) (hb : c.hart.branch = false)
    (hg : ¬ Wrong s.xlen k (bargs s.xlen k w) c) :
    Carries s w c (bargs s.xlen k w) (bexpect s.xlen k) (DoesB s.xlen k (bargs s.xlen k w) c) := by
  have r1 : ∀ m l d, srcAt s w c ⟨m, .one .Rs1 :: l, d⟩ 0 = some (X c (rs1 w)) :=
    fun m l d => src_rs1 s w c ⟨m, .one .Rs1 :: l, d⟩ 0 rfl
  have r2 : ∀ m o l d, srcAt s w c ⟨m, o :: .one .Rs2 :: l, d⟩ 1 = some (X c (rs2 w)) :=
    fun m o l d => src_rs2 s w c ⟨m, o :: .one .Rs2 :: l, d⟩ 1 rfl
  cases k with
  | bin o =>
    by_cases ho : ∃ k, o = .shAdd k
    · obtain ⟨k, rfl⟩ := ho
      refine does_put hb (puts_rd s w _ 0 rfl) (fun d hd => ?_) (shAdd_ok s.xlen k _ _)
      have h2 : srcAt s w c ⟨.shAdd, [.one .Rs1, .one .Rs2, .one (constOpd k)], [.one .Rd]⟩ 2 =
          some (BitVec.ofNat _ (k.val + 1)) := (src_one s w c _ 2 _ rfl).trans (get_const s hs c k w)
      simp only [single, hd, r1, r2, h2, Option.bind_eq_bind, Option.bind_some]
      rfl
    · have e : bexpect s.xlen (.bin o) = [⟨.bit o, [.one .Rs1, .one .Rs2], [.one .Rd]⟩] := by
        cases o <;> first | rfl | exact absurd ⟨_, rfl⟩ ho
      rw [e]
      refine does_put hb (puts_rd s w _ 0 rfl) (fun d hd => ?_)
        (bitOp_ok s.xlen o (X c (rs1 w)) (X c (rs2 w)) ?_)
      · simp only [single, hd, r1, r2, Option.bind_eq_bind, Option.bind_some]
      · rintro ⟨rfl, h⟩
        exact hg (.inl ⟨rfl, h⟩)
  | bini o =>
    refine does_put hb (puts_rd s w _ 0 rfl) (fun d hd => ?_)
      (bitOp_ok s.xlen o (X c (rs1 w)) (BitVec.ofInt _ (shamt s.xlen w)) ?_)
    · have h2 : srcAt s w c ⟨.bit o, [.one .Rs1, .one (bshOpd s.xlen)], [.one .Rd]⟩ 1 =
          some (BitVec.ofInt _ (shamt s.xlen w)) := src_bsh s hs w c _ 1 s.xlen rfl rfl
      simp only [single, hd, r1, h2, Option.bind_eq_bind, Option.bind_some]
    · rintro ⟨-, h32, h31, -⟩
      have hl : shamt s.xlen w < 32 := by
        rw [h32]; exact Getters.unsigned_lt w (Getters.Spec.positions [(24, 20)])
      rw [BitVec.ofInt_natCast] at h31
      rw [BitVec.getLsbD_ofNat] at h31
      rw [Nat.testBit_lt_two_pow (Nat.lt_of_lt_of_le hl (by decide))] at h31
      simp at h31
  | un o =>
    refine does_put hb (puts_rd s w _ 0 rfl) (fun d hd => ?_) (bitUnOp_ok s.xlen o (X c (rs1 w)))
    simp only [single, hd, r1, Option.bind_eq_bind, Option.bind_some]
  | binw o =>
    by_cases ho : ∃ k, o = .shAddUw k
    · obtain ⟨k, rfl⟩ := ho
      refine does_put hb (puts_rd s w _ 0 rfl) (fun d hd => ?_) (shAddUw_ok s.xlen k _ _)
      have h2 : srcAt s w c ⟨.shAddUw, [.one .Rs1, .one .Rs2, .one (constOpd k)], [.one .Rd]⟩ 2 =
          some (BitVec.ofNat _ (k.val + 1)) := (src_one s w c _ 2 _ rfl).trans (get_const s hs c k w)
      simp only [single, hd, r1, r2, h2, Option.bind_eq_bind, Option.bind_some]
      rfl
    · have e : bexpect s.xlen (.binw o) = [⟨.bitW o, [.one .Rs1, .one .Rs2], [.one .Rd]⟩] := by
        cases o <;> first | rfl | exact absurd ⟨_, rfl⟩ ho
      rw [e]
      refine does_put hb (puts_rd s w _ 0 rfl) (v := (Bitmanip.binW o ((X c (rs1 w)).setWidth 64)
        ((X c (rs2 w)).setWidth 64)).setWidth _) (fun d hd => ?_) (fun hn => ?_)
      · simp only [single, hd, r1, r2, Option.bind_eq_bind, Option.bind_some]
      · rw [setWidth_back _ hn]
        exact Bitmanip.C29_binW o _ _ (by rintro rfl; cases hk)
  | biniw o =>
    have h64 : s.xlen = .rv64 := by
      cases o <;> first | (cases hk; done) | exact of_decide_eq_true hk
    have h2 : srcAt s w c ⟨.bitW o, [.one .Rs1, .one .RUimm6], [.one .Rd]⟩ 1 =
        some (BitVec.ofInt _ (shamt6 w)) := by
      have := src_bsh s hs w c ⟨.bitW o, [.one .Rs1, .one .RUimm6], [.one .Rd]⟩ 1 .rv64 h64 rfl
      exact this
    have hb64 : s.xlen.bits = 64 := by rw [h64]; rfl
    have h6 : ((BitVec.ofInt s.xlen.bits (shamt6 w)).setWidth 64).toNat = shamt6 w := by
      rw [hb64, BitVec.setWidth_eq]
      exact ofInt_nat64 _ (Nat.lt_trans (shamt6_lt w) (by decide))
    have h5 : ((BitVec.ofInt s.xlen.bits (shamt5 w)).setWidth 64).toNat = shamt5 w := by
      rw [hb64, BitVec.setWidth_eq]
      exact ofInt_nat64 _ (by rw [← shamt_mod]; omega)
    refine does_put hb (puts_rd s w _ 0 rfl) (v := (Bitmanip.binW o ((X c (rs1 w)).setWidth 64)
      ((BitVec.ofInt s.xlen.bits (shamt6 w)).setWidth 64)).setWidth _) (fun d hd => ?_) (fun hn => ?_)
    · simp only [single, hd, r1, h2, Option.bind_eq_bind, Option.bind_some]
    · rw [setWidth_back _ hn]
      have h := Bitmanip.C29_binW o ((X c (rs1 w)).setWidth 64)
        ((BitVec.ofInt s.xlen.bits (shamt6 w)).setWidth 64) (fun _ => by rw [h6]; exact shamt6_lt w)
      cases o with
      | slliUw => exact h
      | rorw =>
        obtain ⟨v, hv, hr⟩ := h
        refine ⟨v, fun i hi => ?_, hr⟩
        have := hv i hi
        rw [h6, shamt_mod] at this
        show _ = BitVec.getLsbD _ ((i + ((BitVec.ofInt s.xlen.bits (shamt5 w)).setWidth 64).toNat % 32) % 32)
        have hl : shamt5 w < 32 := by rw [← shamt_mod]; omega
        rw [h5, this, Nat.mod_eq_of_lt hl]
        rfl
      | _ => cases hk
  | unw o =>
    refine ⟨{ c with regs := Regs.write c.regs (rd w) ((Bitmanip.unW o ((X c (rd w)).setWidth 64)
      ((X c (rs1 w)).setWidth 64)).setWidth _) }, ?_, ?_⟩
    · obtain ⟨d, hd, hp⟩ := puts_rd s w ⟨.bitUnW o, [.one .Rs1], [.one .Rd]⟩ 0 rfl
      have hbf := before_rd s w c ⟨.bitUnW o, [.one .Rs1], [.one .Rd]⟩ rfl d hd
      simp only [bexpect, carry, single, hd, r1, Option.bind_eq_bind, Option.bind_some, hbf, hp]
    · refine computes_put (bits_le _) c hb (bargs s.xlen (.unw o) w) _ _ fun hn => ?_
      rw [setWidth_back _ hn]
      by_cases ho : o = .cpopw
      · subst ho
        refine (Bitmanip.C29_cpopw_partial _ _).2 ?_
        rw [BitVec.toNat_setWidth]
        have : ¬ 2 ^ 32 ≤ (X c (rd w)).toNat := fun h => hg (.inr ⟨rfl, h⟩)
        omega
      · exact Bitmanip.C29_unW_partial o ho _ _

end Verif.Exec
