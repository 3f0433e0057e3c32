import Verif.Exec.FpStep
import Verif.Exec.Half
import Verif.Exec.CfSpec

/-!
# What compressed loads and stores of floating-point registers do, from their descriptions
-/

namespace Verif.Exec

open Decode Decode.Isa Core Operands Spec

/-! ## Operands -/

def qSrcs : Xlen → List Getters.Opd
  | .rv32 => [.C3frs2, .C3drs2, .Cfrs2, .Cdrs2]
  | .rv64 => [.C3drs2, .Cdrs2]

def qDsts : Xlen → List Getters.Opd
  | .rv32 => [.C3frd, .C3drd]
  | .rv64 => [.C3drd]

theorem source_okQ (s : Sim) (o : Getters.Opd) (ho : o ∈ qSrcs s.xlen) (w : Nat) :
    ∃ g m, s.source o = some g ∧ Getters.Spec.source o = some m ∧
      Getters.Spec.Reads w (g.source w) m := by
  have t : (qSrcs s.xlen).all (fun o => s.isa.enc.any fun e =>
      (e.source o).isSome && !Getters.oddSource e o) = true := by
    cases s <;> decide +kernel
  have h := List.all_eq_true.1 t o ho
  unfold Sim.source
  cases he : s.isa.enc with
  | none => rw [he] at h; simp at h
  | some e =>
    rw [he] at h
    simp only [Option.any_some, Bool.and_eq_true, Bool.not_eq_true'] at h
    obtain ⟨g, hg⟩ := Option.isSome_iff_exists.1 h.1
    obtain ⟨m, hm, hr⟩ := Getters.C84_source_partial e o g hg h.2 w
    exact ⟨g, m, hg, hm, hr⟩

theorem dest_okQ (s : Sim) (hs : intDest s = false) (o : Getters.Opd) (ho : o ∈ qDsts s.xlen) (w : Nat) :
    ∃ g m, s.dest o = some g ∧ Getters.Spec.dest o = some m ∧
      Getters.Spec.Writes w (g.dest w) m := by
  have t : intDest s = false → (qDsts s.xlen).all (fun o => s.isa.enc.any fun e =>
      (e.dest o).isSome && !Getters.oddDest e o) = true := by
    cases s <;> decide +kernel
  have h := List.all_eq_true.1 (t hs) o ho
  unfold Sim.dest
  cases he : s.isa.enc with
  | none => rw [he] at h; simp at h
  | some e =>
    rw [he] at h
    simp only [Option.any_some, Bool.and_eq_true, Bool.not_eq_true'] at h
    obtain ⟨g, hg⟩ := Option.isSome_iff_exists.1 h.1
    obtain ⟨m, hm, hr⟩ := Getters.C84_dest_partial e o g hg h.2 (by
      have hq : ∀ x, ∀ o ∈ qDsts x, o = .C3frd ∨ o = .C3drd := by
        intro x; cases x <;> (unfold qDsts; intro o; simp)
        exact Or.inr
      rcases hq _ o ho with rfl | rfl <;> decide) w
    exact ⟨g, m, hg, hm, hr⟩

section
variable (s : Sim) (w : Nat) (a : Act) (k : Nat)

theorem fsrc_c3 (o : Getters.Opd) (ho : o ∈ qSrcs s.xlen) (hm : Getters.Spec.source o = some (.f3 [(4, 2)]))
    (h : a.srcs[k]? = some (.one o)) : fsrcAt s w a k = some (cRs2' w) := by
  obtain ⟨g, m, hg, hm', hr⟩ := source_okQ s o ho w
  obtain rfl : Getters.Spec.Meaning.f3 [(4, 2)] = m := Option.some.inj (hm.symm.trans hm')
  have hr' : g.source w = .f (8 + Getters.Spec.unsigned w (Getters.Spec.positions [(4, 2)])) := hr
  unfold fsrcAt
  rw [h]
  show ((s.source o).bind fun g => fregNo (g.source w)) = _
  rw [hg, Option.bind_some, hr']
  rfl

theorem fsrc_c (o : Getters.Opd) (ho : o ∈ qSrcs s.xlen) (hm : Getters.Spec.source o = some (.f [(6, 2)]))
    (h : a.srcs[k]? = some (.one o)) : fsrcAt s w a k = some (cRs2 w) := by
  obtain ⟨g, m, hg, hm', hr⟩ := source_okQ s o ho w
  obtain rfl : Getters.Spec.Meaning.f [(6, 2)] = m := Option.some.inj (hm.symm.trans hm')
  have hr' : g.source w = .f (Getters.Spec.unsigned w (Getters.Spec.positions [(6, 2)])) := hr
  unfold fsrcAt
  rw [h]
  show ((s.source o).bind fun g => fregNo (g.source w)) = _
  rw [hg, Option.bind_some, hr']
  rfl

theorem fdst_c3 (hs : intDest s = false) (o : Getters.Opd) (ho : o ∈ qDsts s.xlen)
    (hm : Getters.Spec.dest o = some (.f3 [(4, 2)]))
    (h : a.dsts[k]? = some (.one o)) : fdstAt s w a k = some (cRs2' w) := by
  obtain ⟨g, m, hg, hm', hr⟩ := dest_okQ s hs o ho w
  obtain rfl : Getters.Spec.Meaning.f3 [(4, 2)] = m := Option.some.inj (hm.symm.trans hm')
  have hr' : g.dest w = .f (8 + Getters.Spec.unsigned w (Getters.Spec.positions [(4, 2)])) := hr
  unfold fdstAt
  rw [h]
  show ((s.dest o).bind fun g => fregNo (g.dest w)) = _
  rw [hg, Option.bind_some, hr']
  rfl

theorem fdst_crd (o : Getters.Opd) (ho : o ∈ fDsts) (hm : Getters.Spec.dest o = some (.f [(11, 7)]))
    (h : a.dsts[k]? = some (.one o)) : fdstAt s w a k = some (cRd w) :=
  fdst_of s w a k o ho _ hm h

end

/-! ## The right descriptions -/

/-- A load. -/
def qLoad (width bytes : Nat) (b : FpMem.Back) (base imm dst : Getters.Opd) : Option QAct :=
  some ⟨.load width bytes b ⟨.nop, [], [.one dst]⟩, ⟨.nop, [.one base, .one imm], []⟩⟩

/-- A store. -/
def qStore (width bytes : Nat) (checks : Bool) (base imm src : Getters.Opd) : Option QAct :=
  some ⟨.store width bytes checks, ⟨.nop, [.one base, .one imm, .one src], []⟩⟩

def qexpect : Xlen → Op → Option QAct
  | .rv32, .cflw => qLoad 32 4 .low .C3rs1 .IClUimm5x4 .C3frd
  | .rv32, .cfld => qLoad 64 8 .whole .C3rs1 .IClUimm5x8 .C3drd
  | .rv32, .cfsw => qStore 32 4 false .C3rs1 .IClUimm5x4 .C3frs2
  | .rv32, .cfsd => qStore 32 8 true .C3rs1 .IClUimm5x8 .C3drs2
  | .rv32, .cflwsp => qLoad 32 4 .low .X2 .ICiUimm6x4 .Frd
  | .rv32, .cfldsp => qLoad 64 8 .whole .X2 .ICiUimm6x8 .Drd
  | .rv32, .cfswsp => qStore 32 4 false .X2 .ICssUimm6x4 .Cfrs2
  | .rv32, .cfsdsp => qStore 64 8 false .X2 .ICssUimm6x8 .Cdrs2
  | .rv64, .cfld => qLoad 64 8 .whole .C3rs1 .IClUimm5x8 .C3drd
  | .rv64, .cfsd => qStore 64 8 false .C3rs1 .IClUimm5x8 .C3drs2
  | .rv64, .cfldsp => qLoad 64 8 .whole .X2 .ICiUimm6x8 .Drd
  | .rv64, .cfsdsp => qStore 64 8 false .X2 .ICssUimm6x8 .Cdrs2
  | _, _ => none

/-! ## Values -/

/-- The address formed is the one of the manual: same width, or no carry out of 32 bits. -/
def Fits (n width : Nat) (x : BitVec n) (imm : Nat) : Prop :=
  (n = 32 ∧ width = 32) ∨ (n = 64 ∧ width = 64) ∨ (n = 32 ∧ width = 64 ∧ x.toNat + imm < 2 ^ 32)

theorem addr_fits {n width : Nat} (x : BitVec n) (imm : Nat) (hi : imm < 2 ^ 31) (h : Fits n width x imm) :
    IsAddr ((x.setWidth width + (BitVec.ofInt n imm).setWidth width).setWidth 64) n x imm := by
  unfold IsAddr
  rcases h with ⟨rfl, rfl⟩ | ⟨rfl, rfl⟩ | ⟨rfl, rfl, h⟩ <;>
    (have := x.isLt
     simp only [BitVec.ofInt_natCast, BitVec.toNat_add, BitVec.toNat_setWidth, BitVec.toNat_ofNat]
     omega)

theorem low_boxed (old : BitVec 64) (h : ¬ old.toNat < 2 ^ 64 - 2 ^ 32) (v : Nat) (hv : v < 256 ^ 4) :
    FpMem.Spec.Boxed 4 v (FpMem.back .low old v) := by
  have hv' : v < 2 ^ 32 := hv
  have e : old &&& 0xffffffff00000000#64 = 0xffffffff00000000#64 := by
    have e1 : old = BitVec.ofNat 64 (2 ^ 32 * (2 ^ 32 - 1) + (old.toNat - (2 ^ 64 - 2 ^ 32))) := by
      apply BitVec.eq_of_toNat_eq
      have := old.isLt
      rw [BitVec.toNat_ofNat]
      omega
    have e2 : 0xffffffff00000000#64 = BitVec.ofNat 64 (2 ^ 32 * (2 ^ 32 - 1) + 0) := by decide
    apply BitVec.eq_of_getLsbD_eq
    intro i hi
    rw [e2, e1, BitVec.getLsbD_and, BitVec.getLsbD_ofNat, BitVec.getLsbD_ofNat,
      Nat.testBit_two_pow_mul_add _ (by have := old.isLt; omega), Nat.testBit_two_pow_mul_add _ (by decide)]
    split
    · simp
    · simp
  have r := FpMem.box_toNat 4 v (by decide) hv old
  have e3 : FpMem.back .low old v = FpMem.back (.box 4) old v := by
    show (old &&& 0xffffffff00000000#64) ||| BitVec.ofNat 64 (v % 2 ^ 32) = _
    rw [e, Nat.mod_eq_of_lt hv']
    rfl
  rw [e3]
  exact r

/-! ## Effects -/

variable {n : Nat} {ρ : Type} {H : FpState.Host}

/-- A function that is carried out, and what the turn does. -/
def CarriesQ (s : Sim) (w : Nat) (st : FSt s.xlen.bits ρ H) (p : QAct)
    (Q : FSt s.xlen.bits ρ H → Prop) : Prop :=
  ∃ st₁, carryQ s w (st.core.hart.pc.setWidth 64) st p = some st₁ ∧
    Q (closeF st₁ (st.core.hart.pc.setWidth 64) 2) ∧ Sound st st₁

section
variable (s : Sim) (w : Nat) (st : FSt s.xlen.bits ρ H) (z : QArgs)

theorem loadQ_ok (hb : st.core.hart.branch = false) (hi : Hart.HInv st.core.hart) (hl : z.load = true)
    (width : Nat) (b : FpMem.Back) (ops to : Act)
    (h0 : srcAt s w st.core ops 0 = some (X st.core z.rs1))
    (h1 : srcAt s w st.core ops 1 = some (BitVec.ofInt s.xlen.bits (z.imm : Int)))
    (hs : z.imm < 2 ^ 31) (hf : Fits s.xlen.bits width (X st.core z.rs1) z.imm)
    (hd : fdstAt s w to 0 = some z.fr)
    (hx : ∀ v, v < 256 ^ z.bytes → FpMem.Spec.Boxed z.bytes v (FpMem.back b (st.fregs z.fr) v)) :
    CarriesQ s w st ⟨.load width z.bytes b to, ops⟩ (DoesQ z st) := by
  have ha := addr_fits (X st.core z.rs1) z.imm hs hf
  have ea : addressQ width s w ops st =
      some (((X st.core z.rs1).setWidth width + (BitVec.ofInt s.xlen.bits z.imm).setWidth width).setWidth 64) := by
    unfold addressQ
    rw [h0, h1, Option.bind_some, Option.map_some]
  generalize ((X st.core z.rs1).setWidth width +
    (BitVec.ofInt s.xlen.bits z.imm).setWidth width).setWidth 64 = a at ha ea
  have e : carryQ s w (st.core.hart.pc.setWidth 64) st ⟨.load width z.bytes b to, ops⟩ =
      loadedQ s w b to st (Mem.load st.core a z.bytes (st.core.hart.pc.setWidth 64) false) := by
    unfold carryQ
    dsimp only
    rw [ea, Option.bind_some]
  by_cases hl' : st.core.limit.toNat < a.toNat
  · have hm : Mem.load st.core a z.bytes (st.core.hart.pc.setWidth 64) false =
        .trapped (raise st.core a Mem.kLoadFault (st.core.hart.pc.setWidth 64) false) :=
      if_pos ((Mem.ult_iff _ _).2 hl')
    rw [hm] at e
    refine ⟨_, e, ⟨a, ha, fun _ => ⟨fun hc => absurd hl' (by omega), fun _ => ⟨?_, ⟨rfl, rfl⟩, rfl, rfl⟩⟩,
      fun hc => absurd (hl.symm.trans hc) (by decide)⟩, ?_, rfl⟩
    · exact raises_next st.core _ 2 a 5#64 rfl
    · exact Hart.hinv_trap hi false a _ _ false
  · have hm : Mem.load st.core a z.bytes (st.core.hart.pc.setWidth 64) false =
        .value (readLE st.core.mem a z.bytes) := if_neg (fun hc => hl' ((Mem.ult_iff _ _).1 hc))
    rw [hm] at e
    have e' : loadedQ s w b to st (.value (readLE st.core.mem a z.bytes)) =
        some (st.setF z.fr (FpMem.back b (st.fregs z.fr) (readLE st.core.mem a z.bytes))) := by
      unfold loadedQ
      dsimp only
      unfold backQ
      rw [hd]
    rw [e'] at e
    refine ⟨_, e, ⟨a, ha, fun _ => ⟨fun _ => ⟨next_passes (bits_le _) st.core hb 2, ⟨rfl, rfl⟩, rfl,
      fun r hr => if_neg hr, readLE st.core.mem a z.bytes, fun i hi => (readLE_byte _ _ _ i hi).symm,
      readLE_lt _ _ _, ?_⟩, fun hc => absurd hc hl'⟩, fun hc => absurd (hl.symm.trans hc) (by decide)⟩, hi, rfl⟩
    show FpMem.Spec.Boxed z.bytes _ (if z.fr = z.fr then _ else _)
    rw [if_pos rfl]
    exact hx _ (readLE_lt _ _ _)

theorem storeQ_ok (hb : st.core.hart.branch = false) (hi : Hart.HInv st.core.hart) (hl : z.load = false)
    (hsz : z.bytes = 4 ∨ z.bytes = 8) (width : Nat) (checks : Bool) (hon : checks = true → ¬ OffF st) (ops : Act)
    (h0 : srcAt s w st.core ops 0 = some (X st.core z.rs1))
    (h1 : srcAt s w st.core ops 1 = some (BitVec.ofInt s.xlen.bits (z.imm : Int)))
    (hs : z.imm < 2 ^ 31) (hf : Fits s.xlen.bits width (X st.core z.rs1) z.imm)
    (h2 : fsrcAt s w ops 2 = some z.fr) :
    CarriesQ s w st ⟨.store width z.bytes checks, ops⟩ (DoesQ z st) := by
  have ha := addr_fits (X st.core z.rs1) z.imm hs hf
  have ea : addressQ width s w ops st =
      some (((X st.core z.rs1).setWidth width + (BitVec.ofInt s.xlen.bits z.imm).setWidth width).setWidth 64) := by
    unfold addressQ
    rw [h0, h1, Option.bind_some, Option.map_some]
  generalize ((X st.core z.rs1).setWidth width +
    (BitVec.ofInt s.xlen.bits z.imm).setWidth width).setWidth 64 = a at ha ea
  have hoff : (checks && unitOff st) = false := by
    cases checks with
    | false => rfl
    | true => exact Bool.eq_false_iff.2 fun h => hon rfl ((unitOff_iff st).1 h)
  have e : carryQ s w (st.core.hart.pc.setWidth 64) st ⟨.store width z.bytes checks, ops⟩ = some (st.withCore
      (Mem.store st.core a z.bytes ((st.fregs z.fr).toNat % 2 ^ (8 * z.bytes))
        (st.core.hart.pc.setWidth 64) false)) := by
    unfold carryQ
    dsimp only
    rw [hoff, ea, Option.bind_some, h2, Option.map_some]
    rfl
  have hst := Mem.C26_store st.core a z.bytes ((st.fregs z.fr).toNat % 2 ^ (8 * z.bytes)) (by
    rcases hsz with h | h <;> rw [h] <;> decide) (st.core.hart.pc.setWidth 64) false
  by_cases hl' : st.core.limit.toNat < a.toNat
  · have hm := hst.1 hl'
    rw [show Mem.store st.core a z.bytes _ (st.core.hart.pc.setWidth 64) false = _ from hm] at e
    refine ⟨_, e, ⟨a, ha, fun hc => absurd (hl.symm.trans hc) (by decide),
      fun _ => ⟨fun hc => absurd hl' (by omega), fun _ => ⟨?_, ⟨rfl, rfl⟩, rfl, rfl⟩⟩⟩, ?_, rfl⟩
    · exact raises_next st.core _ 2 a 7#64 rfl
    · exact Hart.hinv_trap hi false a _ _ false
  · obtain ⟨m, hm, hh, hfr⟩ := hst.2 (by omega)
    rw [hm] at e
    refine ⟨_, e, ⟨a, ha, fun hc => absurd (hl.symm.trans hc) (by decide),
      fun _ => ⟨fun _ => ⟨⟨_, m, next_is (bits_le _) st.core 2, ?_, FpMem.holds_mod hh, hfr⟩, ⟨rfl, rfl⟩,
      rfl, rfl⟩, fun hc => absurd hc hl'⟩⟩, hi, rfl⟩
    exact next_stay { st.core with mem := m } _ 2 hb

end

end Verif.Exec
