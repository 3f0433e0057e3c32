import Verif.Exec.SysStep
import Verif.Exec.CsrSpec
import Verif.Zicsr.Props
import Verif.Csr.Props
import Verif.XStatus.Props
import Verif.Xip.Props

/-!
# What CSR instructions do, from their descriptions
-/

namespace Verif.Exec

open Decode Decode.Isa Core Operands Spec
open Zicsr (Insn)
open Zicsr.Spec (minMode readOnly writes newBit)
open XStatus.Spec (field)

/-! ## Operands -/

def cSrcs : List Getters.Opd := [.Csr, .CSRUimm5]

theorem source_okC (s : Sim) (o : Getters.Opd) (ho : o ∈ cSrcs) (w : Nat) :
    ∃ g m, s.source o = some g ∧ Getters.Spec.source o = some m ∧
      Getters.Spec.Reads w (g.source w) m := by
  have t : cSrcs.all (fun o => s.isa.enc.any fun e =>
      (e.source o).isSome && !Getters.oddSource e o) = true := by
    cases s <;> decide +kernel
  have h := List.all_eq_true.1 t o ho
  unfold Sim.source
  cases he : s.isa.enc with
  | none => rw [he] at h; simp at h
  | some e =>
    rw [he] at h
    simp only [Option.any_some, Bool.and_eq_true, Bool.not_eq_true'] at h
    obtain ⟨g, hg⟩ := Option.isSome_iff_exists.1 h.1
    obtain ⟨m, hm, hr⟩ := Getters.C84_source_partial e o g hg h.2 w
    exact ⟨g, m, hg, hm, hr⟩

theorem get_uimmC {n : Nat} (s : Sim) (c : Core n) (o : Getters.Opd) (ho : o ∈ cSrcs)
    (b : List (Nat × Nat)) (hm : Getters.Spec.source o = some (.uimm b 1)) (w : Nat) :
    ((s.source o).bind fun g => get c (g.source w)) =
      some (BitVec.ofNat n (Getters.Spec.unsigned w (Getters.Spec.positions b))) := by
  obtain ⟨g, m, hg, hm', h⟩ := source_okC s o ho w
  obtain rfl : Getters.Spec.Meaning.uimm b 1 = m := Option.some.inj (hm.symm.trans hm')
  have h' : g.source w = .number ((Getters.Spec.unsigned w (Getters.Spec.positions b) : Int) * (1 : Nat)) := h
  rw [hg, Option.bind_some, h']
  show some (BitVec.ofInt n _) = _
  rw [Int.natCast_one, Int.mul_one, BitVec.ofInt_natCast]

theorem src_csr {n : Nat} (hn : 12 ≤ n) (s : Sim) (w : Nat) (c : Core n) (a : Act) (k : Nat)
    (h : a.srcs[k]? = some (.one .Csr)) :
    ∃ v, srcAt s w c a k = some v ∧ v.setWidth 12 = csrNo w := by
  refine ⟨_, by rw [src_one s w c a k _ h]; exact get_uimmC s c .Csr (by decide) _ rfl w, ?_⟩
  unfold csrNo
  rw [BitVec.setWidth_ofNat_of_le hn]

/-- Source 0 of the forms with a register or a number. -/
def csrOpd : Insn → Getters.Opd
  | .rw | .rs | .rc => .Rs1
  | .rwi | .rsi | .rci => .CSRUimm5

theorem unsigned5_lt (w hi : Nat) (h : 4 ≤ hi) : Getters.Spec.unsigned w (Getters.Spec.positions [(hi, hi - 4)]) < 32 := by
  have e : hi + 1 - (hi - 4) = 5 := by omega
  simp only [Getters.Spec.positions, e]
  simp only [List.range, List.range.loop, List.map_cons, List.map_nil, List.append_nil,
    Getters.Spec.unsigned, List.length_cons, List.length_nil]
  split <;> split <;> split <;> split <;> split <;> omega

theorem src_operand {n : Nat} (s : Sim) (w : Nat) (c : Core n) (a : Act) (i : Insn)
    (h : a.srcs[0]? = some (.one (csrOpd i))) : srcAt s w c a 0 = some (csrOperand c i w) := by
  have hu : (rs1 w).toNat = Getters.Spec.unsigned w (Getters.Spec.positions [(19, 15)]) := by
    unfold rs1
    rw [BitVec.toNat_ofNat, Nat.mod_eq_of_lt]
    exact unsigned5_lt w 19 (by decide)
  cases i
  all_goals first
    | exact src_rs1 s w c a 0 h
    | (unfold csrOperand
       dsimp only
       rw [src_one s w c a 0 _ h, hu]
       exact get_uimmC s c .CSRUimm5 (by decide) _ rfl w)

/-! ## Refusal -/

variable {n : Nat} {ρ : Type}

theorem tvm_iff (m : XStatus.MStatus) : m.getter .tvm ≠ 0 ↔ field m.value .tvm = 1 := by
  rw [XStatus.C05_getters]
  rcases one_or (field m.value .tvm) with h | h
  · rw [h]; exact ⟨fun h => absurd (by decide) h, fun h => absurd h (by show ¬ 0#1 = 1#1; decide)⟩
  · rw [h]; exact ⟨fun _ => rfl, fun _ => by show ¬ BitVec.setWidth 64 1#1 = 0#64; decide⟩

theorem refused_iff (h : Hart.Hart n) (a : BitVec 12) : refusedCsr h a = true ↔ Forbidden h a := by
  have e : ((a >>> 8) &&& 3#12).toNat = minMode a := Zicsr.required_eq a
  have ht := tvm_iff h.mstatus
  unfold refusedCsr Forbidden
  simp only [Bool.or_eq_true, Bool.and_eq_true, decide_eq_true_eq, e, and_assoc]
  rw [ht]
  rfl

/-! ## Reading -/

theorem csr_as (c : Csr.SimpleCsr n) (k : Nat) (hk : k < n) :
    (c.as n).getLsbD k = (c.value.getLsbD k && c.readMask.getLsbD k) := by
  unfold Csr.SimpleCsr.as Csr.SimpleCsr.get
  simp [hk]

theorem irq_mask : ∀ k, k < 64 → Xip.mieMask.getLsbD k = irqBit k := Verif.allLt (by decide)

theorem irq_lt {k : Nat} (h : irqBit k = true) : k < 12 := by
  unfold irqBit at h
  simp at h
  omega

theorem mie_read (hn : n ≤ 64) (m : BitVec 64) (k : Nat) (hk : k < n) :
    ((m &&& Xip.mieMask).setWidth n).getLsbD k = (irqBit k && m.getLsbD k) := by
  rw [BitVec.getLsbD_setWidth, BitVec.getLsbD_and, irq_mask k (by omega)]
  simp [hk, Bool.and_comm]

theorem mip_read (hn : n ≤ 64) (m : Xip.MIp) (k : Nat) (hk : k < n) :
    (m.as64.setWidth n).getLsbD k =
      (irqBit k && (m.stored.getLsbD k || (decide (k = 9) && m.ext))) := by
  have e : m.extBits.getLsbD k = (decide (k = 9) && m.ext) := by
    unfold Xip.MIp.extBits
    cases m.ext with
    | false => simp
    | true =>
      have t : ∀ k, k < 64 → (0x200#64).getLsbD k = decide (k = 9) := Verif.allLt (by decide)
      simpa using t k (by omega)
  have hr : Xip.mipReadMask.getLsbD k = irqBit k := irq_mask k (by omega)
  unfold Xip.MIp.as64 Xip.MIp.get
  rw [BitVec.getLsbD_setWidth, BitVec.getLsbD_and, BitVec.getLsbD_or, hr, e]
  simp [hk, Bool.and_comm]

theorem status_read (x : Xlen) (h : Hart.Hart x.bits) (hi : Hart.HInv h) (k : Nat) (hk : k < 23)
    (hf : XStatus.Spec.inFields k XStatus.Spec.fields = true) :
    (readHart h .mstatus).getLsbD k = h.mstatus.value.getLsbD k := by
  unfold readHart
  cases x with
  | rv32 =>
    have e : (Xlen.bits .rv32) = 32 := rfl
    rw [if_pos e]
    rw [BitVec.getLsbD_setWidth]
    unfold XStatus.MStatus.as32
    have hr : ∀ k, k < 32 → XStatus.Spec.inFields k XStatus.Spec.fields = true →
        XStatus.MStatus.readMask32.getLsbD k = true := by
      refine Verif.allLt ?_
      decide
    rw [BitVec.getLsbD_and, XStatus.get32_inv h.mstatus hi.1 k (by omega), hf, hr k (by omega) hf]
    simp [show k < Xlen.bits .rv32 by show k < 32; omega]
  | rv64 =>
    have e : ¬ (Xlen.bits .rv64) = 32 := by decide
    rw [if_neg e]
    rw [BitVec.getLsbD_setWidth]
    unfold XStatus.MStatus.as64
    have hr : ∀ k, k < 64 → XStatus.Spec.inFields k XStatus.Spec.fields = true →
        XStatus.mReadMask.getLsbD k = true := by
      refine Verif.allLt ?_
      decide
    rw [BitVec.getLsbD_and, hr k (by omega) hf]
    simp [show k < Xlen.bits .rv64 by show k < 64; omega]

theorem sstatus_read (x : Xlen) (h : Hart.Hart x.bits) (hi : Hart.HInv h) (k : Nat) (hk : k < 23)
    (hf : XStatus.Spec.inFields k XStatus.Spec.sFields = true) :
    (readHart h .sstatus).getLsbD k = h.mstatus.value.getLsbD k := by
  have hf' : XStatus.Spec.inFields k XStatus.Spec.fields = true := by
    have t : ∀ k, k < 23 → XStatus.Spec.inFields k XStatus.Spec.sFields = true →
        XStatus.Spec.inFields k XStatus.Spec.fields = true := Verif.allLt (by decide)
    exact t k hk hf
  have hr : ∀ k, k < 64 → XStatus.Spec.inFields k XStatus.Spec.fields = true →
      XStatus.mReadMask.getLsbD k = true := Verif.allLt (by decide)
  cases x with
  | rv32 =>
    have e : readHart h .sstatus = (XStatus.viewAs32 h.mstatus).setWidth (Xlen.bits .rv32) := rfl
    rw [e, BitVec.getLsbD_setWidth, XStatus.viewAs32, XStatus.compress_bit _ _ (by omega),
      if_pos (by omega)]
    unfold XStatus.viewAs64 XStatus.MStatus.as64
    rw [BitVec.getLsbD_and, hr k (by omega) hf']
    simp [show k < Xlen.bits .rv32 by show k < 32; omega]
  | rv64 =>
    have e : readHart h .sstatus = (XStatus.viewAs64 h.mstatus).setWidth (Xlen.bits .rv64) := rfl
    rw [e, BitVec.getLsbD_setWidth]
    unfold XStatus.viewAs64 XStatus.MStatus.as64
    rw [BitVec.getLsbD_and, hr k (by omega) hf']
    simp [show k < Xlen.bits .rv64 by show k < 64; omega]

theorem sie_read (hn : n ≤ 64) (d m : BitVec 64) (k : Nat) (hk : k < n) :
    ((Xip.sieGet d m &&& Xip.mieMask).setWidth n).getLsbD k = (irqBit k && m.getLsbD k) := by
  unfold Xip.sieGet
  rw [BitVec.getLsbD_setWidth, BitVec.getLsbD_and, BitVec.getLsbD_and, BitVec.getLsbD_or, irq_mask k (by omega)]
  cases irqBit k <;> simp [hk]

theorem sip_read (hn : n ≤ 64) (d : BitVec 64) (m : Xip.MIp) (k : Nat) (hk : k < n) :
    ((Xip.sipGet d m &&& Xip.sipReadMask).setWidth n).getLsbD k =
      (irqBit k && (m.stored.getLsbD k || (decide (k = 9) && m.ext))) := by
  rw [← mip_read hn m k hk]
  have e : Xip.sipReadMask = Xip.mipReadMask := rfl
  unfold Xip.sipGet Xip.MIp.as64
  rw [e]
  simp only [BitVec.getLsbD_setWidth, BitVec.getLsbD_and, BitVec.getLsbD_or]
  cases Xip.mipReadMask.getLsbD k <;> simp

theorem only_delegated {i p d : Bool} (h : i = true → p = true → d = true) : (i && p) = (i && (d && p)) := by
  cases i <;> cases p <;> cases d <;> simp_all

/-! ## Writing -/

/-- Which of the three functions an instruction should call. -/
def csrFunc : Insn → Csr.DbKind
  | .rw | .rwi => .write
  | .rs | .rsi => .setBits
  | .rc | .rci => .clearBits

theorem op_bits (x : Xlen) (k : Csr.DbKind) (u : BitVec x.bits) : (opOf k u).bits = x.bits := by
  cases x <;> cases k <;> rfl

theorem op_step (x : Xlen) (i : Insn) (u : BitVec x.bits) (m : Bool) (j : Nat) (b : Bool) (hj : j < x.bits) :
    Csr.Spec.stepBit m (opOf (csrFunc i) u) j b = if m then newBit i b (u.getLsbD j) else b := by
  cases x with
  | rv32 =>
    have hj' : j < 32 := hj
    have e : (opOf (csrFunc i) u) = (csrFunc i).op32 (BitVec.setWidth 32 u) := rfl
    rw [e]
    cases i <;> simp [csrFunc, Csr.DbKind.op32, Csr.Spec.stepBit, Csr.Spec.bit, newBit, hj']
  | rv64 =>
    have hj' : j < 64 := hj
    have e : (opOf (csrFunc i) u) = (csrFunc i).op64 (BitVec.setWidth 64 u) := rfl
    rw [e]
    cases i <;> simp [csrFunc, Csr.DbKind.op64, Csr.Spec.stepBit, Csr.Spec.bit, newBit, hj']

/-- Bits beyond the operand. -/
theorem op_step_ge (x : Xlen) (i : Insn) (u : BitVec x.bits) (m : Bool) (j : Nat) (b : Bool) (hj : x.bits ≤ j)
    (hm : m = false) : Csr.Spec.stepBit m (opOf (csrFunc i) u) j b = b := by
  subst hm; rfl

theorem step_masks (c : Csr.SimpleCsr n) (o : Csr.Op) :
    (c.step o).readMask = c.readMask ∧ (c.step o).writeMask = c.writeMask := by
  cases o <;> exact ⟨rfl, rfl⟩

theorem isNewCsr (x : Xlen) (i : Insn) (u : BitVec x.bits) (c : Csr.SimpleCsr x.bits) :
    IsNewCsr i u c (c.step (opOf (csrFunc i) u)) := by
  refine ⟨fun k hk => ?_, step_masks c _⟩
  rw [Csr.step_bit c _ k hk (by rw [op_bits]; exact hk), op_step x i u _ k _ hk]

theorem isNew_whole (x : Xlen) (i : Insn) (u v : BitVec x.bits) :
    IsNew i every u v (whole v (opOf (csrFunc i) u)) := by
  intro k hk
  have h := (isNewCsr x i u ⟨v, BitVec.allOnes _, BitVec.allOnes _⟩).1 k hk
  unfold whole
  rw [h]
  simp [every, hk]

theorem mie_bit (x : Xlen) (i : Insn) (u : BitVec x.bits) (m : BitVec 64) (k : Nat) (hk : irqBit k = true) :
    (Xip.mieOp m (opOf (csrFunc i) u)).getLsbD k = newBit i (m.getLsbD k) (u.getLsbD k) := by
  have hl := irq_lt hk
  have hm := irq_mask k (by omega)
  rw [hk] at hm
  have hm' : Xip.mieMask[k]'(by omega) = true := by
    rw [← BitVec.getLsbD_eq_getElem]; exact hm
  cases x with
  | rv32 =>
    have e : (opOf (csrFunc i) u) = (csrFunc i).op32 (BitVec.setWidth 32 u) := rfl
    rw [e]
    cases i <;> simp [csrFunc, Csr.DbKind.op32, Xip.mieOp, newBit, hm', show k < 32 by omega, show k < 64 by omega]
  | rv64 =>
    have e : (opOf (csrFunc i) u) = (csrFunc i).op64 (BitVec.setWidth 64 u) := rfl
    rw [e]
    cases i <;> simp [csrFunc, Csr.DbKind.op64, Xip.mieOp, Xip.mieWrite, newBit, hm', show k < 64 by omega]

theorem mie_other (x : Xlen) (i : Insn) (u : BitVec x.bits) (m : BitVec 64) (k : Nat) (hk : irqBit k = false)
    (h : (Xip.mieOp m (opOf (csrFunc i) u)).getLsbD k = true) : m.getLsbD k = true := by
  have hl : k < 64 := XStatus.getLsbD_lt h
  have hm := irq_mask k hl
  rw [hk] at hm
  revert h
  cases x with
  | rv32 =>
    have e : (opOf (csrFunc i) u) = (csrFunc i).op32 (BitVec.setWidth 32 u) := rfl
    rw [e]
    cases i <;> simp [csrFunc, Csr.DbKind.op32, Xip.mieOp, hm] <;> intros <;> assumption
  | rv64 =>
    have e : (opOf (csrFunc i) u) = (csrFunc i).op64 (BitVec.setWidth 64 u) := rfl
    rw [e]
    cases i <;> simp [csrFunc, Csr.DbKind.op64, Xip.mieOp, Xip.mieWrite, hm] <;> intros <;> assumption

theorem status_bit (x : Xlen) (i : Insn) (u : BitVec x.bits) (m : XStatus.MStatus) (hm : XStatus.Inv m)
    (k : Nat) (hk : k < 64) : (m.csrOp (opOf (csrFunc i) u)).value.getLsbD k =
      if XStatus.Spec.inFields k XStatus.Spec.fields then newBit i (m.value.getLsbD k) (u.getLsbD k)
      else m.value.getLsbD k := by
  rw [XStatus.csrOp_inv m hm _ k hk]
  cases hf : XStatus.Spec.inFields k XStatus.Spec.fields with
  | true =>
    have := XStatus.fields_lt k hk hf
    rw [op_step x i u true k _ (by have := bits_32 x; omega)]
  | false => rfl

theorem sstatus_bit (x : Xlen) (i : Insn) (u : BitVec x.bits) (m : XStatus.MStatus)
    (k : Nat) (hk : k < 64) : (XStatus.sstatusOp m (opOf (csrFunc i) u)).value.getLsbD k =
      if XStatus.Spec.inFields k XStatus.Spec.sFields then newBit i (m.value.getLsbD k) (u.getLsbD k)
      else m.value.getLsbD k := by
  rw [XStatus.C07_sstatus_write m _ k hk]
  cases hf : XStatus.Spec.inFields k XStatus.Spec.sFields with
  | true =>
    have t : ∀ k, k < 64 → XStatus.Spec.inFields k XStatus.Spec.sFields = true → k < 23 :=
      Verif.allLt (by decide)
    have := t k hk hf
    rw [op_step x i u true k _ (by have := bits_32 x; omega)]
  | false => rfl

theorem sstatus_keeps (m : XStatus.MStatus) (hm : XStatus.Inv m) (o : Csr.Op) :
    XStatus.Inv (XStatus.sstatusOp m o) := by
  refine XStatus.inv_of_bits hm ?_ ?_ fun i hi hf => ?_
  · rw [← hm.2.1]; cases o <;> rfl
  · rw [← hm.2.2]; cases o <;> rfl
  · rw [XStatus.C07_sstatus_write m o i hi]
    have t : ∀ k, k < 64 → XStatus.Spec.inFields k XStatus.Spec.fields = false →
        XStatus.Spec.inFields k XStatus.Spec.sFields = false := Verif.allLt (by decide)
    rw [t i hi hf]; rfl

theorem mip_ext (m : Xip.MIp) (o : Csr.Op) : (m.csrOp o).ext = m.ext := by cases o <;> rfl

theorem mip_get (m : Xip.MIp) (he : m.ext = false) : m.get = m.stored := by
  unfold Xip.MIp.get Xip.MIp.extBits
  rw [he]; simp

theorem mip_bit (x : Xlen) (i : Insn) (u : BitVec x.bits) (m : Xip.MIp) (he : m.ext = false)
    (k : Nat) (hk : k < 32) : (m.csrOp (opOf (csrFunc i) u)).stored.getLsbD k =
      if Xip.mipWriteMask.getLsbD k then newBit i (m.stored.getLsbD k) (u.getLsbD k) else m.stored.getLsbD k := by
  have hg : Xip.mipWriteMask.getLsbD k = Xip.mipWriteMask[k]'(by omega) := BitVec.getLsbD_eq_getElem _
  rw [hg]
  cases x with
  | rv32 =>
    have e : (opOf (csrFunc i) u) = (csrFunc i).op32 (BitVec.setWidth 32 u) := rfl
    rw [e]
    cases i <;> cases hm : Xip.mipWriteMask[k]'(by omega) <;>
      simp [csrFunc, Csr.DbKind.op32, Xip.MIp.csrOp, Xip.MIp.write32, Xip.MIp.set, mip_get m he, newBit, hm, hk,
        show k < 64 by omega]
  | rv64 =>
    have e : (opOf (csrFunc i) u) = (csrFunc i).op64 (BitVec.setWidth 64 u) := rfl
    rw [e]
    cases i <;> cases hm : Xip.mipWriteMask[k]'(by omega) <;>
      simp [csrFunc, Csr.DbKind.op64, Xip.MIp.csrOp, Xip.MIp.write64, Xip.MIp.set, mip_get m he, newBit, hm,
        show k < 64 by omega]

theorem mip_other (x : Xlen) (i : Insn) (u : BitVec x.bits) (m : Xip.MIp) (he : m.ext = false)
    (k : Nat) (hk : irqBit k = false) (h : (m.csrOp (opOf (csrFunc i) u)).stored.getLsbD k = true) :
    m.stored.getLsbD k = true := by
  have hl : k < 64 := XStatus.getLsbD_lt h
  have hm : Xip.mipWriteMask.getLsbD k = false := by
    have t : ∀ k, k < 64 → irqBit k = false → Xip.mipWriteMask.getLsbD k = false := Verif.allLt (by decide)
    exact t k hl hk
  revert h
  cases x with
  | rv32 =>
    have e : (opOf (csrFunc i) u) = (csrFunc i).op32 (BitVec.setWidth 32 u) := rfl
    rw [e]
    cases i <;> simp [csrFunc, Csr.DbKind.op32, Xip.MIp.csrOp, Xip.MIp.write32, Xip.MIp.set, mip_get m he, hm] <;>
      intros <;> assumption
  | rv64 =>
    have e : (opOf (csrFunc i) u) = (csrFunc i).op64 (BitVec.setWidth 64 u) := rfl
    rw [e]
    cases i <;> simp [csrFunc, Csr.DbKind.op64, Xip.MIp.csrOp, Xip.MIp.write64, Xip.MIp.set, mip_get m he, hm] <;>
      intros <;> assumption

theorem soft_mask : ∀ k, k < 64 → k ≠ 3 → Xip.mipWriteMask.getLsbD k = softBit k := Verif.allLt (by decide)

theorem mip_soft (x : Xlen) (i : Insn) (u : BitVec x.bits) (m : Xip.MIp) (he : m.ext = false)
    (h3 : newBit i (m.stored.getLsbD 3) (u.getLsbD 3) = m.stored.getLsbD 3)
    (k : Nat) (hk : irqBit k = true) : (m.csrOp (opOf (csrFunc i) u)).stored.getLsbD k =
      if softBit k then newBit i (m.stored.getLsbD k) (u.getLsbD k) else m.stored.getLsbD k := by
  have hl := irq_lt hk
  rw [mip_bit x i u m he k (by omega)]
  by_cases e : k = 3
  · subst e
    rw [if_neg (show ¬ softBit 3 = true by decide), h3]
    split <;> rfl
  · rw [soft_mask k (by omega) e]

theorem sipArg_bit (x : Xlen) (i : Insn) (u : BitVec x.bits) (g : BitVec 64) (k : Nat) (hk : k < 32) :
    (sipArg g (opOf (csrFunc i) u)).getLsbD k = newBit i (g.getLsbD k) (u.getLsbD k) := by
  cases x with
  | rv32 =>
    have e : (opOf (csrFunc i) u) = (csrFunc i).op32 (BitVec.setWidth 32 u) := rfl
    rw [e]
    cases i <;> simp [csrFunc, Csr.DbKind.op32, sipArg, newBit, hk, show k < 64 by omega]
  | rv64 =>
    have e : (opOf (csrFunc i) u) = (csrFunc i).op64 (BitVec.setWidth 64 u) := rfl
    rw [e]
    cases i <;> simp [csrFunc, Csr.DbKind.op64, sipArg, newBit, show k < 64 by omega]

theorem sie_bit (x : Xlen) (i : Insn) (u : BitVec x.bits) (d : BitVec x.bits) (d' m : BitVec 64)
    (k : Nat) (hk : irqBit k = true)
    (hd : m.getLsbD k = true → d.getLsbD k = true)
    (h : (m.getLsbD k = true → newBit i true (u.getLsbD k) = true) ∧
      (newBit i (m.getLsbD k) (u.getLsbD k) = true → d.getLsbD k = true)) :
    (Xip.sieWrite d' m (sipArg (Xip.sieGet d' m) (opOf (csrFunc i) u))).getLsbD k =
      if d.getLsbD k then newBit i (m.getLsbD k) (u.getLsbD k) else m.getLsbD k := by
  have hl := irq_lt hk
  have hm := irq_mask k (by omega)
  rw [hk] at hm
  have hg : (Xip.sieGet d' m).getLsbD k = m.getLsbD k := by
    unfold Xip.sieGet
    rw [BitVec.getLsbD_and, BitVec.getLsbD_or, hm]; simp
  rw [Xip.C09_sie_write_exact _ _ _ k (by omega), if_pos hm, sipArg_bit x i u _ k (by omega), hg]
  obtain ⟨h1, h2⟩ := h
  revert hd h1 h2
  cases m.getLsbD k <;> cases d.getLsbD k <;> simp

theorem sip_bit (x : Xlen) (i : Insn) (u : BitVec x.bits) (d : BitVec x.bits) (m : Xip.MIp) (he : m.ext = false)
    (hd : ∀ k, irqBit k = true → m.stored.getLsbD k = true → d.getLsbD k = true)
    (hk0 : ∀ k, irqBit k = true → k ≠ 1 → newBit i (m.stored.getLsbD k) (u.getLsbD k) = m.stored.getLsbD k)
    (h1 : m.stored.getLsbD 1 = true → newBit i true (u.getLsbD 1) = true)
    (h2 : newBit i (m.stored.getLsbD 1) (u.getLsbD 1) = true → d.getLsbD 1 = true)
    (k : Nat) (hk : irqBit k = true) :
    (Xip.sipWrite (d.setWidth 64) m (sipArg (Xip.sipGet (d.setWidth 64) m) (opOf (csrFunc i) u))).stored.getLsbD k =
      if k = 1 ∧ d.getLsbD 1 = true then newBit i (m.stored.getLsbD k) (u.getLsbD k) else m.stored.getLsbD k := by
  have hl := irq_lt hk
  have hm : Xip.sipReadMask.getLsbD k = true := (irq_mask k (by omega)).trans hk
  have hg : (Xip.sipGet (d.setWidth 64) m).getLsbD k = m.stored.getLsbD k := by
    unfold Xip.sipGet
    rw [BitVec.getLsbD_and, BitVec.getLsbD_or, hm, mip_get m he]; simp
  rw [Xip.C09_sip_write_exact _ _ _ k (by omega), sipArg_bit x i u _ k (by omega), hg, mip_get m he]
  by_cases e : k = 1
  · subst e
    rw [if_pos (show Xip.sipWriteMask.getLsbD 1 = true by decide)]
    have hd := hd 1 hk
    revert hd h1 h2
    cases m.stored.getLsbD 1 <;> cases d.getLsbD 1 <;> simp
  · rw [hk0 k hk e, if_neg (show ¬ (k = 1 ∧ d.getLsbD 1 = true) from fun h => e h.1)]
    have hd := hd k hk
    rw [BitVec.getLsbD_setWidth]
    revert hd
    cases m.stored.getLsbD k
    · simp
    · intro h
      rw [h rfl]
      simp [show k < 64 by omega]

theorem sip_other (d' v : BitVec 64) (m : Xip.MIp) (he : m.ext = false) (k : Nat) (hk : irqBit k = false)
    (h : (Xip.sipWrite d' m v).stored.getLsbD k = true) : m.stored.getLsbD k = true := by
  have hl : k < 64 := XStatus.getLsbD_lt h
  have t : ∀ k, k < 64 → irqBit k = false → Xip.sipWriteMask.getLsbD k = false := Verif.allLt (by decide)
  rw [Xip.C09_sip_write_exact _ _ _ k hl, if_neg (by rw [t k hl hk]; decide), mip_get m he] at h
  exact (Bool.and_eq_true_iff.1 h).2

theorem sie_other (d' m v : BitVec 64) (k : Nat) (hk : irqBit k = false)
    (h : (Xip.sieWrite d' m v).getLsbD k = true) : m.getLsbD k = true := by
  have hl : k < 64 := XStatus.getLsbD_lt h
  have hm := irq_mask k hl
  rw [hk] at hm
  rw [Xip.C09_sie_write_exact _ _ _ k hl, if_neg (by rw [hm]; decide)] at h
  exact (Bool.and_eq_true_iff.1 h).2

/-! ## The register found -/

theorem found_plain (csrs : BitVec 12 → Slot n) (a : BitVec 12) (ha : a ∉ hartNos) :
    getCsr csrs a = slotFound (csrs a) := by
  have e : (HReg.all.find? fun r => r.number == a) = none := by
    rw [List.find?_eq_none]
    intro r _ h
    apply ha
    rw [← beq_iff_eq.1 h]
    cases r <;> decide
  unfold getCsr
  rw [e]

theorem read_ok (x : Xlen) (st : XSt x.bits ρ) (hi : Hart.HInv st.base.core.hart) (i : Insn) (wr : Bool)
    (u : BitVec x.bits) (a : BitVec 12) (h : Covered st.base.core st.csrs i wr u a) :
    ∃ old, readFound st.base.core.hart (getCsr st.csrs a) = some old ∧
      Holds st.base.core.hart st.csrs a old := by
  cases h with
  | mstatus => exact ⟨_, rfl, .mstatus _ (status_read x _ hi)⟩
  | medeleg => exact ⟨_, rfl, .medeleg _ (csr_as _)⟩
  | mideleg => exact ⟨_, rfl, .mideleg _ (csr_as _)⟩
  | sideleg => exact ⟨_, rfl, .sideleg _ (csr_as _)⟩
  | mie => exact ⟨_, rfl, .mie _ (mie_read (bits_le x) _)⟩
  | mip => exact ⟨_, rfl, .mip _ (mip_read (bits_le x) _)⟩
  | sstatus => exact ⟨_, rfl, .sstatus _ (sstatus_read x _ hi)⟩
  | sie hd =>
    exact ⟨_, rfl, .sie _ fun k hk => (sie_read (bits_le x) _ _ k hk).trans (only_delegated (hd k))⟩
  | sip hd =>
    exact ⟨_, rfl, .sip _ fun k hk => (sip_read (bits_le x) _ _ k hk).trans (only_delegated (hd k))⟩
  | mcause => exact ⟨_, rfl, .mcause⟩
  | mtval => exact ⟨_, rfl, .mtval⟩
  | scause => exact ⟨_, rfl, .scause⟩
  | stval => exact ⟨_, rfl, .stval⟩
  | mtvec => exact ⟨_, rfl, .mtvec⟩
  | stvec => exact ⟨_, rfl, .stvec⟩
  | mepc => exact ⟨_, rfl, .mepc⟩
  | sepc => exact ⟨_, rfl, .sepc⟩
  | plain _ r hr ha _ =>
    refine ⟨_, ?_, .plain a r hr _ (csr_as r)⟩
    rw [found_plain _ a ha, hr]
    rfl

/-- What a write to a register leaves alone. -/
def Same (h h' : Hart.Hart n) : Prop := h'.branch = h.branch ∧ h'.pc = h.pc

theorem write_ok (x : Xlen) (st : XSt x.bits ρ) (hi : Hart.HInv st.base.core.hart) (i : Insn)
    (u : BitVec x.bits) (a : BitVec 12) (h : Covered st.base.core st.csrs i true u a) :
    ∃ h' csrs', (∀ st₂ : XSt x.bits ρ, st₂.base.core.hart = st.base.core.hart → st₂.csrs = st.csrs →
        writeFound st₂ a (opOf (csrFunc i) u) (getCsr st.csrs a) =
          { base := withHart st₂.base h', csrs := csrs' }) ∧
      Takes i u st.base.core.hart st.csrs a h' csrs' ∧ Same st.base.core.hart h' ∧ Hart.HInv h' := by
  have w : ∀ r : HReg, getCsr st.csrs a = .hart r → ∀ st₂ : XSt x.bits ρ,
      st₂.base.core.hart = st.base.core.hart → st₂.csrs = st.csrs →
        writeFound st₂ a (opOf (csrFunc i) u) (getCsr st.csrs a) =
          { base := withHart st₂.base (writeHart st.base.core.hart (opOf (csrFunc i) u) r)
            csrs := st.csrs } := by
    intro r hr st₂ h1 h2
    rw [hr, ← h1, ← h2]
    rfl
  cases h with
  | mstatus =>
    obtain ⟨b, q, e⟩ := Hart.setMstatus_frame st.base.core.hart
      (st.base.core.hart.mstatus.csrOp (opOf (csrFunc i) u))
    refine ⟨_, _, w .mstatus rfl, ?_, ?_, ?_⟩
    · unfold writeHart
      rw [e]
      exact .mstatus _ b q (status_bit x i u _ hi.1) (e ▸ looks_mstatus _ _)
    · unfold writeHart
      rw [e]
      exact ⟨rfl, rfl⟩
    · unfold writeHart
      rw [e]
      exact ⟨XStatus.csrOp_keeps _ hi.1 _, (Hart.hasS_csrOp _ _).trans hi.2⟩
  | medeleg => exact ⟨_, _, w .medeleg rfl, .medeleg _ (isNewCsr x i u _), ⟨rfl, rfl⟩, hi⟩
  | mideleg => exact ⟨_, _, w .mideleg rfl, .mideleg _ (isNewCsr x i u _), ⟨rfl, rfl⟩, hi⟩
  | sideleg => exact ⟨_, _, w .sideleg rfl, .sideleg _ (isNewCsr x i u _), ⟨rfl, rfl⟩, hi⟩
  | mie =>
    obtain ⟨b, q, e⟩ := Hart.setMie_frame st.base.core.hart
      (Xip.mieOp st.base.core.hart.mie (opOf (csrFunc i) u))
    refine ⟨_, _, w .mie rfl, ?_, ?_, ?_⟩
    · unfold writeHart
      rw [e]
      exact .mie _ b q (mie_bit x i u _) (mie_other x i u _) (e ▸ looks_mie _ _)
    · unfold writeHart
      rw [e]
      exact ⟨rfl, rfl⟩
    · unfold writeHart
      rw [e]
      exact hi
  | sip hd h =>
    obtain ⟨he, h1, h2, h3⟩ := h rfl
    obtain ⟨b, q, e⟩ := Hart.setMip_frame st.base.core.hart
      (Xip.sipWrite (st.base.core.hart.mideleg.get 64) st.base.core.hart.mip
        (sipArg (Xip.sipGet (st.base.core.hart.mideleg.get 64) st.base.core.hart.mip) (opOf (csrFunc i) u)))
    refine ⟨_, _, w .sip rfl, ?_, ?_, ?_⟩
    · unfold writeHart
      rw [e]
      exact .sip _ b q rfl
        (sip_bit x i u _ _ he (fun k hk hm => hd k hk (by rw [hm]; rfl)) h1 h2 h3)
        (sip_other _ _ _ he) (e ▸ looks_mip _ _)
    · unfold writeHart
      rw [e]
      exact ⟨rfl, rfl⟩
    · unfold writeHart
      rw [e]
      exact hi
  | mip h =>
    obtain ⟨he, h3⟩ := h rfl
    obtain ⟨b, q, e⟩ := Hart.setMip_frame st.base.core.hart
      (st.base.core.hart.mip.csrOp (opOf (csrFunc i) u))
    refine ⟨_, _, w .mip rfl, ?_, ?_, ?_⟩
    · unfold writeHart
      rw [e]
      exact .mip _ b q (mip_ext _ _) (mip_soft x i u _ he h3) (mip_other x i u _ he) (e ▸ looks_mip _ _)
    · unfold writeHart
      rw [e]
      exact ⟨rfl, rfl⟩
    · unfold writeHart
      rw [e]
      exact hi
  | sstatus =>
    obtain ⟨b, q, e⟩ := Hart.setMstatus_frame st.base.core.hart
      (XStatus.sstatusOp st.base.core.hart.mstatus (opOf (csrFunc i) u))
    refine ⟨_, _, w .sstatus rfl, ?_, ?_, ?_⟩
    · unfold writeHart
      rw [e]
      exact .sstatus _ b q (sstatus_bit x i u _) (e ▸ looks_mstatus _ _)
    · unfold writeHart
      rw [e]
      exact ⟨rfl, rfl⟩
    · unfold writeHart
      rw [e]
      exact ⟨sstatus_keeps _ hi.1 _, (Hart.hasS_sstatusOp _ _).trans hi.2⟩
  | sie hd h =>
    obtain ⟨b, q, e⟩ := Hart.setMie_frame st.base.core.hart
      (Xip.sieWrite (st.base.core.hart.mideleg.get 64) st.base.core.hart.mie
        (sipArg (Xip.sieGet (st.base.core.hart.mideleg.get 64) st.base.core.hart.mie) (opOf (csrFunc i) u)))
    refine ⟨_, _, w .sie rfl, ?_, ?_, ?_⟩
    · unfold writeHart
      rw [e]
      exact .sie _ b q (fun k hk => sie_bit x i u _ _ _ k hk (hd k hk) (h rfl k hk)) (sie_other _ _ _)
        (e ▸ looks_mie _ _)
    · unfold writeHart
      rw [e]
      exact ⟨rfl, rfl⟩
    · unfold writeHart
      rw [e]
      exact hi
  | mcause => exact ⟨_, _, w .mcause rfl, .mcause _ (isNew_whole x i u _), ⟨rfl, rfl⟩, hi⟩
  | mtval => exact ⟨_, _, w .mtval rfl, .mtval _ (isNew_whole x i u _), ⟨rfl, rfl⟩, hi⟩
  | scause => exact ⟨_, _, w .scause rfl, .scause _ (isNew_whole x i u _), ⟨rfl, rfl⟩, hi⟩
  | stval => exact ⟨_, _, w .stval rfl, .stval _ (isNew_whole x i u _), ⟨rfl, rfl⟩, hi⟩
  | mtvec => exact ⟨_, _, w .mtvec rfl, .mtvec _ (isNew_whole x i u _), ⟨rfl, rfl⟩, hi⟩
  | stvec => exact ⟨_, _, w .stvec rfl, .stvec _ (isNew_whole x i u _), ⟨rfl, rfl⟩, hi⟩
  | mepc => exact ⟨_, _, w .mepc rfl, .mepc _ (isNew_whole x i u _), ⟨rfl, rfl⟩, hi⟩
  | sepc => exact ⟨_, _, w .sepc rfl, .sepc _ (isNew_whole x i u _), ⟨rfl, rfl⟩, hi⟩
  | plain _ r hr ha _ =>
    refine ⟨st.base.core.hart, _, ?_, .plain a r _ hr (isNewCsr x i u r), ⟨rfl, rfl⟩, hi⟩
    intro st₂ h1 h2
    rw [found_plain _ a ha, hr, ← h1, ← h2]
    rfl

/-! ## The instruction -/

/-- The description an instruction should have; what its entry says of the fields rd and rs1 is in
`rd0`, `rs0` and `rs1n`. -/
def okCsr (i : Insn) (rd0 rs0 rs1n : Bool) (p : CAct) : Bool :=
  match p.sem with
  | .csrrw => (i == .rw || i == .rwi) && p.ops.srcs == [.one (csrOpd i), .one .Csr] &&
      p.ops.dsts[0]? == some (.one .Rd)
  | .csrrs => (i == .rs || i == .rsi) && rs1n && p.ops.srcs == [.one (csrOpd i), .one .Csr] &&
      p.ops.dsts[0]? == some (.one .Rd)
  | .csrrc => (i == .rc || i == .rci) && rs1n && p.ops.srcs == [.one (csrOpd i), .one .Csr] &&
      p.ops.dsts[0]? == some (.one .Rd)
  | .csrrwNr => (i == .rw || i == .rwi) && rd0 && p.ops.srcs == [.one (csrOpd i), .one .Csr]
  | .csrrNw => (i == .rs || i == .rsi || i == .rc || i == .rci) && rs0 && p.ops.srcs == [.one .Csr] &&
      p.ops.dsts[0]? == some (.one .Rd)

/-- The number of the register is where the function looks for it. -/
theorem okCsr_no {i : Insn} {b₁ b₂ b₃ : Bool} {p : CAct} (h : okCsr i b₁ b₂ b₃ p = true) :
    p.ops.srcs[csrSource p.sem]? = some (.one .Csr) := by
  obtain ⟨sem, ops⟩ := p
  unfold okCsr at h
  cases sem <;> simp only [Bool.and_eq_true, beq_iff_eq] at h
  · rw [h.1.2]; rfl
  · rw [h.1.2]; rfl
  · rw [h.1.2]; rfl
  · rw [h.2]; rfl
  · rw [h.1.2]; rfl

/-- The state after the destination has been set, before the program counter moves. -/
def putSt (st : XSt n ρ) (r : BitVec 5) (v : BitVec n) : XSt n ρ :=
  { st with base := { st.base with core := { st.base.core with regs := Regs.write st.base.core.regs r v } } }

theorem putCsr_eq (s : Sim) (w : Nat) (a : Act) (h : a.dsts[0]? = some (.one .Rd)) (v : BitVec s.xlen.bits)
    (st : XSt s.xlen.bits ρ) : putCsr s w a v st = some (putSt st (rd w) v) := by
  obtain ⟨d, hd, hp⟩ := puts_rd s w a 0 h
  unfold putCsr
  rw [hd, Option.bind_some, hp]
  rfl

/-- The end of the turn. -/
def endTurn (st : XSt n ρ) (pc : BitVec 64) (size : Nat) : XSt n ρ :=
  { st with base := { st.base with core := next st.base.core pc size } }

theorem next_stay (c : Core n) (pc : BitVec 64) (size : Nat) (hb : c.hart.branch = false) :
    next c pc size = { c with hart := { c.hart with pc := (pc + BitVec.ofNat 64 size).setWidth n } } := by
  unfold next
  rw [if_neg (by rw [hb]; decide)]

theorem setsReg_of (c c' : Core n) (r : BitVec 5) (v : BitVec n) (h : c'.regs = Regs.write c.regs r v) :
    SetsReg c c' r v := by
  refine ⟨fun q => ?_, ?_⟩
  · unfold X
    rw [h]
    exact Regs.read_write _ _ _ _
  · rw [h]; exact write_zero _ _ _

theorem write_0 (f : Regs.File n) (v : BitVec n) : Regs.write f 0#5 v = f := by
  unfold Regs.write; rfl

/-- The effect after what the function does, when it is allowed. -/
theorem does_of (x : Xlen) (i : Insn) (w : Nat) (st : XSt x.bits ρ) (hb : st.base.core.hart.branch = false)
    (hf : ¬ Forbidden st.base.core.hart (csrNo w)) (old : BitVec x.bits)
    (ho : Holds st.base.core.hart st.csrs (csrNo w) old) (h' : Hart.Hart x.bits) (csrs' : BitVec 12 → Slot x.bits)
    (hw : (writes i (rs1 w) = true ∧
        Takes i (csrOperand st.base.core i w) st.base.core.hart st.csrs (csrNo w) h' csrs') ∨
      (writes i (rs1 w) = false ∧ h' = st.base.core.hart ∧ csrs' = st.csrs))
    (hs : Same st.base.core.hart h') (r : BitVec 5) (hr : r = rd w) (pc : BitVec 64)
    (hpc : pc = st.base.core.hart.pc.setWidth 64) :
    DoesC i w st (endTurn { base := withHart (putSt st r old).base h', csrs := csrs' } pc 4) := by
  subst hr hpc
  refine ⟨rfl, fun h => absurd h hf, fun _ => ⟨old, h', _, ho, fun hwr => ?_, fun hwr => ?_,
    next_is (bits_le x) st.base.core 4, ?_, ?_, ?_, ?_, setsReg_of _ _ _ _ ?_⟩⟩
  · rcases hw with h | h
    · exact h.2
    · rw [hwr] at h; cases h.1
  · rcases hw with h | h
    · rw [hwr] at h; cases h.1
    · exact h.2
  all_goals
    unfold endTurn
    rw [next_stay _ _ _ (by exact hs.1.trans hb)]
    rfl

/-- The register can be read. -/
def CanRead (st : XSt n ρ) (a : BitVec 12) : Prop :=
  ∃ old, readFound st.base.core.hart (getCsr st.csrs a) = some old ∧ Holds st.base.core.hart st.csrs a old

/-- The register can be written. -/
def CanWrite (st : XSt n ρ) (i : Insn) (u : BitVec n) (a : BitVec 12) : Prop :=
  ∃ h' csrs', (∀ st₂ : XSt n ρ, st₂.base.core.hart = st.base.core.hart → st₂.csrs = st.csrs →
      writeFound st₂ a (opOf (csrFunc i) u) (getCsr st.csrs a) = { base := withHart st₂.base h', csrs := csrs' }) ∧
    Takes i u st.base.core.hart st.csrs a h' csrs' ∧ Same st.base.core.hart h' ∧ Hart.HInv h'

theorem csr_can (s : Sim) (w : Nat) (i : Insn) (st : XSt s.xlen.bits ρ) (rd0 rs0 rs1n : Bool) (p : CAct)
    (hp : okCsr i rd0 rs0 rs1n p = true) (h1 : rd0 = true → rd w = 0#5) (h2 : rs0 = true → rs1 w = 0#5)
    (h3 : rs1n = true → rs1 w ≠ 0#5) (hb : st.base.core.hart.branch = false)
    (hi : Hart.HInv st.base.core.hart)
    (hR : ¬ Forbidden st.base.core.hart (csrNo w) → CanRead st (csrNo w))
    (hW : ¬ Forbidden st.base.core.hart (csrNo w) → writes i (rs1 w) = true →
      CanWrite st i (csrOperand st.base.core i w) (csrNo w)) :
    ∃ st₁, csrCarry s w (st.base.core.hart.pc.setWidth 64) st p = some st₁ ∧
      DoesC i w st (endTurn st₁ (st.base.core.hart.pc.setWidth 64) 4) ∧ Hart.HInv st₁.base.core.hart ∧
      st₁.base.core.regs 0#5 = st.base.core.regs 0#5 := by
  obtain ⟨v, hv, hvn⟩ := src_csr (Nat.le_trans (by decide) (bits_32 s.xlen)) s w st.base.core p.ops _ (okCsr_no hp)
  unfold csrCarry
  rw [hv, Option.bind_some, hvn]
  by_cases hf : Forbidden st.base.core.hart (csrNo w)
  · rw [if_pos ((refused_iff _ _).2 hf)]
    refine ⟨_, rfl, ⟨rfl, fun _ => ⟨rfl, next_fault st.base 4 2#64⟩, fun h => absurd hf h⟩, ?_, rfl⟩
    exact Hart.hinv_trap hi false 0#64 2#64 _ false
  · rw [if_neg (fun h => hf ((refused_iff _ _).1 h))]
    have hW := hW hf
    obtain ⟨old, ho, hold⟩ := hR hf
    have ea : accessCsr s w p (csrNo w) st (getCsr st.csrs (csrNo w)) =
        access s w p (csrNo w) (getCsr st.csrs (csrNo w)) st := by
      unfold accessCsr
      split
      · rename_i h; rw [h] at ho; cases ho
      · rfl
    rw [ea]
    unfold access
    rw [ho, Option.bind_some]
    obtain ⟨sem, ops⟩ := p
    have rw_case : writes i (rs1 w) = true → ops.srcs = [.one (csrOpd i), .one .Csr] →
        ops.dsts[0]? = some (.one .Rd) → ∃ st₁,
        ((srcAt s w st.base.core ops 0).bind fun v => (putCsr s w ops old st).map fun st' =>
          writeFound st' (csrNo w) (opOf (csrFunc i) v) (getCsr st.csrs (csrNo w))) = some st₁ ∧
        DoesC i w st (endTurn st₁ (st.base.core.hart.pc.setWidth 64) 4) ∧ Hart.HInv st₁.base.core.hart ∧
        st₁.base.core.regs 0#5 = st.base.core.regs 0#5 := by
      intro hwr hs hd
      obtain ⟨h', csrs', he, ht, hsame, hi'⟩ := hW hwr
      rw [src_operand s w st.base.core ops i (by rw [hs]; rfl), Option.bind_some, putCsr_eq s w ops hd,
        Option.map_some, he (putSt st (rd w) old) rfl rfl]
      exact ⟨_, rfl, does_of s.xlen i w st hb hf old hold h' csrs' (.inl ⟨hwr, ht⟩) hsame _ rfl _ rfl, hi',
        write_zero _ _ _⟩
    cases sem with
    | csrrw =>
      simp only [okCsr, Bool.and_eq_true, Bool.or_eq_true, beq_iff_eq] at hp
      have hk : csrFunc i = .write ∧ writes i (rs1 w) = true := by
        rcases hp.1.1 with rfl | rfl <;> exact ⟨rfl, rfl⟩
      have := rw_case hk.2 hp.1.2 hp.2
      rw [hk.1] at this
      exact this
    | csrrs =>
      simp only [okCsr, Bool.and_eq_true, Bool.or_eq_true, beq_iff_eq] at hp
      have hne := h3 hp.1.1.2
      have hk : csrFunc i = .setBits ∧ writes i (rs1 w) = true := by
        rcases hp.1.1.1 with rfl | rfl <;> exact ⟨rfl, by simpa [writes] using hne⟩
      have := rw_case hk.2 hp.1.2 hp.2
      rw [hk.1] at this
      exact this
    | csrrc =>
      simp only [okCsr, Bool.and_eq_true, Bool.or_eq_true, beq_iff_eq] at hp
      have hne := h3 hp.1.1.2
      have hk : csrFunc i = .clearBits ∧ writes i (rs1 w) = true := by
        rcases hp.1.1.1 with rfl | rfl <;> exact ⟨rfl, by simpa [writes] using hne⟩
      have := rw_case hk.2 hp.1.2 hp.2
      rw [hk.1] at this
      exact this
    | csrrwNr =>
      simp only [okCsr, Bool.and_eq_true, Bool.or_eq_true, beq_iff_eq] at hp
      have hk : csrFunc i = .write ∧ writes i (rs1 w) = true := by
        rcases hp.1.1 with rfl | rfl <;> exact ⟨rfl, rfl⟩
      have hwr := hk.2
      obtain ⟨h', csrs', he, ht, hsame, hi'⟩ := hW hwr
      have hst : st = putSt st (rd w) old := by
        rw [h1 hp.1.2]
        unfold putSt
        rw [write_0]
      dsimp only
      rw [src_operand s w st.base.core ops i (by rw [hp.2]; rfl), Option.map_some, ← hk.1, he st rfl rfl]
      refine ⟨_, rfl, ?_, hi', rfl⟩
      have hd := does_of s.xlen i w st hb hf old hold h' csrs' (.inl ⟨hwr, ht⟩) hsame _ rfl _ rfl
      rw [← hst] at hd
      exact hd
    | csrrNw =>
      simp only [okCsr, Bool.and_eq_true, Bool.or_eq_true, beq_iff_eq] at hp
      have h0 := h2 hp.1.1.2
      have hwr : writes i (rs1 w) = false := by
        rw [h0]
        rcases hp.1.1.1 with ((rfl | rfl) | rfl) | rfl <;> rfl
      dsimp only
      rw [putCsr_eq s w ops hp.2]
      exact ⟨_, rfl, does_of s.xlen i w st hb hf old hold _ _ (.inr ⟨hwr, rfl, rfl⟩) ⟨rfl, rfl⟩ _ rfl _ rfl, hi,
        write_zero _ _ _⟩

theorem csr_ok (s : Sim) (w : Nat) (i : Insn) (st : XSt s.xlen.bits ρ) (rd0 rs0 rs1n : Bool) (p : CAct)
    (hp : okCsr i rd0 rs0 rs1n p = true) (h1 : rd0 = true → rd w = 0#5) (h2 : rs0 = true → rs1 w = 0#5)
    (h3 : rs1n = true → rs1 w ≠ 0#5) (hb : st.base.core.hart.branch = false)
    (hi : Hart.HInv st.base.core.hart)
    (hc : ¬ Forbidden st.base.core.hart (csrNo w) → Covered st.base.core st.csrs i (writes i (rs1 w))
      (csrOperand st.base.core i w) (csrNo w)) :
    ∃ st₁, csrCarry s w (st.base.core.hart.pc.setWidth 64) st p = some st₁ ∧
      DoesC i w st (endTurn st₁ (st.base.core.hart.pc.setWidth 64) 4) ∧ Hart.HInv st₁.base.core.hart ∧
      st₁.base.core.regs 0#5 = st.base.core.regs 0#5 := by
  refine csr_can s w i st rd0 rs0 rs1n p hp h1 h2 h3 hb hi (fun hf => read_ok s.xlen st hi _ _ _ _ (hc hf))
    fun hf hwr => ?_
  have hc := hc hf
  rw [hwr] at hc
  exact write_ok s.xlen st hi _ _ _ hc

/-- A plain register can be read and written, whatever its number says. -/
theorem plain_can (x : Xlen) (st : XSt x.bits ρ) (hi : Hart.HInv st.base.core.hart) (i : Insn)
    (u : BitVec x.bits) (a : BitVec 12) (ha : a ∉ hartNos) (r : Csr.SimpleCsr x.bits) (hr : st.csrs a = .plain r) :
    CanRead st a ∧ CanWrite st i u a := by
  refine ⟨⟨_, ?_, .plain a r hr _ (csr_as r)⟩,
    st.base.core.hart, _, ?_, .plain a r _ hr (isNewCsr x i u r), ⟨rfl, rfl⟩, hi⟩
  · rw [found_plain _ a ha, hr]
    rfl
  · intro st₂ h1 h2
    rw [found_plain _ a ha, hr, ← h1, ← h2]
    rfl

end Verif.Exec
