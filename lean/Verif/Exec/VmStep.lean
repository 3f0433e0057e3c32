import Verif.Exec.VmModel
import Verif.Exec.VmSpec
import Verif.Exec.VwStep
import Verif.VecMem.Stores

/-!
# Operands and tables for unit-stride and strided vector loads and stores
-/

namespace Verif.Exec

open Decode Decode.Isa Core Operands Spec
open VecState (VState)
open VecLoop (VCore VRegs)

variable {n : Nat}

/-! ## Operands -/

def vmSrcs : List Getters.Opd := [.Rs1, .Rs2, .Vs3, .Vmask, .VmaskTrue]

theorem source_okVm (s : Sim) (hs : s.vec = true) (o : Getters.Opd) (ho : o ∈ vmSrcs) (w : Nat) :
    ∃ g m, s.source o = some g ∧ Getters.Spec.source o = some m ∧ Getters.Spec.Reads w (g.source w) m := by
  have t : s.vec = true → vmSrcs.all (fun o => s.isa.enc.any fun e =>
      (e.source o).isSome && !Getters.oddSource e o) = true := by
    cases s <;> decide +kernel
  have h := List.all_eq_true.1 (t hs) o ho
  unfold Sim.source
  cases he : s.isa.enc with
  | none => rw [he] at h; simp at h
  | some e =>
    rw [he] at h
    simp only [Option.any_some, Bool.and_eq_true, Bool.not_eq_true'] at h
    obtain ⟨g, hg⟩ := Option.isSome_iff_exists.1 h.1
    obtain ⟨m, hm, hr⟩ := Getters.C84_source_partial e o g hg h.2 w
    exact ⟨g, m, hg, hm, hr⟩

theorem vm_vs3 (s : Sim) (hs : s.vec = true) (w : Nat) (a : Act) (k : Nat) (h : a.srcs[k]? = some (.one .Vs3)) :
    (vaSrc s w a k).bind vaReg = some (vdOf w) := by
  obtain ⟨g, m, hg, hm, hr⟩ := source_okVm s hs .Vs3 (by decide) w
  obtain rfl : Getters.Spec.Meaning.v [(11, 7)] = m := Option.some.inj hm
  obtain ⟨count, hr, -⟩ := hr
  unfold vaSrc
  rw [h]
  dsimp only
  rw [hg, Option.map_some, Option.bind_some, hr]
  rfl

theorem vm_true (s : Sim) (hs : s.vec = true) (w : Nat) (a : Act) (k : Nat)
    (h : a.srcs[k]? = some (.one .VmaskTrue)) : (vaSrc s w a k).bind vaMask = some true := by
  obtain ⟨g, m, hg, hm, hr⟩ := source_okVm s hs .VmaskTrue (by decide) w
  obtain rfl : Getters.Spec.Meaning.always = m := Option.some.inj hm
  have hr : g.source w = .allTrue := hr
  unfold vaSrc
  rw [h]
  dsimp only
  rw [hg, Option.map_some, Option.bind_some, hr]
  rfl

/-- A register as an operand. -/
theorem vm_reg (s : Sim) (hs : s.vec = true) (w : Nat) (c : Core s.xlen.bits) (a : Act) (k : Nat) (o : Getters.Opd)
    (b : List (Nat × Nat)) (ho : o ∈ vmSrcs) (hm : Getters.Spec.source o = some (.x b)) (r : BitVec 5)
    (hr : r = BitVec.ofNat 5 (Getters.Spec.unsigned w (Getters.Spec.positions b)))
    (hx : srcAt s w c a k = some (X c r)) (h : a.srcs[k]? = some (.one o)) :
    (vaSrc s w a k).bind (vmBase c) = some ((X c r).setWidth 64) ∧
      (vaSrc s w a k).bind (vmStride c) = some ((X c r).signExtend 64) := by
  obtain ⟨g, m, hg, hm', hrd⟩ := source_okVm s hs o ho w
  obtain rfl := Option.some.inj (hm.symm.trans hm')
  rw [src_one s w c a k _ h, hg, Option.bind_some] at hx
  have e : ∀ f : Getters.Val → Option (BitVec 64), (vaSrc s w a k).bind f = f (g.source w) := by
    intro f
    unfold vaSrc
    rw [h]
    dsimp only
    rw [hg, Option.map_some, Option.bind_some]
  rw [e, e]
  rcases hrd with hrd | ⟨h0, hrd⟩
  · rw [hrd] at hx ⊢
    have hx : some (c.regs (BitVec.ofNat 5 _)) = some (X c r) := hx
    have hx := Option.some.inj hx
    exact ⟨congrArg (fun v => some (BitVec.setWidth 64 v)) hx, congrArg (fun v => some (BitVec.signExtend 64 v)) hx⟩
  · rw [hrd]
    have hX : X c r = 0#_ := by
      unfold X
      rw [if_pos]
      rw [hr, h0]
    rw [hX]
    constructor
    · show some (BitVec.ofInt 64 0) = _
      simp
    · show some (BitVec.ofInt 64 0) = some (BitVec.signExtend 64 (0#_))
      congr 1
      apply BitVec.eq_of_toInt_eq
      rw [BitVec.toInt_signExtend_of_le (bits_le _), BitVec.toInt_zero]
      rfl

theorem vm_rs1 (s : Sim) (hs : s.vec = true) (w : Nat) (c : Core s.xlen.bits) (a : Act) (k : Nat)
    (h : a.srcs[k]? = some (.one .Rs1)) : (vaSrc s w a k).bind (vmBase c) = some ((X c (rs1 w)).setWidth 64) :=
  (vm_reg s hs w c a k .Rs1 _ (by decide) rfl _ rfl (src_rs1 s w c a k h) h).1

/-- The operand with the stride. -/
def vmOpd (k : VmKind) : Getters.Opd :=
  if k.strided then .Rs2 else if k.bytes = 1 then .Const1 else if k.bytes = 2 then .Const2
  else if k.bytes = 4 then .Const4 else .Const8

def vmWidths : List Nat := [1, 2, 4, 8]

theorem const_okVm (s : Sim) (hs : s.vec = true) (b : Nat) (hb : b ∈ vmWidths) (h8 : b = 8 → s.xlen = .rv64) (w : Nat) :
    ∃ g, s.source (vmOpd ⟨false, b, false⟩) = some g ∧ g.source w = .number b := by
  have t : s.vec = true → vmWidths.all (fun b => (b == 8 && s.xlen == .rv32) ||
      s.isa.enc.any fun e => (e.source (vmOpd ⟨false, b, false⟩)).isSome &&
        !Getters.oddSource e (vmOpd ⟨false, b, false⟩)) = true := by
    cases s <;> decide +kernel
  have h := List.all_eq_true.1 (t hs) b hb
  rw [Bool.or_eq_true] at h
  rcases h with h | h
  · simp only [Bool.and_eq_true, beq_iff_eq] at h
    rw [h8 h.1] at h
    cases h.2
  unfold Sim.source
  cases he : s.isa.enc with
  | none => rw [he] at h; simp at h
  | some e =>
    rw [he] at h
    simp only [Option.any_some, Bool.and_eq_true, Bool.not_eq_true'] at h
    obtain ⟨g, hg⟩ := Option.isSome_iff_exists.1 h.1
    obtain ⟨m, hm, hr⟩ := Getters.C84_source_partial e _ g hg h.2 w
    refine ⟨g, hg, ?_⟩
    have hm' : Getters.Spec.source (vmOpd ⟨false, b, false⟩) = some (.lit b) := by
      simp only [vmWidths, List.mem_cons, List.not_mem_nil, or_false] at hb
      rcases hb with rfl | rfl | rfl | rfl <;> rfl
    obtain rfl := Option.some.inj (hm'.symm.trans hm)
    exact hr

theorem vm_stride (s : Sim) (hs : s.vec = true) (w : Nat) (c : Core s.xlen.bits) (a : Act) (j : Nat) (k : VmKind)
    (hb : k.bytes ∈ vmWidths) (h8 : k.bytes = 8 → s.xlen = .rv64) (h : a.srcs[j]? = some (.one (vmOpd k))) :
    ∃ t, (vaSrc s w a j).bind (vmStride c) = some t ∧ t.toInt = strideOf c w k := by
  rcases k with ⟨store, b, strided⟩
  cases strided with
  | true =>
    refine ⟨_, (vm_reg s hs w c a j .Rs2 _ (by decide) rfl _ rfl (src_rs2 s w c a j h) h).2, ?_⟩
    rw [BitVec.toInt_signExtend_of_le (bits_le _)]
    rfl
  | false =>
    obtain ⟨g, hg, hv⟩ := const_okVm s hs b hb h8 w
    have h : a.srcs[j]? = some (.one (vmOpd ⟨false, b, false⟩)) := h
    refine ⟨BitVec.ofInt 64 b, ?_, ?_⟩
    · unfold vaSrc
      rw [h]
      dsimp only
      rw [hg, Option.map_some, Option.bind_some, hv]
      rfl
    · show _ = (b : Int)
      simp only [vmWidths, List.mem_cons, List.not_mem_nil, or_false] at hb
      rcases hb with rfl | rfl | rfl | rfl <;> decide

/-! ## Addresses -/

theorem ofInt_emod64 (z : Int) : BitVec.ofInt 64 (z % 2 ^ 64) = BitVec.ofInt 64 z := by
  apply BitVec.eq_of_toNat_eq
  simp only [BitVec.toNat_ofInt]
  congr 1
  exact Int.emod_emod_of_dvd z (Int.dvd_refl _)

theorem strided_raw (c : Core n) (w : Nat) (k : VmKind) (t : BitVec 64) (ht : t.toInt = strideOf c w k) (i : Nat) :
    VecMem.Spec.strided ((X c (rs1 w)).setWidth 64) t i = BitVec.ofInt 64 (rawAddr c w k i) := by
  unfold VecMem.Spec.strided rawAddr
  rw [ht, BitVec.ofInt_add, BitVec.ofInt_add, BitVec.ofInt_toInt]
  congr 1
  rw [BitVec.ofInt_natCast]
  apply BitVec.eq_of_toNat_eq
  rw [BitVec.toNat_setWidth, BitVec.toNat_ofNat]

theorem strided_addr (c : Core n) (w : Nat) (k : VmKind) (t : BitVec 64) (ht : t.toInt = strideOf c w k) (i : Nat)
    (hw : n = 64 ∨ (0 ≤ rawAddr c w k i ∧ rawAddr c w k i < 2 ^ n)) :
    VecMem.Spec.strided ((X c (rs1 w)).setWidth 64) t i = elemAddr c w k i := by
  rw [strided_raw c w k t ht]
  unfold elemAddr
  rcases hw with h | ⟨h1, h2⟩
  · have : (2 : Int) ^ n = 2 ^ 64 := by rw [h]
    rw [this, ofInt_emod64]
  · rw [Int.emod_eq_of_lt h1 h2]

/-! ## Descriptions -/

/-- The mask operand may be the one that is always true, if the entry requires bit 25. -/
def okMask (e : Inst) (a : Arg) : Bool :=
  a == .one .Vmask || (a == .one .VmaskTrue && e.fmt == .VMem && e.cons.contains ⟨.vm, .eq, .num 1⟩)

/-- The description an instruction should have. -/
def okVm (k : VmKind) (e : Inst) (p : VmAct) : Bool :=
  decide (p.store = k.store) && p.bytes == k.bytes &&
    if k.store then
      p.ops.srcs == [.one .Vs3, .one .Rs1, .one (vmOpd k), .one .Vmask]
    else
      (p.ops.srcs == [.one .Rs1, .one (vmOpd k), .one .Vmask] ||
        (p.ops.srcs == [.one .Rs1, .one (vmOpd k), .one .VmaskTrue] && okMask e (.one .VmaskTrue))) &&
      p.child.dsts == [.one .Vd]

def okEntryVm (s : Sim) (e : Inst) : Bool :=
  match vmKind (canon e.op) with
  | none => true
  | some k => (vmActs s e.op).any (okVm k e)

theorem entriesVm_ok (s : Sim) (hs : s.vec = true) : s.decoder.insts.all (okEntryVm s) = true := by
  revert hs; cases s <;> decide +kernel

theorem okMask_true (e : Inst) (w : Nat) (h : okMask e (.one .VmaskTrue) = true) (hm : e.matches w = true) :
    vmOf w = true := by
  unfold okMask at h
  simp only [Bool.or_eq_true, Bool.and_eq_true, beq_iff_eq, List.contains_iff_mem] at h
  rcases h with h | ⟨⟨-, hf⟩, hc⟩
  · cases h
  have := List.all_eq_true.1 hm _ hc
  rw [hf] at this
  have this : decide ((if w.testBit 25 then 2 ^ 0 else 0) + 0 = 1) = true := this
  unfold vmOf
  cases h25 : w.testBit 25 with
  | true => rfl
  | false => rw [h25] at this; cases this

/-! ## Decoding -/

def vmOps : List Op :=
  [.vle8, .vle16, .vle32, .vle64, .vle8ff, .vle16ff, .vle32ff, .vle64ff, .vlse8, .vlse16, .vlse32, .vlse64,
   .vse8, .vse16, .vse32, .vse64, .vsse8, .vsse16, .vsse32, .vsse64]

theorem vmKind_mem {o : Op} {k : VmKind} (h : vmKind o = some k) : o ∈ vmOps := by
  unfold vmKind at h
  split at h <;> first
    | (cases h; done)
    | decide

theorem vmKind_bytes {o : Op} {k : VmKind} (h : vmKind o = some k) : k.bytes ∈ vmWidths := by
  unfold vmKind at h
  split at h <;> first
    | (cases h; done)
    | (obtain rfl := Option.some.inj h; decide)

theorem has_entryVm (s : Sim) (hs : s.vec = true) : vmOps.all (fun o =>
    ((vmKind o).any (fun k => k.bytes == 8) && s.xlen == .rv32) ||
    (canon o == o && s.decoder.insts.any (fun i => i.op == o) && (s.decoder.gaps o).isEmpty)) = true := by
  revert hs; cases s <;> decide +kernel

theorem decodesVm (s : Sim) (hs : s.vec = true) (o : Op) (k : VmKind) (hk : vmKind o = some k)
    (h8 : k.bytes = 8 → s.xlen = .rv64) (w : Nat) (hw : w < 2 ^ 32) (hl : Listed s.xlen o w) :
    (∃ i ∈ s.decoder.insts, i.matches w = true) ∧
      ∀ i ∈ s.decoder.insts, i.matches w = true → canon i.op = o := by
  have he := List.all_eq_true.1 (has_entryVm s hs) o (vmKind_mem hk)
  rw [Bool.or_eq_true] at he
  rcases he with he | he
  · rw [hk] at he
    simp only [Option.any_some, Bool.and_eq_true, beq_iff_eq] at he
    rw [h8 he.1] at he
    cases he.2
  simp only [Bool.and_eq_true, beq_iff_eq, List.any_eq_true, List.isEmpty_iff] at he
  obtain ⟨⟨hc, e, hi, hio⟩, hg⟩ := he
  subst hio
  obtain ⟨j, hj, hjc, hjm⟩ := C71_implemented_partial s.decoder e hi w hw (by rw [hc]; exact hl) (by
    intro p hp h
    rw [hc, hg] at hp
    cases hp)
  refine ⟨⟨j, hj, hjm⟩, fun a ha ham => ?_⟩
  rw [← hc, ← hjc]
  exact pairwise_both (C59_same_instruction s.decoder (decoder_ne s) w hw) ha hj ham hjm

theorem listed_lowVm (x : Xlen) (o : Op) (k : VmKind) (hk : vmKind o = some k) (w : Nat)
    (hl : Listed x o w) : w &&& 3 = 3 := by
  have t : vmOps.all (fun o => (enc x o).all fun e => e.mask &&& 3 == 3 && e.value &&& 3 == 3) = true := by
    cases x <;> decide +kernel
  obtain ⟨e, he, ha, _⟩ := hl
  have h := List.all_eq_true.1 t o (vmKind_mem hk)
  rw [he] at h
  simp only [Option.all_some, Bool.and_eq_true, beq_iff_eq] at h
  rw [← h.1, ← Nat.and_assoc, ha, h.2, h.1]

end Verif.Exec
