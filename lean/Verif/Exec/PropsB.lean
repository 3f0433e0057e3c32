import Verif.Exec.Props
import Verif.Exec.TablesB

/-!
# C121: the bit manipulation instructions, from the word in memory to the register
-/

namespace Verif.Exec

open Decode Decode.Isa Core Operands Spec

/-- The instructions of Zba, Zbb, Zbc and Zbs. -/
def bOps (x : Xlen) : List Op :=
  [.sh1add, .sh2add, .sh3add, .andn, .orn, .xnor, .clz, .ctz, .cpop, .max, .maxu, .min, .minu, .sext_b,
    .sext_h, .zext_h, .rol, .ror, .rori, .orcb, .rev8, .clmul, .clmulh, .clmulr, .bclr, .bext, .binv, .bset,
    .bclri, .bexti, .binvi, .bseti] ++
  match x with
  | .rv32 => []
  | .rv64 => [.add_uw, .sh1add_uw, .sh2add_uw, .sh3add_uw, .slli_uw, .clzw, .ctzw, .cpopw, .rolw, .rorw, .roriw]

theorem bkind_mem {x : Xlen} {o : Op} {k : BKind} (h : bkind x o = some k) : o ∈ bOps x := by
  unfold bkind at h
  split at h <;> first
    | (cases h; done)
    | decide
    | (cases x <;> decide)

instance (x : Xlen) (v : Bool) (o : Op) : Decidable (Absent x v o) := by
  unfold Absent; cases x <;> cases v <;> infer_instance

theorem has_entryB (s : Sim) (hs : s.zb = true) : (bOps s.xlen).all (fun o =>
    decide (Absent s.xlen s.vec o) || (canon o == o && s.decoder.insts.any (fun i => i.op == o) &&
      (s.decoder.gaps o).isEmpty)) = true := by
  cases s <;> first | (cases hs; done) | decide +kernel

/-- The words the listing gives to the instruction match an entry, and every entry they match is an
entry of that instruction. -/
theorem decodesB (s : Sim) (hs : s.zb = true) (o : Op) (k : BKind) (hk : bkind s.xlen o = some k) (w : Nat)
    (hw : w < 2 ^ 32) (hl : Listed s.xlen o w) (hn : ¬ Absent s.xlen s.vec o) :
    (∃ i ∈ s.decoder.insts, i.matches w = true) ∧
      ∀ i ∈ s.decoder.insts, i.matches w = true → canon i.op = o := by
  have he := List.all_eq_true.1 (has_entryB s hs) o (bkind_mem hk)
  simp only [Bool.or_eq_true, decide_eq_true_eq, hn, false_or, Bool.and_eq_true, beq_iff_eq,
    List.any_eq_true, List.isEmpty_iff] at he
  obtain ⟨⟨hc, i, hi, hio⟩, hg⟩ := he
  subst hio
  obtain ⟨j, hj, hjc, hjm⟩ := C71_implemented_partial s.decoder i hi w hw (by rw [hc]; exact hl) (by
    intro p hp
    rw [hc, hg] at hp
    exact absurd hp List.not_mem_nil)
  refine ⟨⟨j, hj, hjm⟩, fun a ha ham => ?_⟩
  rw [← hc, ← hjc]
  exact pairwise_both (C59_same_instruction s.decoder (decoder_ne s) w hw) ha hj ham hjm

theorem listed_lowB (x : Xlen) (o : Op) (k : BKind) (hk : bkind x o = some k) (w : Nat)
    (hl : Listed x o w) : w &&& 3 = 3 := by
  have t : (bOps x).all (fun o => (enc x o).all fun e => e.mask &&& 3 == 3 && e.value &&& 3 == 3) = true := by
    cases x <;> decide +kernel
  obtain ⟨e, he, ha, _⟩ := hl
  have h := List.all_eq_true.1 t o (bkind_mem hk)
  rw [he] at h
  simp only [Option.all_some, Bool.and_eq_true, beq_iff_eq] at h
  rw [← h.1, ← Nat.and_assoc, ha, h.2, h.1]

theorem noneB (s : Sim) (hs : s.zb = true) : (bOps s.xlen).all (fun o =>
    !decide (Absent s.xlen s.vec o) || (enc s.xlen o).all fun e => s.decoder.insts.all fun i =>
      (i.maskVal.1 &&& e.mask) &&& (i.maskVal.2 ^^^ e.value) != 0) = true := by
  cases s <;> first | (cases hs; done) | decide +kernel

/-- **C121** fails for these: on RV64 `rev8`, `bclri`, `bexti`, `binvi` and `bseti`, on RV32 with vectors
`zext.h`, `rori`, `bclri`, `bexti`, `binvi` and `bseti`.  No entry matches any of their words. -/
theorem C121_absent_violated (s : Sim) (hs : s.zb = true) (o : Op) (h : Absent s.xlen s.vec o)
    (c : Core s.xlen.bits) (hl : Listed s.xlen o (wordAt c)) : ¬ ∃ c', Turn s c c' := by
  have hm : o ∈ bOps s.xlen ∧ ∃ k, bkind s.xlen o = some k := by
    revert h
    cases s.xlen <;> cases s.vec <;> unfold Absent <;> intro h <;> first
      | exact h.elim
      | (rcases h with rfl | rfl | rfl | rfl | rfl | rfl <;> exact ⟨by decide, _, rfl⟩)
      | (rcases h with rfl | rfl | rfl | rfl | rfl <;> exact ⟨by decide, _, rfl⟩)
  obtain ⟨hm, k, hk⟩ := hm
  have hlow := listed_lowB s.xlen o k hk _ hl
  obtain ⟨e, he, ha, _⟩ := hl
  have t := List.all_eq_true.1 (noneB s hs) o hm
  rw [decide_eq_true h, he] at t
  simp only [Bool.not_true, Bool.false_or, Option.all_some, List.all_eq_true, bne_iff_ne, ne_eq] at t
  rintro ⟨c', i, size, hf, -⟩
  unfold Finds at hf
  rw [if_pos hlow] at hf
  refine t i hf.1 (Nat.eq_of_testBit_eq fun j => ?_)
  rw [Nat.zero_testBit]
  simp only [Nat.testBit_and, Nat.testBit_xor]
  cases h1 : i.maskVal.1.testBit j
  · simp
  cases h2 : e.mask.testBit j
  · simp
  have b1 := Inst.maskVal_eq hf.2.1 h1
  have b2 := (and_bits ha j).1 h2
  rw [← b1, ← b2]
  simp

/-- The same for every entry the word matches. -/
theorem stepB_goes (s : Sim) (hs : s.zb = true) (c : Core s.xlen.bits) (k : BKind)
    (h : IsB s.xlen s.vec (wordAt c) k) (hb : c.hart.branch = false)
    (hg : ¬ Wrong s.xlen k (bargs s.xlen k (wordAt c)) c) :
    Goes s c (DoesB s.xlen k (bargs s.xlen k (wordAt c)) c) := by
  obtain ⟨o, hk, hl, hn⟩ := h
  have hw : wordAt c < 2 ^ 32 := readLE_lt c.mem _ 4
  obtain ⟨⟨i, hi, him⟩, hall⟩ := decodesB s hs o k hk _ hw hl hn
  have hlow := listed_lowB s.xlen o k hk _ hl
  exact goes_of s c (DoesB s.xlen k (bargs s.xlen k (wordAt c)) c) ⟨i, 4, by
      unfold Finds; rw [if_pos hlow]; exact ⟨hi, him, rfl⟩⟩ fun i size hf => by
    unfold Finds at hf
    rw [if_pos hlow] at hf
    obtain ⟨hi, him, rfl⟩ := hf
    have ht := List.all_eq_true.1 (entriesB_ok s hs) i hi
    unfold okEntryB at ht
    rw [hall i hi him, hk] at ht
    exact turn_of (z := bargs s.xlen k (wordAt c)) (beq_iff_eq.1 ht)
      (carry_bexpect s hs (wordAt c) c s.xlen rfl k (bkind_ok hk) hb hg)

/-- **C121.** In every simulated core with the bit manipulation instructions, a word that the manual
gives to an instruction of Zba, Zbb, Zbc or Zbs is carried out, whichever matching entry of the decoder
is used, and the state afterwards is the one the manual describes.  Left out are the instructions
whose words the decoder does not know (`C121_absent_violated`) and the wrong results of `clmulr` and `cpopw`
(C29). -/
theorem C121_step_partial (s : Sim) (hs : s.zb = true) (c : Core s.xlen.bits) (k : BKind)
    (h : IsB s.xlen s.vec (wordAt c) k) (hb : c.hart.branch = false)
    (hg : ¬ Wrong s.xlen k (bargs s.xlen k (wordAt c)) c) :
    (∃ c', Turn s c c') ∧ ∀ c', Turn s c c' → DoesB s.xlen k (bargs s.xlen k (wordAt c)) c c' := by
  have go := stepB_goes s hs c k h hb hg
  refine ⟨go.1, ?_⟩
  rintro c' ⟨i, size, hf, hc⟩
  obtain ⟨c₁, h₁, hd⟩ := go.2 i size hf
  rw [hc] at h₁
  obtain rfl := Option.some.inj h₁
  exact hd

theorem doesB_inv {x : Xlen} {k : BKind} {z : Args} {c c' : Core x.bits} (h : DoesB x k z c c')
    (hs : z.size % 2 = 0) (hb : c.hart.branch = false) (hpc : c.hart.pc.toNat % 2 = 0) :
    c'.hart.branch = false ∧ c'.hart.pc.toNat % 2 = 0 ∧ c'.regs 0#5 = c.regs 0#5 := by
  have hn : 2 ≤ x.bits := by have := bits_32 x; omega
  cases k <;> exact computes_inv hn hs h hb hpc

/-- The instruction the word is, and what it leaves out. -/
inductive Meant (x : Xlen) (v : Bool) (c : Core x.bits) : Prop where
  | base (k : Kind) (z : Args) (h : Is x (wordAt c) k z) (ho : NoOverflow c k z)
  | bits (k : BKind) (h : IsB x v (wordAt c) k) (hg : ¬ Wrong x k (bargs x k (wordAt c)) c)

/-- The effect of the instruction. -/
def Effect (x : Xlen) (v : Bool) (c c' : Core x.bits) : Prop :=
  (∃ k z, Is x (wordAt c) k z ∧ Does x k z c c') ∨
  (∃ k, IsB x v (wordAt c) k ∧ DoesB x k (bargs x k (wordAt c)) c c')

/-- **C121**, for a whole run that mixes these with the instructions of the base set, M and C. -/
theorem C121_run_partial (s : Sim) (hs : s.zb = true) (cs : List (Core s.xlen.bits)) (c : Core s.xlen.bits)
    (hb : c.hart.branch = false) (hpc : c.hart.pc.toNat % 2 = 0) (hz : c.regs 0#5 = 0#s.xlen.bits)
    (ht : Chain (Turn s) c cs) (hok : ∀ d ∈ c :: cs, Meant s.xlen s.vec d) :
    Chain (Effect s.xlen s.vec) c cs ∧ ∃ c', Turn s (cs.getLastD c) c' := by
  induction cs generalizing c with
  | nil =>
    refine ⟨trivial, ?_⟩
    cases hok c (by simp) with
    | base k z h ho => exact (C120_step s c k z h hb hpc hz ho).1
    | bits k h hg => exact (C121_step_partial s hs c k h hb hg).1
  | cons d cs ih =>
    have hd : Effect s.xlen s.vec c d ∧ d.hart.branch = false ∧ d.hart.pc.toNat % 2 = 0 ∧
        d.regs 0#5 = c.regs 0#5 := by
      cases hok c (by simp) with
      | base k z h ho =>
        have hd := (C120_step s c k z h hb hpc hz ho).2 d ht.1
        exact ⟨.inl ⟨k, z, h, hd⟩, does_inv hd (is_even h).1 (is_even h).2 hb hpc⟩
      | bits k h hg =>
        have hd := (C121_step_partial s hs c k h hb hg).2 d ht.1
        exact ⟨.inr ⟨k, h, hd⟩, doesB_inv hd (by decide : 4 % 2 = 0) hb hpc⟩
    have := ih d hd.2.1 hd.2.2.1 (hd.2.2.2.trans hz) ht.2 (fun e he => hok e (List.mem_cons_of_mem _ he))
    refine ⟨⟨hd.1, this.1⟩, ?_⟩
    have e : (d :: cs).getLastD c = cs.getLastD d := by cases cs <;> rfl
    rw [e]; exact this.2

/-! ## Examples -/

/-- `sh2add x5, x6, x7` at 0x1000, `roriw x7, x5, 4` after it. -/
def shifted : Core Sim.rv64gzb.xlen.bits :=
  { hart := { Hart.Hart.init 64 true with pc := 0x1000#64 }
    regs := fun r => if r = 6#5 then 3#64 else if r = 7#5 then 0x100#64 else 0#64
    mem := fun a =>
      if a = 0x1000#64 then 0xb3#8 else if a = 0x1001#64 then 0x42#8 else if a = 0x1002#64 then 0x73#8
      else if a = 0x1003#64 then 0x20#8
      else if a = 0x1004#64 then 0x9b#8 else if a = 0x1005#64 then 0xd3#8 else if a = 0x1006#64 then 0x42#8
      else if a = 0x1007#64 then 0x60#8 else 0#8
    limit := 0xffff#64
    hasC := true }

/-- The word is that of `sh2add`, the two run, and leave 268 and its rotation. -/
example : IsB .rv64 false (wordAt shifted) (.bin (.shAdd 1)) ∧
    (¬ Wrong .rv64 (.bin (.shAdd 1)) (bargs .rv64 (.bin (.shAdd 1)) (wordAt shifted)) shifted) ∧
    (((first .rv64gzb shifted).bind (first .rv64gzb)).map fun c => ((c.regs 5#5).toNat, (c.regs 7#5).toNat)) =
      some (268, 0xffffffffc0000010) := by
  refine ⟨⟨.sh2add, rfl, ⟨_, rfl, ?_⟩, by decide⟩, ?_, ?_⟩
  · unfold Enc.assigns; decide +kernel
  · rintro (⟨h, _⟩ | ⟨h, _⟩) <;> cases h
  · decide +kernel

/-- `rori x5, x6, 3` on RV32 with vectors: `C121_absent_violated` applies. -/
def lost : Core Sim.rv32gvzb.xlen.bits :=
  { hart := { Hart.Hart.init 32 true with pc := 0x1000#32 }
    regs := fun _ => 0#32
    mem := fun a =>
      if a = 0x1000#64 then 0x93#8 else if a = 0x1001#64 then 0x52#8 else if a = 0x1002#64 then 0x33#8
      else if a = 0x1003#64 then 0x60#8 else 0#8
    limit := 0xffff#64
    hasC := true }

example : Absent Sim.rv32gvzb.xlen Sim.rv32gvzb.vec .rori ∧ Listed .rv32 .rori (wordAt lost) ∧
    ¬ ∃ c', Turn .rv32gvzb lost c' := by
  have hl : Listed .rv32 .rori (wordAt lost) := ⟨_, rfl, by unfold Enc.assigns; decide +kernel⟩
  exact ⟨.inr (.inl rfl), hl, C121_absent_violated .rv32gvzb rfl .rori (.inr (.inl rfl)) lost hl⟩

end Verif.Exec
