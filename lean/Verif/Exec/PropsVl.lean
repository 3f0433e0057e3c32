import Verif.Exec.VlSpec
import Verif.Exec.PropsVr
import Verif.VecMask.Props

/-!
# C145: logical operations on mask registers, from the word in memory
-/

namespace Verif.Exec

open Decode Decode.Isa Core Operands Spec
open VecLoop (VCore VRegs)
open VecState (VState)
open VecMask.Spec (mbit)

/-- Some entry matches, and the turn with any that does is carried out and has the effect `Q`. -/
def GoesVl (s : Sim) (st : VaSt s.xlen.bits) (Q : VaSt s.xlen.bits → Prop) : Prop :=
  (∃ i size, Finds s (wordAt st.core) i size) ∧
  ∀ i size junk, Finds s (wordAt st.core) i size →
    ∃ st', turnVl s i (wordAt st.core) size junk st = some st' ∧ Q st'

theorem turnsVl_of {s : Sim} {st : VaSt s.xlen.bits} {Q : VaSt s.xlen.bits → Prop} (h : GoesVl s st Q) :
    (∃ st', TurnVl s st st') ∧ ∀ st', TurnVl s st st' → Q st' := by
  obtain ⟨⟨i, size, hf⟩, h⟩ := h
  obtain ⟨st', hs, _⟩ := h i size (fun _ => ⟨0#64, false, 0⟩) hf
  refine ⟨⟨st', i, size, _, hf, hs⟩, ?_⟩
  rintro st₂ ⟨i, size, junk, hf, hs⟩
  obtain ⟨st', hs', hq⟩ := h i size junk hf
  rw [hs] at hs'
  obtain rfl := Option.some.inj hs'
  exact hq

/-! ## Operands and tables -/

/-- The description an instruction should have. -/
def okVl (k : VecMask.Op) (p : VlAct) : Bool :=
  decide (p.fn = k) && p.ops.srcs == [.one .Vs2, .one .Vs1] && p.ops.dsts == [.one .Vd]

def okEntryVl (s : Sim) (e : Inst) : Bool :=
  match vlKind (canon e.op) with
  | none => true
  | some k => (vlActs s e.op).any (okVl k)

theorem entriesVl_ok (s : Sim) (hs : s.vec = true) : s.decoder.insts.all (okEntryVl s) = true := by
  revert hs; cases s <;> decide +kernel

def vlOps : List Op :=
  [.vmandnot_vv, .vmand_vv, .vmor_vv, .vmxor_vv, .vmornot_vv, .vmnand_vv, .vmnor_vv, .vmxnor_vv]

theorem vlKind_mem {o : Op} {k : VecMask.Op} (h : vlKind o = some k) : o ∈ vlOps := by
  unfold vlKind at h
  split at h <;> first
    | (cases h; done)
    | decide

theorem has_entryVl (s : Sim) (hs : s.vec = true) : vlOps.all (fun o =>
    canon o == o && s.decoder.insts.any (fun i => i.op == o) && (s.decoder.gaps o).isEmpty) = true := by
  revert hs; cases s <;> decide +kernel

theorem decodesVl (s : Sim) (hs : s.vec = true) (o : Op) (k : VecMask.Op) (hk : vlKind o = some k) (w : Nat)
    (hw : w < 2 ^ 32) (hl : Listed s.xlen o w) :
    (∃ i ∈ s.decoder.insts, i.matches w = true) ∧
      ∀ i ∈ s.decoder.insts, i.matches w = true → canon i.op = o := by
  have he := List.all_eq_true.1 (has_entryVl s hs) o (vlKind_mem hk)
  simp only [Bool.and_eq_true, beq_iff_eq, List.any_eq_true, List.isEmpty_iff] at he
  obtain ⟨⟨hc, e, hi, hio⟩, hg⟩ := he
  subst hio
  obtain ⟨j, hj, hjc, hjm⟩ := C71_implemented_partial s.decoder e hi w hw (by rw [hc]; exact hl) (by
    intro p hp h
    rw [hc, hg] at hp
    cases hp)
  refine ⟨⟨j, hj, hjm⟩, fun a ha ham => ?_⟩
  rw [← hc, ← hjc]
  exact pairwise_both (C59_same_instruction s.decoder (decoder_ne s) w hw) ha hj ham hjm

theorem listed_lowVl (x : Xlen) (o : Op) (k : VecMask.Op) (hk : vlKind o = some k) (w : Nat)
    (hl : Listed x o w) : w &&& 3 = 3 := by
  have t : vlOps.all (fun o => (enc x o).all fun e => e.mask &&& 3 == 3 && e.value &&& 3 == 3) = true := by
    cases x <;> decide +kernel
  obtain ⟨e, he, ha, _⟩ := hl
  have h := List.all_eq_true.1 t o (vlKind_mem hk)
  rw [he] at h
  simp only [Option.all_some, Bool.and_eq_true, beq_iff_eq] at h
  rw [← h.1, ← Nat.and_assoc, ha, h.2, h.1]

/-- What the function does is what the turn does. -/
theorem vl_goes (s : Sim) (hs : s.vec = true) (st : VaSt s.xlen.bits) (op : Op) (o : VecMask.Op) (hk : vlKind op = some o)
    (hl : Listed s.xlen op (wordAt st.core)) (hb : st.core.hart.branch = false) :
    GoesVl s st fun st' => st'.vec = VecMask.execBitwise o.fn st.vec (vdOf (wordAt st.core)) (vs2Of (wordAt st.core))
      (vs1Of (wordAt st.core)) ∧ OnlyNext st.core st'.core 4 := by
  obtain ⟨⟨e, he, hem⟩, hall⟩ := decodesVl s hs op _ hk _ (readLE_lt st.core.mem _ 4) hl
  have hlow := listed_lowVl s.xlen op _ hk _ hl
  refine ⟨⟨e, 4, by unfold Finds; rw [if_pos hlow]; exact ⟨he, hem, rfl⟩⟩, fun e size junk hf => ?_⟩
  unfold Finds at hf
  rw [if_pos hlow] at hf
  obtain ⟨he, hem, rfl⟩ := hf
  have hok := List.all_eq_true.1 (entriesVl_ok s hs) e he
  unfold okEntryVl at hok
  rw [hall e he hem, hk] at hok
  dsimp only at hok
  cases hp' : vlActs s e.op with
  | none => rw [hp'] at hok; cases hok
  | some p =>
    rw [hp', Option.any_some] at hok
    unfold okVl at hok
    simp only [Bool.and_eq_true, beq_iff_eq, decide_eq_true_eq] at hok
    obtain ⟨⟨hfn, hsrc⟩, hdst⟩ := hok
    refine ⟨⟨next st.core (st.core.hart.pc.setWidth 64) 4, VecMask.execBitwise o.fn st.vec (vdOf (wordAt st.core))
      (vs2Of (wordAt st.core)) (vs1Of (wordAt st.core))⟩, ?_, rfl, _, next_is (bits_le _) st.core 4, ?_, ?_⟩
    · unfold turnVl
      rw [hp']
      dsimp only
      unfold vlCarry
      rw [va_vs2 s hs _ p.ops 0 (by rw [hsrc]; rfl), Option.bind_some, vr_vs1 s hs _ p.ops 1 (by rw [hsrc]; rfl),
        Option.bind_some, va_vd s hs _ p.ops 0 (by rw [hdst]; rfl), Option.map_some, hfn, Option.map_some]
    · dsimp only
      rw [next_stay _ _ _ hb]
      exact ⟨rfl, rfl, rfl, rfl⟩
    · dsimp only
      rw [next_stay _ _ _ hb]

theorem goesVl_mono {s : Sim} {st : VaSt s.xlen.bits} {P Q : VaSt s.xlen.bits → Prop} (h : GoesVl s st P)
    (hpq : ∀ st', P st' → Q st') : GoesVl s st Q :=
  ⟨h.1, fun i size junk hf => by
    obtain ⟨st', h1, h2⟩ := h.2 i size junk hf
    exact ⟨st', h1, hpq st' h2⟩⟩

theorem logical_eq (o : VecMask.Op) (a b : Bool) : o.bit a b = logical a b o := by
  cases o <;> cases a <;> cases b <;> rfl

/-- **C145.** In every simulated core with vectors, a word that the manual gives to vmand, vmnand, vmandn, vmor, vmnor, vmorn,
vmxor or vmxnor is carried out, whichever matching entry of the decoder is used: every bit of the word's vd from vstart up to
vl becomes the logical function of the bits of its vs2 and vs1; the bits before and all other registers stay, vstart becomes
0, the program counter moves on and nothing else changes.  Missing: no bits to write (`C145_empty_violated`), and first and
last bit in the same byte with vstart inside of it (`C145_same_byte_violated`).  The bits from vl on may have any value (the
manual makes the tail of a mask agnostic). -/
theorem C145_logical_partial (s : Sim) (hs : s.vec = true) (st : VaSt s.xlen.bits) (op : Op) (o : VecMask.Op)
    (hk : vlKind op = some o) (hl : Listed s.xlen op (wordAt st.core)) (hb : st.core.hart.branch = false)
    (hx : st.vec.vs.exception = false) (hne : st.vec.vs.vstart < st.vec.vs.vl)
    (hd : st.vec.vs.vstart % 8 = 0 ∨ st.vec.vs.vstart / 8 ≠ (st.vec.vs.vl - 1) / 8) :
    GoesVl s st fun st' =>
      (∀ i, st.vec.vs.vstart ≤ i → i < st.vec.vs.vl → mbit st'.vec.regs (vdOf (wordAt st.core)) i =
        logical (mbit st.vec.regs (vs2Of (wordAt st.core)) i) (mbit st.vec.regs (vs1Of (wordAt st.core)) i) o) ∧
      (∀ i, i < st.vec.vs.vstart → mbit st'.vec.regs (vdOf (wordAt st.core)) i = mbit st.vec.regs (vdOf (wordAt st.core)) i) ∧
      (∀ r, r ≠ vdOf (wordAt st.core) → st'.vec.regs r = st.vec.regs r) ∧
      st'.vec.vs = { st.vec.vs with vstart := 0 } ∧ OnlyNext st.core st'.core 4 := by
  obtain ⟨h1, h2, h3, h4⟩ := VecMask.C48_logical_partial o st.vec (vdOf (wordAt st.core)) (vs2Of (wordAt st.core))
    (vs1Of (wordAt st.core)) hx hne hd
  refine goesVl_mono (vl_goes s hs st op _ hk hl hb) ?_
  rintro st' ⟨hv, hn⟩
  rw [hv]
  exact ⟨fun i i1 i2 => (h1 i i1 i2).trans (logical_eq _ _ _), h2, h3, h4, hn⟩

/-- **C145 is violated** if first and last bit are in the same byte: the bits before vstart in this byte are written. -/
theorem C145_same_byte_violated (s : Sim) (hs : s.vec = true) (st : VaSt s.xlen.bits) (op : Op) (o : VecMask.Op)
    (hk : vlKind op = some o) (hl : Listed s.xlen op (wordAt st.core)) (hb : st.core.hart.branch = false)
    (hx : st.vec.vs.exception = false) (hne : st.vec.vs.vstart < st.vec.vs.vl)
    (hd : st.vec.vs.vstart / 8 = (st.vec.vs.vl - 1) / 8) (i : Nat) (h1 : i < st.vec.vs.vstart)
    (h2 : i / 8 = st.vec.vs.vstart / 8) (hne' : mbit st.vec.regs (vdOf (wordAt st.core)) i ≠
      logical (mbit st.vec.regs (vs2Of (wordAt st.core)) i) (mbit st.vec.regs (vs1Of (wordAt st.core)) i) o) :
    GoesVl s st fun st' =>
      mbit st'.vec.regs (vdOf (wordAt st.core)) i ≠ mbit st.vec.regs (vdOf (wordAt st.core)) i := by
  have h := VecMask.C48_same_byte_violated o st.vec (vdOf (wordAt st.core)) (vs2Of (wordAt st.core))
    (vs1Of (wordAt st.core)) hx hne hd i h1 h2
  refine goesVl_mono (vl_goes s hs st op _ hk hl hb) ?_
  rintro st' ⟨hv, -⟩
  rw [hv, h, logical_eq]
  exact fun e => hne' e.symm

/-- **C145 is violated** if vl is 0: bits 0 to 7 are written. -/
theorem C145_empty_violated (s : Sim) (hs : s.vec = true) (st : VaSt s.xlen.bits) (op : Op) (o : VecMask.Op)
    (hk : vlKind op = some o) (hl : Listed s.xlen op (wordAt st.core)) (hb : st.core.hart.branch = false)
    (hx : st.vec.vs.exception = false) (hvl : st.vec.vs.vl = 0) (hvs : st.vec.vs.vstart = 0) (i : Nat) (hi : i < 8)
    (hne' : mbit st.vec.regs (vdOf (wordAt st.core)) i ≠
      logical (mbit st.vec.regs (vs2Of (wordAt st.core)) i) (mbit st.vec.regs (vs1Of (wordAt st.core)) i) o) :
    GoesVl s st fun st' =>
      mbit st'.vec.regs (vdOf (wordAt st.core)) i ≠ mbit st.vec.regs (vdOf (wordAt st.core)) i := by
  have h := VecMask.C48_empty_violated o st.vec (vdOf (wordAt st.core)) (vs2Of (wordAt st.core))
    (vs1Of (wordAt st.core)) hx hvl hvs i hi
  refine goesVl_mono (vl_goes s hs st op _ hk hl hb) ?_
  rintro st' ⟨hv, -⟩
  rw [hv, h, logical_eq]
  exact fun e => hne' e.symm

/-! ## Examples -/

/-- `vmand.mm v3, v1, v2`. -/
def vmandWord : BitVec 32 := 0x661121d7#32

example := C145_logical_partial .rv64gv rfl (reducing vmandWord 20 3 0xf5#8) .vmand_vv .and rfl
  ⟨_, rfl, by unfold Enc.assigns; decide +kernel⟩ rfl rfl (show 3 < 20 by decide)
  (Or.inr (show 3 / 8 ≠ (20 - 1) / 8 by decide))

example := C145_same_byte_violated .rv64gv rfl (reducing vmandWord 7 5 0#8) .vmand_vv .and rfl
  ⟨_, rfl, by unfold Enc.assigns; decide +kernel⟩ rfl rfl (show 5 < 7 by decide) (show 5 / 8 = (7 - 1) / 8 by decide)
  4 (show 4 < 5 by decide) (show 4 / 8 = 5 / 8 by decide) (by decide +kernel)

example := C145_empty_violated .rv64gv rfl (reducing vmandWord 0 0 0#8) .vmand_vv .and rfl
  ⟨_, rfl, by unfold Enc.assigns; decide +kernel⟩ rfl rfl rfl rfl 4 (by decide) (by decide +kernel)

/-! ## The other instructions -/

/-- The names of these instructions. -/
def vlNames : List String := vlOps.map opName

theorem vl_names (s : Sim) : s.isa.instrs.all (fun i => (vlPart i.phases).isNone || vlNames.contains i.name) = true := by
  cases s <;> decide +kernel

theorem vl_entries (s : Sim) : s.decoder.insts.all (fun e => !vlNames.contains (opName e.op) ||
    (vlKind (canon e.op)).isSome) = true := by
  cases s <;> decide +kernel

theorem vl_entries16 (s : Sim) : s.decoder16.insts.all (fun e => !vlNames.contains (opName e.op)) = true := by
  cases s <;> decide +kernel

theorem vl_named {s : Sim} {o : Op} (h : vlActs s o ≠ none) : vlNames.contains (opName o) = true := by
  unfold vlActs at h
  cases hf : (s.isa.instrs.find? fun i => i.name == opName o) with
  | none => rw [hf] at h; exact absurd rfl h
  | some i =>
    rw [hf, Option.bind_some] at h
    have hn := List.find?_some hf
    have t := List.all_eq_true.1 (vl_names s) i (List.mem_of_find?_eq_some hf)
    rw [Bool.or_eq_true, Option.isNone_iff_eq_none] at t
    rw [← eq_of_beq hn]
    exact t.resolve_left h

/-- **C145, the others**: what C139 to C144 say of the other instructions holds here as well. -/
theorem C145_others {s : Sim} {st : VaSt s.xlen.bits} {Q : VaSt s.xlen.bits → Prop} (h : GoesVr s st Q)
    (hn : ∃ i size, Finds s (wordAt st.core) i size ∧ vlKind (canon i.op) = none) : GoesVl s st Q := by
  refine ⟨h.1, fun e size junk hf => ?_⟩
  obtain ⟨r, hr, hq⟩ := h.2 e size junk hf
  refine ⟨r, ?_, hq⟩
  unfold turnVl
  suffices hz : vlActs s e.op = none by rw [hz]; exact hr
  refine Classical.byContradiction fun hz => ?_
  have hz := vl_named hz
  obtain ⟨i, size', hi, hin⟩ := hn
  unfold Finds at hf hi
  split at hf
  · rename_i hlow
    rw [if_pos hlow] at hi
    have t := List.all_eq_true.1 (vl_entries s) e hf.1
    rw [hz] at t
    have hc : canon i.op = canon e.op :=
      pairwise_both (C59_same_instruction s.decoder (decoder_ne s) _ (readLE_lt st.core.mem _ 4)) hi.1 hf.1 hi.2.1 hf.2.1
    rw [← hc, hin] at t
    cases t
  · have t := List.all_eq_true.1 (vl_entries16 s) e hf.1
    rw [hz] at t
    cases t

end Verif.Exec
