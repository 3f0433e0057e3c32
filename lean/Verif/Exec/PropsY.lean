import Verif.Exec.PropsZ

/-!
# C125: the supervisor's views of the registers, and mip
-/

namespace Verif.Exec

open Decode Decode.Isa Core Operands Spec
open Zicsr (Insn)
open Zicsr.Spec (minMode readOnly writes newBit)

variable {ρ : Type}

theorem firstZ_turn (s : Sim) (dev : Option (Atomic.Device ρ)) (st st' : XSt s.xlen.bits ρ)
    (h : firstZ s dev st = some st') : TurnZ s dev st st' := by
  unfold firstZ at h
  split at h
  · next hl =>
    obtain ⟨i, hi, ht⟩ := Option.bind_eq_some_iff.1 h
    exact ⟨i, 4, by
      unfold Finds
      rw [if_pos hl]
      exact ⟨List.mem_of_find?_eq_some hi, by simpa using List.find?_some hi, rfl⟩, ht⟩
  · next hl =>
    obtain ⟨i, hi, ht⟩ := Option.bind_eq_some_iff.1 h
    exact ⟨i, 2, by
      unfold Finds
      rw [if_neg hl]
      exact ⟨List.mem_of_find?_eq_some hi, by simpa using List.find?_some hi, rfl⟩, ht⟩

/-- `csrrw x5, sstatus, x6` at 0x1000, `csrrs x7, sie, x9` at 0x1004, `csrrs x8, sip, x0` at 0x1008 and
`csrrsi x0, mip, 8` at 0x100c, in machine mode; the supervisor's interrupts are delegated, the one from
software is enabled and the one from the timer pending. -/
def views : XSt Sim.rv64g.xlen.bits (Option (BitVec 64)) :=
  { base :=
    { core :=
        { hart := { { Hart.Hart.init 64 true with
              pc := 0x1000#64, mie := 0x2#64, mip := ⟨0x20#64, false⟩ } with
              mideleg := ⟨0x222#64, 0x222#64, 0x222#64⟩ }
          regs := fun r => if r = 6#5 then 0x1802#64 else if r = 9#5 then 0x220#64 else 0#64
          mem := fun a =>
            if a = 0x1000#64 then 0xf3#8 else if a = 0x1001#64 then 0x12#8 else if a = 0x1002#64 then 0x03#8
            else if a = 0x1003#64 then 0x10#8
            else if a = 0x1004#64 then 0xf3#8 else if a = 0x1005#64 then 0xa3#8 else if a = 0x1006#64 then 0x44#8
            else if a = 0x1007#64 then 0x10#8
            else if a = 0x1008#64 then 0x73#8 else if a = 0x1009#64 then 0x24#8 else if a = 0x100a#64 then 0x40#8
            else if a = 0x100b#64 then 0x14#8
            else if a = 0x100c#64 then 0x73#8 else if a = 0x100d#64 then 0x60#8 else if a = 0x100e#64 then 0x44#8
            else if a = 0x100f#64 then 0x34#8 else 0#8
          limit := 0xffff#64
          hasC := true }
      resv := none }
    csrs := builtCsrs 64 false }

/-- The same at another address. -/
def viewsAt (a : BitVec 64) : XSt Sim.rv64g.xlen.bits (Option (BitVec 64)) :=
  { views with base := { views.base with core := { views.base.core with
      hart := { views.base.core.hart with pc := a } } } }

def viewsOut (a : BitVec 64) := firstZ .rv64g (some Atomic.simpleDev) (viewsAt a)

/-- **C125** fails for MSIP: the manual makes this bit of mip read-only, the simulator lets a CSR instruction
set it. -/
theorem C125_msip_violated :
    ∃ st st' : XSt Sim.rv64g.xlen.bits (Option (BitVec 64)),
      IsC .rv64 (wordAt st.base.core) .rsi ∧ csrNo (wordAt st.base.core) = 0x344#12 ∧
      ¬ Forbidden st.base.core.hart 0x344#12 ∧ TurnZ .rv64g (some Atomic.simpleDev) st st' ∧
      st.base.core.hart.mip.stored.getLsbD 3 = false ∧ st'.base.core.hart.mip.stored.getLsbD 3 = true := by
  have hs : (viewsOut 0x100c#64).any (fun st => st.base.core.hart.mip.stored.getLsbD 3) = true := by
    decide +kernel
  cases ho : viewsOut 0x100c#64 with
  | none => rw [ho] at hs; cases hs
  | some st' =>
    rw [ho, Option.any_some] at hs
    refine ⟨viewsAt 0x100c#64, st', ⟨.csrrsi, rfl, _, rfl, ?_⟩, ?_, ?_, firstZ_turn _ _ _ _ ho, ?_, hs⟩
    · unfold Enc.assigns; decide +kernel
    · decide +kernel
    · intro h
      have := (refused_iff _ _).2 h
      revert this
      decide +kernel
    · decide +kernel

/-! ## The accesses to the views are covered -/

theorem irq_all {P : Nat → Prop} (h : ∀ k : Fin 12, irqBit k = true → P k) (k : Nat) (hk : irqBit k = true) : P k :=
  h ⟨k, irq_lt hk⟩ hk

/-- The words are what they are said to be. -/
example : IsC .rv64 (wordAt views.base.core) .rw ∧ csrNo (wordAt views.base.core) = 0x100#12 ∧
    IsC .rv64 (wordAt (viewsAt 0x1004#64).base.core) .rs ∧
    csrNo (wordAt (viewsAt 0x1004#64).base.core) = 0x104#12 ∧
    IsC .rv64 (wordAt (viewsAt 0x1008#64).base.core) .rs ∧
    csrNo (wordAt (viewsAt 0x1008#64).base.core) = 0x144#12 := by
  refine ⟨⟨.csrrw, rfl, _, rfl, ?_⟩, ?_, ⟨.csrrs, rfl, _, rfl, ?_⟩, ?_, ⟨.csrrs, rfl, _, rfl, ?_⟩, ?_⟩
  all_goals first | decide +kernel | (unfold Enc.assigns; decide +kernel)

/-- The bits set in sie are delegated, and none is lost. -/
example : Covered (viewsAt 0x1004#64).base.core (viewsAt 0x1004#64).csrs .rs true
    (csrOperand (viewsAt 0x1004#64).base.core .rs (wordAt (viewsAt 0x1004#64).base.core)) 0x104#12 := by
  have e : csrOperand (viewsAt 0x1004#64).base.core .rs (wordAt (viewsAt 0x1004#64).base.core) = 0x220#64 :=
    BitVec.eq_of_toNat_eq (by decide +kernel)
  rw [e]
  refine .sie (irq_all ?_) fun _ => irq_all ?_ <;> decide +kernel

/-- What is pending is delegated. -/
example : Covered (viewsAt 0x1008#64).base.core (viewsAt 0x1008#64).csrs .rs false
    (csrOperand (viewsAt 0x1008#64).base.core .rs (wordAt (viewsAt 0x1008#64).base.core)) 0x144#12 := by
  refine .sip (irq_all ?_) (fun h => absurd h (by decide))
  decide +kernel

/-- The supervisor makes its own interrupt from software pending. -/
example : Covered views.base.core views.csrs .rs true 0x2#64 0x144#12 := by
  refine .sip (irq_all ?_) fun _ => ⟨rfl, irq_all ?_, ?_⟩ <;> decide +kernel

/-- A write to mip that leaves MSIP alone. -/
example : Covered views.base.core views.csrs .rw true 0x202#64 0x344#12 := by
  refine .mip fun _ => ⟨rfl, ?_⟩
  decide +kernel

/-- SIE is set through sstatus and MPP is not. -/
example : (viewsOut 0x1000#64).map (fun st => (st.base.core.hart.mstatus.value.getLsbD 1,
    (XStatus.Spec.field st.base.core.hart.mstatus.value .mpp).toNat)) = some (true, 0) := by decide +kernel
/-- sie reads as the delegated bits of mie, and takes two more. -/
example : (viewsOut 0x1004#64).map (fun st => ((st.base.core.regs 7#5).toNat, st.base.core.hart.mie.toNat)) =
    some (2, 0x222) := by decide +kernel
/-- sip reads as what is pending. -/
example : (viewsOut 0x1008#64).map (fun st => (st.base.core.regs 8#5).toNat) = some 0x20 := by decide +kernel

end Verif.Exec
