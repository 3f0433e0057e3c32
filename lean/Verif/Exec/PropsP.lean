import Verif.Exec.IrEven

/-!
# C133: the program counter stays even
-/

namespace Verif.Exec

open Decode Decode.Isa Core Operands Spec
open XStatus.Spec (field)
open Zicsr.Spec (writes)

variable {n : Nat} {ρ : Type} {H : FpState.Host}

section
variable {A : Arith H} {C : Cvt} {after : Bool} (hH : FpState.HostOk H) (hA : DirOk A) (hia : Ieee after A)
  (hie : IeeeV after C) (s : Sim) (dev : Option (Atomic.Device ρ))
  (hdev : ∀ d, dev = some d → Atomic.Spec.Contract d)

include hH hA hia hie hdev in
/-- **C133.** In every simulated core, whatever the instruction of C132 and whatever interrupt is taken after
it: if the program counter, mepc and sepc are even before a turn, they are even after it.  Left out are CSR
instructions that write an odd number to mepc or sepc, which the simulator keeps (`C133_odd_violated`). -/
theorem C133_step_partial (ls : List (Line × Bool)) (st : FSt s.xlen.bits ρ H)
    (hb : st.core.hart.branch = false) (hp : EvenPc st.core.hart)
    (hz : st.core.regs 0#5 = 0#s.xlen.bits) (hr : Hart.Spec.Reachable st.core.hart) (hv : FInv st.fp) (ho : Own st)
    (hs : Settled st.core.hart) (h : MeantK s dev st) (hn : ¬ Overlooks s.xlen st.core) (hw : NoOdd s.xlen st.core)
    (hl : ∀ st₁, TurnK A C s dev st st₁ → ¬ Withdraws st₁.core.hart ls) :
    ∀ st', TurnN A C s dev ls st st' → EvenPc st'.core.hart := by
  intro st' ht
  obtain ⟨st₁, he, hbt, _⟩ := ((turnN_step hH hA hia hie s dev hdev ls st hb hp.1 hz (Hart.hinv_reachable hr) hv ho hs
    h hn hl).2 st' ht).1
  exact between_even (by have := xl2 s.xlen; omega) (effectK_even hp hs.1 he hw) hbt

include hH hA hia hie hdev in
/-- **C133**, for a whole run: the program counter is even before every instruction; so every turn has its
effect (C132) with no more assumed of the program counter than that it, mepc and sepc are even at the
beginning. -/
theorem C133_run_partial (r : List (Moment s ρ H)) (m : Moment s ρ H)
    (hb : m.2.core.hart.branch = false) (hp : EvenPc m.2.core.hart) (hz : m.2.core.regs 0#5 = 0#s.xlen.bits)
    (hr : Hart.Spec.Reachable m.2.core.hart) (hv : FInv m.2.fp) (ho : Own m.2) (hs : Settled m.2.core.hart)
    (ht : Chain (fun p q => TurnN A C s dev q.1 p.2 q.2) m r)
    (hok : ∀ p ∈ m :: r, MeantK s dev p.2 ∧ ¬ Overlooks s.xlen p.2.core ∧ NoOdd s.xlen p.2.core)
    (hw : Chain (fun p q => ∀ st₁, TurnK A C s dev p.2 st₁ → ¬ Withdraws st₁.core.hart q.1) m r) :
    (∀ p ∈ m :: r, p.2.core.hart.pc.toNat % 2 = 0) ∧
    Chain (fun p q => EffectN after s dev q.1 p.2 q.2) m r ∧ ∃ st', TurnN A C s dev [] (r.getLastD m).2 st' := by
  have hi := Hart.hinv_reachable hr
  clear hr
  induction r generalizing m with
  | nil =>
    obtain ⟨hm, hn, _⟩ := hok m (by simp)
    refine ⟨fun p hq => ?_, trivial,
      (turnN_step hH hA hia hie s dev hdev [] m.2 hb hp.1 hz hi hv ho hs hm hn fun _ _ => id).1⟩
    rw [List.mem_singleton] at hq
    rw [hq]; exact hp.1
  | cons d r ih =>
    obtain ⟨hm, hn, hx⟩ := hok m (by simp)
    obtain ⟨he, ⟨⟨hi', hb', hz'⟩, hv'⟩, ho', hs'⟩ :=
      (turnN_step hH hA hia hie s dev hdev d.1 m.2 hb hp.1 hz hi hv ho hs hm hn hw.1).2 d.2 ht.1
    have hp' : EvenPc d.2.core.hart := by
      obtain ⟨st₁, he, hbt, _⟩ := he
      exact between_even (by have := xl2 s.xlen; omega) (effectK_even hp hs.1 he hx) hbt
    have := ih d hb' hp' (hz'.trans hz) hv' ho' hs' ht.2 (fun e he => hok e (List.mem_cons_of_mem _ he)) hw.2 hi'
    refine ⟨fun p hq => ?_, ⟨he, this.2.1⟩, ?_⟩
    · rcases List.mem_cons.1 hq with e | hq
      · rw [e]; exact hp.1
      · exact this.1 p hq
    · have e : (d :: r).getLastD m = r.getLastD d := by cases r <;> rfl
      rw [e]; exact this.2.2

end

/-- **C133** fails after a write of an odd number to mepc: from the state in which a core is built, a write of
0x1001 to mepc and `mret` lead to the odd address 0x1001. -/
theorem C133_odd_violated :
    ∃ h : Hart.Hart 64, Hart.Spec.Reachable h ∧ EvenPc h ∧ h.mode = M ∧
      (Hart.run h [.mepc 0x1001#64, .mret 0]).pc = 0x1001#64 := by
  refine ⟨Hart.Hart.init 64 true, ⟨[], rfl⟩, ?_, by decide, by decide⟩
  unfold EvenPc; decide

/-! ## Examples -/

/-- A core is built with even addresses. -/
example : EvenPc (Hart.Hart.init 64 true) ∧ EvenPc (Hart.Hart.init 32 true) := by
  unfold EvenPc; decide

/-- `csrrsi x0, mstatus, 8` writes to neither of the two. -/
example : EvenPc enables.core.hart ∧ NoOdd .rv64 enables.core := by
  refine ⟨by unfold EvenPc; decide +kernel, fun i _ _ => ⟨fun h => ?_, fun h => ?_⟩⟩
  all_goals exact absurd h (by decide +kernel)

/-- `csrrwi x0, mepc, 4` writes an even number, `csrrwi x0, mepc, 5` an odd one. -/
example : (∀ v, IsNew (n := 64) .rwi every 4#64 0 v → v.toNat % 2 = 0) ∧
    ∃ v, IsNew (n := 64) .rwi every 5#64 0 v ∧ v.toNat % 2 = 1 := by
  constructor
  · intro v h
    have : v = 4#64 := by
      refine BitVec.eq_of_getLsbD_eq fun k hk => ?_
      rw [h k hk]; rfl
    rw [this]; decide
  · exact ⟨5#64, fun k _ => rfl, by decide⟩

end Verif.Exec
