import Verif.Exec.IrEffect

/-!
# C132: interrupts between instructions
-/

namespace Verif.Exec

open Decode Decode.Isa Core Operands Spec
open XStatus.Spec (field)

variable {n : Nat} {ρ : Type} {H : FpState.Host}

namespace Spec

/-- The effect of a turn: that of the word, then what happens between two instructions. -/
def EffectN (after : Bool) (s : Sim) (dev : Option (Atomic.Device ρ)) (ls : List (Line × Bool))
    (st st' : FSt s.xlen.bits ρ H) : Prop :=
  ∃ st₁, EffectK after s dev st st₁ ∧ Between ls st₁.core st'.core ∧ Rest st₁ st' ∧ st'.fregs = st₁.fregs ∧
    st'.fp = st₁.fp

/-- A run: each state comes with the changes of the lines in the turn that led to it. -/
abbrev Moment (s : Sim) (ρ : Type) (H : FpState.Host) := List (Line × Bool) × FSt s.xlen.bits ρ H

end Spec

section
variable {A : Arith H} {C : Cvt} {after : Bool} (hH : FpState.HostOk H) (hA : DirOk A) (hia : Ieee after A)
  (hie : IeeeV after C) (s : Sim) (dev : Option (Atomic.Device ρ))
  (hdev : ∀ d, dev = some d → Atomic.Spec.Contract d)

include hH hA hia hie hdev in
theorem turnN_step (ls : List (Line × Bool)) (st : FSt s.xlen.bits ρ H)
    (hb : st.core.hart.branch = false) (hpc : st.core.hart.pc.toNat % 2 = 0)
    (hz : st.core.regs 0#5 = 0#s.xlen.bits) (hi : Hart.HInv st.core.hart) (hv : FInv st.fp) (ho : Own st)
    (hs : Settled st.core.hart) (h : MeantK s dev st) (hn : ¬ Overlooks s.xlen st.core)
    (hw : ∀ st₁, TurnK A C s dev st st₁ → ¬ Withdraws st₁.core.hart ls) :
    (∃ st', TurnN A C s dev ls st st') ∧ ∀ st', TurnN A C s dev ls st st' →
      EffectN after s dev ls st st' ∧ KeptA st st' ∧ Own st' ∧ Settled st'.core.hart := by
  obtain ⟨⟨st₁, ht⟩, hall⟩ := meantK_step hH hA hia hie s dev hdev st hb hpc hz hi hv ho h
  refine ⟨⟨_, st₁, ht, rfl⟩, ?_⟩
  rintro _ ⟨st₁, ht, rfl⟩
  obtain ⟨he, ⟨⟨hi', hb', hz'⟩, hv'⟩, ho'⟩ := hall st₁ ht
  obtain ⟨hl, hx, hr⟩ := effectK_ready hs he hn
  obtain ⟨b1, b2, b3, b4, b5⟩ := between_spec (bits_32 s.xlen) (bits_le s.xlen) st₁.core ls hi' hb' hx hl
    (driveAll_exact st₁.core.hart ls hl hx hr (hw st₁ ht))
  exact ⟨⟨st₁, he, b1, ⟨rfl, rfl⟩, rfl, rfl⟩, ⟨⟨b3, b4, (congrFun b5 _).trans hz'⟩, hv'⟩, ho', b2⟩

include hH hA hia hie hdev in
/-- **C132.** In every simulated core, when no interrupt is to be taken before an instruction of C131, and
interrupt lines change while it is carried out: the instruction has its effect, the pending bits of mip follow
the lines, and then the interrupt that is to be taken by mip, mie, mideleg, the mode and mstatus, if any, is
taken, the one with the highest priority: into machine mode or, if it is delegated, supervisor mode, at the
address of mtvec or stvec, with the address of the next instruction in mepc or sepc, the number with the top
bit set in mcause or scause, 0 in mtval or stval, and the mode and the enable bit saved in mstatus; registers
and memory stay.  If none is to be taken nothing else happens.  Then no interrupt is to be taken before the next
instruction.  Left out are returns after which the simulator does not look for interrupts, `sret` in machine
mode, returns to the mode 2, and writes to mideleg and sideleg (`C132_mret_violated`,
`C132_mideleg_violated`), and lines that withdraw the last interrupt in the turn in which it could be taken
(`C132_stale_violated`). -/
theorem C132_step_partial (ls : List (Line × Bool)) (st : FSt s.xlen.bits ρ H)
    (hb : st.core.hart.branch = false) (hpc : st.core.hart.pc.toNat % 2 = 0)
    (hz : st.core.regs 0#5 = 0#s.xlen.bits) (hr : Hart.Spec.Reachable st.core.hart) (hv : FInv st.fp) (ho : Own st)
    (hs : Settled st.core.hart) (h : MeantK s dev st) (hn : ¬ Overlooks s.xlen st.core)
    (hw : ∀ st₁, TurnK A C s dev st st₁ → ¬ Withdraws st₁.core.hart ls) :
    (∃ st', TurnN A C s dev ls st st') ∧ ∀ st', TurnN A C s dev ls st st' →
      EffectN after s dev ls st st' ∧ Settled st'.core.hart := by
  have := turnN_step hH hA hia hie s dev hdev ls st hb hpc hz (Hart.hinv_reachable hr) hv ho hs h hn hw
  exact ⟨this.1, fun st' ht => ⟨(this.2 st' ht).1, (this.2 st' ht).2.2.2⟩⟩

include hH hA hia hie hdev in
/-- **C132**, for a whole run, in which any lines may change in any turn: every turn has its effect, with the
interrupts that are to be taken, and the run can go on. -/
theorem C132_run_partial (r : List (Moment s ρ H)) (m : Moment s ρ H)
    (hb : m.2.core.hart.branch = false) (hz : m.2.core.regs 0#5 = 0#s.xlen.bits)
    (hr : Hart.Spec.Reachable m.2.core.hart) (hv : FInv m.2.fp) (ho : Own m.2) (hs : Settled m.2.core.hart)
    (ht : Chain (fun p q => TurnN A C s dev q.1 p.2 q.2) m r)
    (hok : ∀ p ∈ m :: r, p.2.core.hart.pc.toNat % 2 = 0 ∧ MeantK s dev p.2 ∧ ¬ Overlooks s.xlen p.2.core)
    (hw : Chain (fun p q => ∀ st₁, TurnK A C s dev p.2 st₁ → ¬ Withdraws st₁.core.hart q.1) m r) :
    Chain (fun p q => EffectN after s dev q.1 p.2 q.2) m r ∧ ∃ st', TurnN A C s dev [] (r.getLastD m).2 st' := by
  have hi := Hart.hinv_reachable hr
  clear hr
  induction r generalizing m with
  | nil =>
    obtain ⟨hpc, hm, hn⟩ := hok m (by simp)
    exact ⟨trivial, (turnN_step hH hA hia hie s dev hdev [] m.2 hb hpc hz hi hv ho hs hm hn fun _ _ => id).1⟩
  | cons d r ih =>
    obtain ⟨hpc, hm, hn⟩ := hok m (by simp)
    obtain ⟨he, ⟨⟨hi', hb', hz'⟩, hv'⟩, ho', hs'⟩ :=
      (turnN_step hH hA hia hie s dev hdev d.1 m.2 hb hpc hz hi hv ho hs hm hn hw.1).2 d.2 ht.1
    have := ih d hb' (hz'.trans hz) hv' ho' hs' ht.2 (fun e he => hok e (List.mem_cons_of_mem _ he)) hw.2 hi'
    refine ⟨⟨he, this.1⟩, ?_⟩
    have e : (d :: r).getLastD m = r.getLastD d := by cases r <;> rfl
    rw [e]; exact this.2

end

/-- Lines that only rise withdraw nothing. -/
theorem rising (ls : List (Line × Bool)) (h : Hart.Hart n) (he : h.mip.ext = false) (hr : ∀ p ∈ ls, p.2 = true) :
    ¬ Withdraws h ls := by
  induction ls generalizing h with
  | nil => exact id
  | cons p ls ih =>
    obtain ⟨m, a, q, e, hp⟩ := drive_pends h he [p]
    have e : drive h p = { h with mip := m, avail := a, code := q } := e
    rintro (⟨h1, h2⟩ | h1)
    · obtain ⟨i, hc⟩ := Option.ne_none_iff_exists'.1 h1
      obtain ⟨ht, hi⟩ := Hart.choose_takeable hc
      have ht' : Hart.Spec.takeable (drive h p) i = true := by
        have hlt := Hart.priority_lt i hi
        rw [e]
        unfold Hart.Spec.takeable at ht ⊢
        rw [Bool.and_eq_true] at ht ⊢
        refine ⟨?_, ht.2⟩
        have hb := hp.2 i (by omega)
        have ht1 := ht.1
        unfold Hart.Spec.pendEn at ht1 ⊢
        rw [Bool.and_eq_true, Bool.or_eq_true] at ht1 ⊢
        refine ⟨?_, ht1.2⟩
        rcases ht1.1 with hx | hx
        · left
          dsimp only
          rw [hb, hx]
          unfold lastLevel
          have := hr p (by simp)
          simp only [List.reverse_cons, List.reverse_nil, List.nil_append, List.find?_cons, List.find?_nil]
          cases (p.1.bit == i) <;> simp [this]
        · rw [he] at hx; simp at hx
      obtain ⟨k, hk⟩ := Hart.choose_complete hi ht'
      rw [hk] at h2; cases h2
    · refine ih (drive h p) ?_ (fun q hq => hr q (List.mem_cons_of_mem _ hq)) h1
      rw [e]; exact hp.1.trans he

/-! ## What goes wrong -/

/-- **C132** fails after `mret` when MPIE and the other enable bits are 0: no interrupt is to be taken before it,
one is to be taken after it, but none is taken. -/
theorem C132_mret_violated :
    ∃ h : Hart.Hart 64, Hart.Spec.Reachable h ∧ Settled h ∧ h.mode = M ∧ MissesM h ∧
      ∀ c : Core 64, c.hart = h.mret 0 →
        Hart.Spec.choose c.hart = some 7 ∧ (between [] c).hart.taken = h.taken ∧
        (between [] c).hart.mode = U := by
  refine ⟨Hart.run (Hart.Hart.init 64 true) [.mie (.write64 0x80), .mip (.setBit 7 1), .mstatus (.write64 0)],
    ⟨_, rfl⟩, ?_, by decide, ?_, fun c hc => ?_⟩
  · unfold Settled Hart.Spec.legalMode; decide
  · unfold MissesM; decide
  · unfold between
    dsimp only
    rw [hc]
    decide

/-- **C132** fails after a write to mideleg that takes back a delegation: the interrupt is to be taken, but it
is not. -/
theorem C132_mideleg_violated :
    ∃ h : Hart.Hart 64, Hart.Spec.Reachable h ∧ Settled h ∧ h.mode = M ∧
      ∀ c : Core 64, c.hart = Hart.step h (.mideleg (.write64 0)) →
        Hart.Spec.choose c.hart = some 5 ∧ (between [] c).hart.taken = h.taken := by
  refine ⟨Hart.run (Hart.Hart.init 64 true)
    [.mideleg (.write64 0x20), .mie (.write64 0x20), .mip (.csr (.write64 0x20)), .mstatus (.write64 8)], ⟨_, rfl⟩,
    ?_, by decide, fun c hc => ?_⟩
  · unfold Settled Hart.Spec.legalMode; decide
  · unfold between
    dsimp only
    rw [hc]
    decide

/-- **C132** fails when a line rises and falls again in one turn: no interrupt is to be taken, but the timer
interrupt is taken. -/
theorem C132_stale_violated :
    ∃ h : Hart.Hart 64, Hart.Spec.Reachable h ∧ Settled h ∧
      ∀ c : Core 64, c.hart = h →
        Hart.Spec.choose (driveAll c.hart [(.timer, true), (.timer, false)]) = none ∧
        (between [(.timer, true), (.timer, false)] c).hart.taken = h.taken + 1 := by
  refine ⟨Hart.run (Hart.Hart.init 64 true) [.mie (.write64 0x80), .mstatus (.write64 8)], ⟨_, rfl⟩, ?_,
    fun c hc => ?_⟩
  · unfold Settled Hart.Spec.legalMode; decide
  · unfold between
    dsimp only
    rw [hc]
    decide

/-! ## Examples -/

/-- A core is built with nothing to be taken. -/
example : Settled (Hart.Hart.init 64 true) ∧ Settled (Hart.Hart.init 32 true) := by
  unfold Settled Hart.Spec.legalMode; decide

/-- `csrrsi x0, mstatus, 8` with the timer interrupt enabled in mie, while the line of the timer rises: the
simulator finds the interrupt. -/
def enables : FSt Sim.rv64g.xlen.bits (Option (BitVec 64)) FpState.x86 :=
  let x := oneWord 0x1000#64 0x73#8 0x60#8 0x04#8 0x30#8
  { signs with x := { x with base := { x.base with core := { x.base.core with hart :=
    { x.base.core.hart with mie := 0x80#64 } } } } }

example : IsC .rv64 (wordAt enables.core) .rsi ∧ csrNo (wordAt enables.core) = 0x300#12 ∧
    Settled enables.core.hart ∧
    Hart.Spec.choose (driveAll (Hart.step enables.core.hart (.mstatus (.setBits64 8))) [(.timer, true)]) = some 7 := by
  refine ⟨⟨.csrrsi, rfl, _, rfl, ?_⟩, ?_, ?_, ?_⟩
  · unfold Enc.assigns; decide +kernel
  · decide +kernel
  · unfold Settled Hart.Spec.legalMode; decide +kernel
  · decide +kernel

end Verif.Exec
