import Verif.Exec.PropsP
import Verif.Exec.PropsQ

/-!
# C137: a program runs by the manual from the moment the core is built
-/

namespace Verif.Exec

open Decode Decode.Isa Core Operands Spec
open XStatus.Spec (field)

variable {n : Nat} {ρ : Type} {H : FpState.Host}

/-- A turn of the loop with any instruction of the model, in which the lines change as in `ls`
(riscv_top.cc:290-380, 400-495); see `TurnN`. -/
def TurnW (A : Arith H) (C : Cvt) (s : Sim) (dev : Option (Atomic.Device ρ)) (ls : List (Line × Bool))
    (st st' : FSt s.xlen.bits ρ H) : Prop :=
  ∃ st₁, TurnQ A C s dev st st₁ ∧ st' = st₁.withCore (between ls st₁.core)

/-- A core as it is built, with the entry point of the program in the program counter (riscv_state.cc:161-432,
riscv_fp_state.cc:52-63; rv32g_sim.cc:383-439, rv64g_sim.cc:327-383): the memory, its size, the
floating-point registers, the reservation, and the registers other than x0, one of which the simulators set, are
arbitrary. -/
def Built (s : Sim) (st : FSt s.xlen.bits ρ H) : Prop :=
  (∃ e, e.toNat % 2 = 0 ∧ st.core.hart = { Hart.Hart.init s.xlen.bits true with pc := e }) ∧
  st.core.regs 0#5 = 0#s.xlen.bits ∧ (∃ vec, st.x.csrs = builtCsrs s.xlen.bits vec) ∧ st.fp = FpState.init H

namespace Spec

/-- The effect of a turn: that of the word, then what happens between two instructions. -/
def EffectW (after : Bool) (s : Sim) (dev : Option (Atomic.Device ρ)) (ls : List (Line × Bool))
    (st st' : FSt s.xlen.bits ρ H) : Prop :=
  ∃ st₁, EffectQ after s dev st st₁ ∧ Between ls st₁.core st'.core ∧ Rest st₁ st' ∧ st'.fregs = st₁.fregs ∧
    st'.fp = st₁.fp

/-- What holds before every instruction: x0 is 0, the program counter and the return addresses are even, the mode
is one of the three, and no interrupt is to be taken. -/
def Sane (x : Xlen) (c : Core x.bits) : Prop :=
  c.regs 0#5 = 0#x.bits ∧ EvenPc c.hart ∧ Hart.Spec.legalMode c.hart ∧ Hart.Spec.choose c.hart = none

end Spec

/-! ## One instruction -/

theorem doesQ_ready {z : QArgs} {st st' : FSt n ρ H} (hs : Settled st.core.hart) (h : DoesQ z st st') :
    Ready st'.core.hart := by
  obtain ⟨a, _, h1, h2⟩ := h
  cases hl : z.load with
  | true =>
    rcases Nat.lt_or_ge st.core.limit.toNat a.toNat with hc | hc
    · exact raises_ready hs ((h1 hl).2 hc).1
    · exact passes_ready hs ((h1 hl).1 hc).1
  | false =>
    rcases Nat.lt_or_ge st.core.limit.toNat a.toNat with hc | hc
    · exact raises_ready hs ((h2 hl).2 hc).1
    · obtain ⟨p, m, _, e, _⟩ := ((h2 hl).1 hc).1
      rw [e]; exact pc_ready hs p

theorem effectQ_ready {after : Bool} {s : Sim} {dev : Option (Atomic.Device ρ)} {st st' : FSt s.xlen.bits ρ H}
    (hs : Settled st.core.hart) (h : EffectQ after s dev st st') (hn : ¬ Overlooks s.xlen st.core) :
    Ready st'.core.hart := by
  rcases h with ⟨_, h⟩ | ⟨z, _, h⟩
  · exact effectK_ready hs h hn
  · exact doesQ_ready hs h

theorem doesQ_even {x : Xlen} {z : QArgs} {st st' : FSt x.bits ρ H} (hs : EvenPc st.core.hart) (h : DoesQ z st st') :
    EvenPc st'.core.hart := by
  have h2 := xl2 x
  have hn := bits_le x
  obtain ⟨a, _, k1, k2⟩ := h
  cases hl : z.load with
  | true =>
    rcases Nat.lt_or_ge st.core.limit.toNat a.toNat with hc | hc
    · exact raises_even h2 hn hs ((k1 hl).2 hc).1
    · exact passes_even h2 hs (by decide) ((k1 hl).1 hc).1
  | false =>
    rcases Nat.lt_or_ge st.core.limit.toNat a.toNat with hc | hc
    · exact raises_even h2 hn hs ((k2 hl).2 hc).1
    · obtain ⟨p, m, hp, e, _⟩ := ((k2 hl).1 hc).1
      rw [e]; exact ⟨next_even h2 hp (by decide) hs.1, hs.2⟩

theorem effectQ_even {after : Bool} {s : Sim} {dev : Option (Atomic.Device ρ)} {st st' : FSt s.xlen.bits ρ H}
    (hs : EvenPc st.core.hart) (hl : Hart.Spec.legalMode st.core.hart) (h : EffectQ after s dev st st')
    (hn : NoOdd s.xlen st.core) : EvenPc st'.core.hart := by
  rcases h with ⟨_, h⟩ | ⟨z, _, h⟩
  · exact effectK_even hs hl h hn
  · exact doesQ_even hs h

section
variable {A : Arith H} {C : Cvt} {after : Bool} (hH : FpState.HostOk H) (hA : DirOk A) (hia : Ieee after A)
  (hie : IeeeV after C) (s : Sim) (dev : Option (Atomic.Device ρ))
  (hdev : ∀ d, dev = some d → Atomic.Spec.Contract d)

include hH hA hia hie hdev in
theorem turnW_step (ls : List (Line × Bool)) (st : FSt s.xlen.bits ρ H)
    (hb : st.core.hart.branch = false) (hp : EvenPc st.core.hart)
    (hz : st.core.regs 0#5 = 0#s.xlen.bits) (hi : Hart.HInv st.core.hart) (hv : FInv st.fp) (ho : Own st)
    (hs : Settled st.core.hart) (h : MeantQ s dev st) (hn : ¬ Overlooks s.xlen st.core) (hx : NoOdd s.xlen st.core)
    (hw : ∀ st₁, TurnQ A C s dev st st₁ → ¬ Withdraws st₁.core.hart ls) :
    (∃ st', TurnW A C s dev ls st st') ∧ ∀ st', TurnW A C s dev ls st st' →
      EffectW after s dev ls st st' ∧ KeptA st st' ∧ Own st' ∧ Settled st'.core.hart ∧ EvenPc st'.core.hart := by
  obtain ⟨⟨st₁, ht⟩, hall⟩ := meantQ_step hH hA hia hie s dev hdev st hb hp.1 hz hi hv ho h
  refine ⟨⟨_, st₁, ht, rfl⟩, ?_⟩
  rintro _ ⟨st₁, ht, rfl⟩
  obtain ⟨he, ⟨⟨hi', hb', hz'⟩, hv'⟩, ho'⟩ := hall st₁ ht
  obtain ⟨hl, hx', hr⟩ := effectQ_ready hs he hn
  obtain ⟨b1, b2, b3, b4, b5⟩ := between_spec (bits_32 s.xlen) (bits_le s.xlen) st₁.core ls hi' hb' hx' hl
    (driveAll_exact st₁.core.hart ls hl hx' hr (hw st₁ ht))
  exact ⟨⟨st₁, he, b1, ⟨rfl, rfl⟩, rfl, rfl⟩, ⟨⟨b3, b4, (congrFun b5 _).trans hz'⟩, hv'⟩, ho', b2,
    between_even (by have := xl2 s.xlen; omega) (effectQ_even hp hs.1 he hx) b1⟩

include hH hA hia hie hdev in
theorem turnW_run (r : List (Moment s ρ H)) (m : Moment s ρ H)
    (hb : m.2.core.hart.branch = false) (hp : EvenPc m.2.core.hart) (hz : m.2.core.regs 0#5 = 0#s.xlen.bits)
    (hi : Hart.HInv m.2.core.hart) (hv : FInv m.2.fp) (ho : Own m.2) (hs : Settled m.2.core.hart)
    (ht : Chain (fun p q => TurnW A C s dev q.1 p.2 q.2) m r)
    (hok : ∀ p ∈ m :: r, MeantQ s dev p.2 ∧ ¬ Overlooks s.xlen p.2.core ∧ NoOdd s.xlen p.2.core)
    (hw : Chain (fun p q => ∀ st₁, TurnQ A C s dev p.2 st₁ → ¬ Withdraws st₁.core.hart q.1) m r) :
    (∀ p ∈ m :: r, Sane s.xlen p.2.core) ∧
    Chain (fun p q => EffectW after s dev q.1 p.2 q.2) m r ∧ ∃ st', TurnW A C s dev [] (r.getLastD m).2 st' := by
  induction r generalizing m with
  | nil =>
    obtain ⟨hm, hn, hx⟩ := hok m (by simp)
    refine ⟨fun p hq => ?_, trivial,
      (turnW_step hH hA hia hie s dev hdev [] m.2 hb hp hz hi hv ho hs hm hn hx fun _ _ => id).1⟩
    rw [List.mem_singleton] at hq
    rw [hq]; exact ⟨hz, hp, hs.1, hs.2.2.2⟩
  | cons d r ih =>
    obtain ⟨hm, hn, hx⟩ := hok m (by simp)
    obtain ⟨he, ⟨⟨hi', hb', hz'⟩, hv'⟩, ho', hs', hp'⟩ :=
      (turnW_step hH hA hia hie s dev hdev d.1 m.2 hb hp hz hi hv ho hs hm hn hx hw.1).2 d.2 ht.1
    have := ih d hb' hp' (hz'.trans hz) hi' hv' ho' hs' ht.2 (fun e he => hok e (List.mem_cons_of_mem _ he)) hw.2
    refine ⟨fun p hq => ?_, ⟨he, this.2.1⟩, ?_⟩
    · rcases List.mem_cons.1 hq with e | hq
      · rw [e]; exact ⟨hz, hp, hs.1, hs.2.2.2⟩
      · exact this.1 p hq
    · have e : (d :: r).getLastD m = r.getLastD d := by cases r <;> rfl
      rw [e]; exact this.2.2

theorem built_own {st : FSt s.xlen.bits ρ H} (h : ∃ vec, st.x.csrs = builtCsrs s.xlen.bits vec) : Own st := by
  obtain ⟨vec, h⟩ := h
  intro r
  rw [h]
  have : ∀ x : Xlen, builtCsrs x.bits vec (fregNumber r) = .special := by
    intro x
    cases x <;> cases vec <;> cases r <;> rfl
  exact this s.xlen

theorem built_hart (x : Xlen) (e : BitVec x.bits) (he : e.toNat % 2 = 0) :
    let h : Hart.Hart x.bits := { Hart.Hart.init x.bits true with pc := e }
    h.branch = false ∧ EvenPc h ∧ Hart.HInv h ∧ Settled h := by
  intro h
  have hi : Hart.HInv (Hart.Hart.init x.bits true) := Hart.hinv_reachable ⟨[], rfl⟩
  have hs : Settled (Hart.Hart.init x.bits true) := by
    cases x
    · unfold Settled Hart.Spec.legalMode; decide
    · unfold Settled Hart.Spec.legalMode; decide
  have hp : EvenPc (Hart.Hart.init x.bits true) := by
    cases x
    · unfold EvenPc; decide
    · unfold EvenPc; decide
  exact ⟨rfl, ⟨he, hp.2⟩, hi, hs⟩

include hH hA hia hie hdev in
/-- **C137.** In every simulated core, from the moment it is built, with any program in its memory, an even entry
point and interrupt lines changing in any turn, through any number of instructions of C119 to C134: before
every instruction x0 is 0, the program counter is even, the mode is legal and no interrupt is left to be taken;
every instruction has the effect the manual describes, followed by the interrupt the manual asks for, if any; and
the next instruction can be carried out.  Nothing is assumed of the state but that the core has been built.  Left
out are instructions outside these claims or among their exceptions (`MeantQ`), those after which interrupts are
overlooked, writes of odd numbers to mepc or sepc, and lines that withdraw an interrupt in the turn in which it
could be taken. -/
theorem C137_program_partial (r : List (Moment s ρ H)) (m : Moment s ρ H) (h0 : Built s m.2)
    (ht : Chain (fun p q => TurnW A C s dev q.1 p.2 q.2) m r)
    (hok : ∀ p ∈ m :: r, MeantQ s dev p.2 ∧ ¬ Overlooks s.xlen p.2.core ∧ NoOdd s.xlen p.2.core)
    (hw : Chain (fun p q => ∀ st₁, TurnQ A C s dev p.2 st₁ → ¬ Withdraws st₁.core.hart q.1) m r) :
    (∀ p ∈ m :: r, Sane s.xlen p.2.core) ∧
    Chain (fun p q => EffectW after s dev q.1 p.2 q.2) m r ∧ ∃ st', TurnW A C s dev [] (r.getLastD m).2 st' := by
  obtain ⟨⟨e, he, hh⟩, hz, hc, hf⟩ := h0
  obtain ⟨h1, h2, h3, h4⟩ := built_hart s.xlen e he
  exact turnW_run hH hA hia hie s dev hdev r m (by rw [hh]; exact h1) (by rw [hh]; exact h2) hz
    (by rw [hh]; exact h3) (by rw [hf]; exact finv_init hH) (built_own s hc) (by rw [hh]; exact h4) ht hok hw

include hH hA hia hie hdev in
/-- **C137**, for lines that only rise, as those of devices that wait to be served do: there is nothing to assume of
the lines. -/
theorem C137_rising_partial (r : List (Moment s ρ H)) (m : Moment s ρ H) (h0 : Built s m.2)
    (ht : Chain (fun p q => TurnW A C s dev q.1 p.2 q.2) m r)
    (hok : ∀ p ∈ m :: r, MeantQ s dev p.2 ∧ ¬ Overlooks s.xlen p.2.core ∧ NoOdd s.xlen p.2.core)
    (hup : ∀ p ∈ r, ∀ l ∈ p.1, l.2 = true) :
    (∀ p ∈ m :: r, Sane s.xlen p.2.core) ∧
    Chain (fun p q => EffectW after s dev q.1 p.2 q.2) m r ∧ ∃ st', TurnW A C s dev [] (r.getLastD m).2 st' := by
  obtain ⟨⟨e, he, hh⟩, hz, hc, hf⟩ := h0
  obtain ⟨h1, h2, h3, h4⟩ := built_hart s.xlen e he
  have key : ∀ (r : List (Moment s ρ H)) (m : Moment s ρ H), m.2.core.hart.branch = false → EvenPc m.2.core.hart →
      m.2.core.regs 0#5 = 0#s.xlen.bits → Hart.HInv m.2.core.hart → FInv m.2.fp → Own m.2 → Settled m.2.core.hart →
      Chain (fun p q => TurnW A C s dev q.1 p.2 q.2) m r →
      (∀ p ∈ m :: r, MeantQ s dev p.2 ∧ ¬ Overlooks s.xlen p.2.core ∧ NoOdd s.xlen p.2.core) →
      (∀ p ∈ r, ∀ l ∈ p.1, l.2 = true) →
      Chain (fun p q => ∀ st₁, TurnQ A C s dev p.2 st₁ → ¬ Withdraws st₁.core.hart q.1) m r := by
    intro r
    induction r with
    | nil => intros; trivial
    | cons d r ih =>
      intro m hb hp hz hi hv ho hs ht hok hup
      obtain ⟨hm, hn, hx⟩ := hok m (by simp)
      have hw : ∀ st₁, TurnQ A C s dev m.2 st₁ → ¬ Withdraws st₁.core.hart d.1 := fun st₁ h1 =>
        rising d.1 st₁.core.hart
          (effectQ_ready hs ((meantQ_step hH hA hia hie s dev hdev m.2 hb hp.1 hz hi hv ho hm).2 st₁ h1).1 hn).2.1
          (hup d (by simp))
      obtain ⟨_, ⟨⟨hi', hb', hz'⟩, hv'⟩, ho', hs', hp'⟩ :=
        (turnW_step hH hA hia hie s dev hdev d.1 m.2 hb hp hz hi hv ho hs hm hn hx hw).2 d.2 ht.1
      exact ⟨hw, ih d hb' hp' (hz'.trans hz) hi' hv' ho' hs' ht.2 (fun e he => hok e (List.mem_cons_of_mem _ he))
        fun e he => hup e (List.mem_cons_of_mem _ he)⟩
  refine C137_program_partial hH hA hia hie s dev hdev r m ⟨⟨e, he, hh⟩, hz, hc, hf⟩ ht hok ?_
  exact key r m (by rw [hh]; exact h1) (by rw [hh]; exact h2) hz
    (by rw [hh]; exact h3) (by rw [hf]; exact finv_init hH) (built_own s hc) (by rw [hh]; exact h4) ht hok hup

end

/-! ## Examples -/

/-- A core that has just been built, with `c.fldsp f1, 8(x2)` at its entry point. -/
def newborn : FSt Sim.rv64g.xlen.bits (Option (BitVec 64)) FpState.x86 :=
  let x := oneWord 0x1000#64 0xa2#8 0x20#8 0x00#8 0x00#8
  { signs with x := { x with base := { x.base with core := { x.base.core with hart :=
    { Hart.Hart.init 64 true with pc := 0x1000#64 } } } } }

example : Built .rv64g newborn := ⟨⟨0x1000#64, by decide, rfl⟩, rfl, ⟨false, rfl⟩, rfl⟩

example : MeantQ .rv64g none newborn := by
  refine .cfp ⟨true, 8, 1#5, false, 2#5, 8⟩ ⟨.cfldsp, ?_, _, rfl, ?_⟩ ?_ ?_
  · decide +kernel
  · unfold Enc.assigns; decide +kernel
  · unfold OffF; decide +kernel
  · rintro (⟨_, h, _⟩ | ⟨_, h, _⟩ | ⟨h, _⟩)
    · cases h
    · cases h
    · revert h; decide

example : NoOdd .rv64 newborn.core := by
  refine fun i _ _ => ⟨fun h => ?_, fun h => ?_⟩
  all_goals exact absurd h (by decide +kernel)

example : ¬ Overlooks .rv64 newborn.core := by
  rintro (⟨_, _, _, h | ⟨_, _, _, h⟩⟩ | ⟨_, h, _⟩ | ⟨_, _, _, h | h⟩)
  · exact absurd (congrArg BitVec.toNat h) (by decide +kernel)
  · exact h (by decide +kernel)
  · cases h with
    | word o _ hk hl _ =>
      have : o = .sret := by revert hk; cases o <;> decide
      subst this
      obtain ⟨e, he, ha⟩ := hl
      cases he
      exact absurd ha.1 (by decide +kernel)
  · exact absurd h (by decide +kernel)
  · exact absurd h (by decide +kernel)

end Verif.Exec
