import Verif.Exec.CsrTables

/-!
# C125: CSR instructions, from the word in memory
-/

namespace Verif.Exec

open Decode Decode.Isa Core Operands Spec
open Zicsr (Insn)
open Zicsr.Spec (minMode readOnly writes newBit)

variable {ρ : Type}

/-! ## One turn -/

/-- Some entry matches, and the turn with any that does is carried out and has the effect `Q`. -/
def GoesZ (s : Sim) (dev : Option (Atomic.Device ρ)) (st : XSt s.xlen.bits ρ)
    (Q : XSt s.xlen.bits ρ → Prop) : Prop :=
  (∃ i size, Finds s (wordAt st.base.core) i size) ∧
  ∀ i size, Finds s (wordAt st.base.core) i size →
    ∃ st', turnZ s i (wordAt st.base.core) size dev st = some st' ∧ Q st'

theorem turnsZ_of {s : Sim} {dev : Option (Atomic.Device ρ)} {st : XSt s.xlen.bits ρ}
    {Q : XSt s.xlen.bits ρ → Prop} (h : GoesZ s dev st Q) :
    (∃ st', TurnZ s dev st st') ∧ ∀ st', TurnZ s dev st st' → Q st' := by
  obtain ⟨⟨i, size, hf⟩, h⟩ := h
  obtain ⟨st', hs, _⟩ := h i size hf
  refine ⟨⟨st', i, size, hf, hs⟩, ?_⟩
  rintro st₂ ⟨i, size, hf, hs⟩
  obtain ⟨st', hs', hq⟩ := h i size hf
  rw [hs] at hs'
  obtain rfl := Option.some.inj hs'
  exact hq

/-- What the turn does is what the function of a right description does, whatever entry is used. -/
theorem csr_goes (s : Sim) (dev : Option (Atomic.Device ρ)) (st : XSt s.xlen.bits ρ) (i : Insn)
    (h : IsC s.xlen (wordAt st.base.core) i) (hn : i = .rw → csrNo (wordAt st.base.core) ≠ 0xc00#12)
    (Q : XSt s.xlen.bits ρ → Prop)
    (hq : ∀ b₁ b₂ b₃ p, okCsr i b₁ b₂ b₃ p = true → (b₁ = true → rd (wordAt st.base.core) = 0#5) →
      (b₂ = true → rs1 (wordAt st.base.core) = 0#5) → (b₃ = true → rs1 (wordAt st.base.core) ≠ 0#5) →
      ∃ st₁, csrCarry s (wordAt st.base.core) (st.base.core.hart.pc.setWidth 64) st p = some st₁ ∧
        Q (endTurn st₁ (st.base.core.hart.pc.setWidth 64) 4)) :
    GoesZ s dev st Q := by
  obtain ⟨o, hk, hl⟩ := h
  obtain ⟨⟨e, he, hem⟩, hall⟩ := decodesZ s o i hk _ (readLE_lt st.base.core.mem _ 4) hl hn
  have hlow := listed_lowZ s.xlen o i hk _ hl
  refine ⟨⟨e, 4, by unfold Finds; rw [if_pos hlow]; exact ⟨he, hem, rfl⟩⟩, fun e size hf => ?_⟩
  unfold Finds at hf
  rw [if_pos hlow] at hf
  obtain ⟨he, hem, rfl⟩ := hf
  have ht := List.all_eq_true.1 (entriesZ_ok s) e he
  unfold okEntryZ at ht
  rw [hall e he hem, hk] at ht
  simp only [Bool.and_eq_true, Bool.or_eq_true, beq_iff_eq] at ht
  obtain ⟨hfm, ht⟩ := ht
  rcases ht with ht | ht
  · exfalso
    have hno := ask_imm hem hfm ht
    have hc : i = .rw := by
      have hu : asks e ⟨.u_imm12, .eq, .num 0xc00⟩ = true → canon e.op = .csrrw := by
        intro h
        have t := List.all_eq_true.1 (only_csrrw s) e he
        rw [h] at t
        simpa using t
      have := hu ht
      rw [hall e he hem] at this
      rw [this] at hk
      cases hk; rfl
    exact hn hc hno
  · cases hp : csrActs s e.op with
    | none => rw [hp] at ht; cases ht
    | some p =>
      rw [hp, Option.any_some] at ht
      obtain ⟨st₁, h1, h2⟩ := hq _ _ _ p ht (ask_rd hem hfm) (ask_rs1 hem hfm) (ask_rs1n hem hfm)
      refine ⟨_, ?_, h2⟩
      unfold turnZ
      rw [hp]
      show csrTurn s e _ 4 st = _
      unfold csrTurn
      dsimp only
      rw [hp, Option.bind_some, h1, Option.map_some]
      rfl

/-- Number 0xc00 is that of a read-only register of user mode. -/
theorem not_unimp {n : Nat} {c : Core n} {csrs : BitVec 12 → Slot n} {w : Nat} {i : Insn}
    (hc : ¬ Forbidden c.hart (csrNo w) → Covered c csrs i (writes i (rs1 w)) (csrOperand c i w) (csrNo w)) :
    i = .rw → csrNo w ≠ 0xc00#12 := by
  rintro rfl h0
  rw [h0] at hc
  have hf : ¬ Forbidden c.hart 0xc00#12 := by
    rintro (h | ⟨_, h, _⟩)
    · rw [show minMode 0xc00#12 = 0 by decide] at h; omega
    · revert h; decide
  have hc := hc hf
  generalize ha : (0xc00#12 : BitVec 12) = a at hc
  cases hc with
  | plain _ r hr hno hro =>
    subst ha
    have := hro (by decide)
    cases this
  | _ => revert ha; decide

theorem csr_step (s : Sim) (dev : Option (Atomic.Device ρ)) (st : XSt s.xlen.bits ρ) (i : Insn)
    (h : IsC s.xlen (wordAt st.base.core) i) (hb : st.base.core.hart.branch = false)
    (hi : Hart.HInv st.base.core.hart)
    (hc : ¬ Forbidden st.base.core.hart (csrNo (wordAt st.base.core)) →
      Covered st.base.core st.csrs i (writes i (rs1 (wordAt st.base.core)))
        (csrOperand st.base.core i (wordAt st.base.core)) (csrNo (wordAt st.base.core))) :
    GoesZ s dev st fun st' => DoesC i (wordAt st.base.core) st st' ∧ Kept st.base.core st'.base.core := by
  refine csr_goes s dev st i h (not_unimp hc) _ fun b₁ b₂ b₃ p hp h1 h2 h3 => ?_
  obtain ⟨st₁, e1, e2, e3, e4⟩ := csr_ok s _ i st b₁ b₂ b₃ p hp h1 h2 h3 hb hi hc
  exact ⟨st₁, e1, e2, kept_next _ _ _ _ e3 e4⟩

/-- **C125.** In every simulated core, a word that the manual gives to `csrrw`, `csrrs`, `csrrc` or one of
their immediate forms is carried out, whichever matching entry of the decoder is used.  If the mode does
not allow the access there is an illegal instruction exception and nothing else; otherwise rd gets what
the register holds, the register takes the value the instruction makes of it and the operand, or is not
written at all if rs1 (or the number in its place) is 0 in the two forms that set and clear bits, and the
program counter moves on.  The accesses meant are those of `Covered`.  Interrupts that become possible by
the write are taken in the next turn, not in this one. -/
theorem C125_step_partial (s : Sim) (dev : Option (Atomic.Device ρ)) (st : XSt s.xlen.bits ρ) (i : Insn)
    (h : IsC s.xlen (wordAt st.base.core) i) (hb : st.base.core.hart.branch = false)
    (hi : Hart.HInv st.base.core.hart)
    (hc : ¬ Forbidden st.base.core.hart (csrNo (wordAt st.base.core)) →
      Covered st.base.core st.csrs i (writes i (rs1 (wordAt st.base.core)))
        (csrOperand st.base.core i (wordAt st.base.core)) (csrNo (wordAt st.base.core))) :
    (∃ st', TurnZ s dev st st') ∧ ∀ st', TurnZ s dev st st' → DoesC i (wordAt st.base.core) st st' := by
  have := turnsZ_of (csr_step s dev st i h hb hi hc)
  exact ⟨this.1, fun st' ht => (this.2 st' ht).1⟩

/-- **C125** fails for registers that are not there: the manual asks for an illegal instruction exception,
the simulator passes on to the next instruction and leaves rd as it was. -/
theorem C125_missing_violated (s : Sim) (dev : Option (Atomic.Device ρ)) (st : XSt s.xlen.bits ρ) (i : Insn)
    (h : IsC s.xlen (wordAt st.base.core) i) (hn : i = .rw → csrNo (wordAt st.base.core) ≠ 0xc00#12)
    (hb : st.base.core.hart.branch = false)
    (hf : ¬ Forbidden st.base.core.hart (csrNo (wordAt st.base.core)))
    (ha : csrNo (wordAt st.base.core) ∉ hartNos) (hs : st.csrs (csrNo (wordAt st.base.core)) = .absent) :
    (∃ st', TurnZ s dev st st') ∧ ∀ st', TurnZ s dev st st' →
      Passes st.base.core st'.base.core 4 ∧ st'.csrs = st.csrs := by
  refine turnsZ_of (csr_goes s dev st i h hn _ fun b₁ b₂ b₃ p hp _ _ _ => ?_)
  obtain ⟨v, hv, hvn⟩ := src_csr (Nat.le_trans (by decide) (bits_32 s.xlen)) s _ st.base.core p.ops _ (okCsr_no hp)
  refine ⟨st, ?_, next_passes (bits_le _) st.base.core hb 4, rfl⟩
  unfold csrCarry
  rw [hv, Option.bind_some, hvn, if_neg (fun h => hf ((refused_iff _ _).1 h)), found_plain _ _ ha, hs]
  rfl

/-- **C125** fails for read-only registers: the manual asks for an illegal instruction exception, the
simulator carries out the write (of the bits in the write mask). -/
theorem C125_readonly_violated (s : Sim) (dev : Option (Atomic.Device ρ)) (st : XSt s.xlen.bits ρ) (i : Insn)
    (h : IsC s.xlen (wordAt st.base.core) i) (hn : i = .rw → csrNo (wordAt st.base.core) ≠ 0xc00#12)
    (hb : st.base.core.hart.branch = false) (hi : Hart.HInv st.base.core.hart)
    (hf : ¬ Forbidden st.base.core.hart (csrNo (wordAt st.base.core)))
    (hro : readOnly (csrNo (wordAt st.base.core)) = true)
    (r : Csr.SimpleCsr s.xlen.bits) (hs : st.csrs (csrNo (wordAt st.base.core)) = .plain r)
    (hw : writes i (rs1 (wordAt st.base.core)) = true) :
    (∃ st', TurnZ s dev st st') ∧ ∀ st', TurnZ s dev st st' →
      (∃ p, IsNext st.base.core 4 p ∧ st'.base.core.hart = { st.base.core.hart with pc := p }) ∧
      ∃ r', st'.csrs (csrNo (wordAt st.base.core)) = .plain r' ∧
        IsNewCsr i (csrOperand st.base.core i (wordAt st.base.core)) r r' := by
  have hno : csrNo (wordAt st.base.core) ∉ hartNos := by
    intro hm
    have t : hartNos.all (fun a => !readOnly a) = true := by decide
    have := List.all_eq_true.1 t _ hm
    rw [hro] at this
    cases this
  refine turnsZ_of (csr_goes s dev st i h hn _ fun b₁ b₂ b₃ p hp h1 h2 h3 => ?_)
  have hcan := plain_can s.xlen st hi i (csrOperand st.base.core i (wordAt st.base.core)) _ hno r hs
  obtain ⟨st₁, e1, e2, _⟩ := csr_can s _ i st b₁ b₂ b₃ p hp h1 h2 h3 hb hi (fun _ => hcan.1) (fun _ _ => hcan.2)
  refine ⟨st₁, e1, ?_⟩
  obtain ⟨_, _, hd⟩ := e2
  obtain ⟨old, h', q, _, ht, _, hx, hh, _⟩ := hd hf
  have ht := ht hw
  revert ht hro hs hh
  generalize csrNo (wordAt st.base.core) = a
  generalize hcs : (endTurn st₁ (st.base.core.hart.pc.setWidth 64) 4).csrs = csrs'
  intro hro hs hh ht
  cases ht with
  | plain _ c c' hc hn =>
    rw [hc] at hs
    obtain rfl := Slot.plain.inj hs
    exact ⟨⟨q, hx, hh⟩, c', if_pos rfl, hn⟩
  | _ => exact absurd hro (by decide)

/-! ## Many instructions -/

theorem described (s : Sim) (dev : Option (Atomic.Device ρ)) (b b' : Atomic.St s.xlen.bits ρ) (i : Inst)
    (w size : Nat) (h : turnX s i w size dev b = some b') : acts s i.op ≠ none ∨ sysActs s i.op ≠ none := by
  cases ha : acts s i.op with
  | some as => exact .inl (by simp)
  | none =>
    refine .inr fun hs => ?_
    unfold turnX at h
    rw [ha] at h
    change sysTurn s i _ size dev b = some b' at h
    unfold sysTurn at h
    rw [hs] at h
    cases h

/-- The other instructions in the larger state. -/
theorem other_goes (s : Sim) (dev : Option (Atomic.Device ρ)) (st : XSt s.xlen.bits ρ)
    (Q : Atomic.St s.xlen.bits ρ → Prop) (h : GoesX s dev st.base Q) :
    GoesZ s dev st fun st' => st'.csrs = st.csrs ∧ Q st'.base := by
  refine ⟨h.1, fun i size hf => ?_⟩
  obtain ⟨b, ht, hq⟩ := h.2 i size hf
  refine ⟨{ st with base := b }, ?_, rfl, hq⟩
  unfold turnZ
  rw [not_csr s i.op (described s dev _ _ _ _ _ ht)]
  show Option.map _ (turnX s i (wordAt st.base.core) size dev st.base) = _
  rw [ht, Option.map_some]

/-- The instruction the word is: one of C124, or one of these, apart from the cases left out there and
here. -/
inductive MeantZ (s : Sim) (dev : Option (Atomic.Device ρ)) (st : XSt s.xlen.bits ρ) : Prop where
  | other (h : MeantX s dev st.base)
  | csr (i : Insn) (h : IsC s.xlen (wordAt st.base.core) i)
      (hc : ¬ Forbidden st.base.core.hart (csrNo (wordAt st.base.core)) →
        Covered st.base.core st.csrs i (writes i (rs1 (wordAt st.base.core)))
          (csrOperand st.base.core i (wordAt st.base.core)) (csrNo (wordAt st.base.core)))

/-- The effect of the instruction. -/
def EffectZ (s : Sim) (dev : Option (Atomic.Device ρ)) (st st' : XSt s.xlen.bits ρ) : Prop :=
  (st'.csrs = st.csrs ∧ EffectX s dev st.base st'.base) ∨
  (∃ i, IsC s.xlen (wordAt st.base.core) i ∧ DoesC i (wordAt st.base.core) st st')

theorem goesZ_mono {s : Sim} {dev : Option (Atomic.Device ρ)} {st : XSt s.xlen.bits ρ}
    {P Q : XSt s.xlen.bits ρ → Prop} (h : GoesZ s dev st P) (hpq : ∀ st', P st' → Q st') : GoesZ s dev st Q := by
  refine ⟨h.1, fun i size hf => ?_⟩
  obtain ⟨st', ht, hp⟩ := h.2 i size hf
  exact ⟨st', ht, hpq st' hp⟩

theorem meantZ_goes (s : Sim) (dev : Option (Atomic.Device ρ))
    (hdev : ∀ d, dev = some d → Atomic.Spec.Contract d) (st : XSt s.xlen.bits ρ)
    (hb : st.base.core.hart.branch = false) (hpc : st.base.core.hart.pc.toNat % 2 = 0)
    (hz : st.base.core.regs 0#5 = 0#s.xlen.bits) (hi : Hart.HInv st.base.core.hart) (h : MeantZ s dev st) :
    GoesZ s dev st fun st' => EffectZ s dev st st' ∧ Kept st.base.core st'.base.core := by
  cases h with
  | other h =>
    exact goesZ_mono (other_goes s dev st _ (meant_goes s dev hdev st.base hb hpc hz hi h))
      fun st' ht => ⟨.inl ⟨ht.1, ht.2.1⟩, ht.2.2⟩
  | csr i h hc =>
    exact goesZ_mono (csr_step s dev st i h hb hi hc) fun st' ht => ⟨.inr ⟨i, h, ht.1⟩, ht.2⟩

theorem meantZ_step (s : Sim) (dev : Option (Atomic.Device ρ))
    (hdev : ∀ d, dev = some d → Atomic.Spec.Contract d) (st : XSt s.xlen.bits ρ)
    (hb : st.base.core.hart.branch = false) (hpc : st.base.core.hart.pc.toNat % 2 = 0)
    (hz : st.base.core.regs 0#5 = 0#s.xlen.bits) (hi : Hart.HInv st.base.core.hart) (h : MeantZ s dev st) :
    (∃ st', TurnZ s dev st st') ∧
      ∀ st', TurnZ s dev st st' → EffectZ s dev st st' ∧ Kept st.base.core st'.base.core :=
  turnsZ_of (meantZ_goes s dev hdev st hb hpc hz hi h)

/-- **C125**, for a whole run that mixes these instructions with those of C120, C121 and C124, from any hart
reached from reset and with any contents of the other registers: every turn has the effect the manual
describes, and the run can go on.  Assumed of every state on the way is that the program counter is even
and that the word is one of these instructions, apart from the cases left out. -/
theorem C125_run_partial (s : Sim) (dev : Option (Atomic.Device ρ))
    (hdev : ∀ d, dev = some d → Atomic.Spec.Contract d) (sts : List (XSt s.xlen.bits ρ))
    (st : XSt s.xlen.bits ρ) (hb : st.base.core.hart.branch = false)
    (hz : st.base.core.regs 0#5 = 0#s.xlen.bits) (hr : Hart.Spec.Reachable st.base.core.hart)
    (ht : Chain (TurnZ s dev) st sts)
    (hok : ∀ d ∈ st :: sts, d.base.core.hart.pc.toNat % 2 = 0 ∧ MeantZ s dev d) :
    Chain (EffectZ s dev) st sts ∧ ∃ st', TurnZ s dev (sts.getLastD st) st' := by
  have hi := Hart.hinv_reachable hr
  clear hr
  induction sts generalizing st with
  | nil =>
    obtain ⟨hpc, hm⟩ := hok st (by simp)
    exact ⟨trivial, (meantZ_step s dev hdev st hb hpc hz hi hm).1⟩
  | cons d sts ih =>
    obtain ⟨hpc, hm⟩ := hok st (by simp)
    obtain ⟨he, hi', hb', hz'⟩ := (meantZ_step s dev hdev st hb hpc hz hi hm).2 d ht.1
    have := ih d hb' (hz'.trans hz) ht.2 (fun e he => hok e (List.mem_cons_of_mem _ he)) hi'
    refine ⟨⟨he, this.1⟩, ?_⟩
    have e : (d :: sts).getLastD st = sts.getLastD d := by cases sts <;> rfl
    rw [e]; exact this.2

/-! ## Examples -/

/-- The turn with the first entry that matches. -/
def firstZ (s : Sim) (dev : Option (Atomic.Device ρ)) (st : XSt s.xlen.bits ρ) :
    Option (XSt s.xlen.bits ρ) :=
  if wordAt st.base.core &&& 3 = 3 then
    (s.decoder.insts.find? fun i => i.matches (wordAt st.base.core)).bind fun i =>
      turnZ s i (wordAt st.base.core) 4 dev st
  else (s.decoder16.insts.find? fun i => i.matches (wordAt st.base.core &&& 0xffff)).bind fun i =>
    turnZ s i (wordAt st.base.core) 2 dev st

/-- `csrrw x5, mscratch, x6` at 0x1000, `csrrsi x7, mstatus, 8` at 0x1004, `csrrc x8, mie, x0` at 0x1008 and
`csrrw x5, 0x7ff, x6` at 0x100c, with the registers a simulated core has. -/
def uses : XSt Sim.rv64g.xlen.bits (Option (BitVec 64)) :=
  { base :=
    { core :=
        { hart := { Hart.Hart.init 64 true with pc := 0x1000#64, mie := 0x888#64 }
          regs := fun r => if r = 6#5 then 0x1234#64 else 0#64
          mem := fun a =>
            if a = 0x1000#64 then 0xf3#8 else if a = 0x1001#64 then 0x12#8 else if a = 0x1002#64 then 0x03#8
            else if a = 0x1003#64 then 0x34#8
            else if a = 0x1004#64 then 0xf3#8 else if a = 0x1005#64 then 0x63#8 else if a = 0x1006#64 then 0x04#8
            else if a = 0x1007#64 then 0x30#8
            else if a = 0x1008#64 then 0x73#8 else if a = 0x1009#64 then 0x34#8 else if a = 0x100a#64 then 0x40#8
            else if a = 0x100b#64 then 0x30#8
            else if a = 0x100c#64 then 0xf3#8 else if a = 0x100d#64 then 0x12#8 else if a = 0x100e#64 then 0xf3#8
            else if a = 0x100f#64 then 0x7f#8 else 0#8
          limit := 0xffff#64
          hasC := true }
      resv := none }
    csrs := builtCsrs 64 false }

/-- The turns after it. -/
def uses1 := firstZ .rv64g (some Atomic.simpleDev) uses
def uses2 := uses1.bind (firstZ .rv64g (some Atomic.simpleDev))
def uses3 := uses2.bind (firstZ .rv64g (some Atomic.simpleDev))
def uses4 := uses3.bind (firstZ .rv64g (some Atomic.simpleDev))

def plainValue {n : Nat} : Slot n → Option Nat
  | .plain c => some c.value.toNat
  | _ => none

/-- The first word is `csrrw` of a register that is covered. -/
example : IsC .rv64 (wordAt uses.base.core) .rw ∧ ¬ Forbidden uses.base.core.hart (csrNo (wordAt uses.base.core)) ∧
    csrNo (wordAt uses.base.core) = 0x340#12 ∧ (plainValue (uses.csrs 0x340#12)).isSome = true ∧
    (0x340#12 : BitVec 12) ∉ hartNos ∧ readOnly 0x340#12 = false := by
  refine ⟨⟨.csrrw, rfl, _, rfl, ?_⟩, ?_, ?_, ?_, ?_, ?_⟩
  · unfold Enc.assigns; decide +kernel
  · intro h
    have := (refused_iff _ _).2 h
    revert this
    decide +kernel
  all_goals decide +kernel

/-- mscratch gets x6, then mstatus gets MIE and x7 its old value, then x8 gets mie. -/
example : uses1.bind (fun st => plainValue (st.csrs 0x340#12)) = some 0x1234 := by decide +kernel
example : uses2.map (fun st => (st.base.core.hart.mstatus.value.getLsbD 3, (st.base.core.regs 7#5).getLsbD 3,
    st.base.core.hart.pc.toNat)) = some (true, false, 0x1008) := by decide +kernel
example : uses3.map (fun st => ((st.base.core.regs 8#5).toNat, st.base.core.hart.mie.toNat)) =
    some (0x888, 0x888) := by decide +kernel
/-- A register that is not there is passed over. -/
example : uses4.map (fun st => (st.base.core.hart.pc.toNat, (st.base.core.regs 5#5).toNat)) =
    uses3.map (fun st => (0x1010, (st.base.core.regs 5#5).toNat)) := by decide +kernel

end Verif.Exec
