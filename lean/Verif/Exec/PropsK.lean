import Verif.Exec.FkStep
import Verif.Exec.PropsV

/-!
# C131: accesses to fflags, frm and fcsr, from the word in memory
-/

namespace Verif.Exec

open Decode Decode.Isa Core Operands Spec
open Zicsr (Insn)
open Zicsr.Spec (writes newBit)

variable {n : Nat} {ρ : Type} {H : FpState.Host}

/-- Some entry matches, and the turn with any that does is carried out and has the effect `Q`. -/
def GoesK (A : Arith H) (C : Cvt) (s : Sim) (dev : Option (Atomic.Device ρ)) (st : FSt s.xlen.bits ρ H)
    (Q : FSt s.xlen.bits ρ H → Prop) : Prop :=
  (∃ i size, Finds s (wordAt st.core) i size) ∧
  ∀ i size, Finds s (wordAt st.core) i size →
    ∃ st', turnK A C s i (wordAt st.core) size dev st = some st' ∧ Q st'

theorem turnsK_of {A : Arith H} {C : Cvt} {s : Sim} {dev : Option (Atomic.Device ρ)} {st : FSt s.xlen.bits ρ H}
    {Q : FSt s.xlen.bits ρ H → Prop} (h : GoesK A C s dev st Q) :
    (∃ st', TurnK A C s dev st st') ∧ ∀ st', TurnK A C s dev st st' → Q st' := by
  obtain ⟨⟨i, size, hf⟩, h⟩ := h
  obtain ⟨st', hs, _⟩ := h i size hf
  refine ⟨⟨st', .inl ⟨i, size, hf, hs⟩⟩, ?_⟩
  rintro st₂ (⟨j, m, hj, hs⟩ | ⟨hn, _⟩)
  · obtain ⟨st', hs', hq⟩ := h j m hj
    rw [hs] at hs'
    obtain rfl := Option.some.inj hs'
    exact hq
  · exact absurd hf (hn i size)

/-- The turn of an instruction, from what its semantic function does. -/
theorem fcsr_goes (A : Arith H) (C : Cvt) (s : Sim) (dev : Option (Atomic.Device ρ)) (st : FSt s.xlen.bits ρ H)
    (i : Insn) (r : FReg) (h : IsK s.xlen (wordAt st.core) i r) (Q : FSt s.xlen.bits ρ H → Prop)
    (hq : ∀ b₁ b₂ b₃ p, okCsr i b₁ b₂ b₃ p = true → (b₁ = true → rd (wordAt st.core) = 0#5) →
      (b₂ = true → rs1 (wordAt st.core) = 0#5) → (b₃ = true → rs1 (wordAt st.core) ≠ 0#5) →
      ∃ st₁, accessK s (wordAt st.core) p.ops r st p.sem = some st₁ ∧
        Q (closeF st₁ (st.core.hart.pc.setWidth 64) 4)) :
    GoesK A C s dev st Q := by
  obtain ⟨⟨o, hk, hl⟩, hno⟩ := h
  have hn : i = .rw → csrNo (wordAt st.core) ≠ 0xc00#12 := by
    intro _; rw [hno]; cases r <;> decide
  obtain ⟨⟨e, he, hem⟩, hall⟩ := decodesZ s o i hk _ (readLE_lt st.core.mem _ 4) hl hn
  have hlow := listed_lowZ s.xlen o i hk _ hl
  refine ⟨⟨e, 4, by unfold Finds; rw [if_pos hlow]; exact ⟨he, hem, rfl⟩⟩, fun e size hf => ?_⟩
  unfold Finds at hf
  rw [if_pos hlow] at hf
  obtain ⟨he, hem, rfl⟩ := hf
  have ht := List.all_eq_true.1 (entriesZ_ok s) e he
  unfold okEntryZ at ht
  rw [hall e he hem, hk] at ht
  simp only [Bool.and_eq_true, Bool.or_eq_true, beq_iff_eq] at ht
  obtain ⟨hfm, ht⟩ := ht
  rcases ht with ht | ht
  · exfalso
    have hc := ask_imm hem hfm ht
    have hc' : csrNo (wordAt st.core) = 0xc00#12 := hc
    rw [hno] at hc'
    cases r <;> revert hc' <;> decide
  · cases hp : csrActs s e.op with
    | none => rw [hp] at ht; cases ht
    | some p =>
      rw [hp, Option.any_some] at ht
      obtain ⟨st₁, h1, h2⟩ := hq _ _ _ p ht (ask_rd hem hfm) (ask_rs1 hem hfm) (ask_rs1n hem hfm)
      refine ⟨_, ?_, h2⟩
      obtain ⟨v, hv, hvn⟩ := src_csr (Nat.le_trans (by decide) (bits_32 s.xlen)) s (wordAt st.core) st.core p.ops _
        (okCsr_no ht)
      have ef : fcsrOf s e.op (wordAt st.core) st = some (p, r) := by
        unfold fcsrOf
        rw [hp, Option.bind_some, hv, Option.bind_some, hvn, hno, fcsrAt_number]
        rfl
      unfold turnK
      rw [ef]
      show (accessK s (wordAt st.core) p.ops r st p.sem).map _ = _
      rw [h1]
      rfl

section
variable {A : Arith H} {C : Cvt} (hH : FpState.HostOk H) (s : Sim) (dev : Option (Atomic.Device ρ))
  (st : FSt s.xlen.bits ρ H)

include hH in
theorem fcsr_step (i : Insn) (r : FReg) (h : IsK s.xlen (wordAt st.core) i r) (hb : st.core.hart.branch = false)
    (hi : Hart.HInv st.core.hart) (hv : FInv st.fp) (hw : ¬ WrongCsr i r (wordAt st.core)) :
    GoesK A C s dev st fun st' => (DoesK i r (wordAt st.core) st st' ∧
      (st.fp.valid = true → (frmOf st').toNat ≤ 4 → st'.fp.valid = true)) ∧ KeptA st st' := by
  refine fcsr_goes A C s dev st i r h _ fun b₁ b₂ b₃ p hp h1 h2 h3 => ?_
  obtain ⟨st₁, e1, e2, e3, e4, e5, e6⟩ := access_ok hH s _ i r st b₁ b₂ b₃ p hp h1 h2 h3 hb hi hv hw
  exact ⟨st₁, e1, ⟨e2, e6⟩, kept_next _ _ _ _ e3 e4, e5⟩

/-- **C131.** In every simulated core, a word that the manual gives to `csrrw`, `csrrs`, `csrrc` or one of
their immediate forms with fflags, frm or fcsr is carried out in every mode, whichever matching entry of the
decoder is used: rd gets what the register holds, extended with zeros; the flags and the rounding mode get
the bits of the operand that belong to them, or have them set or cleared, and what does not belong to the
register stays; nothing is written if rs1 (or the number in its place) is 0 in the forms that set and clear
bits; the rest of the state stays, and the program counter moves on.  The unit is on (otherwise see
`C131_off_violated`).  Left out are setting and clearing bits of fcsr (`C131_fcsr_violated`). -/
theorem C131_step_partial (hH : FpState.HostOk H) (hb : st.core.hart.branch = false)
    (hr : Hart.Spec.Reachable st.core.hart) (hv : FInv st.fp) (i : Insn) (r : FReg)
    (h : IsK s.xlen (wordAt st.core) i r) (_hon : ¬ OffF st) (hw : ¬ WrongCsr i r (wordAt st.core)) :
    (∃ st', TurnK A C s dev st st') ∧ ∀ st', TurnK A C s dev st st' → DoesK i r (wordAt st.core) st st' := by
  have := turnsK_of (fcsr_step (A := A) (C := C) hH s dev st i r h hb (Hart.hinv_reachable hr) hv hw)
  exact ⟨this.1, fun st' ht => (this.2 st' ht).1.1⟩

/-- **C131**, the dynamic rounding mode: as long as frm holds a rounding mode (0 to 4) after each such
instruction, the simulator goes on to take the dynamic mode to be valid, so that the instructions of C129 and
C130 round in it. -/
theorem C131_valid_partial (hH : FpState.HostOk H) (hb : st.core.hart.branch = false)
    (hr : Hart.Spec.Reachable st.core.hart) (hv : FInv st.fp) (i : Insn) (r : FReg)
    (h : IsK s.xlen (wordAt st.core) i r) (hw : ¬ WrongCsr i r (wordAt st.core)) (hva : st.fp.valid = true)
    (st' : FSt s.xlen.bits ρ H) (ht : TurnK A C s dev st st') (hm : (frmOf st').toNat ≤ 4) :
    st'.fp.valid = true :=
  ((turnsK_of (fcsr_step (A := A) (C := C) hH s dev st i r h hb (Hart.hinv_reachable hr) hv hw)).2 st' ht).1.2 hva hm

/-! ## What goes wrong -/

/-- **C131** fails when the unit is off: the manual asks for an illegal instruction exception, but the
registers are read and written as if it were on. -/
theorem C131_off_violated (hH : FpState.HostOk H) (hb : st.core.hart.branch = false)
    (hr : Hart.Spec.Reachable st.core.hart) (hv : FInv st.fp) (i : Insn) (r : FReg)
    (h : IsK s.xlen (wordAt st.core) i r) (_hoff : OffF st) (hw : ¬ WrongCsr i r (wordAt st.core)) :
    (∃ st', TurnK A C s dev st st') ∧ ∀ st', TurnK A C s dev st st' → DoesK i r (wordAt st.core) st st' := by
  have := turnsK_of (fcsr_step (A := A) (C := C) hH s dev st i r h hb (Hart.hinv_reachable hr) hv hw)
  exact ⟨this.1, fun st' ht => (this.2 st' ht).1.1⟩

/-- **C131** fails for setting and clearing bits of fcsr: flags raised since the register was last written are
lost.  The new flags are made of those that were last written, not of those that have accrued. -/
theorem C131_fcsr_violated (hH : FpState.HostOk H) (hb : st.core.hart.branch = false)
    (hr : Hart.Spec.Reachable st.core.hart) (i : Insn)
    (h : IsK s.xlen (wordAt st.core) i .fcsr) (hw : WrongCsr i .fcsr (wordAt st.core)) :
    (∃ st', TurnK A C s dev st st') ∧ ∀ st', TurnK A C s dev st st' → ∀ k, k < 5 →
      (flagsOf st').getLsbD k =
        newBit i (st.fp.stored.getLsbD k) ((csrOperand st.core i (wordAt st.core)).getLsbD k) := by
  have := turnsK_of (A := A) (C := C) (fcsr_goes A C s dev st i .fcsr h (fun st' => ∀ k, k < 5 →
      (flagsOf st').getLsbD k =
        newBit i (st.fp.stored.getLsbD k) ((csrOperand st.core i (wordAt st.core)).getLsbD k))
    fun b₁ b₂ b₃ p hp h1 h2 h3 => by
      obtain ⟨st₁, e1, _, e3, _⟩ := access_any s _ i .fcsr st b₁ b₂ b₃ p hp h1 h2 h3 hb (Hart.hinv_reachable hr)
      refine ⟨st₁, e1, fun k hk => ?_⟩
      rw [hw.2.1, if_pos rfl] at e3
      show ((FpState.fflagsRead st₁.fp).setWidth 5).getLsbD k = _
      obtain ⟨_, _, n1, n2⟩ := hw
      generalize csrOperand st.core i (wordAt st.core) = u at e3 ⊢
      have hl := low_bit u 5 k hk (by omega)
      cases i with
      | rw => exact absurd rfl n1
      | rwi => exact absurd rfl n2
      | rs | rsi =>
        have e : st₁.fp = FpState.fcsrWrite st.fp (st.fp.stored ||| u.setWidth 32) := e3
        rw [e, flags_reg (FpState.write_rep hH _ _)]
        show ((st.fp.stored ||| u.setWidth 32).setWidth 5).getLsbD k = _
        rw [BitVec.setWidth_or, BitVec.getLsbD_or, hl, BitVec.getLsbD_setWidth, decide_eq_true hk]
        rfl
      | rc | rci =>
        have e : st₁.fp = FpState.fcsrWrite st.fp (st.fp.stored &&& ~~~(u.setWidth 32)) := e3
        rw [e, flags_reg (FpState.write_rep hH _ _)]
        show ((st.fp.stored &&& ~~~(u.setWidth 32)).setWidth 5).getLsbD k = _
        rw [BitVec.setWidth_and, BitVec.getLsbD_and, BitVec.setWidth_not (by omega), BitVec.getLsbD_not, hl,
          BitVec.getLsbD_setWidth, decide_eq_true hk]
        rfl)
  exact this

/-- **C131** fails after a mode that is none has been in frm: writing to frm the mode that was there before
leaves the dynamic mode invalid, so that instructions that use it are passed over (C129, C130). -/
theorem C131_again_violated (hH : FpState.HostOk H) (hb : st.core.hart.branch = false)
    (hr : Hart.Spec.Reachable st.core.hart) (hva : st.fp.valid = false)
    (h : IsK s.xlen (wordAt st.core) .rw .frm ∨ IsK s.xlen (wordAt st.core) .rwi .frm) :
    ∃ i, IsK s.xlen (wordAt st.core) i .frm ∧
      ((csrOperand st.core i (wordAt st.core)).setWidth 3 = st.fp.rm.setWidth 3 → st.fp.rm.toNat ≤ 4 →
      (∃ st', TurnK A C s dev st st') ∧ ∀ st', TurnK A C s dev st st' →
        frmOf st' = st.fp.rm.setWidth 3 ∧ st'.fp.valid = false) := by
  have key : ∀ i, IsK s.xlen (wordAt st.core) i .frm → csrFunc i = .write → writes i (rs1 (wordAt st.core)) = true →
      ((csrOperand st.core i (wordAt st.core)).setWidth 3 = st.fp.rm.setWidth 3 → st.fp.rm.toNat ≤ 4 →
      (∃ st', TurnK A C s dev st st') ∧ ∀ st', TurnK A C s dev st st' →
        frmOf st' = st.fp.rm.setWidth 3 ∧ st'.fp.valid = false) := by
    intro i hi hf hwr hu hm
    refine turnsK_of (fcsr_goes A C s dev st i .frm hi
      (fun st' => frmOf st' = st.fp.rm.setWidth 3 ∧ st'.fp.valid = false) fun b₁ b₂ b₃ p hp h1 h2 h3 => ?_)
    obtain ⟨st₁, e1, _, e3, _⟩ := access_any s _ i .frm st b₁ b₂ b₃ p hp h1 h2 h3 hb (Hart.hinv_reachable hr)
    rw [hwr, if_pos rfl, hf] at e3
    have e : st₁.fp = FpState.frmWrite st.fp ((csrOperand st.core i (wordAt st.core)).setWidth 32) := e3
    refine ⟨st₁, e1, ?_, ?_⟩
    · show (FpState.frmRead st₁.fp).setWidth 3 = _
      rw [e, frm_reg (FpState.frm_write_rep hH _ _ (rep_self st.fp) _), ← hu]
      exact BitVec.setWidth_setWidth_of_le _ (by decide : 3 ≤ 32)
    · show st₁.fp.valid = false
      rw [e]
      unfold FpState.frmWrite FpState.fcsrWrite
      rw [show ∀ v : BitVec 32, ((v &&& 0xff#32) >>> 5) &&& 0b111#32 = (v.extractLsb' 5 3).setWidth 32 from
        FpState.modeOf_eq, FpState.combine_frm]
      unfold FpState.setRoundingMode
      have er : st.fp.rm = (((csrOperand st.core i (wordAt st.core)).setWidth 32).setWidth 3).setWidth 32 := by
        rw [BitVec.setWidth_setWidth_of_le _ (by omega : 3 ≤ 32), hu]
        apply BitVec.eq_of_toNat_eq
        rw [BitVec.toNat_setWidth, BitVec.toNat_setWidth]
        omega
      rw [if_neg (fun hc => hc er)]
      exact hva
  rcases h with h | h
  · exact ⟨_, h, key _ h rfl rfl⟩
  · exact ⟨_, h, key _ h rfl rfl⟩

end

/-! ## Many instructions -/

/-- The three registers are those of the floating-point unit. -/
def Own (st : FSt n ρ H) : Prop := ∀ r, st.x.csrs (fregNumber r) = .special

/-- A CSR instruction is none of the floating-point instructions. -/
theorem csr_only (s : Sim) (o : Op) (p : CAct) (h : csrActs s o = some p) :
    cvActs s o = none ∧ arActs s o = none ∧ fpActs s o = none ∧ isUnimp s o = false := by
  refine ⟨?_, ?_, ?_, not_unimp_fn s o (.inr (.inr (by rw [h]; exact Option.some_ne_none p)))⟩
  all_goals
    unfold csrActs at h
    first
      | unfold cvActs
      | unfold arActs
      | unfold fpActs
    cases hf : (s.isa.instrs.find? fun e => e.name == opName o) with
    | none => rw [hf] at h; cases h
    | some e =>
      rw [hf] at h
      have h' : csrPart s.xlen e.phases = some p := h
      rw [Option.bind_some]
      revert h'
      generalize e.phases = ps
      intro h'
      rcases ps with _ | ⟨q, _ | ⟨q', l⟩⟩
      · cases h'
      · obtain ⟨m, hm, _⟩ := Option.map_eq_some_iff.1
          (show (q.fn.bind fun c => csrFn s.xlen c.name).map _ = _ from h')
        obtain ⟨c, hcc, hm⟩ := Option.bind_eq_some_iff.1 hm
        first
          | (cases hx : byName (cvFns s.xlen) c.name with
             | none => simp [cvPart, hcc, hx]
             | some m' => have := (cvFn_other s.xlen _ _ hx).2.2.1; rw [hm] at this; cases this)
          | (cases hx : byName arFns c.name with
             | none => simp [arPart, hcc, hx]
             | some m' => have := (arFn_other s.xlen _ _ hx).2.2.1; rw [hm] at this; cases this)
          | (cases hx : byName (fpFns s.xlen) c.name with
             | none => simp [fpParts, fpOne, hcc, hx]
             | some m' => have := (fpFn_other s.xlen _ _ hx).2.2.1; rw [hm] at this; cases this)
      · cases h'

theorem number_plain (r : FReg) : fregNumber r ∉ hartNos ∧ fregNumber r ≠ 0x180#12 ∧
    (((fregNumber r) >>> 8) &&& 3#12).toNat = 0 := by
  cases r <;> decide

theorem fcsrAt_some {a : BitVec 12} {r : FReg} (h : fcsrAt a = some r) : a = fregNumber r := by
  unfold fcsrAt at h
  split at h
  · rename_i e; cases h; exact e
  · split at h
    · rename_i e; cases h; exact e
    · split at h
      · rename_i e; cases h; exact e
      · cases h

/-- An access to one of the three registers has no meaning in the smaller model. -/
theorem fcsr_other (A : Arith H) (C : Cvt) (s : Sim) (i : Inst) (w size : Nat) (dev : Option (Atomic.Device ρ))
    (st : FSt s.xlen.bits ρ H) (ho : Own st) (q : CAct × FReg) (h : fcsrOf s i.op w st = some q) :
    turnV A C s i w size dev st = none := by
  unfold fcsrOf at h
  obtain ⟨p, hp, h⟩ := Option.bind_eq_some_iff.1 h
  obtain ⟨v, hv, h⟩ := Option.bind_eq_some_iff.1 h
  obtain ⟨r, hr, _⟩ := Option.map_eq_some_iff.1 h
  have hn := fcsrAt_some hr
  obtain ⟨h1, h2, h3, h4⟩ := csr_only s i.op p hp
  obtain ⟨n1, n2, n3⟩ := number_plain r
  have hc : csrCarry s w (st.x.base.core.hart.pc.setWidth 64) st.x p = none := by
    unfold csrCarry
    rw [show srcAt s w st.x.base.core p.ops (csrSource p.sem) = some v from hv, Option.bind_some, hn]
    have e : refusedCsr st.x.base.core.hart (fregNumber r) = false := by
      unfold refusedCsr
      rw [n3, decide_eq_false (Nat.not_lt_zero _), decide_eq_false n2]
      simp
    rw [e, if_neg (by decide), found_plain _ _ n1, ho r]
    rfl
  unfold turnV
  rw [h1]
  show turnA A s i w size dev st = none
  unfold turnA
  rw [h2]
  show turnF s i w size dev st = none
  unfold turnF
  rw [h3]
  show Option.map _ (turnI s i w size dev st.x) = none
  unfold turnI
  dsimp only
  rw [h4, if_neg (by decide)]
  unfold turnZ
  rw [hp]
  show Option.map _ (csrTurn s i w size st.x) = none
  unfold csrTurn
  dsimp only
  rw [hp, Option.bind_some, hc]
  rfl

/-- A turn of the smaller model is a turn of this one. -/
theorem turnK_of (A : Arith H) (C : Cvt) (s : Sim) (i : Inst) (w size : Nat) (dev : Option (Atomic.Device ρ))
    (st st' : FSt s.xlen.bits ρ H) (ho : Own st) (h : turnV A C s i w size dev st = some st') :
    turnK A C s i w size dev st = some st' := by
  unfold turnK
  cases hq : fcsrOf s i.op w st with
  | none => exact h
  | some q => rw [fcsr_other A C s i w size dev st ho q hq] at h; cases h

/-! ## The three registers stay what they are -/

theorem takes_special {i : Insn} {u : BitVec n} {h h' : Hart.Hart n} {csrs csrs' : BitVec 12 → Slot n} {a : BitVec 12}
    (ht : Takes i u h csrs a h' csrs') (b : BitVec 12) (hb : csrs b = .special) : csrs' b = .special := by
  cases ht with
  | plain _ c c' hc hn =>
    show (if b = a then _ else _) = _
    rw [if_neg]
    · exact hb
    · rintro rfl; rw [hb] at hc; cases hc
  | _ => exact hb

theorem doesC_own {i : Insn} {w : Nat} {st st' : XSt n ρ} (h : DoesC i w st st') (b : BitVec 12)
    (hb : st.csrs b = .special) : st'.csrs b = .special := by
  obtain ⟨_, h1, h2⟩ := h
  by_cases hf : Forbidden st.base.core.hart (csrNo w)
  · rw [(h1 hf).1]; exact hb
  · obtain ⟨old, h', p, _, ht, hs, _⟩ := h2 hf
    cases hw : writes i (rs1 w)
    · rw [(hs hw).2]; exact hb
    · exact takes_special (ht hw) b hb

theorem effectI_own {s : Sim} {dev : Option (Atomic.Device ρ)} {st st' : XSt s.xlen.bits ρ}
    (h : EffectI s dev st st') (b : BitVec 12) (hb : st.csrs b = .special) : st'.csrs b = .special := by
  rcases h with (⟨h, _⟩ | ⟨i, _, h⟩) | ⟨_, h⟩ | ⟨_, h⟩ | ⟨_, h⟩
  · rw [h]; exact hb
  · exact doesC_own h b hb
  all_goals rw [h.2.2]; exact hb

theorem rest_own {st st' : FSt n ρ H} (h : Rest st st') (ho : Own st) : Own st' := by
  intro r; rw [h.2]; exact ho r

theorem doesF_own {k : FSem} {w : Nat} {st st' : FSt n ρ H} (h : DoesF k w st st') (ho : Own st) : Own st' := by
  cases k with
  | load bytes =>
    obtain ⟨a, _, h1, h2⟩ := h
    rcases Nat.lt_or_ge st.core.limit.toNat a.toNat with hl | hl
    · exact rest_own (h2 hl).2.1 ho
    · exact rest_own (h1 hl).2.1 ho
  | store bytes =>
    obtain ⟨a, _, h1, h2⟩ := h
    rcases Nat.lt_or_ge st.core.limit.toNat a.toNat with hl | hl
    · exact rest_own (h2 hl).2.1 ho
    · exact rest_own (h1 hl).2.1 ho
  | sign p o => obtain ⟨a, b, _, _, _, h⟩ := h; exact rest_own h.2.1 ho
  | minMax p m => obtain ⟨a, b, _, _, _, h⟩ := h; exact rest_own h.2.1 ho
  | cmp p o => obtain ⟨a, b, _, _, _, h⟩ := h; exact rest_own h.2.1 ho
  | classify p => obtain ⟨a, _, _, h⟩ := h; exact rest_own h.2.1 ho
  | toX p => cases p <;> exact rest_own h.2.2.1 ho
  | fromX p => exact rest_own h.2.2.1 ho

theorem doesA_own {after : Bool} {d : Way} {k : ASem} {w : Nat} {st st' : FSt n ρ H} (h : DoesA after d k w st st')
    (ho : Own st) : Own st' := by
  cases k with
  | bin p o => obtain ⟨a, b, _, _, fl, _, _, h⟩ := h; exact rest_own h.2.1 ho
  | sqrt p => obtain ⟨a, _, fl, _, _, h⟩ := h; exact rest_own h.2.1 ho
  | fma p o => obtain ⟨a, b, c, _, _, _, fl, _, _, h⟩ := h; exact rest_own h.2.1 ho

theorem doesV_own {after : Bool} {d : Way} {k : VSem} {w : Nat} {st st' : FSt n ρ H} (h : DoesV after d k w st st')
    (ho : Own st) : Own st' := by
  cases k with
  | toInt p t => obtain ⟨a, _, v, fl, _, _, _, h⟩ := h; exact rest_own h.2.1 ho
  | ofInt p t => obtain ⟨z, _, fl, _, _, h⟩ := h; exact rest_own h.2.1 ho
  | narrow => obtain ⟨a, _, fl, _, _, h⟩ := h; exact rest_own h.2.1 ho
  | widen => obtain ⟨a, _, fl, _, _, _, h⟩ := h; exact rest_own h.2.1 ho

theorem effectV_own {after : Bool} {s : Sim} {dev : Option (Atomic.Device ρ)} {st st' : FSt s.xlen.bits ρ H}
    (h : EffectV after s dev st st') (ho : Own st) : Own st' := by
  rcases h with h | ⟨k, d, _, _, h⟩
  · rcases h with h | ⟨k, d, _, _, h⟩
    · rcases h with ⟨_, _, h⟩ | ⟨k, _, h⟩
      · exact fun r => effectI_own h _ (ho r)
      · exact doesF_own h ho
    · exact doesA_own h ho
  · exact doesV_own h ho

section
variable {A : Arith H} {C : Cvt} {after : Bool} (hH : FpState.HostOk H) (hA : DirOk A) (hia : Ieee after A)
  (hie : IeeeV after C) (s : Sim) (dev : Option (Atomic.Device ρ))
  (hdev : ∀ d, dev = some d → Atomic.Spec.Contract d)

include hH hA hia hie hdev in
/-- Where the word is one of C130, each matching entry has its turn in the smaller model. -/
theorem meantV_each (st : FSt s.xlen.bits ρ H)
    (hb : st.core.hart.branch = false) (hpc : st.core.hart.pc.toNat % 2 = 0)
    (hz : st.core.regs 0#5 = 0#s.xlen.bits) (hi : Hart.HInv st.core.hart) (hv : FInv st.fp) (h : MeantV s dev st)
    (i : Inst) (size : Nat) (hf : Finds s (wordAt st.core) i size) :
    ∃ st', turnV A C s i (wordAt st.core) size dev st = some st' := by
  cases h with
  | other h =>
    obtain ⟨y, hy⟩ := meantA_each hH hA hia s dev hdev st hb hpc hz hi hv h i size hf
    exact ⟨_, turnV_of A C s i _ size dev st y hy⟩
  | cv k h hon d hm hw =>
    obtain ⟨st', ht, _⟩ := (cv_step hH hA hie s dev st k h hb hi hv d hm hw).2 i size hf
    exact ⟨st', ht⟩

include hH hA hia hie hdev in
theorem turnK_V (st : FSt s.xlen.bits ρ H)
    (hb : st.core.hart.branch = false) (hpc : st.core.hart.pc.toNat % 2 = 0)
    (hz : st.core.regs 0#5 = 0#s.xlen.bits) (hi : Hart.HInv st.core.hart) (hv : FInv st.fp) (ho : Own st)
    (h : MeantV s dev st) (st' : FSt s.xlen.bits ρ H) : TurnK A C s dev st st' ↔ TurnV A C s dev st st' := by
  constructor
  · rintro (⟨i, size, hf, ht⟩ | h')
    · obtain ⟨y, hy⟩ := meantV_each (C := C) hH hA hia hie s dev hdev st hb hpc hz hi hv h i size hf
      rw [turnK_of A C s i _ size dev st y ho hy] at ht
      exact .inl ⟨i, size, hf, by rw [hy]; exact ht⟩
    · exact .inr h'
  · rintro (⟨i, size, hf, ht⟩ | h')
    · exact .inl ⟨i, size, hf, turnK_of A C s i _ size dev st st' ho ht⟩
    · exact .inr h'

end

/-- The word at the program counter: one of C130, or an access to one of the three registers, apart from
setting and clearing bits of fcsr. -/
inductive MeantK (s : Sim) (dev : Option (Atomic.Device ρ)) (st : FSt s.xlen.bits ρ H) : Prop where
  | other (h : MeantV s dev st)
  | csr (i : Insn) (r : FReg) (h : IsK s.xlen (wordAt st.core) i r) (hon : ¬ OffF st)
      (hw : ¬ WrongCsr i r (wordAt st.core))

/-- The effect of the word. -/
def EffectK (after : Bool) (s : Sim) (dev : Option (Atomic.Device ρ)) (st st' : FSt s.xlen.bits ρ H) : Prop :=
  EffectV after s dev st st' ∨
  ∃ i r, IsK s.xlen (wordAt st.core) i r ∧ DoesK i r (wordAt st.core) st st'

theorem meantK_step {A : Arith H} {C : Cvt} {after : Bool} (hH : FpState.HostOk H) (hA : DirOk A) (hia : Ieee after A)
    (hie : IeeeV after C) (s : Sim) (dev : Option (Atomic.Device ρ))
    (hdev : ∀ d, dev = some d → Atomic.Spec.Contract d) (st : FSt s.xlen.bits ρ H)
    (hb : st.core.hart.branch = false) (hpc : st.core.hart.pc.toNat % 2 = 0)
    (hz : st.core.regs 0#5 = 0#s.xlen.bits) (hi : Hart.HInv st.core.hart) (hv : FInv st.fp) (ho : Own st)
    (h : MeantK s dev st) :
    (∃ st', TurnK A C s dev st st') ∧
      ∀ st', TurnK A C s dev st st' → EffectK after s dev st st' ∧ KeptA st st' ∧ Own st' := by
  cases h with
  | other h =>
    have key := turnK_V (C := C) hH hA hia hie s dev hdev st hb hpc hz hi hv ho h
    obtain ⟨⟨st', ht⟩, hall⟩ := meantV_step hH hA hia hie s dev hdev st hb hpc hz hi hv h
    refine ⟨⟨st', (key st').2 ht⟩, fun st' ht => ?_⟩
    have ht := (key st').1 ht
    exact ⟨.inl (hall st' ht).1, (hall st' ht).2, effectV_own (hall st' ht).1 ho⟩
  | csr i r h hon hw =>
    have := turnsK_of (fcsr_step (A := A) (C := C) hH s dev st i r h hb hi hv hw)
    exact ⟨this.1, fun st' ht => ⟨.inr ⟨i, r, h, (this.2 st' ht).1.1⟩, (this.2 st' ht).2,
      rest_own (this.2 st' ht).1.1.2.2.2.1 ho⟩⟩

/-- **C131**, for a whole run that mixes accesses to fflags, frm and fcsr with the instructions of C130: every
turn has the effect the manual describes, and the run can go on. -/
theorem C131_run_partial {A : Arith H} {C : Cvt} {after : Bool} (hH : FpState.HostOk H) (hA : DirOk A)
    (hia : Ieee after A) (hie : IeeeV after C) (s : Sim) (dev : Option (Atomic.Device ρ))
    (hdev : ∀ d, dev = some d → Atomic.Spec.Contract d) (sts : List (FSt s.xlen.bits ρ H))
    (st : FSt s.xlen.bits ρ H) (hb : st.core.hart.branch = false)
    (hz : st.core.regs 0#5 = 0#s.xlen.bits) (hr : Hart.Spec.Reachable st.core.hart) (hv : FInv st.fp) (ho : Own st)
    (ht : Chain (TurnK A C s dev) st sts)
    (hok : ∀ d ∈ st :: sts, d.core.hart.pc.toNat % 2 = 0 ∧ MeantK s dev d) :
    Chain (EffectK after s dev) st sts ∧ ∃ st', TurnK A C s dev (sts.getLastD st) st' := by
  have hi := Hart.hinv_reachable hr
  clear hr
  induction sts generalizing st with
  | nil =>
    obtain ⟨hpc, hm⟩ := hok st (by simp)
    exact ⟨trivial, (meantK_step hH hA hia hie s dev hdev st hb hpc hz hi hv ho hm).1⟩
  | cons d sts ih =>
    obtain ⟨hpc, hm⟩ := hok st (by simp)
    obtain ⟨he, ⟨⟨hi', hb', hz'⟩, hv'⟩, ho'⟩ :=
      (meantK_step hH hA hia hie s dev hdev st hb hpc hz hi hv ho hm).2 d ht.1
    have := ih d hb' (hz'.trans hz) hv' ho' ht.2 (fun e he => hok e (List.mem_cons_of_mem _ he)) hi'
    refine ⟨⟨he, this.1⟩, ?_⟩
    have e : (d :: sts).getLastD st = sts.getLastD d := by cases sts <;> rfl
    rw [e]; exact this.2

/-! ## Examples -/

/-- The registers a hart is built with are such. -/
example : ∀ r, builtCsrs 64 true (fregNumber r) = .special ∧ builtCsrs 32 false (fregNumber r) = .special := by
  intro r; cases r <;> decide +kernel

/-- `csrrwi x1, frm, 1`. -/
def setsMode : FSt Sim.rv64g.xlen.bits (Option (BitVec 64)) FpState.x86 :=
  { signs with x := oneWord 0x1000#64 0xf3#8 0xd0#8 0x20#8 0x00#8 }

example : IsK .rv64 (wordAt setsMode.core) .rwi .frm ∧ ¬ OffF setsMode ∧ FInv setsMode.fp ∧
    ¬ WrongCsr .rwi .frm (wordAt setsMode.core) ∧ setsMode.fp.valid = true := by
  refine ⟨⟨⟨.csrrwi, rfl, _, rfl, ?_⟩, ?_⟩, ?_, finv_init FpState.x86_ok, ?_, rfl⟩
  · unfold Enc.assigns; decide +kernel
  · decide +kernel
  · unfold OffF; decide +kernel
  · rintro ⟨h, _⟩; cases h

/-- `csrrsi x1, fcsr, 1` after the invalid flag has been raised: the flag is lost. -/
def setsBit : FSt Sim.rv64g.xlen.bits (Option (BitVec 64)) FpState.x86 :=
  { signs with x := oneWord 0x1000#64 0xf3#8 0xe0#8 0x30#8 0x00#8
               fp := FpState.step (FpState.init FpState.x86) (.arith none 16#5) }

example : IsK .rv64 (wordAt setsBit.core) .rsi .fcsr ∧ WrongCsr .rsi .fcsr (wordAt setsBit.core) ∧
    (flagsOf setsBit).getLsbD 4 = true ∧ setsBit.fp.stored.getLsbD 4 = false := by
  refine ⟨⟨⟨.csrrsi, rfl, _, rfl, ?_⟩, ?_⟩, ?_, ?_, ?_⟩
  · unfold Enc.assigns; decide +kernel
  · decide +kernel
  · unfold WrongCsr; decide +kernel
  · decide +kernel
  · decide +kernel

end Verif.Exec
