import Verif.Exec.IrStep

/-!
# What instructions do to the report of interrupts
-/

namespace Verif.Exec

open Decode Decode.Isa Core Operands Spec
open XStatus.Spec (field)
open Zicsr (Insn)
open Zicsr.Spec (writes newBit)

variable {n : Nat} {ρ : Type} {H : FpState.Host}

/-- What the simulator has found is what is to be taken, in a legal mode and with the external supervisor
line low. -/
def Ready (h : Hart.Hart n) : Prop := Hart.Spec.legalMode h ∧ h.mip.ext = false ∧ Exact h

/-- The parts that matter are kept. -/
structure KeepsI (h h' : Hart.Hart n) : Prop where
  mode : h'.mode = h.mode
  mstatus : h'.mstatus = h.mstatus
  mip : h'.mip = h.mip
  mie : h'.mie = h.mie
  mideleg : h'.mideleg = h.mideleg
  sideleg : h'.sideleg = h.sideleg
  avail : h'.avail = h.avail

theorem keeps_ready {h h' : Hart.Hart n} (hs : Settled h) (hk : KeepsI h h') : Ready h' := by
  obtain ⟨hl, he, ha, hc⟩ := hs
  obtain ⟨k1, k2, k3, k4, k5, k6, k7⟩ := hk
  have e : Hart.Spec.choose h' = Hart.Spec.choose h := by
    cases h; cases h'
    dsimp only at k1 k2 k3 k4 k5 k6 k7
    subst k1 k2 k3 k4 k5 k6
    rfl
  refine ⟨?_, k3 ▸ he, .inr ⟨k7.trans ha, e.trans hc⟩⟩
  unfold Hart.Spec.legalMode at hl ⊢
  rw [k1]; exact hl

theorem pc_ready {h : Hart.Hart n} (hs : Settled h) (p : BitVec n) : Ready { h with pc := p } :=
  keeps_ready hs ⟨rfl, rfl, rfl, rfl, rfl, rfl, rfl⟩

theorem trap_mip (h : Hart.Hart n) (i : Bool) (tval code epc : BitVec 64) : (h.trap i tval code epc).mip = h.mip := by
  by_cases hd : h.dest i code = Hart.M
  · obtain ⟨a, c, e⟩ := Hart.trap_M h i tval code epc hd
    rw [e]
  · by_cases hd' : h.dest i code = Hart.S
    · obtain ⟨a, c, e⟩ := Hart.trap_S h i tval code epc hd'
      rw [e]
    · rw [trap_nowhere h i tval code epc (by rintro (e | e) <;> contradiction)]

theorem raises_ready {c c' : Core n} {t q : BitVec 64} (hs : Settled c.hart) (h : Raises c c' t q) :
    Ready c'.hart := by
  rw [h.1]
  refine ⟨?_, ?_, ?_⟩
  · exact trap_legal c.hart hs.1 false t q _
  · show (c.hart.trap false t q _).mip.ext = false
    rw [trap_mip]; exact hs.2.1
  · exact trap_exact c.hart hs t q _

theorem goes_ready {c c' : Core n} {p : BitVec n} (hs : Settled c.hart) (h : GoesTo c c' p) : Ready c'.hart := by
  rw [h.1]; exact pc_ready hs p

theorem computes_ready {c c' : Core n} {z : Args} {P : BitVec n → Prop} (hs : Settled c.hart)
    (h : Computes c c' z P) : Ready c'.hart := by
  obtain ⟨_, _, _, _, h, _⟩ := h
  exact goes_ready hs h

theorem passes_ready {c c' : Core n} {size : Nat} (hs : Settled c.hart) (h : Passes c c' size) : Ready c'.hart := by
  obtain ⟨_, _, h, _⟩ := h
  exact goes_ready hs h

theorem does_ready {x : Xlen} {k : Kind} {z : Args} {c c' : Core x.bits} (hs : Settled c.hart)
    (h : Does x k z c c') : Ready c'.hart := by
  cases k with
  | rr o | ri o | sh o | md o | rrw o | riw o | shw o | mdw o => exact computes_ready hs h
  | lui | auipc => exact computes_ready hs h
  | jal =>
    obtain ⟨t, _, h1, h2⟩ := h
    by_cases hb : Control.Spec.badTarget c.hasC t
    · exact raises_ready hs (h2 hb)
    · exact goes_ready hs (h1 hb).1
  | jalr =>
    obtain ⟨_, t, _, _, h1, h2⟩ := h
    by_cases hb : Control.Spec.badTarget c.hasC t
    · exact raises_ready hs (h2 hb)
    · exact goes_ready hs (h1 hb).1
  | br k =>
    obtain ⟨h1, h2⟩ := h
    by_cases ht : Control.Spec.taken k (X c z.rs1) (X c z.rs2)
    · obtain ⟨t, _, h3, h4⟩ := h2 ht
      by_cases hb : Control.Spec.badTarget c.hasC t
      · obtain ⟨_, h4⟩ := h4 hb
        exact raises_ready hs h4
      · exact goes_ready hs (h3 hb).1
    · obtain ⟨_, _, h1, _⟩ := h1 ht
      exact goes_ready hs h1
  | ld sz sgn =>
    obtain ⟨a, _, h1, h2⟩ := h
    rcases Nat.lt_or_ge c.limit.toNat a.toNat with hl | hl
    · exact raises_ready hs (h2 hl)
    · exact computes_ready hs (h1 hl)
  | st sz =>
    obtain ⟨a, _, h1, h2⟩ := h
    rcases Nat.lt_or_ge c.limit.toNat a.toNat with hl | hl
    · exact raises_ready hs (h2 hl)
    · obtain ⟨p, m, _, e, _⟩ := h1 hl
      rw [e]; exact pc_ready hs p

theorem doesB_ready {x : Xlen} {k : BKind} {z : Args} {c c' : Core x.bits} (hs : Settled c.hart)
    (h : DoesB x k z c c') : Ready c'.hart := by
  cases k <;> exact computes_ready hs h

/-- With no enable bit set after a change of mstatus, nothing is to be taken. -/
theorem low_none {h : Hart.Hart n} (hs : Settled h) (m : XStatus.MStatus) (a : Bool) (q : BitVec 64)
    (h0 : m.value &&& 0xf#64 = 0#64) :
    Hart.Spec.choose ({ h with mstatus := m, avail := a, code := q } : Hart.Hart n) = none := by
  obtain ⟨hl, _, _, hc⟩ := hs
  rcases hl with hm | hm | hm
  · rw [← hc]
    unfold Hart.Spec.choose Hart.Spec.best Hart.Spec.levelOn
    dsimp only
    rw [hm]
    rfl
  · exact choose_S _ hm (low_zero _ h0 1 (by decide))
      (none_M h (.inr (.inl hm)) (by rw [hm]; decide) (best_of_choose h hc))
  · exact choose_M _ hm (low_zero _ h0 3 (by decide))

theorem looks_exact {b : Prop} {h h' : Hart.Hart n} (ha : h.avail = false) (hl : Hart.Spec.legalMode h')
    (hk : Looks b h h') (hb : ¬ b → Hart.Spec.choose h' = none) : Exact h' := by
  obtain ⟨h1, h2, h3⟩ := hk hl
  by_cases hb' : b
  · cases hc : Hart.Spec.choose h' with
    | some i => exact .inl ⟨(h1 hb' i hc).1, i, hc, (h1 hb' i hc).2⟩
    | none => exact .inr ⟨(h2 hb' hc).trans ha, hc⟩
  · exact .inr ⟨(h3 hb').trans ha, hb hb'⟩

theorem mie_none (h : Hart.Hart n) (h0 : h.mie = 0#64) : Hart.Spec.choose h = none := by
  cases hc : Hart.Spec.choose h with
  | none => rfl
  | some k =>
    have := (Hart.choose_takeable hc).1
    unfold Hart.Spec.takeable Hart.Spec.pendEn at this
    rw [h0] at this
    simp at this

theorem takes_ready {i : Insn} {u : BitVec n} {h h' : Hart.Hart n} {csrs csrs' : BitVec 12 → Slot n} {a : BitVec 12}
    (hs : Settled h) (ht : Takes i u h csrs a h' csrs') (h1 : a ≠ 0x303#12) (h2 : a ≠ 0x103#12) : Ready h' := by
  cases ht with
  | mideleg => exact absurd rfl h1
  | sideleg => exact absurd rfl h2
  | mstatus m a q _ hk =>
    exact ⟨hs.1, hs.2.1, looks_exact hs.2.2.1 hs.1 hk fun hb => low_none hs m a q (Classical.not_not.1 hb)⟩
  | sstatus m a q _ hk =>
    exact ⟨hs.1, hs.2.1, looks_exact hs.2.2.1 hs.1 hk fun hb => low_none hs m a q (Classical.not_not.1 hb)⟩
  | mip m a q hx _ _ hk =>
    exact ⟨hs.1, hx.trans hs.2.1, looks_exact hs.2.2.1 hs.1 hk fun hb =>
      choose_nothing _ (Classical.not_not.1 hb) (hx.trans hs.2.1)⟩
  | sip m a q hx _ _ hk =>
    exact ⟨hs.1, hx.trans hs.2.1, looks_exact hs.2.2.1 hs.1 hk fun hb =>
      choose_nothing _ (Classical.not_not.1 hb) (hx.trans hs.2.1)⟩
  | sie e a q _ _ hk =>
    exact ⟨hs.1, hs.2.1, looks_exact hs.2.2.1 hs.1 hk fun hb => mie_none _ (Classical.not_not.1 hb)⟩
  | mie e a q _ _ hk =>
    exact ⟨hs.1, hs.2.1, looks_exact hs.2.2.1 hs.1 hk fun hb => mie_none _ (Classical.not_not.1 hb)⟩
  | _ => exact keeps_ready hs ⟨rfl, rfl, rfl, rfl, rfl, rfl, rfl⟩

theorem ready_pc {h : Hart.Hart n} (hr : Ready h) (p : BitVec n) : Ready { h with pc := p } := hr

theorem doesC_ready {i : Insn} {w : Nat} {st st' : XSt n ρ} (hs : Settled st.base.core.hart)
    (h : DoesC i w st st')
    (hn : ¬ (writes i (rs1 w) = true ∧ (csrNo w = 0x303#12 ∨ csrNo w = 0x103#12))) :
    Ready st'.base.core.hart := by
  obtain ⟨_, h1, h2⟩ := h
  by_cases hf : Forbidden st.base.core.hart (csrNo w)
  · exact raises_ready hs (h1 hf).2
  · obtain ⟨old, h', p, _, ht, hk, _, e, _⟩ := h2 hf
    rw [e]
    cases hw : writes i (rs1 w)
    · rw [(hk hw).1]; exact pc_ready hs p
    · exact ready_pc (takes_ready hs (ht hw) (fun e => hn ⟨hw, .inl e⟩) (fun e => hn ⟨hw, .inr e⟩)) p

theorem low_bits (v : BitVec 64) (h : v &&& 0xf#64 = 0#64) :
    field v .uie = 0 ∧ field v .sie = 0 ∧ field v .mie = 0 := by
  have b := low_zero v h
  refine ⟨?_, ?_, ?_⟩
  all_goals
    apply BitVec.eq_of_getLsbD_eq
    intro i hi
    have hi : i < 1 := hi
    obtain rfl : i = 0 := by omega
    unfold field
    rw [BitVec.getLsbD_extractLsb']
  · have := b 0 (by decide)
    simpa [XStatus.Spec.pos] using this
  · have := b 1 (by decide)
    simpa [XStatus.Spec.pos] using this
  · have := b 3 (by decide)
    simpa [XStatus.Spec.pos] using this

theorem returnsM_ready {c c' : Core n} (hs : Settled c.hart) (h : ReturnsM c c')
    (h2 : field c.hart.mstatus.value .mpp ≠ 2#2) (hm : ¬ MissesM c.hart) : Ready c'.hart := by
  obtain ⟨m, a, q, e, f1, _, _, _, _, f6, hk⟩ := h
  have eh := congrArg (fun d : Core n => d.hart) e
  dsimp only at eh
  rw [eh] at hk ⊢
  have hl : field c.hart.mstatus.value .mpp = Hart.U ∨ field c.hart.mstatus.value .mpp = Hart.S ∨
      field c.hart.mstatus.value .mpp = Hart.M := by
    rcases Hart.mode_cases (field c.hart.mstatus.value .mpp) with e | e | e | e
    · exact .inl e
    · exact .inr (.inl e)
    · exact absurd e h2
    · exact .inr (.inr e)
  refine ⟨hl, hs.2.1, looks_exact hs.2.2.1 hl hk fun hb => ?_⟩
  obtain ⟨l1, l2, l3⟩ := low_bits m.value (Classical.not_not.1 hb)
  have o1 : field c.hart.mstatus.value .uie = 0 :=
    (f6 .uie (by decide) (by decide) (by decide) (by decide)).symm.trans l1
  have o2 : field c.hart.mstatus.value .sie = 0 :=
    (f6 .sie (by decide) (by decide) (by decide) (by decide)).symm.trans l2
  have o3 : field c.hart.mstatus.value .mpie = 0 := f1.symm.trans l3
  have hn : Hart.Spec.choose ({ c.hart with mode := field c.hart.mstatus.value .mpp } : Hart.Hart n) = none :=
    Classical.not_not.1 fun hx => hm ⟨o3, o2, o1, hx⟩
  rcases hl with hl | hl | hl
  · rw [← hn]
    unfold Hart.Spec.choose Hart.Spec.best Hart.Spec.levelOn
    dsimp only
    rw [hl]
    rfl
  · exact choose_S _ hl (field_bit1 _ l2)
      (none_M ({ c.hart with mode := field c.hart.mstatus.value .mpp } : Hart.Hart n) (.inr (.inl hl))
        (by dsimp only; rw [hl]; decide) (best_of_choose _ hn))
  · exact choose_M _ hl (field_bit3 _ l3)

theorem returnsS_ready {c c' : Core n} (hs : Settled c.hart) (h : ReturnsS c c')
    (hm : ¬ MissesS c.hart) : Ready c'.hart := by
  obtain ⟨m, a, q, e, f1, _, _, _, f6, hk⟩ := h
  have eh := congrArg (fun d : Core n => d.hart) e
  dsimp only at eh
  rw [eh] at hk ⊢
  have hl : (field c.hart.mstatus.value .spp).setWidth 2 = Hart.U ∨
      (field c.hart.mstatus.value .spp).setWidth 2 = Hart.S := by
    rcases one_or (field c.hart.mstatus.value .spp) with e | e
    · exact .inl (by rw [e]; rfl)
    · exact .inr (by rw [e]; rfl)
  have hl' : Hart.Spec.legalMode ({ c.hart with mode := (field c.hart.mstatus.value .spp).setWidth 2 } : Hart.Hart n) :=
    hl.elim .inl fun e => .inr (.inl e)
  refine ⟨hl', hs.2.1, looks_exact hs.2.2.1 hl' hk fun hb => ?_⟩
  obtain ⟨l1, l2, l3⟩ := low_bits m.value (Classical.not_not.1 hb)
  have o1 : field c.hart.mstatus.value .uie = 0 :=
    (f6 .uie (by decide) (by decide) (by decide) (by decide)).symm.trans l1
  have o2 : field c.hart.mstatus.value .mie = 0 :=
    (f6 .mie (by decide) (by decide) (by decide) (by decide)).symm.trans l3
  have o3 : field c.hart.mstatus.value .spie = 0 := f1.symm.trans l2
  have hn : Hart.Spec.choose
      ({ c.hart with mode := (field c.hart.mstatus.value .spp).setWidth 2 } : Hart.Hart n) = none :=
    Classical.not_not.1 fun hx => hm ⟨o3, o2, o1, hx⟩
  rcases hl with hl | hl
  · rw [← hn]
    unfold Hart.Spec.choose Hart.Spec.best Hart.Spec.levelOn
    dsimp only
    rw [hl]
    rfl
  · exact choose_S _ hl (field_bit1 _ l2)
      (none_M ({ c.hart with mode := (field c.hart.mstatus.value .spp).setWidth 2 } : Hart.Hart n) hl'
        (by dsimp only; rw [hl]; decide) (best_of_choose _ hn))

theorem doesS_ready {x : Xlen} {dev : Option (Atomic.Device ρ)} {k : SKind} {size : Nat} {st st' : Atomic.St x.bits ρ}
    (hs : Settled st.core.hart) (hi : IsS x (wordAt st.core) k size) (h : DoesS dev k size (wordAt st.core) st st')
    (hn : ¬ Overlooks x st.core) : Ready st'.core.hart := by
  cases k with
  | ecall =>
    obtain ⟨_, h1, h2, h3⟩ := h
    rcases hs.1 with e | e | e
    · exact raises_ready hs (h1 e)
    · exact raises_ready hs (h2 e)
    · exact raises_ready hs (h3 e)
  | ebreak => exact raises_ready hs h.2
  | mret =>
    obtain ⟨_, h1, h2⟩ := h
    by_cases hm : st.core.hart.mode = M
    · exact returnsM_ready hs (h2 hm) (fun e => hn (.inl ⟨size, hi, hm, .inl e⟩))
        (fun e => hn (.inl ⟨size, hi, hm, .inr e⟩))
    · exact raises_ready hs (h1 hm)
  | sret =>
    obtain ⟨_, h1, h2⟩ := h
    have hm : st.core.hart.mode ≠ M := fun e => hn (.inr (.inl ⟨size, hi, .inl e⟩))
    rcases hs.1 with e | e | e
    · exact raises_ready hs (h1 (.inl e))
    · rcases one_or (field st.core.hart.mstatus.value .tsr) with ht | ht
      · exact returnsS_ready hs (h2 (.inr ⟨e, ht⟩)) (fun e => hn (.inr (.inl ⟨size, hi, .inr e⟩)))
      · exact raises_ready hs (h1 (.inr ⟨e, ht⟩))
    · exact absurd e hm
  | sfence =>
    obtain ⟨_, h1, h2⟩ := h
    by_cases hx : st.core.hart.mode = U ∨
        (st.core.hart.mode = S ∧ field st.core.hart.mstatus.value .tvm = 1)
    · exact raises_ready hs (h1 hx)
    · exact passes_ready hs (h2 hx)
  | quiet => exact passes_ready hs h.2
  | atomic i sz =>
    obtain ⟨h1, h2, h3⟩ := h
    by_cases hd : dev = none
    · exact raises_ready hs (h1 hd).2
    · by_cases hr : Refused st.core (wordAt st.core) sz.bytes
      · obtain ⟨_, _, _, h⟩ := h2 hd hr
        exact raises_ready hs h
      · obtain ⟨p, _, _, _, e, _⟩ := h3 hd hr
        rw [e]; exact pc_ready hs p

theorem givesF_ready {p : Prec} {st st' : FSt n ρ H} {d : BitVec 5} {P : BitVec p.fmt.bits → Prop}
    (hs : Settled st.core.hart) (h : GivesF p st st' d P) : Ready st'.core.hart := passes_ready hs h.1

theorem givesX_ready {st st' : FSt n ρ H} {d : BitVec 5} {P : BitVec n → Prop}
    (hs : Settled st.core.hart) (h : GivesX st st' d P) : Ready st'.core.hart := computes_ready hs h.1

theorem doesF_ready {k : FSem} {w : Nat} {st st' : FSt n ρ H} (hs : Settled st.core.hart)
    (h : DoesF k w st st') : Ready st'.core.hart := by
  cases k with
  | load bytes =>
    obtain ⟨a, _, h1, h2⟩ := h
    rcases Nat.lt_or_ge st.core.limit.toNat a.toNat with hl | hl
    · exact raises_ready hs (h2 hl).1
    · exact passes_ready hs (h1 hl).1
  | store bytes =>
    obtain ⟨a, _, h1, h2⟩ := h
    rcases Nat.lt_or_ge st.core.limit.toNat a.toNat with hl | hl
    · exact raises_ready hs (h2 hl).1
    · obtain ⟨p, m, _, e, _⟩ := (h1 hl).1
      rw [e]; exact pc_ready hs p
  | sign p o => obtain ⟨_, _, _, _, _, h⟩ := h; exact givesF_ready hs h
  | minMax p m => obtain ⟨_, _, _, _, _, h⟩ := h; exact givesF_ready hs h
  | cmp p o => obtain ⟨_, _, _, _, _, h⟩ := h; exact givesX_ready hs h
  | classify p => obtain ⟨_, _, _, h⟩ := h; exact givesX_ready hs h
  | toX p => cases p <;> exact givesX_ready hs h.2
  | fromX p => exact givesF_ready hs h.2

theorem doesA_ready {after : Bool} {d : Way} {k : ASem} {w : Nat} {st st' : FSt n ρ H} (hs : Settled st.core.hart)
    (h : DoesA after d k w st st') : Ready st'.core.hart := by
  cases k with
  | bin p o => obtain ⟨_, _, _, _, _, _, _, h⟩ := h; exact givesF_ready hs h
  | sqrt p => obtain ⟨_, _, _, _, _, h⟩ := h; exact givesF_ready hs h
  | fma p o => obtain ⟨_, _, _, _, _, _, _, _, _, h⟩ := h; exact givesF_ready hs h

theorem doesV_ready {after : Bool} {d : Way} {k : VSem} {w : Nat} {st st' : FSt n ρ H} (hs : Settled st.core.hart)
    (h : DoesV after d k w st st') : Ready st'.core.hart := by
  cases k with
  | toInt p t => obtain ⟨_, _, _, _, _, _, _, h⟩ := h; exact givesX_ready hs h
  | ofInt p t => obtain ⟨_, _, _, _, _, h⟩ := h; exact givesF_ready hs h
  | narrow => obtain ⟨_, _, _, _, _, h⟩ := h; exact givesF_ready hs h
  | widen => obtain ⟨_, _, _, _, _, _, h⟩ := h; exact givesF_ready hs h

/-- After an instruction, what the simulator has found is what is to be taken. -/
theorem effectK_ready {after : Bool} {s : Sim} {dev : Option (Atomic.Device ρ)} {st st' : FSt s.xlen.bits ρ H}
    (hs : Settled st.core.hart) (h : EffectK after s dev st st') (hn : ¬ Overlooks s.xlen st.core) :
    Ready st'.core.hart := by
  rcases h with h | ⟨_, _, _, _, _, h⟩
  · rcases h with h | ⟨_, _, _, _, h⟩
    · rcases h with h | ⟨_, _, _, _, h⟩
      · rcases h with ⟨_, _, h⟩ | ⟨_, _, h⟩
        · rcases h with h | ⟨_, h⟩ | ⟨_, h⟩ | ⟨_, h⟩
          · rcases h with ⟨_, h⟩ | ⟨i, hi, h⟩
            · rcases h with ⟨_, h⟩ | ⟨k, size, hi, h⟩
              · rcases h with ⟨_, _, _, h⟩ | ⟨_, _, h⟩
                · exact does_ready hs h
                · exact doesB_ready hs h
              · exact doesS_ready hs hi h hn
            · exact doesC_ready hs h fun ⟨hw, ha⟩ => hn (.inr (.inr ⟨i, hi, hw, ha⟩))
          all_goals exact raises_ready hs h.1
        · exact doesF_ready hs h
      · exact doesA_ready hs h
    · exact doesV_ready hs h
  · exact givesX_ready hs h

end Verif.Exec
