import Verif.Exec.PropsN

/-!
# Addresses of instructions are even
-/

namespace Verif.Exec

open Decode Decode.Isa Core Operands Spec
open XStatus.Spec (field)
open Zicsr (Insn)
open Zicsr.Spec (writes newBit)

variable {n : Nat} {ρ : Type} {H : FpState.Host}

namespace Spec

/-- The program counter and the return addresses are even. -/
def EvenPc (h : Hart.Hart n) : Prop := h.pc.toNat % 2 = 0 ∧ h.mepc.toNat % 2 = 0 ∧ h.sepc.toNat % 2 = 0

/-- The instruction `i` writes no odd number to mepc or sepc. -/
def NoOddBy (i : Insn) (c : Core n) (w : Nat) : Prop :=
  (csrNo w = 0x341#12 → ∀ v, IsNew i every (csrOperand c i w) c.hart.mepc v → v.toNat % 2 = 0) ∧
  (csrNo w = 0x141#12 → ∀ v, IsNew i every (csrOperand c i w) c.hart.sepc v → v.toNat % 2 = 0)

/-- The word at the program counter writes no odd number to mepc or sepc. -/
def NoOdd (x : Xlen) (c : Core x.bits) : Prop :=
  ∀ i, IsC x (wordAt c) i → writes i (rs1 (wordAt c)) = true → NoOddBy i c (wordAt c)

end Spec

theorem even_bit (x : BitVec n) : x.toNat % 2 = 0 ↔ x.getLsbD 0 = false := by
  rw [BitVec.getLsbD, Nat.testBit_zero, decide_eq_false_iff_not]
  omega

theorem two_dvd (hn : 0 < n) : 2 ∣ 2 ^ n := Nat.pow_dvd_pow 2 hn

theorem base_even (hn : 0 < n) (t : BitVec n) : (t &&& ~~~3).toNat % 2 = 0 := by
  rw [even_bit, BitVec.getLsbD_and, BitVec.getLsbD_not]
  have : (3 : BitVec n).getLsbD 0 = true := by
    rw [show (3 : BitVec n) = BitVec.ofNat n 3 from rfl, BitVec.getLsbD_ofNat, decide_eq_true hn]
    decide
  rw [this]
  simp

theorem entry_even (hn : 0 < n) (t : BitVec n) (k : Nat) :
    ((t &&& ~~~3) + BitVec.ofNat n (4 * k)).toNat % 2 = 0 := by
  have h := base_even hn t
  rw [BitVec.toNat_add, BitVec.toNat_ofNat, Nat.mod_mod_of_dvd _ (two_dvd hn), Nat.add_mod, h,
    Nat.mod_mod_of_dvd _ (two_dvd hn)]
  omega

theorem spec_entry_even (hn : 0 < n) (t : BitVec n) (b : Bool) (k : Nat) :
    (Hart.Spec.entry t b k).toNat % 2 = 0 := by
  unfold Hart.Spec.entry
  dsimp only
  split
  · exact entry_even hn t _
  · exact base_even hn t

theorem offset_even (hn : 0 < n) {t : BitVec n} {a : Nat} {k : Int} (h : (t.toNat : Int) = (a + k) % 2 ^ n)
    (ha : a % 2 = 0) (hk : k % 2 = 0) : t.toNat % 2 = 0 := by
  have e : (t.toNat : Int) % 2 = (a + k) % 2 := by
    rw [h, Int.emod_emod_of_dvd]
    exact ⟨2 ^ (n - 1), by rw [← Int.pow_succ']; congr 1; omega⟩
  omega

section
variable {c c' : Core n} (h2 : 2 ≤ n) (hn : n ≤ 64) (hs : EvenPc c.hart)

include h2 hn hs in
theorem trap_even {i : Bool} {t q : BitVec 64} :
    EvenPc (c.hart.trap i t q (c.hart.pc.setWidth 64)) := by
  obtain ⟨h0, h1, h3⟩ := hs
  have e : (c.hart.pc.setWidth 64).setWidth n = c.hart.pc := by
    rw [BitVec.setWidth_setWidth_of_le _ hn, BitVec.setWidth_eq]
  by_cases hd : c.hart.dest i q = Hart.M
  · obtain ⟨a, b, e'⟩ := Hart.trap_M c.hart i t q (c.hart.pc.setWidth 64) hd
    rw [e']
    refine ⟨target_even h2 _ _, ?_, h3⟩
    dsimp only
    rw [e]; exact h0
  · by_cases hd' : c.hart.dest i q = Hart.S
    · obtain ⟨a, b, e'⟩ := Hart.trap_S c.hart i t q (c.hart.pc.setWidth 64) hd'
      rw [e']
      refine ⟨target_even h2 _ _, h1, ?_⟩
      dsimp only
      rw [e]; exact h0
    · rw [trap_nowhere c.hart i t q _ (by rintro (e | e) <;> contradiction)]
      exact ⟨h0, h1, h3⟩

include h2 hn hs in
theorem raises_even {t q : BitVec 64} (h : Raises c c' t q) : EvenPc c'.hart := by
  rw [h.1]; exact trap_even h2 hn hs

include hs in
theorem goes_even {p : BitVec n} (hp : p.toNat % 2 = 0) (h : GoesTo c c' p) : EvenPc c'.hart := by
  rw [h.1]; exact ⟨hp, hs.2⟩

include h2 hs in
theorem computes_even {z : Args} {P : BitVec n → Prop} (hz : z.size % 2 = 0) (h : Computes c c' z P) :
    EvenPc c'.hart := by
  obtain ⟨_, p, _, hp, h, _⟩ := h
  exact goes_even hs (next_even h2 hp hz hs.1) h

include h2 hs in
theorem passes_even {size : Nat} (hz : size % 2 = 0) (h : Passes c c' size) : EvenPc c'.hart := by
  obtain ⟨p, hp, h, _⟩ := h
  exact goes_even hs (next_even h2 hp hz hs.1) h

end

theorem xl2 (x : Xlen) : 2 ≤ x.bits := by cases x <;> decide

theorem does_even {x : Xlen} {k : Kind} {z : Args} {c c' : Core x.bits} (hs : EvenPc c.hart)
    (hi : Is x (wordAt c) k z) (h : Does x k z c c') : EvenPc c'.hart := by
  have h2 := xl2 x
  have hn := bits_le x
  obtain ⟨hz, hj⟩ := is_even hi
  cases k with
  | rr o | ri o | sh o | md o | rrw o | riw o | shw o | mdw o => exact computes_even h2 hs hz h
  | lui | auipc => exact computes_even h2 hs hz h
  | jal =>
    obtain ⟨t, ht, h1, h3⟩ := h
    by_cases hb : Control.Spec.badTarget c.hasC t
    · exact raises_even h2 hn hs (h3 hb)
    · exact goes_even hs (offset_even (by omega) ht hs.1 (hj (.inl rfl))) (h1 hb).1
  | jalr =>
    obtain ⟨_, t, _, ht, h1, h3⟩ := h
    by_cases hb : Control.Spec.badTarget c.hasC t
    · exact raises_even h2 hn hs (h3 hb)
    · exact goes_even hs (by omega) (h1 hb).1
  | br k =>
    obtain ⟨h1, h3⟩ := h
    by_cases ht : Control.Spec.taken k (X c z.rs1) (X c z.rs2)
    · obtain ⟨t, ht, h3, h4⟩ := h3 ht
      by_cases hb : Control.Spec.badTarget c.hasC t
      · obtain ⟨_, h4⟩ := h4 hb
        exact raises_even h2 hn hs h4
      · exact goes_even hs (offset_even (by omega) ht hs.1 (hj (.inr ⟨k, rfl⟩))) (h3 hb).1
    · obtain ⟨p, hp, h1, _⟩ := h1 ht
      exact goes_even hs (next_even h2 hp hz hs.1) h1
  | ld sz sgn =>
    obtain ⟨a, _, h1, h3⟩ := h
    rcases Nat.lt_or_ge c.limit.toNat a.toNat with hl | hl
    · exact raises_even h2 hn hs (h3 hl)
    · exact computes_even h2 hs hz (h1 hl)
  | st sz =>
    obtain ⟨a, _, h1, h3⟩ := h
    rcases Nat.lt_or_ge c.limit.toNat a.toNat with hl | hl
    · exact raises_even h2 hn hs (h3 hl)
    · obtain ⟨p, m, hp, e, _⟩ := h1 hl
      rw [e]; exact ⟨next_even h2 hp hz hs.1, hs.2⟩

theorem doesB_even {x : Xlen} {k : BKind} {w : Nat} {c c' : Core x.bits} (hs : EvenPc c.hart)
    (h : DoesB x k (bargs x k w) c c') : EvenPc c'.hart := by
  have h2 := xl2 x
  cases k <;> exact computes_even h2 hs (by show 4 % 2 = 0; decide) h

theorem takes_even {i : Insn} {u : BitVec n} {h h' : Hart.Hart n} {csrs csrs' : BitVec 12 → Slot n} {a : BitVec 12}
    (hs : EvenPc h) (ht : Takes i u h csrs a h' csrs')
    (h1 : a = 0x341#12 → ∀ v, IsNew i every u h.mepc v → v.toNat % 2 = 0)
    (h2 : a = 0x141#12 → ∀ v, IsNew i every u h.sepc v → v.toNat % 2 = 0) : EvenPc h' := by
  cases ht with
  | mepc v hv => exact ⟨hs.1, h1 rfl v hv, hs.2.2⟩
  | sepc v hv => exact ⟨hs.1, hs.2.1, h2 rfl v hv⟩
  | _ => exact hs

theorem doesC_even {x : Xlen} {i : Insn} {w : Nat} {st st' : XSt x.bits ρ} (hs : EvenPc st.base.core.hart)
    (h : DoesC i w st st') (hn : writes i (rs1 w) = true → NoOddBy i st.base.core w) :
    EvenPc st'.base.core.hart := by
  have h2 := xl2 x
  obtain ⟨_, h1, h3⟩ := h
  by_cases hf : Forbidden st.base.core.hart (csrNo w)
  · exact raises_even h2 (bits_le x) hs (h1 hf).2
  · obtain ⟨old, h', p, _, ht, hk, hp, e, _⟩ := h3 hf
    rw [e]
    have hp := next_even h2 hp (by decide) hs.1
    cases hw : writes i (rs1 w)
    · rw [(hk hw).1]; exact ⟨hp, hs.2⟩
    · exact ⟨hp, (takes_even hs (ht hw) (hn hw).1 (hn hw).2).2⟩

theorem doesS_even {x : Xlen} {dev : Option (Atomic.Device ρ)} {k : SKind} {size : Nat} {st st' : Atomic.St x.bits ρ}
    (hs : EvenPc st.core.hart) (hl : Hart.Spec.legalMode st.core.hart) (hi : IsS x (wordAt st.core) k size)
    (h : DoesS dev k size (wordAt st.core) st st') : EvenPc st'.core.hart := by
  have h2 := xl2 x
  have hn := bits_le x
  have hz : size % 2 = 0 := by cases hi <;> rfl
  have rs : ∀ {t q : BitVec 64}, Raises st.core st'.core t q → EvenPc st'.core.hart := raises_even h2 hn hs
  have rm : ReturnsM st.core st'.core → EvenPc st'.core.hart := by
    rintro ⟨_, _, _, e, _⟩
    rw [e]; exact ⟨hs.2.1, hs.2⟩
  have rt : ReturnsS st.core st'.core → EvenPc st'.core.hart := by
    rintro ⟨_, _, _, e, _⟩
    rw [e]; exact ⟨hs.2.2, hs.2⟩
  cases k with
  | ecall =>
    obtain ⟨_, h1, h2, h3⟩ := h
    rcases hl with e | e | e
    · exact rs (h1 e)
    · exact rs (h2 e)
    · exact rs (h3 e)
  | ebreak => exact rs h.2
  | mret =>
    obtain ⟨_, h1, h2⟩ := h
    by_cases hm : st.core.hart.mode = M
    · exact rm (h2 hm)
    · exact rs (h1 hm)
  | sret =>
    obtain ⟨_, h1, h2⟩ := h
    rcases hl with e | e | e
    · exact rs (h1 (.inl e))
    · rcases one_or (field st.core.hart.mstatus.value .tsr) with ht | ht
      · exact rt (h2 (.inr ⟨e, ht⟩))
      · exact rs (h1 (.inr ⟨e, ht⟩))
    · exact rt (h2 (.inl e))
  | sfence =>
    obtain ⟨_, h1, h3⟩ := h
    by_cases hx : st.core.hart.mode = U ∨
        (st.core.hart.mode = S ∧ field st.core.hart.mstatus.value .tvm = 1)
    · exact rs (h1 hx)
    · exact passes_even h2 hs hz (h3 hx)
  | quiet => exact passes_even h2 hs hz h.2
  | atomic i sz =>
    obtain ⟨h1, h3, h4⟩ := h
    by_cases hd : dev = none
    · exact rs (h1 hd).2
    · by_cases hr : Refused st.core (wordAt st.core) sz.bytes
      · obtain ⟨_, _, _, h⟩ := h3 hd hr
        exact rs h
      · obtain ⟨p, _, _, hp, e, _⟩ := h4 hd hr
        rw [e]; exact ⟨next_even h2 hp hz hs.1, hs.2⟩

section
variable {x : Xlen} {st st' : FSt x.bits ρ H} (hs : EvenPc st.core.hart)

include hs in
theorem givesF_even {p : Prec} {d : BitVec 5} {P : BitVec p.fmt.bits → Prop}
    (h : GivesF p st st' d P) : EvenPc st'.core.hart := passes_even (xl2 x) hs rfl h.1

include hs in
theorem givesX_even {d : BitVec 5} {P : BitVec x.bits → Prop}
    (h : GivesX st st' d P) : EvenPc st'.core.hart := computes_even (xl2 x) hs (by show 4 % 2 = 0; decide) h.1

include hs in
theorem doesF_even {k : FSem} {w : Nat} (h : DoesF k w st st') : EvenPc st'.core.hart := by
  have h2 := xl2 x
  have hn := bits_le x
  cases k with
  | load bytes =>
    obtain ⟨a, _, h1, h3⟩ := h
    rcases Nat.lt_or_ge st.core.limit.toNat a.toNat with hl | hl
    · exact raises_even h2 hn hs (h3 hl).1
    · exact passes_even h2 hs rfl (h1 hl).1
  | store bytes =>
    obtain ⟨a, _, h1, h3⟩ := h
    rcases Nat.lt_or_ge st.core.limit.toNat a.toNat with hl | hl
    · exact raises_even h2 hn hs (h3 hl).1
    · obtain ⟨p, m, hp, e, _⟩ := (h1 hl).1
      rw [e]; exact ⟨next_even h2 hp (by decide) hs.1, hs.2⟩
  | sign p o => obtain ⟨_, _, _, _, _, h⟩ := h; exact givesF_even hs h
  | minMax p m => obtain ⟨_, _, _, _, _, h⟩ := h; exact givesF_even hs h
  | cmp p o => obtain ⟨_, _, _, _, _, h⟩ := h; exact givesX_even hs h
  | classify p => obtain ⟨_, _, _, h⟩ := h; exact givesX_even hs h
  | toX p => cases p <;> exact givesX_even hs h.2
  | fromX p => exact givesF_even hs h.2

include hs in
theorem doesA_even {after : Bool} {d : Way} {k : ASem} {w : Nat} (h : DoesA after d k w st st') :
    EvenPc st'.core.hart := by
  cases k with
  | bin p o => obtain ⟨_, _, _, _, _, _, _, h⟩ := h; exact givesF_even hs h
  | sqrt p => obtain ⟨_, _, _, _, _, h⟩ := h; exact givesF_even hs h
  | fma p o => obtain ⟨_, _, _, _, _, _, _, _, _, h⟩ := h; exact givesF_even hs h

include hs in
theorem doesV_even {after : Bool} {d : Way} {k : VSem} {w : Nat} (h : DoesV after d k w st st') :
    EvenPc st'.core.hart := by
  cases k with
  | toInt p t => obtain ⟨_, _, _, _, _, _, _, h⟩ := h; exact givesX_even hs h
  | ofInt p t => obtain ⟨_, _, _, _, _, h⟩ := h; exact givesF_even hs h
  | narrow => obtain ⟨_, _, _, _, _, h⟩ := h; exact givesF_even hs h
  | widen => obtain ⟨_, _, _, _, _, _, h⟩ := h; exact givesF_even hs h

end

theorem effectK_even {after : Bool} {s : Sim} {dev : Option (Atomic.Device ρ)} {st st' : FSt s.xlen.bits ρ H}
    (hs : EvenPc st.core.hart) (hl : Hart.Spec.legalMode st.core.hart) (h : EffectK after s dev st st')
    (hn : NoOdd s.xlen st.core) : EvenPc st'.core.hart := by
  rcases h with h | ⟨_, _, _, _, _, h⟩
  · rcases h with h | ⟨_, _, _, _, h⟩
    · rcases h with h | ⟨_, _, _, _, h⟩
      · rcases h with ⟨_, _, h⟩ | ⟨_, _, h⟩
        · rcases h with h | ⟨_, h⟩ | ⟨_, h⟩ | ⟨_, h⟩
          · rcases h with ⟨_, h⟩ | ⟨i, hi, h⟩
            · rcases h with ⟨_, h⟩ | ⟨k, size, hi, h⟩
              · rcases h with ⟨_, _, hi, h⟩ | ⟨_, _, h⟩
                · exact does_even hs hi h
                · exact doesB_even hs h
              · exact doesS_even hs hl hi h
            · exact doesC_even hs h (hn i hi)
          all_goals exact raises_even (xl2 _) (bits_le _) hs h.1
        · exact doesF_even hs h
      · exact doesA_even hs h
    · exact doesV_even hs h
  · exact givesX_even hs h

theorem between_even (hn : 0 < n) {ls : List (Line × Bool)} {c c' : Core n} (hs : EvenPc c.hart)
    (h : Between ls c c') : EvenPc c'.hart := by
  obtain ⟨m, h', _, e, h1, h2⟩ := h
  rw [e]
  cases hc : Hart.Spec.choose ({ c.hart with mip := m } : Hart.Hart n) with
  | none =>
    obtain ⟨a, q, e⟩ := h2 hc
    rw [e]; exact hs
  | some i =>
    rcases h1 i hc with ⟨_, _, _, _, e, _⟩ | ⟨_, _, _, _, e, _⟩
    · rw [e]; exact ⟨spec_entry_even hn _ _ _, hs.1, hs.2.2⟩
    · rw [e]; exact ⟨spec_entry_even hn _ _ _, hs.2.1, hs.1⟩

end Verif.Exec
