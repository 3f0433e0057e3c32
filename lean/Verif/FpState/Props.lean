import Verif.FpState.Spec
import Verif.FpHost.Props
/-
C34: fcsr/fflags/frm. C35: validity of the dynamic rounding mode. C65: reserved rounding modes.
-/
namespace Verif.FpState
open Spec (Reg)

/-- What is used of the host interface; both implementations meet it. -/
structure HostOk (H : Host) : Prop where
  init : (H.get H.init).setWidth 5 = 0#5
  set : ∀ v, (H.get (H.set v)).setWidth 5 = v.setWidth 5
  run : ∀ s rm f, (H.get (H.runIn s rm f)).setWidth 5 = (H.get s).setWidth 5 ||| f

theorem flags5_ext (a b : BitVec 5)
    (h : ∀ e, a.getLsbD (FpHost.Spec.rvBit e) = b.getLsbD (FpHost.Spec.rvBit e)) : a = b := by
  apply BitVec.eq_of_getLsbD_eq
  intro i hi
  rcases (by omega : i = 0 ∨ i = 1 ∨ i = 2 ∨ i = 3 ∨ i = 4) with h' | h' | h' | h' | h' <;> subst h'
  · exact h .inexact
  · exact h .underflow
  · exact h .overflow
  · exact h .divByZero
  · exact h .invalid

theorem x86_ok : HostOk x86 where
  init := by decide
  set v := flags5_ext _ _ fun e => by
    have := FpHost.C36_x86_set v e
    simp only [BitVec.getLsbD_setWidth, x86, FpHost.C36_x86_get, this]
  run s rm f := flags5_ext _ _ fun e => by
    have h1 := FpHost.C36_x86_accrue s rm ((FpHost.X86.fromRiscV[f.toNat]?.getD 0#8).setWidth 6) e
    have h2 := FpHost.X86.tblFrom_ok f e (FpHost.X86.mem_all e)
    unfold FpHost.X86.tblFrom at h2
    have h6 : FpHost.Spec.x86Bit e < 6 := by cases e <;> decide
    have h5 := FpHost.rvBit_lt e
    simp only [BitVec.getLsbD_setWidth, x86, h1, h2, BitVec.getLsbD_or, h6, h5, decide_true, Bool.true_and]

theorem arm_ok : HostOk arm where
  init := by decide
  set v := flags5_ext _ _ fun e => by
    have := FpHost.C36_arm_set v e
    simp only [BitVec.getLsbD_setWidth, arm, FpHost.C36_arm_get, this]
  run s rm f := flags5_ext _ _ fun e => by
    have h1 := FpHost.C36_arm_accrue s rm ((FpHost.Arm.fromRiscV[f.toNat]?.getD 0#8).setWidth 5) e
    have h2 := FpHost.Arm.tblFrom_ok f e (FpHost.X86.mem_all e)
    unfold FpHost.Arm.tblFrom at h2
    have h6 : FpHost.Spec.armBit e < 5 := by cases e <;> decide
    have h5 := FpHost.rvBit_lt e
    simp only [BitVec.getLsbD_setWidth, arm, h1, h2, BitVec.getLsbD_or, h6, h5, decide_true, Bool.true_and]

variable {H : Host}

/-- The state represents a register. -/
def Rep (s : Fp H) (r : Reg) : Prop :=
  s.stored.extractLsb' 5 3 = r.frm ∧ (H.get s.host).setWidth 5 = r.flags

theorem fin32 {P : Nat → Prop} (h : ∀ i : Fin 32, P i) : ∀ i, i < 32 → P i := allLt h

theorem read_eq (s : Fp H) (r : Reg) (h : Rep s r) : fcsrRead s = r.fcsr := by
  obtain ⟨h1, h2⟩ := h
  subst_vars
  unfold fcsrRead Reg.fcsr
  rw [← h1, ← h2]
  apply BitVec.eq_of_getLsbD_eq
  simp only [BitVec.getLsbD_setWidth, BitVec.getLsbD_or, BitVec.getLsbD_and, BitVec.getLsbD_not,
    BitVec.getLsbD_append, BitVec.getLsbD_extractLsb']
  refine fin32 ?_
  have : ∀ i : Fin 32, (i < 5 ∨ (5 ≤ i ∧ i < 8) ∨ 8 ≤ i) := by decide
  intro i
  have hm : (0x1f#32).getLsbD i = decide (i.val < 5) := by revert i; decide
  have hm2 : (0xff#32).getLsbD i = decide (i.val < 8) := by revert i; decide
  rw [hm, hm2]
  by_cases a : i.val < 5
  · have : i.val < 8 := by omega
    simp [a, this]
  · by_cases b : i.val < 8
    · have : i.val - 5 < 3 := by omega
      have e : 5 + (i.val - 5) = i.val := by omega
      simp [a, b, this, e]
    · have : ¬ i.val - 5 < 3 := by omega
      simp [a, b, this]

theorem fcsr_frm (r : Reg) : r.fcsr.extractLsb' 5 3 = r.frm := by
  unfold Reg.fcsr
  apply BitVec.eq_of_getLsbD_eq
  intro i hi
  have a : 5 + i < 32 := by omega
  have b : ¬ 5 + i < 5 := by omega
  rw [BitVec.getLsbD_extractLsb', BitVec.getLsbD_setWidth, BitVec.getLsbD_append, if_neg b,
    show 5 + i - 5 = i by omega]
  simp [hi, a]

theorem fcsr_flags (r : Reg) : r.fcsr.setWidth 5 = r.flags := by
  unfold Reg.fcsr
  apply BitVec.eq_of_getLsbD_eq
  intro i hi
  have a : i < 32 := by omega
  rw [BitVec.getLsbD_setWidth, BitVec.getLsbD_setWidth, BitVec.getLsbD_append, if_pos hi]
  simp [hi, a]

theorem ext_and_ff (v : BitVec 32) : (v &&& 0xff#32).extractLsb' 5 3 = v.extractLsb' 5 3 := by
  apply BitVec.eq_of_getLsbD_eq
  refine allLt ?_
  intro i
  have : (0xff#32).getLsbD (5 + i.val) = true := by revert i; decide
  simp [this]

theorem low_and_ff (v : BitVec 32) : (v &&& 0xff#32).setWidth 5 = v.setWidth 5 := by
  apply BitVec.eq_of_getLsbD_eq
  refine allLt ?_
  intro i
  have : (0xff#32).getLsbD i.val = true := by revert i; decide
  simp only [BitVec.getLsbD_setWidth, BitVec.getLsbD_and, this, Bool.and_true]

/-- fcsr written with separate fields. -/
theorem combine_frm (a v : BitVec 32) :
    ((a &&& 0b11111#32) ||| ((v &&& 0b111#32) <<< 5)).extractLsb' 5 3 = v.setWidth 3 := by
  apply BitVec.eq_of_getLsbD_eq
  refine allLt ?_
  intro i
  have h1 : (0b11111#32).getLsbD (5 + i.val) = false := by revert i; decide
  have h2 : (0b111#32).getLsbD i.val = true := by revert i; decide
  have h3 : 5 + i.val < 32 := by omega
  simp only [BitVec.getLsbD_extractLsb', BitVec.getLsbD_or, BitVec.getLsbD_and, h1,
    BitVec.getLsbD_shiftLeft, BitVec.getLsbD_setWidth, show 5 + i.val - 5 = i.val by omega, h2]
  simp [h3]

theorem combine_flags (a v : BitVec 32) :
    ((a &&& 0b11111#32) ||| ((v &&& 0b111#32) <<< 5)).setWidth 5 = a.setWidth 5 := by
  apply BitVec.eq_of_getLsbD_eq
  refine allLt ?_
  intro i
  have h1 : (0b11111#32).getLsbD i.val = true := by revert i; decide
  have h3 : i.val < 5 := i.isLt
  simp only [BitVec.getLsbD_or, BitVec.getLsbD_and, h1,
    BitVec.getLsbD_shiftLeft, BitVec.getLsbD_setWidth]
  simp [h3]

theorem combine2_frm (a v : BitVec 32) :
    ((a &&& ~~~0b11111#32) ||| (v &&& 0b11111#32)).extractLsb' 5 3 = a.extractLsb' 5 3 := by
  apply BitVec.eq_of_getLsbD_eq
  refine allLt ?_
  intro i
  have h1 : (0b11111#32).getLsbD (5 + i.val) = false := by revert i; decide
  have h3 : 5 + i.val < 32 := by omega
  simp only [BitVec.getLsbD_extractLsb', BitVec.getLsbD_or, BitVec.getLsbD_and, h1, BitVec.getLsbD_not]
  simp [h3]

theorem combine2_flags (a v : BitVec 32) :
    ((a &&& ~~~0b11111#32) ||| (v &&& 0b11111#32)).setWidth 5 = v.setWidth 5 := by
  apply BitVec.eq_of_getLsbD_eq
  refine allLt ?_
  intro i
  have h1 : (0b11111#32).getLsbD i.val = true := by revert i; decide
  have h3 : i.val < 5 := i.isLt
  simp only [BitVec.getLsbD_or, BitVec.getLsbD_and, h1, BitVec.getLsbD_not, BitVec.getLsbD_setWidth]
  simp [h3]

theorem raw_rep (hH : HostOk H) (s : Fp H) (v : BitVec 32) : Rep (rawWrite s v) (Spec.ofFcsr v) :=
  ⟨ext_and_ff v, by
    show (H.get (H.set (v &&& 0xff#32))).setWidth 5 = _
    rw [hH.set, low_and_ff]; rfl⟩

/-- The rounding-mode field of a written value. -/
def modeOf (v : BitVec 32) : BitVec 32 := ((v &&& 0xff#32) >>> 5) &&& 0b111#32

theorem modeOf_eq (v : BitVec 32) : modeOf v = (v.extractLsb' 5 3).setWidth 32 := by
  unfold modeOf
  apply BitVec.eq_of_getLsbD_eq
  refine fin32 ?_
  intro i
  have hm : (0b111#32).getLsbD i = decide (i.val < 3) := by revert i; decide
  simp only [BitVec.getLsbD_and, hm, BitVec.getLsbD_ushiftRight, BitVec.getLsbD_setWidth,
    BitVec.getLsbD_extractLsb']
  by_cases a : i.val < 3
  · have h2 : (0xff#32).getLsbD (5 + i.val) = true :=
      allLt (n := 3) (P := fun i => (0xff#32).getLsbD (5 + i) = true) (by decide) _ a
    simp [a, h2]
  · simp [a]

theorem modeOf_low (v : BitVec 32) : (modeOf v).setWidth 3 = v.extractLsb' 5 3 := by
  rw [modeOf_eq]
  apply BitVec.eq_of_getLsbD_eq
  intro i hi
  simp [hi]

theorem setrm_rep (hH : HostOk H) (s : Fp H) (r : Reg) (h : Rep s r) (m : BitVec 32)
    (hm : m.setWidth 3 = r.frm) : Rep (setRoundingMode s m) r := by
  simp only [setRoundingMode]
  split
  · split
    · have hr := raw_rep hH ({ s with rm := m } : Fp H)
        ((fcsrRead ({ s with rm := m } : Fp H) &&& 0b11111#32) ||| ((m &&& 0b111#32) <<< 5))
      have e : Spec.ofFcsr ((fcsrRead ({ s with rm := m } : Fp H) &&& 0b11111#32)
          ||| ((m &&& 0b111#32) <<< 5)) = r := by
        unfold Spec.ofFcsr
        rw [combine_frm, combine_flags, hm, read_eq (s := { s with rm := m }) (r := r) h, fcsr_flags]
      rw [e] at hr
      exact hr
    · exact h
  · exact h

theorem write_rep (hH : HostOk H) (s : Fp H) (v : BitVec 32) : Rep (fcsrWrite s v) (Spec.ofFcsr v) :=
  setrm_rep hH _ _ (raw_rep hH s v) (modeOf v) (modeOf_low v)

theorem frm_read (s : Fp H) (r : Reg) (h : Rep s r) : frmRead s = r.frm.setWidth 32 := by
  have : frmRead s = modeOf (fcsrRead s) := by
    unfold frmRead modeOf
    congr 2
    unfold fcsrRead
    rw [BitVec.and_assoc, BitVec.and_self]
  rw [this, modeOf_eq, read_eq s r h, fcsr_frm]

theorem fflags_read (s : Fp H) (r : Reg) (h : Rep s r) : fflagsRead s = r.flags.setWidth 32 := by
  unfold fflagsRead
  rw [read_eq s r h]
  have := fcsr_flags r
  apply BitVec.eq_of_getLsbD_eq
  refine fin32 ?_
  intro i
  have hm : (0b11111#32).getLsbD i = decide (i.val < 5) := by revert i; decide
  have h2 := congrArg (fun x => x.getLsbD i.val) this
  simp only [BitVec.getLsbD_setWidth] at h2
  simp only [BitVec.getLsbD_and, hm, BitVec.getLsbD_setWidth, ← h2]
  simp [Bool.and_comm]

theorem fflags_or (s : Fp H) (r : Reg) (h : Rep s r) (v : BitVec 32) :
    (fflagsRead s ||| v).setWidth 5 = r.flags ||| v.setWidth 5 := by
  rw [BitVec.setWidth_or, fflags_read s r h, BitVec.setWidth_setWidth_of_le _ (by omega), BitVec.setWidth_eq]

theorem fflags_andnot (s : Fp H) (r : Reg) (h : Rep s r) (v : BitVec 32) :
    (fflagsRead s &&& ~~~v).setWidth 5 = r.flags &&& ~~~v.setWidth 5 := by
  rw [BitVec.setWidth_and, fflags_read s r h, BitVec.setWidth_setWidth_of_le _ (by omega), BitVec.setWidth_eq,
    BitVec.setWidth_not (by omega)]

theorem frm_or (s : Fp H) (r : Reg) (h : Rep s r) (v : BitVec 32) :
    (frmRead s ||| v).setWidth 3 = r.frm ||| v.setWidth 3 := by
  rw [BitVec.setWidth_or, frm_read s r h, BitVec.setWidth_setWidth_of_le _ (by omega), BitVec.setWidth_eq]

theorem frm_andnot (s : Fp H) (r : Reg) (h : Rep s r) (v : BitVec 32) :
    (frmRead s &&& ~~~v).setWidth 3 = r.frm &&& ~~~v.setWidth 3 := by
  rw [BitVec.setWidth_and, frm_read s r h, BitVec.setWidth_setWidth_of_le _ (by omega), BitVec.setWidth_eq,
    BitVec.setWidth_not (by omega)]

theorem fflags_write_rep (hH : HostOk H) (s : Fp H) (r : Reg) (h : Rep s r) (v : BitVec 32) :
    Rep (fflagsWrite s v) { r with flags := v.setWidth 5 } := by
  have e : Spec.ofFcsr ((fcsrRead s &&& ~~~0b11111#32) ||| (v &&& 0b11111#32))
      = { r with flags := v.setWidth 5 } := by
    unfold Spec.ofFcsr
    rw [combine2_frm, combine2_flags, read_eq s r h, fcsr_frm]
  simp only [fflagsWrite]
  split
  · rename_i hc
    rw [hc] at e
    rw [← e]
    unfold Spec.ofFcsr
    rw [read_eq s r h, fcsr_frm, fcsr_flags]
    exact h
  · rw [← e]; exact write_rep hH _ _

theorem frm_write_rep (hH : HostOk H) (s : Fp H) (r : Reg) (h : Rep s r) (v : BitVec 32) :
    Rep (frmWrite s v) { r with frm := v.setWidth 3 } := by
  have e : Spec.ofFcsr ((fcsrRead s &&& 0b11111#32) ||| ((v &&& 0b111#32) <<< 5))
      = { r with frm := v.setWidth 3 } := by
    unfold Spec.ofFcsr
    rw [combine_frm, combine_flags, read_eq s r h, fcsr_flags]
  rw [← e]; exact write_rep hH _ _

/-- The operations with a fault are the bit-set and bit-clear forms on fcsr itself. -/
def Plain : Op → Prop
  | .fcsrSet _ => False
  | .fcsrClear _ => False
  | _ => True

theorem step_rep (hH : HostOk H) (s : Fp H) (r : Reg) (h : Rep s r) (o : Op) (ho : Plain o) :
    Rep (step s o) (Spec.step r o) := by
  cases o with
  | fcsrWrite v => exact write_rep hH s v
  | fcsrSet v => exact ho.elim
  | fcsrClear v => exact ho.elim
  | fflagsWrite v => exact fflags_write_rep hH s r h v
  | fflagsSet v =>
    have := fflags_write_rep hH s r h (fflagsRead s ||| v)
    rw [fflags_or s r h] at this
    exact this
  | fflagsClear v =>
    have := fflags_write_rep hH s r h (fflagsRead s &&& ~~~v)
    rw [fflags_andnot s r h] at this
    exact this
  | frmWrite v => exact frm_write_rep hH s r h v
  | frmSet v =>
    have := frm_write_rep hH s r h (frmRead s ||| v)
    rw [frm_or s r h] at this
    exact this
  | frmClear v =>
    have := frm_write_rep hH s r h (frmRead s &&& ~~~v)
    rw [frm_andnot s r h] at this
    exact this
  | arith rm f =>
    refine ⟨h.1, ?_⟩
    show (H.get (H.runIn s.host rm f)).setWidth 5 = r.flags ||| f
    rw [hH.run, h.2]

theorem init_rep (hH : HostOk H) : Rep (init H) ⟨0#3, 0#5⟩ := ⟨by simp [init], hH.init⟩

/-- **C34 (partial).** After any history of writes, bit-sets and bit-clears of fflags and frm, writes
of fcsr, and arithmetic, the three CSRs read as the fields of one register on which each operation
has its ISA-defined effect. Missing: csrrs/csrrc on fcsr itself (see `C34_fcsr_set_violated`). -/
theorem C34_views_partial (hH : HostOk H) (ops : List Op) (hp : ∀ o ∈ ops, Plain o) :
    fcsrRead (run (init H) ops) = (Spec.run ops).fcsr
      ∧ fflagsRead (run (init H) ops) = (Spec.run ops).flags.setWidth 32
      ∧ frmRead (run (init H) ops) = (Spec.run ops).frm.setWidth 32 := by
  have key : ∀ (ops : List Op) (s : Fp H) (r : Reg), (∀ o ∈ ops, Plain o) → Rep s r →
      Rep (run s ops) (ops.foldl Spec.step r) := by
    intro ops
    induction ops with
    | nil => intro s r _ h; exact h
    | cons o os ih =>
      intro s r hp h
      exact ih _ _ (fun o' h' => hp o' (List.mem_cons_of_mem _ h'))
        (step_rep hH s r h o (hp o List.mem_cons_self))
  have h := key ops (init H) _ hp (init_rep hH)
  exact ⟨read_eq _ _ h, fflags_read _ _ h, frm_read _ _ h⟩

/-- The hypothesis on the host is met by both hosts. -/
theorem C34_hosts : HostOk x86 ∧ HostOk arm := ⟨x86_ok, arm_ok⟩

/-- Consequences of the specification: flags are sticky under arithmetic, the two fields are
independent, and the views agree. -/
theorem C34_spec_sanity (r : Reg) (v : BitVec 32) (rm : Option (BitVec 3)) (f : BitVec 5) :
    (Spec.step r (.fflagsWrite v)).frm = r.frm ∧ (Spec.step r (.frmWrite v)).flags = r.flags
      ∧ (Spec.step r (.arith rm f)).flags &&& r.flags = r.flags
      ∧ r.fcsr = (r.frm.setWidth 32 <<< 5) ||| r.flags.setWidth 32 := by
  refine ⟨rfl, rfl, ?_, ?_⟩
  · show (r.flags ||| f) &&& r.flags = r.flags
    apply BitVec.eq_of_getLsbD_eq; intro i hi
    simp only [BitVec.getLsbD_and, BitVec.getLsbD_or]
    cases r.flags.getLsbD i <;> simp
  · apply BitVec.eq_of_getLsbD_eq; intro i hi
    simp only [Reg.fcsr, BitVec.getLsbD_setWidth, BitVec.getLsbD_append, BitVec.getLsbD_or,
      BitVec.getLsbD_shiftLeft, hi, decide_true, Bool.true_and]
    by_cases a : i < 5
    · simp [a]
    · have : i - 5 < 32 := by omega
      simp [a, this, BitVec.getLsbD_of_ge r.flags i (by omega)]

/-- **C34 violated.** csrrs on fcsr drops flags accrued by arithmetic: the stored word is used, in
which they are not recorded. -/
theorem C34_fcsr_set_violated :
    fcsrRead (run (init x86) [.arith none 1#5]) = 1#32
      ∧ fcsrRead (run (init x86) [.arith none 1#5, .fcsrSet 16#32]) = 16#32
      ∧ (Spec.run [.arith none 1#5, .fcsrSet 16#32]).fcsr = 17#32 := by decide

theorem stored_fcsr (s : Fp H) (r : Reg) (h : Rep s r) (v : BitVec 32) :
    Spec.ofFcsr (s.stored ||| v) = ⟨r.frm ||| v.extractLsb' 5 3, s.stored.setWidth 5 ||| v.setWidth 5⟩ := by
  unfold Spec.ofFcsr
  rw [BitVec.setWidth_or]
  congr 1
  rw [← h.1]
  apply BitVec.eq_of_getLsbD_eq; intro i hi; simp [hi]

/-- **C34 (csrrs on fcsr, exact, partial).** It is right exactly when every accrued flag is either
recorded in the stored word or being set anyway. -/
theorem C34_fcsr_set_partial (hH : HostOk H) (s : Fp H) (r : Reg) (h : Rep s r) (v : BitVec 32) :
    Rep (step s (.fcsrSet v)) (Spec.step r (.fcsrSet v))
      ↔ s.stored.setWidth 5 ||| v.setWidth 5 = r.flags ||| v.setWidth 5 := by
  have hw := write_rep hH s (s.stored ||| v)
  rw [stored_fcsr s r h] at hw
  have hs : Spec.step r (.fcsrSet v) = ⟨r.frm ||| v.extractLsb' 5 3, r.flags ||| v.setWidth 5⟩ := by
    show Spec.ofFcsr (r.fcsr ||| v) = _
    unfold Spec.ofFcsr
    rw [BitVec.setWidth_or, fcsr_flags]
    congr 1
    conv => rhs; rw [← fcsr_frm r]
    apply BitVec.eq_of_getLsbD_eq; intro i hi; simp [hi]
  rw [hs]
  constructor
  · intro h'
    have := hw.2.symm.trans h'.2
    exact this
  · intro h'
    rw [h'] at hw
    exact hw

/-! ### C35 -/

/-- Validity bookkeeping. -/
def VInv (s : Fp H) (r : Reg) : Prop :=
  s.rm.toNat ≤ 4 ∧ (s.valid = true → s.rm = r.frm.setWidth 32)
    ∧ (s.valid = false → Spec.Valid r.frm → s.rm = r.frm.setWidth 32)

theorem mode_cases (m : BitVec 32) :
    (m = 4#32 ∨ m = 0#32 ∨ m = 1#32 ∨ m = 2#32 ∨ m = 3#32) ↔ m.toNat ≤ 4 := by
  constructor
  · rintro (h | h | h | h | h) <;> subst h <;> decide
  · intro h
    rcases (by omega : m.toNat = 4 ∨ m.toNat = 0 ∨ m.toNat = 1 ∨ m.toNat = 2 ∨ m.toNat = 3) with
      h' | h' | h' | h' | h'
    · exact Or.inl (BitVec.eq_of_toNat_eq h')
    · exact Or.inr (Or.inl (BitVec.eq_of_toNat_eq h'))
    · exact Or.inr (Or.inr (Or.inl (BitVec.eq_of_toNat_eq h')))
    · exact Or.inr (Or.inr (Or.inr (Or.inl (BitVec.eq_of_toNat_eq h'))))
    · exact Or.inr (Or.inr (Or.inr (Or.inr (BitVec.eq_of_toNat_eq h'))))

theorem setWidth32_toNat (f : BitVec 3) : (f.setWidth 32).toNat = f.toNat := by
  rw [BitVec.toNat_setWidth]; have := f.isLt; omega

theorem fcsrWrite_vinv (s : Fp H) (r : Reg) (h : s.rm.toNat ≤ 4) (v : BitVec 32)
    (hr : r.frm = v.extractLsb' 5 3) : VInv (fcsrWrite s v) r := by
  unfold fcsrWrite
  rw [show ((v &&& 0xff#32) >>> 5) &&& 0b111#32 = r.frm.setWidth 32 by rw [hr]; exact modeOf_eq v]
  simp only [setRoundingMode]
  split
  · split
    · rename_i hm
      exact ⟨(mode_cases _).1 hm, fun _ => rfl, fun _ _ => rfl⟩
    · rename_i hm
      refine ⟨h, (fun hc => Bool.noConfusion hc), fun _ hv => ?_⟩
      exact absurd ((mode_cases _).2 (by rw [setWidth32_toNat]; exact hv)) hm
  · rename_i hm
    have : s.rm = r.frm.setWidth 32 := Classical.byContradiction hm
    exact ⟨h, fun _ => this, fun _ _ => this⟩

theorem step_vinv (s : Fp H) (r : Reg) (h : Rep s r) (hv : VInv s r) (o : Op) (ho : Plain o) :
    VInv (step s o) (Spec.step r o) := by
  have hfrm : ∀ v, VInv (frmWrite s v) { r with frm := v.setWidth 3 } := fun v =>
    fcsrWrite_vinv s { r with frm := v.setWidth 3 } hv.1 _ (combine_frm _ _).symm
  have hff : ∀ v, VInv (fflagsWrite s v) { r with flags := v.setWidth 5 } := by
    intro v
    simp only [fflagsWrite]
    split
    · exact hv
    · exact fcsrWrite_vinv s _ hv.1 _ (by rw [combine2_frm, read_eq s r h, fcsr_frm])
  cases o with
  | fcsrWrite v => exact fcsrWrite_vinv s _ hv.1 v rfl
  | fcsrSet v => exact ho.elim
  | fcsrClear v => exact ho.elim
  | fflagsWrite v => exact hff v
  | fflagsSet v => exact hff _
  | fflagsClear v => exact hff _
  | frmWrite v => exact hfrm v
  | frmSet v =>
    have := hfrm (frmRead s ||| v)
    rw [frm_or s r h] at this
    exact this
  | frmClear v =>
    have := hfrm (frmRead s &&& ~~~v)
    rw [frm_andnot s r h] at this
    exact this
  | arith rm f => exact hv

theorem run_inv (hH : HostOk H) (ops : List Op) : ∀ (s : Fp H) (r : Reg), (∀ o ∈ ops, Plain o) →
    Rep s r → VInv s r → Rep (run s ops) (ops.foldl Spec.step r) ∧ VInv (run s ops) (ops.foldl Spec.step r) := by
  induction ops with
  | nil => intro s r _ h hv; exact ⟨h, hv⟩
  | cons o os ih =>
    intro s r hp h hv
    exact ih _ _ (fun o' h' => hp o' (List.mem_cons_of_mem _ h'))
      (step_rep hH s r h o (hp o List.mem_cons_self)) (step_vinv s r h hv o (hp o List.mem_cons_self))

theorem init_vinv : VInv (init H) ⟨0#3, 0#5⟩ :=
  ⟨Nat.zero_le _, fun _ => by simp [init], fun h => by cases h⟩

/-- **C35 (partial).** After any history, if the dynamic mode is reported valid then frm holds 0..4 and
the mode reported is frm. Missing: the converse. -/
theorem C35_valid_partial (hH : HostOk H) (ops : List Op) (hp : ∀ o ∈ ops, Plain o)
    (h : (run (init H) ops).valid = true) :
    Spec.Valid (Spec.run ops).frm ∧ (run (init H) ops).rm = (Spec.run ops).frm.setWidth 32 := by
  have hv := (run_inv hH ops _ _ hp (init_rep hH) init_vinv).2
  have e := hv.2.1 h
  refine ⟨?_, e⟩
  have := hv.1
  rw [e, setWidth32_toNat] at this
  exact this

/-- **C35 (partial).** The converse fails only by frm returning to the last valid mode: if the mode is
reported invalid although frm holds 0..4, frm equals the mode remembered. -/
theorem C35_invalid_partial (hH : HostOk H) (ops : List Op) (hp : ∀ o ∈ ops, Plain o)
    (h : (run (init H) ops).valid = false) (hf : Spec.Valid (Spec.run ops).frm) :
    (run (init H) ops).rm = (Spec.run ops).frm.setWidth 32 :=
  (run_inv hH ops _ _ hp (init_rep hH) init_vinv).2.2.2 h hf

/-- **C35 violated.** Writing an invalid mode and then the previous mode leaves the mode invalid. -/
theorem C35_violated (H : Host) :
    (run (init H) [.frmWrite 5#32, .frmWrite 0#32]).valid = false
      ∧ (Spec.run [.frmWrite 5#32, .frmWrite 0#32]).frm = 0#3 := by
  refine ⟨?_, by decide⟩
  have w : ∀ (s : Fp H), s.rm = 0#32 → (frmWrite s 5#32).valid = false ∧ (frmWrite s 5#32).rm = 0#32 := by
    intro s hs
    unfold frmWrite fcsrWrite
    rw [show ((((fcsrRead s &&& 0b11111#32) ||| ((5#32 &&& 0b111#32) <<< 5)) &&& 0xff#32) >>> 5) &&& 0b111#32
        = 5#32 by
      have := modeOf_eq ((fcsrRead s &&& 0b11111#32) ||| ((5#32 &&& 0b111#32) <<< 5))
      rw [combine_frm] at this
      exact this]
    simp only [setRoundingMode]
    have h1 : (rawWrite s ((fcsrRead s &&& 0b11111#32) ||| ((5#32 &&& 0b111#32) <<< 5))).rm = 0#32 := hs
    rw [if_pos (by rw [h1]; decide), if_neg (by decide)]
    exact ⟨rfl, h1⟩
  obtain ⟨h1, h2⟩ := w (init H) rfl
  show (frmWrite (frmWrite (init H) 5#32) 0#32).valid = false
  unfold frmWrite at *
  rw [show fcsrWrite (fcsrWrite (init H) ((fcsrRead (init H) &&& 0b11111#32) ||| ((5#32 &&& 0b111#32) <<< 5)))
      ((fcsrRead (fcsrWrite (init H) ((fcsrRead (init H) &&& 0b11111#32) ||| ((5#32 &&& 0b111#32) <<< 5)))
        &&& 0b11111#32) ||| ((0#32 &&& 0b111#32) <<< 5))
      = rawWrite (fcsrWrite (init H) ((fcsrRead (init H) &&& 0b11111#32) ||| ((5#32 &&& 0b111#32) <<< 5)))
      ((fcsrRead (fcsrWrite (init H) ((fcsrRead (init H) &&& 0b11111#32) ||| ((5#32 &&& 0b111#32) <<< 5)))
        &&& 0b11111#32) ||| ((0#32 &&& 0b111#32) <<< 5)) from ?_]
  · exact h1
  · generalize fcsrWrite (init H) _ = s at *
    unfold fcsrWrite
    rw [show ((((fcsrRead s &&& 0b11111#32) ||| ((0#32 &&& 0b111#32) <<< 5)) &&& 0xff#32) >>> 5) &&& 0b111#32
        = 0#32 by
      have := modeOf_eq ((fcsrRead s &&& 0b11111#32) ||| ((0#32 &&& 0b111#32) <<< 5))
      rw [combine_frm] at this
      exact this]
    simp only [setRoundingMode]
    rw [if_neg (by rw [show (rawWrite s _).rm = s.rm from rfl, h2]; decide)]

/-! ### C65 -/

/-- **C65 (partial).** An instruction whose rounding mode is given as 0..4 uses it; with the dynamic
mode, if it is executed at all, it uses frm and frm holds 0..4. -/
theorem C65_mode_partial (hH : HostOk H) (ops : List Op) (hp : ∀ o ∈ ops, Plain o) (field : BitVec 3)
    (m : BitVec 32) (h : resolve (run (init H) ops) field = some m) :
    (field ≠ 7#3 → m = field.setWidth 32)
      ∧ (field = 7#3 → Spec.Valid (Spec.run ops).frm ∧ m = (Spec.run ops).frm.setWidth 32) := by
  unfold resolve at h
  constructor
  · intro hf
    rw [if_neg hf] at h
    exact (Option.some.inj h).symm
  · intro hf
    rw [if_pos hf] at h
    split at h
    · rename_i hv
      have := C35_valid_partial hH ops hp hv
      exact ⟨this.1, (Option.some.inj h).symm.trans this.2⟩
    · cases h

/-- **C65 violated.** The reserved static modes 5 and 6 are executed like any other. -/
theorem C65_static_violated (s : Fp H) (field : BitVec 3) (h : field = 5#3 ∨ field = 6#3) :
    resolve s field = some (field.setWidth 32) := by
  rcases h with h | h <;> subst h <;> rfl

/-- **C65 violated.** With frm legal (0) but stale, a dynamic-mode instruction is not executed. -/
theorem C65_dynamic_violated (H : Host) :
    resolve (run (init H) [.frmWrite 5#32, .frmWrite 0#32]) 7#3 = none := by
  unfold resolve
  rw [(C35_violated H).1]; rfl

/-! Non-vacuity. -/
example : fcsrRead (run (init x86) [.frmWrite 3#32, .arith (some 1#3) 1#5, .fflagsSet 16#32, .frmClear 1#32])
    = 0x51#32 := by decide
example : fcsrRead (run (init arm) [.frmWrite 3#32, .arith (some 1#3) 1#5, .fflagsSet 16#32, .frmClear 1#32])
    = 0x51#32 := by decide
example : (run (init x86) [.frmWrite 5#32, .frmWrite 1#32]).valid = true := by decide

end Verif.FpState
