import Verif.VecMove.Spec
import Verif.VecLoop.Props
/-
C83: moves between scalar and vector registers, and of whole vector registers.
-/
namespace Verif.VecMove
open Verif.VecState Verif.VecLoop Verif.VecLoop.Spec Spec

/-! ### vmv.x.s -/

theorem setLow_32 (old v : BitVec 32) : setLow old v = v := by
  unfold setLow
  rw [BitVec.setWidth_eq]
  have : (old >>> 32) <<< 32 = 0#32 := by
    apply BitVec.eq_of_toNat_eq
    simp [BitVec.toNat_shiftLeft, Nat.shiftLeft_eq]
  rw [this, BitVec.zero_or]

theorem carries_signExtend {m : Nat} (w : Nat) (e : BitVec m) : Carries e (e.signExtend w) := by
  refine ⟨fun h => BitVec.toInt_signExtend_of_le h, fun h => ?_⟩
  rw [BitVec.signExtend_eq_setWidth_of_le _ (by omega), BitVec.toNat_setWidth]

/-- C83 for vmv.x.s on RV32, with vstart 0 and a vector that is not empty.  Missing: other states
(`C83_vmv_x_s_skipped_violated`), RV64 (`C83_vmv_x_s_upper_violated`). -/
theorem C83_vmv_x_s_partial (c : VCore) (vs2 : Nat) (old : BitVec 32) (h0 : c.vs.vstart = 0) (hl : c.vs.vl ≠ 0)
    (hs : c.vs.sew = 1 ∨ c.vs.sew = 2 ∨ c.vs.sew = 4 ∨ c.vs.sew = 8) (hd : c.vs.sew ∣ c.vs.vlenb) (hv : 0 < c.vs.vlenb)
    (e : BitVec (8 * c.vs.sew)) (he : IsElem c.vs.vlenb c.vs.sew c.regs vs2 0 e) :
    ∃ r, vmvToScalar c vs2 old = (c, some r) ∧ Carries e r := by
  have hn : 0 < c.vs.sew := by omega
  refine ⟨_, ?_, carries_signExtend 32 e⟩
  rw [vmvToScalar, if_neg (fun h => h h0), if_neg hl, if_pos hs, setLow_32, (isElem_iff hn hd hv _ _ _ _).1 he]

/-- C83 fails for vmv.x.s (riscv_vector_unary_instructions.cc:40-41): with vl = 0 or vstart not 0, when the
specification says it is still executed, rd is not written. -/
theorem C83_vmv_x_s_skipped_violated {w : Nat} (c : VCore) (vs2 : Nat) (old : BitVec w)
    (h : c.vs.vstart ≠ 0 ∨ c.vs.vl = 0) : vmvToScalar c vs2 old = (c, none) := by
  unfold vmvToScalar
  by_cases h0 : c.vs.vstart ≠ 0
  · rw [if_pos h0]
  · rw [if_neg h0, if_pos (h.resolve_left h0)]

/-- C83 fails for vmv.x.s on RV64 (riscv_vector_unary_instructions.cc:34-36, 68): only the low half of rd is set; the
upper one is what the new buffer contained. -/
theorem C83_vmv_x_s_upper_violated (c : VCore) (vs2 : Nat) (old : BitVec 64) (h0 : c.vs.vstart = 0) (hl : c.vs.vl ≠ 0)
    (hs : c.vs.sew = 1 ∨ c.vs.sew = 2 ∨ c.vs.sew = 4 ∨ c.vs.sew = 8) :
    ∃ r, vmvToScalar c vs2 old = (c, some r) ∧ r.extractLsb' 32 32 = old.extractLsb' 32 32 := by
  refine ⟨_, by rw [vmvToScalar, if_neg (fun h => h h0), if_neg hl, if_pos hs], ?_⟩
  apply BitVec.eq_of_getLsbD_eq
  intro j hj
  unfold setLow
  simp only [BitVec.getLsbD_extractLsb', BitVec.getLsbD_or, BitVec.getLsbD_shiftLeft, BitVec.getLsbD_ushiftRight,
    BitVec.getLsbD_setWidth]
  have h1 : ¬ (32 + j < 32) := by omega
  have h2 : 32 + j < 64 := by omega
  have h3 : 32 + (32 + j - 32) = 32 + j := by omega
  rw [h3, BitVec.getLsbD_of_ge _ (32 + j) (by omega : 32 ≤ 32 + j)]
  simp only [h1, h2, decide_true, decide_false, Bool.true_and, Bool.not_false, Bool.and_false, Bool.or_false]

/-! ### vmv.s.x, vfmv.s.f -/

theorem setFirst_filled (c : VCore) (vd : Nat) (x : BitVec (8 * c.vs.sew)) (hn : 0 < c.vs.sew) (hd : c.vs.sew ∣ c.vs.vlenb)
    (hv : 0 < c.vs.vlenb) : Filled c.vs c.regs (setFirst c c.vs.sew vd x) vd (fun i => i = 0) x := by
  have hle := Nat.le_of_dvd hv hd
  constructor
  · rintro i rfl k hk
    have e : (0 * c.vs.sew + k) / c.vs.vlenb = 0 := Nat.div_eq_of_lt (by omega)
    have e2 : (0 * c.vs.sew + k) % c.vs.vlenb = k := by rw [Nat.zero_mul, Nat.zero_add, Nat.mod_eq_of_lt (by omega)]
    rw [e, e2, setFirst, Nat.add_zero, if_pos rfl, setElem, if_pos (Nat.div_eq_of_lt hk), Nat.mod_eq_of_lt hk]
  · intro r y hy hno
    show (if r = vd then _ else _ : Buf) y = _
    by_cases hr : r = vd
    · rw [if_pos hr, setElem]
      by_cases hy0 : y / c.vs.sew = 0
      · exfalso
        have hlt : y < c.vs.sew := by
          rcases Nat.lt_or_ge y c.vs.sew with h | h
          · exact h
          · have := Nat.div_pos h hn; omega
        apply hno
        refine ⟨0, rfl, y, hlt, ?_, ?_⟩
        · rw [Nat.zero_mul, Nat.zero_add, Nat.div_eq_of_lt hy, hr, Nat.add_zero]
        · rw [Nat.zero_mul, Nat.zero_add, Nat.mod_eq_of_lt hy]
      · rw [if_neg hy0, hr]
    · rw [if_neg hr]

/-- C83 for vmv.s.x with vstart 0: element 0 becomes the scalar, unless the vector is empty.  Missing: other values of
vstart (`C83_vstart_violated`). -/
theorem C83_vmv_s_x_partial (c : VCore) (vd : Nat) (x : BitVec (8 * c.vs.sew)) (h0 : c.vs.vstart = 0)
    (hs : c.vs.sew = 1 ∨ c.vs.sew = 2 ∨ c.vs.sew = 4 ∨ c.vs.sew = 8) (hd : c.vs.sew ∣ c.vs.vlenb) (hv : 0 < c.vs.vlenb) :
    (vmvFromScalar c vd x).vs = c.vs ∧
    Filled c.vs c.regs (vmvFromScalar c vd x).regs vd (fun i => i = 0 ∧ 0 < c.vs.vl) x := by
  have hn : 0 < c.vs.sew := by omega
  rw [vmvFromScalar, if_neg (fun h => h h0)]
  by_cases hl : c.vs.vl = 0
  · rw [if_pos hl]
    exact ⟨rfl, fun i hi => absurd hi.2 (by omega), fun r y _ _ => rfl⟩
  · rw [if_neg hl, if_pos hs]
    obtain ⟨f1, f2⟩ := setFirst_filled c vd x hn hd hv
    exact ⟨rfl, fun i hi => f1 i hi.1, fun r y hy hno => f2 r y hy (fun ⟨i, hi, hc⟩ => hno ⟨i, ⟨hi, by omega⟩, hc⟩)⟩

theorem fpValue_low (n : Nat) (hn : n = 4 ∨ n = 8) (x : BitVec 64) (hx : n = 4 → x.toNat / 2 ^ 32 = 2 ^ 32 - 1) :
    FpValue n x (x.setWidth (8 * n)) := by
  rcases hn with rfl | rfl
  · refine ⟨fun h => (by cases h), fun _ => ⟨fun _ => BitVec.toNat_setWidth .., fun h => absurd (hx rfl) h⟩⟩
  · refine ⟨fun _ => ?_, fun h => by cases h⟩
    rw [BitVec.toNat_setWidth]
    exact Nat.mod_eq_of_lt x.isLt

/-- C83 for vfmv.s.f with vstart 0 and a boxed number.  Missing: other numbers (`C83_box_violated`), other values of
vstart (`C83_vstart_violated`). -/
theorem C83_vfmv_s_f_partial (c : VCore) (vd : Nat) (x : BitVec 64) (h0 : c.vs.vstart = 0)
    (hs : c.vs.sew = 4 ∨ c.vs.sew = 8) (hx : c.vs.sew = 4 → x.toNat / 2 ^ 32 = 2 ^ 32 - 1) (hd : c.vs.sew ∣ c.vs.vlenb)
    (hv : 0 < c.vs.vlenb) :
    (vfmvsf c vd x).vs = c.vs ∧ ∃ v, FpValue c.vs.sew x v ∧
    Filled c.vs c.regs (vfmvsf c vd x).regs vd (fun i => i = 0 ∧ 0 < c.vs.vl) v := by
  have hn : 0 < c.vs.sew := by omega
  rw [vfmvsf, if_neg (fun h => h h0)]
  by_cases hl : c.vs.vl = 0
  · rw [if_pos hl]
    exact ⟨rfl, _, fpValue_low _ hs x hx, fun i hi => absurd hi.2 (by omega), fun r y _ _ => rfl⟩
  · rw [if_neg hl, if_pos hs]
    obtain ⟨f1, f2⟩ := setFirst_filled c vd (x.setWidth _) hn hd hv
    exact ⟨rfl, _, fpValue_low _ hs x hx, fun i hi => f1 i hi.1,
      fun r y hy hno => f2 r y hy (fun ⟨i, hi, hc⟩ => hno ⟨i, ⟨hi, by omega⟩, hc⟩)⟩

/-! ### vfmv.v.f -/

theorem fill_byte (n : Nat) (b : Buf) (v : BitVec (8 * n)) (k y : Nat) :
    (List.range k).foldl (fun b i => setElem n b i v) b y
      = if y / n < k then v.extractLsb' (8 * (y % n)) 8 else b y := by
  induction k with
  | zero => simp
  | succ k ih =>
    rw [List.range_succ, List.foldl_append]
    show setElem n _ k v y = _
    rw [setElem]
    by_cases h : y / n = k
    · rw [if_pos h, if_pos (by omega)]
    · rw [if_neg h, ih]
      by_cases h2 : y / n < k
      · rw [if_pos h2, if_pos (by omega)]
      · rw [if_neg h2, if_neg (by omega)]

/-- C83 for vfmv.v.f with vstart 0, elements that fit in one register and a boxed number.  Missing: longer vectors
(`C83_vfmv_v_f_overrun_violated`), other numbers (`C83_box_violated`), other values of vstart (`C83_vstart_violated`). -/
theorem C83_vfmv_v_f_partial (c : VCore) (vd : Nat) (x : BitVec 64) (h0 : c.vs.vstart = 0)
    (hs : c.vs.sew = 4 ∨ c.vs.sew = 8) (hx : c.vs.sew = 4 → x.toNat / 2 ^ 32 = 2 ^ 32 - 1)
    (hl : c.vs.vl * c.vs.sew ≤ c.vs.vlenb) :
    ∃ c' v, vfmvvf c vd x = some c' ∧ c'.vs = c.vs ∧ FpValue c.vs.sew x v ∧
      Filled c.vs c.regs c'.regs vd (fun i => i < c.vs.vl) v := by
  have hn : 0 < c.vs.sew := by omega
  by_cases hz : c.vs.vl = 0
  · refine ⟨c, _, by rw [vfmvvf, if_neg (fun h => h h0), if_pos hz], rfl, fpValue_low _ hs x hx, fun i hi => ?_,
      fun r y _ _ => rfl⟩
    omega
  · refine ⟨⟨c.vs, fun q => if q = vd then
        (List.range c.vs.vl).foldl (fun b i => setElem c.vs.sew b i (x.setWidth _)) (c.regs vd) else c.regs q⟩, _,
      by rw [vfmvvf, if_neg (fun h => h h0), if_neg hz, if_pos hs, if_neg (by omega)], rfl,
      fpValue_low _ hs x hx, ?_, ?_⟩
    · intro i hi k hk
      have hik : i * c.vs.sew + k < c.vs.vl * c.vs.sew := by
        have := Nat.mul_le_mul_right c.vs.sew (show i + 1 ≤ c.vs.vl from hi)
        rw [Nat.add_mul, Nat.one_mul] at this
        omega
      rw [Nat.div_eq_of_lt (by omega), Nat.mod_eq_of_lt (by omega), Nat.add_zero]
      show (if vd = vd then _ else _ : Buf) _ = _
      rw [if_pos rfl, fill_byte]
      have e1 : (i * c.vs.sew + k) / c.vs.sew = i := by
        rw [Nat.mul_comm, Nat.mul_add_div hn, Nat.div_eq_of_lt hk, Nat.add_zero]
      have e2 : (i * c.vs.sew + k) % c.vs.sew = k := by
        rw [Nat.mul_comm, Nat.mul_add_mod, Nat.mod_eq_of_lt hk]
      rw [e1, e2, if_pos hi]
    · intro r y hy hno
      show (if r = vd then _ else _ : Buf) y = _
      by_cases hr : r = vd
      · rw [if_pos hr, fill_byte]
        by_cases hlt : y / c.vs.sew < c.vs.vl
        · exfalso
          apply hno
          refine ⟨y / c.vs.sew, hlt, y % c.vs.sew, Nat.mod_lt _ hn, ?_, ?_⟩
          · rw [Nat.mul_comm, Nat.div_add_mod, Nat.div_eq_of_lt hy, hr, Nat.add_zero]
          · rw [Nat.mul_comm, Nat.div_add_mod, Nat.mod_eq_of_lt hy]
        · rw [if_neg hlt, hr]
      · rw [if_neg hr]

/-- C83 fails for vfmv.v.f with more elements than one register holds (riscv_vector_fp_unary_instructions.cc:74-86): they
are written behind the end of the register's buffer. -/
theorem C83_vfmv_v_f_overrun_violated (c : VCore) (vd : Nat) (x : BitVec 64) (h0 : c.vs.vstart = 0)
    (hs : c.vs.sew = 4 ∨ c.vs.sew = 8) (hl : c.vs.vlenb < c.vs.vl * c.vs.sew) : vfmvvf c vd x = none := by
  have hz : c.vs.vl ≠ 0 := by intro h; rw [h] at hl; omega
  rw [vfmvvf, if_neg (fun h => h h0), if_neg hz, if_pos hs, if_pos hl]

/-- C83 fails for vmv.s.x, vfmv.s.f and vfmv.v.f with a vstart that is not 0 (riscv_vector_unary_instructions.cc:75,
riscv_vector_fp_unary_instructions.cc:67,101): nothing is written, and vstart is not cleared. -/
theorem C83_vstart_violated (c : VCore) (vd : Nat) (x : BitVec (8 * c.vs.sew)) (y : BitVec 64) (h : c.vs.vstart ≠ 0) :
    vmvFromScalar c vd x = c ∧ vfmvsf c vd y = c ∧ vfmvvf c vd y = some c := by
  refine ⟨?_, ?_, ?_⟩
  · rw [vmvFromScalar, if_pos h]
  · rw [vfmvsf, if_pos h]
  · rw [vfmvvf, if_pos h]

/-- C83 fails for a single-precision operand that is not NaN-boxed (riscv_vector_fp_unary_instructions.cc:79-80,108-109):
its low half is moved instead of the canonical NaN. -/
theorem C83_box_violated (c : VCore) (vd : Nat) (x : BitVec 64) (h0 : c.vs.vstart = 0) (hl : c.vs.vl ≠ 0)
    (hs : c.vs.sew = 4) (hd : c.vs.sew ∣ c.vs.vlenb) (hv : 0 < c.vs.vlenb) :
    IsElem c.vs.vlenb c.vs.sew (vfmvsf c vd x).regs vd 0 (x.setWidth _) ∧
    (x.toNat / 2 ^ 32 ≠ 2 ^ 32 - 1 → x.toNat % 2 ^ 32 ≠ 0x7fc00000 → ¬ FpValue c.vs.sew x (x.setWidth _)) := by
  have hn : 0 < c.vs.sew := by omega
  refine ⟨?_, ?_⟩
  · rw [vfmvsf, if_neg (fun h => h h0), if_neg hl, if_pos (Or.inl hs)]
    exact (setFirst_filled c vd (x.setWidth _) hn hd hv).1 0 rfl
  · intro h1 h2 h3
    have := (h3.2 hs).2 h1
    rw [BitVec.toNat_setWidth, hs] at this
    exact h2 this

/-! ### vfmv.f.s -/

/-- C83 for vfmv.f.s: whatever vl and vstart are, the register receives element 0, boxed. -/
theorem C83_vfmv_f_s (c : VCore) (vs2 : Nat) (hs : c.vs.sew = 4 ∨ c.vs.sew = 8) (hd : c.vs.sew ∣ c.vs.vlenb)
    (hv : 0 < c.vs.vlenb) (e : BitVec (8 * c.vs.sew)) (he : IsElem c.vs.vlenb c.vs.sew c.regs vs2 0 e) :
    ∃ r, vfmvfs c vs2 = ({ c with vs := { c.vs with vstart := 0 } }, some r) ∧
      r.toNat = (2 ^ 64 - 2 ^ (8 * c.vs.sew)) + e.toNat := by
  obtain ⟨vs, R⟩ := c
  obtain ⟨vlenb, vtype, vl, vmax, lmul8, sew, ta, ma, exc, vstart, vxsat, vxrm⟩ := vs
  simp only at *
  rcases hs with rfl | rfl
  · refine ⟨_, by rw [vfmvfs, if_pos rfl], ?_⟩
    have he' : e.toNat < 2 ^ 32 := e.isLt
    rw [(isElem_iff (by decide) hd hv _ _ _ _).1 he, BitVec.toNat_or, BitVec.toNat_setWidth,
      Nat.mod_eq_of_lt (Nat.lt_trans he' (by decide))]
    have h := Nat.two_pow_add_eq_or_of_lt (i := 32) he' (2 ^ 32 - 1)
    rw [show (0xffffffff00000000#64).toNat = 2 ^ 32 * (2 ^ 32 - 1) from rfl, ← h]
  · refine ⟨source vlenb 8 R vs2 0, rfl, ?_⟩
    rw [(isElem_iff (by decide) hd hv _ _ _ _).1 he]
    simp

/-! ### Whole registers -/

theorem group_div {num v : Nat} (hn : num = 1 ∨ num = 2 ∨ num = 4 ∨ num = 8) (h : num ≤ groupSize v) : v % num = 0 := by
  have h8 : v % 8 < 8 := Nat.mod_lt _ (by decide)
  unfold groupSize at h
  have : v % 8 = 0 ∨ v % 8 = 1 ∨ v % 8 = 2 ∨ v % 8 = 3 ∨ v % 8 = 4 ∨ v % 8 = 5 ∨ v % 8 = 6 ∨ v % 8 = 7 := by omega
  rcases hn with rfl | rfl | rfl | rfl <;> rcases this with e | e | e | e | e | e | e | e <;>
    rw [e] at h <;> first | omega | (exfalso; revert h; decide)

theorem copyRegs_eq (vd vs2 num : Nat) (hov : vs2 = vd ∨ vs2 + num ≤ vd ∨ vd + num ≤ vs2) (k : Nat) :
    ∀ i R, i + k ≤ num → copyRegs vd vs2 k i R = fun q => if vd + i ≤ q ∧ q < vd + (i + k) then R (q - vd + vs2) else R q := by
  induction k with
  | zero =>
    intro i R _
    funext q
    rw [if_neg (by omega)]
    rfl
  | succ k ih =>
    intro i R hik
    rw [copyRegs, ih (i + 1) _ (by omega)]
    funext q
    by_cases h1 : q = vd + i
    · have a1 : ¬ (vd + (i + 1) ≤ q ∧ q < vd + (i + 1 + k)) := by omega
      have a2 : vd + i ≤ q ∧ q < vd + (i + (k + 1)) := by omega
      rw [if_neg a1, if_pos h1, if_pos a2]
      congr 1
      omega
    · by_cases h2 : vd + (i + 1) ≤ q ∧ q < vd + (i + 1 + k)
      · have a1 : ¬ (q - vd + vs2 = vd + i) := by omega
        have a2 : vd + i ≤ q ∧ q < vd + (i + (k + 1)) := by omega
        rw [if_pos h2, if_neg a1, if_pos a2]
      · have a2 : ¬ (vd + i ≤ q ∧ q < vd + (i + (k + 1))) := by omega
        rw [if_neg h2, if_neg h1, if_neg a2]

/-- C83 for whole register moves with a vstart at the start of a register: the registers from there on are copied and
nothing else changes.  Missing: other values of vstart (`C83_vmvr_prestart_violated`). -/
theorem C83_vmvr_partial (num : Nat) (hnum : num = 1 ∨ num = 2 ∨ num = 4 ∨ num = 8) (c : VCore) (vd vs2 : Nat)
    (he : c.vs.exception = false) (hd : vd % num = 0) (hs : vs2 % num = 0)
    (hn : 0 < c.vs.sew) (hdv : c.vs.sew ∣ c.vs.vlenb) (hv : 0 < c.vs.vlenb)
    (hst : c.vs.vstart % (c.vs.vlenb / c.vs.sew) = 0) :
    ∃ c', vmvr num c vd vs2 = some c' ∧ c'.vs = { c.vs with vstart := 0 } ∧ Copied c.vs c.regs c'.regs vd vs2 num := by
  have hq : 0 < c.vs.vlenb / c.vs.sew := Nat.div_pos (Nat.le_of_dvd hv hdv) hn
  have hov : vs2 = vd ∨ vs2 + num ≤ vd ∨ vd + num ≤ vs2 := by
    rcases hnum with rfl | rfl | rfl | rfl <;> omega
  refine ⟨_, by rw [vmvr, he, if_neg Bool.false_ne_true, if_neg (Nat.not_lt.2 (group_size hnum hs)),
    if_neg (Nat.not_lt.2 (group_size hnum hd)), if_neg (by omega)], rfl, ?_⟩
  have hprod : c.vs.vstart * c.vs.sew = c.vs.vstart / (c.vs.vlenb / c.vs.sew) * c.vs.vlenb := by
    have h1 := Nat.div_add_mod c.vs.vstart (c.vs.vlenb / c.vs.sew)
    rw [hst, Nat.add_zero, Nat.mul_comm] at h1
    have h2 := Nat.div_mul_cancel hdv
    calc c.vs.vstart * c.vs.sew = c.vs.vstart / (c.vs.vlenb / c.vs.sew) * (c.vs.vlenb / c.vs.sew) * c.vs.sew := by rw [h1]
      _ = _ := by rw [Nat.mul_assoc, h2]
  generalize hstart : c.vs.vstart / (c.vs.vlenb / c.vs.sew) = st at *
  show Copied c.vs c.regs (copyRegs vd vs2 (num - st) st c.regs) vd vs2 num
  rcases Nat.lt_or_ge st num with hlt | hge
  · rw [copyRegs_eq vd vs2 num hov _ _ _ (by omega)]
    have hend : st + (num - st) = num := by omega
    rw [hend]
    refine ⟨fun r x hr hx h => ?_, fun r x hr hx h => ?_, fun r hr => ?_⟩
    · have hst2 : st ≤ r := by
        rw [hprod] at h
        apply Nat.le_of_lt_succ
        apply Nat.lt_of_mul_lt_mul_right (a := c.vs.vlenb)
        rw [Nat.succ_mul]
        omega
      show (if _ then _ else _ : Buf) x = _
      rw [if_pos (by omega)]
      congr 1
      omega
    · have hst2 : r < st := by
        rw [hprod] at h
        apply Nat.lt_of_mul_lt_mul_right (a := c.vs.vlenb)
        omega
      show (if _ then _ else _ : Buf) x = _
      rw [if_neg (by omega)]
    · show (if _ then _ else _ : Buf) = _
      rw [if_neg (by omega)]
  · have : num - st = 0 := by omega
    rw [this]
    refine ⟨fun r x hr hx h => ?_, fun r x _ _ _ => rfl, fun r _ => rfl⟩
    exfalso
    rw [hprod] at h
    have h1 := Nat.mul_le_mul_right c.vs.vlenb (show r + 1 ≤ st by omega)
    rw [Nat.add_mul, Nat.one_mul] at h1
    omega

/-- C83 for whole register moves: registers that are not aligned to the group are refused. -/
theorem C83_vmvr_refused (num : Nat) (hnum : num = 1 ∨ num = 2 ∨ num = 4 ∨ num = 8) (c : VCore) (vd vs2 : Nat)
    (he : c.vs.exception = false) (h : vd % num ≠ 0 ∨ vs2 % num ≠ 0) : vmvr num c vd vs2 = some (refuse c) := by
  rw [vmvr, he, if_neg Bool.false_ne_true]
  by_cases h2 : groupSize vs2 < num
  · rw [if_pos h2]
  · rw [if_neg h2]
    have h1 : groupSize vd < num := by
      rcases Nat.lt_or_ge (groupSize vd) num with h1 | h1
      · exact h1
      · exact absurd (group_div hnum h1) (h.resolve_right (fun h' => h' (group_div hnum (Nat.le_of_not_lt h2))))
    rw [if_pos h1]

/-- C83 fails for whole register moves that resume within a register (riscv_vector_opi_instructions.cc:1153-1161): the
elements before vstart are overwritten too. -/
theorem C83_vmvr_prestart_violated (num : Nat) (hnum : num = 1 ∨ num = 2 ∨ num = 4 ∨ num = 8) (c : VCore) (vd vs2 : Nat)
    (he : c.vs.exception = false) (hd : vd % num = 0) (hs : vs2 % num = 0)
    (hn : 0 < c.vs.sew) (hdv : c.vs.sew ∣ c.vs.vlenb) (hv : 0 < c.vs.vlenb)
    (hlt : c.vs.vstart / (c.vs.vlenb / c.vs.sew) < num) :
    ∃ c', vmvr num c vd vs2 = some c' ∧
      c'.regs (vd + c.vs.vstart / (c.vs.vlenb / c.vs.sew)) = c.regs (vs2 + c.vs.vstart / (c.vs.vlenb / c.vs.sew)) := by
  have hq : 0 < c.vs.vlenb / c.vs.sew := Nat.div_pos (Nat.le_of_dvd hv hdv) hn
  have hov : vs2 = vd ∨ vs2 + num ≤ vd ∨ vd + num ≤ vs2 := by
    rcases hnum with rfl | rfl | rfl | rfl <;> omega
  refine ⟨_, by rw [vmvr, he, if_neg Bool.false_ne_true, if_neg (Nat.not_lt.2 (group_size hnum hs)),
    if_neg (Nat.not_lt.2 (group_size hnum hd)), if_neg (by omega)], ?_⟩
  generalize c.vs.vstart / (c.vs.vlenb / c.vs.sew) = st at *
  show copyRegs vd vs2 (num - st) st c.regs (vd + st) = _
  rw [copyRegs_eq vd vs2 num hov _ _ _ (by omega)]
  show (if _ then _ else _ : Buf) = _
  rw [if_pos (by omega)]
  congr 1
  omega

/-! ### Non-vacuity -/

/-- VLEN = 128, SEW = 32 bits, LMUL = 1, 3 elements. -/
def core : VCore :=
  { vs := { vlenb := 16, vtype := 0x10#32, vl := 3, vmax := 4, lmul8 := 8, sew := 4 },
    regs := fun r x => BitVec.ofNat 8 (16 * r + x) }

example : vmvToScalar core 8 (0#32) = (core, some 0x83828180#32) := by
  rw [vmvToScalar, if_neg (by decide), if_neg (by decide), if_pos (by decide)]
  have : setLow (0#32) ((source core.vs.vlenb core.vs.sew core.regs 8 0).signExtend 32) = 0x83828180#32 := by decide +kernel
  rw [this]

example := C83_vmv_x_s_partial core 8 0 rfl (by decide) (by decide) (by decide) (by decide)
example := C83_vmv_s_x_partial core 4 7#32 rfl (by decide) (by decide) (by decide)
example := C83_vfmv_s_f_partial core 4 0xffffffff3f800000#64 rfl (by decide) (by decide) (by decide) (by decide)
example := C83_vfmv_v_f_partial core 4 0xffffffff3f800000#64 rfl (by decide) (by decide) (by decide)
example : (vfmvvf core 4 0xffffffff3f800000#64).map (fun c => (c.regs 4 11, c.regs 4 12)) = some (0x3f#8, 0x4c#8) := by
  decide +kernel
example := C83_box_violated core 4 0x3f800000#64 rfl (by decide) rfl (by decide) (by decide)
example := C83_vfmv_f_s core 8 (by decide) (by decide) (by decide)
example := C83_vmvr_partial 2 (by decide) core 4 8 rfl (by decide) (by decide) (by decide) (by decide) (by decide) (by decide)
example := C83_vmvr_refused 2 (by decide) core 5 8 rfl (by decide)
example := C83_vmvr_prestart_violated 2 (by decide) { core with vs := { core.vs with vstart := 2 } } 4 8 rfl (by decide)
  (by decide) (by decide) (by decide) (by decide) (by decide)

end Verif.VecMove
