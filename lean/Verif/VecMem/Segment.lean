import Verif.VecMem.Stores
/-
C50: segment loads.  C70: segment stores.
-/
namespace Verif.VecMem
open Verif.Core Verif.Mem Verif.VecState Verif.VecLoop Verif.VecLoop.Spec Spec

variable {w : Nat}

/-- All fields: the data of field `f`, segment `i`, which is at index `f * segs + i`, goes to flat element `f * segs + i`. -/
theorem segFields_spec (n epv vd m segs : Nat) (hepv : 0 < epv) (hsegs : segs = m * epv) (vals : Nat → Option (BitVec (8 * n))) (R0 : VRegs)
    (k field : Nat) :
    segFields n epv vd m 0 segs vals k field (field * segs) (updR n epv vd vals 0 (field * segs) R0)
      = updR n epv vd vals 0 ((field + k) * segs) R0 := by
  induction k generalizing field with
  | zero => rfl
  | succ k ih =>
    rw [segFields]
    simp only [Nat.zero_div, Nat.zero_mod, Nat.add_zero]
    have hfm : field * segs = field * m * epv := by rw [hsegs, Nat.mul_assoc]
    rw [segField_spec n epv vd hepv vals vals R0 0 m (field * m) 0 segs (field * segs) (field * segs) (by omega) hepv (Nat.zero_le _)
      (fun _ _ => rfl) (by rw [Nat.add_mul, ← hfm, ← hsegs]; exact Nat.le_refl _)]
    have e : field * segs + segs = (field + 1) * segs := by rw [Nat.add_mul, Nat.one_mul]
    simp only [e]
    rw [ih (field + 1), show field + 1 + k = field + (k + 1) by omega]

/-- The number of registers of a field and elements per register, in the two cases in which they are right. -/
theorem seg_counts {vlenb n vl m : Nat} (hn : 0 < n) (hd : n ∣ vlenb) (hv : 0 < vlenb) (hvl : 0 < vl)
    (hm : (m = 1 ∧ vl * n ≤ vlenb) ∨ vl * n = m * vlenb) :
    max 1 (vl * n / vlenb) = m ∧ vl = m * min (vlenb / n) vl ∧ 0 < min (vlenb / n) vl := by
  have hq : 0 < vlenb / n := Nat.div_pos (Nat.le_of_dvd hv hd) hn
  rcases hm with ⟨rfl, hle⟩ | he
  · have h1 : vl ≤ vlenb / n := (Nat.le_div_iff_mul_le hn).2 hle
    rw [Nat.min_eq_right h1]
    refine ⟨?_, by omega, hvl⟩
    have : vl * n / vlenb ≤ 1 := Nat.div_le_of_le_mul (by omega)
    omega
  · have hm1 : 1 ≤ m := by
      rcases Nat.eq_zero_or_pos m with h | h
      · rw [h, Nat.zero_mul] at he
        have := Nat.mul_pos hvl hn
        omega
      · exact h
    have h2 : vl = m * (vlenb / n) := by
      have : vl * n = m * (vlenb / n) * n := by rw [Nat.mul_assoc, Nat.div_mul_cancel hd]; exact he
      exact Nat.eq_of_mul_eq_mul_right hn this
    have h3 : vlenb / n ≤ vl := by
      have := Nat.mul_le_mul_right (vlenb / n) hm1
      omega
    rw [Nat.min_eq_left h3, he, Nat.mul_div_cancel _ hv]
    exact ⟨by omega, h2, hq⟩

/-- A byte of element `i` of field `f`, in the flat numbering. -/
theorem seg_place {vlenb n vl m i : Nat} (hn : 0 < n) (hd : n ∣ vlenb) (hv : 0 < vlenb)
    (hm : (m = 1 ∧ vl * n ≤ vlenb) ∨ vl * n = m * vlenb) (hi : i < vl) :
    i / (vlenb / n) = i / min (vlenb / n) vl ∧ i % (vlenb / n) = i % min (vlenb / n) vl := by
  by_cases h : vlenb / n ≤ vl
  · rw [Nat.min_eq_left h]; exact ⟨rfl, rfl⟩
  · rw [Nat.min_eq_right (by omega), Nat.div_eq_of_lt (by omega), Nat.div_eq_of_lt hi, Nat.mod_eq_of_lt (by omega), Nat.mod_eq_of_lt hi]
    exact ⟨rfl, rfl⟩

/-- The segment loads with the counts right. -/
theorem segLoad_spec (c : MCore w) (n vd nf m : Nat) (addr : Nat → Nat → BitVec 64) (active : Nat → Bool) (P : Nat → Prop) (epc : BitVec 64)
    (handled : Bool) (hP : ∀ i, active i = true ↔ P i) (hn : 0 < n) (hd : n ∣ c.v.vs.vlenb) (hv : 0 < c.v.vs.vlenb) (hvl : 0 < c.v.vs.vl)
    (hm : (m = 1 ∧ c.v.vs.vl * n ≤ c.v.vs.vlenb) ∨ c.v.vs.vl * n = m * c.v.vs.vlenb) (hg : nf * m ≤ groupSize vd)
    (hlim : ∀ i f, i < c.v.vs.vl → f < nf → (addr i f).toNat ≤ c.core.limit.toNat) :
    ∃ c', segLoad c n vd nf addr active epc handled = some c' ∧ c'.core = c.core ∧ c'.v.vs = { c.v.vs with vstart := 0 }
      ∧ SegLoaded c.v.vs.vlenb n vd nf m c.v.vs.vl addr P c.core.mem c.v.regs c'.v.regs := by
  obtain ⟨hreg, hmul, hepv⟩ := seg_counts hn hd hv hvl hm
  have hsp := fun i hi => seg_place (i := i) hn hd hv hm hi
  generalize hvlg : c.v.vs.vl = vl at *
  have hdivlt : ∀ j, j < nf * vl → j % vl < vl ∧ j / vl < nf := fun j hj =>
    ⟨Nat.mod_lt _ hvl, by rw [Nat.div_lt_iff_lt_mul hvl]; exact hj⟩
  unfold segLoad
  simp only
  rw [hvlg, loadV_ok]
  · simp only
    generalize hvals : (fun j => Option.map (BitVec.ofNat (8 * n)) (List.getD (gather c.core.mem (List.map (fun j =>
      ({ addr := addr (j % vl) (j / vl), active := active (j % vl), data := 0 } : Elem)) (List.range (nf * vl))) n) j none)) = vals
    have hval : ∀ j, j < nf * vl → vals j = if active (j % vl) then some (BitVec.ofNat (8 * n) (readLE c.core.mem (addr (j % vl) (j / vl)) n)) else none := by
      intro j hj
      rw [← hvals]
      unfold gather
      simp only
      rw [List.getD_eq_getElem?_getD, List.getElem?_map, List.getElem?_map, List.getElem?_range hj]
      simp only [Option.map_some, Option.getD_some]
      cases active (j % vl) <;> rfl
    unfold segWriteBack
    simp only
    rw [if_neg (by omega), hreg, if_neg (by omega), if_neg (by omega), if_neg (by omega)]
    have hsf := segFields_spec n (min (c.v.vs.vlenb / n) vl) vd m vl hepv hmul vals c.v.regs nf 0
    rw [Nat.zero_mul, updR_empty _ _ _ _ _ _ _ (Nat.le_refl _), Nat.zero_add] at hsf
    rw [hsf]
    generalize hE : min (c.v.vs.vlenb / n) vl = epv at *
    have hElt : epv ≤ c.v.vs.vlenb / n := by rw [← hE]; exact Nat.min_le_left _ _
    -- flat index of field f, segment i
    have hflat : ∀ f i, i < vl → (f * m + i / epv) * epv + i % epv = f * vl + i := by
      intro f i hi
      have h1 := Nat.div_add_mod i epv
      rw [Nat.mul_comm] at h1
      rw [Nat.add_mul, Nat.mul_assoc, ← hmul]
      omega
    have hfl : ∀ f i, f < nf → i < vl → f * vl + i < nf * vl ∧ (f * vl + i) % vl = i ∧ (f * vl + i) / vl = f := by
      intro f i hf hi
      refine ⟨?_, ?_, ?_⟩
      · have := Nat.mul_le_mul_right vl (show f + 1 ≤ nf from hf)
        rw [Nat.add_mul, Nat.one_mul] at this
        omega
      · rw [Nat.mul_comm, Nat.mul_add_mod, Nat.mod_eq_of_lt hi]
      · rw [Nat.mul_comm, Nat.mul_add_div hvl, Nat.div_eq_of_lt hi, Nat.add_zero]
    refine ⟨_, rfl, rfl, by rw [← hvlg]; rfl, ?_, ?_⟩
    · intro f i hf hi ha
      refine ⟨_, holds_read c.core.mem (addr i f) n, ?_⟩
      rw [isElem_iff hn hd hv]
      unfold source
      apply getElem_eq
      intro k hk
      rw [(hsp i hi).1, (hsp i hi).2]
      show updR n epv vd vals 0 (nf * vl) c.v.regs (vd + f * m + i / epv) (i % epv * n + k) = _
      have hx1 : (i % epv * n + k) / n = i % epv := by
        rw [Nat.mul_comm, Nat.mul_add_div hn, Nat.div_eq_of_lt hk, Nat.add_zero]
      have hx2 : (i % epv * n + k) % n = k := by rw [Nat.mul_comm, Nat.mul_add_mod, Nat.mod_eq_of_lt hk]
      obtain ⟨f1, f2, f3⟩ := hfl f i hf hi
      rw [updR_pick, hx1, show vd + f * m + i / epv - vd = f * m + i / epv by rw [Nat.add_assoc, Nat.add_sub_cancel_left], hflat f i hi,
        if_pos ⟨by rw [Nat.add_assoc]; exact Nat.le_add_right _ _, Nat.mod_lt _ hepv, Nat.zero_le _, f1⟩, hval _ f1, f2, f3, if_pos ((hP i).2 ha)]
      unfold pick
      rw [hx2]
    · intro r x hx hno
      show updR n epv vd vals 0 (nf * vl) c.v.regs r x = _
      rw [updR_pick]
      by_cases hc : vd ≤ r ∧ x / n < epv ∧ 0 ≤ (r - vd) * epv + x / n ∧ (r - vd) * epv + x / n < nf * vl
      · rw [if_pos hc, hval _ hc.2.2.2]
        by_cases ha : active (((r - vd) * epv + x / n) % vl) = true
        · exfalso
          apply hno
          obtain ⟨d1, d2⟩ := hdivlt _ hc.2.2.2
          refine ⟨_, _, d2, d1, (hP _).1 ha, x % n, Nat.mod_lt _ hn, ?_⟩
          generalize hj : (r - vd) * epv + x / n = j at *
          have hdm := Nat.div_add_mod j vl
          obtain ⟨p1, p2⟩ := place hn hd hv (j % vl) (x % n) (Nat.mod_lt _ hn)
          rw [p1, p2, (hsp _ d1).1, (hsp _ d1).2]
          have hf' := hflat (j / vl) (j % vl) d1
          rw [Nat.mul_comm vl] at hdm
          rw [hdm] at hf'
          have hb := Nat.mod_lt (j % vl) hepv
          -- both sides are quotient and remainder by epv
          have q1 : (r - vd) = j / vl * m + j % vl / epv := by
            have a1 : j / epv = r - vd := by
              rw [← hj, Nat.mul_comm, Nat.mul_add_div hepv, Nat.div_eq_of_lt hc.2.1, Nat.add_zero]
            have a2 : j / epv = j / vl * m + j % vl / epv := by
              conv => lhs; rw [← hf']
              rw [Nat.mul_comm, Nat.mul_add_div hepv, Nat.div_eq_of_lt hb, Nat.add_zero]
            rw [← a1, a2]
          have q2 : x / n = j % vl % epv := by rw [q1] at hj; omega
          have hxx := Nat.div_add_mod x n
          rw [Nat.mul_comm] at hxx
          rw [← q2]
          generalize j % vl / epv = t at *
          generalize j / vl * m = u at *
          exact ⟨by omega, hxx.symm⟩
        · rw [if_neg ha]; rfl
      · rw [if_neg hc]
  · intro e he
    obtain ⟨j, hj, rfl⟩ := List.mem_map.mp he
    rw [List.mem_range] at hj
    obtain ⟨d1, d2⟩ := hdivlt j hj
    exact hlim _ _ d1 d2

/-- The registers per field that the ISA prescribes, EMUL at least 1. -/
def fieldRegs (s : VState) (n : Nat) : Nat := max 1 (n * s.lmul8 / s.sew / 8)

/-- **C50, partial.** A unit-stride segment load with vstart = 0 puts field `f` of segment `i` into element `i` of the `f`-th group of EMUL registers,
when EMUL ≤ 1 or vl = VLMAX, the operand has registers for all fields, and vl > 0.  Missing: vl < VLMAX with EMUL > 1 (`C50_layout_violated`),
destinations that are not a multiple of the total (`C50_alignment_violated`), vl = 0 (`C50_empty_violated`). -/
theorem C50_segment_load_partial (c : MCore w) (n vd nf : Nat) (base : BitVec 64) (vm : Bool) (epc : BitVec 64) (handled : Bool)
    (hsew : 0 < c.v.vs.sew) (hn : 0 < n ∧ n ∣ c.v.vs.vlenb ∧ 0 < c.v.vs.vlenb) (hvl : 0 < c.v.vs.vl)
    (hemul : n * c.v.vs.lmul8 / c.v.vs.sew * nf ≤ 64)
    (hm : (fieldRegs c.v.vs n = 1 ∧ c.v.vs.vl * n ≤ c.v.vs.vlenb) ∨ c.v.vs.vl * n = fieldRegs c.v.vs n * c.v.vs.vlenb)
    (hg : nf * fieldRegs c.v.vs n ≤ groupSize vd)
    (hlim : ∀ i f, i < c.v.vs.vl → f < nf → (base + BitVec.ofNat 64 (i * (nf * n) + f * n)).toNat ≤ c.core.limit.toNat) :
    ∃ c', vlSegment c n vd nf base (maskOf c.v.regs vm) epc handled = some c' ∧ c'.core = c.core ∧ c'.v.vs = { c.v.vs with vstart := 0 }
      ∧ SegLoaded c.v.vs.vlenb n vd nf (fieldRegs c.v.vs n) c.v.vs.vl (fun i f => base + BitVec.ofNat 64 (i * (nf * n) + f * n))
          (Active c.v.regs vm) c.core.mem c.v.regs c'.v.regs := by
  obtain ⟨hn, hd, hv⟩ := hn
  unfold vlSegment
  rw [if_neg (by omega), if_neg (by omega)]
  exact segLoad_spec c n vd nf _ _ _ _ epc handled (maskBit_iff _ _) hn hd hv hvl hm hg hlim

/-- The strided form. -/
theorem C50_segment_strided_load_partial (c : MCore w) (n vd nf : Nat) (base stride : BitVec 64) (vm : Bool) (epc : BitVec 64) (handled : Bool)
    (hsew : 0 < c.v.vs.sew) (hn : 0 < n ∧ n ∣ c.v.vs.vlenb ∧ 0 < c.v.vs.vlenb) (hvl : 0 < c.v.vs.vl)
    (hemul : n * c.v.vs.lmul8 / c.v.vs.sew * nf ≤ 64)
    (hm : (fieldRegs c.v.vs n = 1 ∧ c.v.vs.vl * n ≤ c.v.vs.vlenb) ∨ c.v.vs.vl * n = fieldRegs c.v.vs n * c.v.vs.vlenb)
    (hg : nf * fieldRegs c.v.vs n ≤ groupSize vd) (hf : StrideFits stride 0 c.v.vs.vl)
    (hlim : ∀ i f, i < c.v.vs.vl → f < nf → (strided base stride i + BitVec.ofNat 64 (f * n)).toNat ≤ c.core.limit.toNat) :
    ∃ c', vlSegmentStrided c n vd nf base stride (maskOf c.v.regs vm) epc handled = some c' ∧ c'.core = c.core ∧ c'.v.vs = { c.v.vs with vstart := 0 }
      ∧ SegLoaded c.v.vs.vlenb n vd nf (fieldRegs c.v.vs n) c.v.vs.vl (fun i f => strided base stride i + BitVec.ofNat 64 (f * n))
          (Active c.v.regs vm) c.core.mem c.v.regs c'.v.regs := by
  obtain ⟨hn, hd, hv⟩ := hn
  unfold vlSegmentStrided
  rw [if_neg (by omega), if_neg (by omega), stride_ok hf]
  simp only [Bool.false_eq_true, if_false, strideAddr_eq]
  exact segLoad_spec c n vd nf _ _ _ _ epc handled (maskBit_iff _ _) hn hd hv hvl hm hg hlim

/-- The indexed form: fields have SEW, the index elements `ni` bytes. -/
theorem C50_segment_indexed_load_partial (c : MCore w) (ni vd nf vidx : Nat) (base : BitVec 64) (vm : Bool) (epc : BitVec 64) (handled : Bool)
    (hn : 0 < c.v.vs.sew ∧ c.v.vs.sew ∣ c.v.vs.vlenb ∧ 0 < c.v.vs.vlenb) (hvl : 0 < c.v.vs.vl)
    (hi : 0 < ni ∧ ni ∣ c.v.vs.vlenb) (hemul : c.v.vs.lmul8 * nf ≤ 64) (hie : c.v.vs.sew ≤ c.v.vs.lmul8 * ni ∧ c.v.vs.lmul8 * ni ≤ 64 * c.v.vs.sew)
    (hm : (fieldRegs c.v.vs c.v.vs.sew = 1 ∧ c.v.vs.vl * c.v.vs.sew ≤ c.v.vs.vlenb) ∨ c.v.vs.vl * c.v.vs.sew = fieldRegs c.v.vs c.v.vs.sew * c.v.vs.vlenb)
    (hg : nf * fieldRegs c.v.vs c.v.vs.sew ≤ groupSize vd)
    (idx : Nat → BitVec (8 * ni)) (hidx : ∀ i, i < c.v.vs.vl → IsElem c.v.vs.vlenb ni c.v.regs vidx i (idx i))
    (hlim : ∀ i f, i < c.v.vs.vl → f < nf → (base + (idx i).setWidth 64 + BitVec.ofNat 64 (f * c.v.vs.sew)).toNat ≤ c.core.limit.toNat) :
    ∃ c', vlSegmentIndexed c ni vd nf vidx base (maskOf c.v.regs vm) epc handled = some c' ∧ c'.core = c.core ∧ c'.v.vs = { c.v.vs with vstart := 0 }
      ∧ SegLoaded c.v.vs.vlenb c.v.vs.sew vd nf (fieldRegs c.v.vs c.v.vs.sew) c.v.vs.vl
          (fun i f => base + (idx i).setWidth 64 + BitVec.ofNat 64 (f * c.v.vs.sew)) (Active c.v.regs vm) c.core.mem c.v.regs c'.v.regs := by
  obtain ⟨hn, hd, hv⟩ := hn
  have hsrc : ∀ i, i < c.v.vs.vl → source c.v.vs.vlenb ni c.v.regs vidx i = idx i := fun i h => (isElem_iff hi.1 hi.2 hv _ _ _ _).1 (hidx i h)
  have hemi := emul_ok hn hie
  unfold vlSegmentIndexed
  simp only
  rw [if_neg (by omega), if_neg (by omega)]
  obtain ⟨c', h1, h2, h3, h4, h5⟩ := segLoad_spec c c.v.vs.sew vd nf _
    (fun i f => base + (source c.v.vs.vlenb ni c.v.regs vidx i).setWidth 64 + BitVec.ofNat 64 (f * c.v.vs.sew)) _ _ epc handled (maskBit_iff _ _) hn hd hv hvl hm hg
    (fun i f hi hf => by rw [hsrc i hi]; exact hlim i f hi hf)
  refine ⟨c', h1, h2, h3, fun f i hf hi ha => ?_, h5⟩
  have := h4 f i hf hi ha
  simp only [hsrc i hi] at this
  exact this

/-- **C50 (alignment) is violated**: a segment load whose destination operand has fewer registers than fields writes nothing and sets the vector exception.
The operand of an odd numbered register has one register, so every segment load to an odd register fails, although the ISA allows any `vd` with
`vd + NFIELDS*EMUL ≤ 32` when EMUL = 1. -/
theorem C50_alignment_violated (c : MCore w) (n vd nf : Nat) (base : BitVec 64) (vm : Bool) (epc : BitVec 64) (handled : Bool)
    (hsew : 0 < c.v.vs.sew) (hv : 0 < c.v.vs.vlenb) (hodd : vd % 2 = 1) (hnf : 2 ≤ nf) (hemul : n * c.v.vs.lmul8 / c.v.vs.sew * nf ≤ 64)
    (hvl : 0 < c.v.vs.vl)
    (hlim : ∀ i f, i < c.v.vs.vl → f < nf → (base + BitVec.ofNat 64 (i * (nf * n) + f * n)).toNat ≤ c.core.limit.toNat) :
    vlSegment c n vd nf base (maskOf c.v.regs vm) epc handled
      = some (MCore.mk c.core (VCore.mk { c.v.vs with vstart := 0, exception := true } c.v.regs)) := by
  have hgs : groupSize vd = 1 := by
    unfold groupSize
    have h : vd % 8 = 1 ∨ vd % 8 = 3 ∨ vd % 8 = 5 ∨ vd % 8 = 7 := by omega
    rcases h with h | h | h | h <;> rw [h] <;> rfl
  unfold vlSegment
  rw [if_neg (by omega), if_neg (by omega)]
  unfold segLoad
  simp only
  rw [loadV_ok]
  · simp only [segWriteBack]
    have h1 : nf * 1 ≤ nf * max 1 (c.v.vs.vl * n / c.v.vs.vlenb) := Nat.mul_le_mul_left _ (by omega)
    rw [if_neg (by omega), if_pos (by omega)]
    rfl
  · intro e he
    obtain ⟨j, hj, rfl⟩ := List.mem_map.mp he
    rw [List.mem_range] at hj
    exact hlim _ _ (Nat.mod_lt _ hvl) (by rw [Nat.div_lt_iff_lt_mul hvl]; exact hj)

/-- **C50 (vl = 0) is violated**: with vl = 0 a segment load, which should do nothing, divides by zero. -/
theorem C50_empty_violated (c : MCore w) (n vd nf : Nat) (base : BitVec 64) (vm : Bool) (epc : BitVec 64) (handled : Bool)
    (hsew : 0 < c.v.vs.sew) (hv : 0 < c.v.vs.vlenb) (hemul : n * c.v.vs.lmul8 / c.v.vs.sew * nf ≤ 64) (hg : nf ≤ groupSize vd) (hvl : c.v.vs.vl = 0) :
    vlSegment c n vd nf base (maskOf c.v.regs vm) epc handled = none := by
  unfold vlSegment
  rw [if_neg (by omega), if_neg (by omega)]
  unfold segLoad
  simp only [hvl, Nat.mul_zero, List.range_zero, List.map_nil]
  rw [loadV_ok _ _ _ _ _ (by simp)]
  simp only [segWriteBack, Nat.zero_mul, Nat.zero_div, Nat.min_zero]
  rw [if_neg (by omega), if_neg (by simp; omega), if_neg (by omega), if_pos trivial]
  rfl

/-- LMUL = 2, vl = 5 of VLMAX 8. -/
def mc2 : MCore 64 := { mc with v := { mc.v with vs := { vcfg with lmul8 := 16, vtype := 0x11#32, vl := 5, vmax := 8 } } }

/-- The hypotheses of `C50_segment_load_partial` are met with vl = VLMAX, LMUL = 2 and two fields. -/
example : ∃ c', vlSegment { mc2 with v := { mc2.v with vs := { mc2.v.vs with vl := 8 } } } 4 4 2 0x100#64 (maskOf mc.v.regs true) 0#64 false = some c'
    ∧ c'.core = mc2.core := by
  obtain ⟨c', h1, h2, _⟩ := C50_segment_load_partial { mc2 with v := { mc2.v with vs := { mc2.v.vs with vl := 8 } } } 4 4 2 0x100#64 true 0#64 false
    (by decide) ⟨by decide, ⟨4, rfl⟩, by decide⟩ (by decide) (by decide) (Or.inr (by decide)) (by decide)
    (by
      intro i f hi hf
      change i < 8 at hi
      show _ ≤ (0x1000 : Nat)
      rw [BitVec.toNat_add, BitVec.toNat_ofNat, BitVec.toNat_ofNat]
      omega)
  exact ⟨c', h1, h2⟩

/-- **C50 (layout) is violated**: VLEN = 128, SEW = 32, LMUL = 2, vl = 5, two fields, vd = 4.  Field 1 of segment 0 (the word at 0x104) should be element 0
of register 6; it goes to element 1 of register 5, and register 6 is not written. -/
theorem C50_layout_violated :
    ∃ c', vlSegment mc2 4 4 2 0x100#64 (maskOf mc.v.regs true) 0#64 false = some c'
      ∧ source 16 4 c'.v.regs 6 0 = source 16 4 mc2.v.regs 6 0 ∧ source 16 4 mc2.v.regs 6 0 ≠ 0x07060504#32 ∧ source 16 4 c'.v.regs 5 1 = 0x07060504#32 :=
  ⟨_, rfl, by decide, by decide, by decide⟩

/-! ### C70: segment stores -/

/-- Elements of the flat list of a segment store. -/
theorem segStore_spec (c : MCore w) (n vs3 nf m : Nat) (addr : Nat → Nat → BitVec 64) (active : Nat → Bool) (P : Nat → Prop) (epc : BitVec 64)
    (handled : Bool) (hP : ∀ i, active i = true ↔ P i) (hn : 0 < n) (hn8 : n ≤ 8) (hd : n ∣ c.v.vs.vlenb) (hv : 0 < c.v.vs.vlenb)
    (hm : c.v.vs.vl * n ≤ m * c.v.vs.vlenb) (hg : nf * m ≤ groupSize vs3) (hnf : 0 < nf)
    (hlim : ∀ i f, i < c.v.vs.vl → f < nf → (addr i f).toNat ≤ c.core.limit.toNat)
    (val : Nat → Nat → BitVec (8 * n)) (hval : ∀ i f, i < c.v.vs.vl → f < nf → IsElem c.v.vs.vlenb n c.v.regs (vs3 + f * m) i (val i f)) :
    ∃ c' m', segStore c n vs3 nf m addr active epc handled = some c' ∧ c'.core = { c.core with mem := m' }
      ∧ c'.v = { c.v with vs := { c.v.vs with vstart := 0 } }
      ∧ Stored n 0 (c.v.vs.vl * nf) (fun j => addr (j / nf) (j % nf)) (fun j => P (j / nf)) (fun j => (val (j / nf) (j % nf)).toNat) c.core.mem m' := by
  have hq : 0 < c.v.vs.vlenb / n := Nat.div_pos (Nat.le_of_dvd hv hd) hn
  have hdl : ∀ j, j < c.v.vs.vl * nf → j / nf < c.v.vs.vl ∧ j % nf < nf := fun j hj =>
    ⟨by rw [Nat.div_lt_iff_lt_mul hnf]; exact hj, Nat.mod_lt _ hnf⟩
  unfold segStore
  simp only
  rw [if_neg (by omega)]
  have hany : ((List.range (c.v.vs.vl * nf)).any fun j =>
      active (j / nf) && decide (groupSize vs3 ≤ j % nf * m + j / nf / (c.v.vs.vlenb / n))) = false := by
    rw [List.any_eq_false]
    intro j hj
    rw [List.mem_range] at hj
    obtain ⟨d1, d2⟩ := hdl j hj
    have hr : j / nf / (c.v.vs.vlenb / n) < m := by
      rw [div_epv hn hd, Nat.div_lt_iff_lt_mul hv]
      have := Nat.mul_lt_mul_of_pos_right d1 hn
      omega
    have hf : (j % nf + 1) * m ≤ nf * m := Nat.mul_le_mul_right _ d2
    rw [Nat.add_mul, Nat.one_mul] at hf
    generalize j / nf / (c.v.vs.vlenb / n) = t at *
    have : ¬ groupSize vs3 ≤ j % nf * m + t := by omega
    simp [this]
  rw [hany]
  simp only [Bool.false_eq_true, if_false]
  have hes : (List.range (c.v.vs.vl * nf)).map (fun j => ({ addr := addr (j / nf) (j % nf), active := active (j / nf), data := (VecLoop.getElem n (c.v.regs (vs3 + (j % nf * m + j / nf / (c.v.vs.vlenb / n)))) (j / nf % (c.v.vs.vlenb / n))).toNat } : Elem))
      = elems 0 (c.v.vs.vl * nf) (fun j => addr (j / nf) (j % nf)) (fun j => active (j / nf))
        (fun j => (VecLoop.getElem n (c.v.regs (vs3 + (j % nf * m + j / nf / (c.v.vs.vlenb / n)))) (j / nf % (c.v.vs.vlenb / n))).toNat) := by
    unfold elems
    simp only [Nat.zero_add, Nat.sub_zero]
  rw [hes]
  refine ⟨_, _, rfl, by unfold storeElems; exact storeV_ok _ _ _ _ _ (fun e he => by
    obtain ⟨j, h1, h2, rfl⟩ := mem_elems he
    obtain ⟨d1, d2⟩ := hdl j h2
    exact hlim _ _ d1 d2), rfl, ?_⟩
  refine stored_congr (fun _ _ _ => rfl) (fun j _ h2 => ?_)
    (scatter_stored c.core.mem n _ _ (by omega) _ _ _ (fun j => P (j / nf)) (fun j => hP (j / nf)) (Nat.zero_le _))
  obtain ⟨d1, d2⟩ := hdl j h2
  have := (isElem_iff hn hd hv _ _ _ _).1 (hval _ _ d1 d2)
  rw [← this]
  unfold source
  rw [Nat.add_assoc]

/-- **C70 (unit stride), partial.** With vstart = 0 a segment store writes, in the order of memory, field `f` of every active segment `i` from element `i` of the
`f`-th group of EMUL registers.  Element `j` of the access is field `j % nf` of segment `j / nf`.  Missing: vstart > 0, source operands with fewer registers
than needed, inactive segments above the limit. -/
theorem C70_segment_store_partial (c : MCore w) (n vs3 nf : Nat) (base : BitVec 64) (vm : Bool) (epc : BitVec 64) (handled : Bool)
    (hsew : 0 < c.v.vs.sew) (hn : 0 < n ∧ n ≤ 8 ∧ n ∣ c.v.vs.vlenb ∧ 0 < c.v.vs.vlenb) (hnf : 0 < nf)
    (hemul : n * c.v.vs.lmul8 / c.v.vs.sew * nf ≤ 64)
    (hm : c.v.vs.vl * n ≤ fieldRegs c.v.vs n * c.v.vs.vlenb) (hg : nf * fieldRegs c.v.vs n ≤ groupSize vs3)
    (hlim : ∀ i f, i < c.v.vs.vl → f < nf → (base + BitVec.ofNat 64 ((i * nf + f) * n)).toNat ≤ c.core.limit.toNat)
    (val : Nat → Nat → BitVec (8 * n))
    (hval : ∀ i f, i < c.v.vs.vl → f < nf → IsElem c.v.vs.vlenb n c.v.regs (vs3 + f * fieldRegs c.v.vs n) i (val i f)) :
    ∃ c' m', vsSegment c n vs3 nf base (maskOf c.v.regs vm) epc handled = some c' ∧ c'.core = { c.core with mem := m' }
      ∧ c'.v = { c.v with vs := { c.v.vs with vstart := 0 } }
      ∧ Stored n 0 (c.v.vs.vl * nf) (fun j => base + BitVec.ofNat 64 (j * n)) (fun j => Active c.v.regs vm (j / nf))
          (fun j => (val (j / nf) (j % nf)).toNat) c.core.mem m' := by
  obtain ⟨hn, hn8, hd, hv⟩ := hn
  unfold vsSegment
  simp only
  rw [if_neg (by omega), if_neg (by omega)]
  obtain ⟨c', m', h1, h2, h3, h4⟩ := segStore_spec c n vs3 nf (fieldRegs c.v.vs n) _ _ _ epc handled (maskBit_iff c.v.regs vm) hn hn8 hd hv hm hg hnf hlim val hval
  refine ⟨c', m', h1, h2, h3, stored_congr (fun j _ _ => ?_) (fun _ _ _ => rfl) h4⟩
  have := Nat.div_add_mod j nf
  rw [Nat.mul_comm] at this
  rw [this]

/-- **C70 (strided), partial.** -/
theorem C70_segment_strided_store_partial (c : MCore w) (n vs3 nf : Nat) (base stride : BitVec 64) (vm : Bool) (epc : BitVec 64) (handled : Bool)
    (hsew : 0 < c.v.vs.sew) (hn : 0 < n ∧ n ≤ 8 ∧ n ∣ c.v.vs.vlenb ∧ 0 < c.v.vs.vlenb) (hnf : 0 < nf)
    (hemul : n * c.v.vs.lmul8 / c.v.vs.sew * nf ≤ 64)
    (hm : c.v.vs.vl * n ≤ fieldRegs c.v.vs n * c.v.vs.vlenb) (hg : nf * fieldRegs c.v.vs n ≤ groupSize vs3)
    (hlim : ∀ i f, i < c.v.vs.vl → f < nf → (strided base stride i + BitVec.ofNat 64 (f * n)).toNat ≤ c.core.limit.toNat)
    (val : Nat → Nat → BitVec (8 * n))
    (hval : ∀ i f, i < c.v.vs.vl → f < nf → IsElem c.v.vs.vlenb n c.v.regs (vs3 + f * fieldRegs c.v.vs n) i (val i f)) :
    ∃ c' m', vsSegmentStrided c n vs3 nf base stride (maskOf c.v.regs vm) epc handled = some c' ∧ c'.core = { c.core with mem := m' }
      ∧ c'.v = { c.v with vs := { c.v.vs with vstart := 0 } }
      ∧ Stored n 0 (c.v.vs.vl * nf) (fun j => strided base stride (j / nf) + BitVec.ofNat 64 (j % nf * n)) (fun j => Active c.v.regs vm (j / nf))
          (fun j => (val (j / nf) (j % nf)).toNat) c.core.mem m' := by
  obtain ⟨hn, hn8, hd, hv⟩ := hn
  have hst : ∀ i, base + BitVec.ofNat 64 i * stride = strided base stride i := by
    intro i
    unfold strided
    rw [BitVec.ofInt_add, BitVec.ofInt_toInt, BitVec.ofInt_mul, BitVec.ofInt_toInt, BitVec.ofInt_natCast]
  unfold vsSegmentStrided
  simp only
  rw [if_neg (by omega), if_neg (by omega)]
  simp only [hst]
  exact segStore_spec c n vs3 nf (fieldRegs c.v.vs n) _ _ _ epc handled (maskBit_iff c.v.regs vm) hn hn8 hd hv hm hg hnf hlim val hval

/-- **C70 (indexed), partial**: index elements without the sign bit set (or of 64 bits).  Missing: others (`C70_index_sign_violated`). -/
theorem C70_segment_indexed_store_partial (c : MCore w) (ni vs3 nf vidx : Nat) (base : BitVec 64) (vm : Bool) (epc : BitVec 64) (handled : Bool)
    (hn : 0 < c.v.vs.sew ∧ c.v.vs.sew ≤ 8 ∧ c.v.vs.sew ∣ c.v.vs.vlenb ∧ 0 < c.v.vs.vlenb) (hnf : 0 < nf)
    (hi : 0 < ni ∧ ni ≤ 8 ∧ ni ∣ c.v.vs.vlenb) (hemul : c.v.vs.lmul8 * nf ≤ 64) (hie : c.v.vs.sew ≤ c.v.vs.lmul8 * ni ∧ c.v.vs.lmul8 * ni ≤ 64 * c.v.vs.sew)
    (hm : c.v.vs.vl * c.v.vs.sew ≤ fieldRegs c.v.vs c.v.vs.sew * c.v.vs.vlenb) (hg : nf * fieldRegs c.v.vs c.v.vs.sew ≤ groupSize vs3)
    (idx : Nat → BitVec (8 * ni)) (hidx : ∀ i, i < c.v.vs.vl → IsElem c.v.vs.vlenb ni c.v.regs vidx i (idx i)) (hpos : ∀ i, i < c.v.vs.vl → (idx i).msb = false)
    (hlim : ∀ i f, i < c.v.vs.vl → f < nf → (base + (idx i).setWidth 64 + BitVec.ofNat 64 (f * c.v.vs.sew)).toNat ≤ c.core.limit.toNat)
    (val : Nat → Nat → BitVec (8 * c.v.vs.sew))
    (hval : ∀ i f, i < c.v.vs.vl → f < nf → IsElem c.v.vs.vlenb c.v.vs.sew c.v.regs (vs3 + f * fieldRegs c.v.vs c.v.vs.sew) i (val i f)) :
    ∃ c' m', vsSegmentIndexed c ni vs3 nf vidx base (maskOf c.v.regs vm) epc handled = some c' ∧ c'.core = { c.core with mem := m' }
      ∧ c'.v = { c.v with vs := { c.v.vs with vstart := 0 } }
      ∧ Stored c.v.vs.sew 0 (c.v.vs.vl * nf) (fun j => base + (idx (j / nf)).setWidth 64 + BitVec.ofNat 64 (j % nf * c.v.vs.sew))
          (fun j => Active c.v.regs vm (j / nf)) (fun j => (val (j / nf) (j % nf)).toNat) c.core.mem m' := by
  obtain ⟨hn, hn8, hd, hv⟩ := hn
  have hsrc : ∀ i, i < c.v.vs.vl → (source c.v.vs.vlenb ni c.v.regs vidx i).signExtend 64 = (idx i).setWidth 64 := by
    intro i h
    rw [(isElem_iff hi.1 hi.2.2 hv _ _ _ _).1 (hidx i h)]
    exact BitVec.signExtend_eq_setWidth_of_msb_false (hpos i h)
  have hemi := emul_ok hn hie
  have hfr : max 1 (c.v.vs.lmul8 / 8) = fieldRegs c.v.vs c.v.vs.sew := by
    unfold fieldRegs
    rw [Nat.mul_div_cancel_left _ hn]
  unfold vsSegmentIndexed
  simp only
  rw [if_neg (by omega), if_neg (by omega), hfr]
  obtain ⟨c', m', h1, h2, h3, h4⟩ := segStore_spec c c.v.vs.sew vs3 nf (fieldRegs c.v.vs c.v.vs.sew)
    (fun i f => base + (source c.v.vs.vlenb ni c.v.regs vidx i).signExtend 64 + BitVec.ofNat 64 (f * c.v.vs.sew)) _ _ epc handled
    (maskBit_iff c.v.regs vm) hn hn8 hd hv hm hg hnf (fun i f hi hf => by rw [hsrc i hi]; exact hlim i f hi hf) val hval
  refine ⟨c', m', h1, h2, h3, stored_congr (fun j _ h2 => ?_) (fun _ _ _ => rfl) h4⟩
  rw [hsrc _ (by rw [Nat.div_lt_iff_lt_mul hnf]; exact h2)]

/-- Register 3 holds the byte indices 0x80, 0x80, ... -/
def mc3 : MCore 64 := { mc with v := { vs := { vcfg with vl := 1 }, regs := fun r x => if r = 3 then 0x80#8 else BitVec.ofNat 8 (16 * r + x) } }

/-- **C70 (indexed) is violated** for indices with the top bit set: the index 0x80 with base 0x200 should address 0x280; the store goes to 0x180. -/
theorem C70_index_sign_violated :
    ∃ c', vsSegmentIndexed mc3 1 4 2 3 0x200#64 (maskOf mc3.v.regs true) 0#64 false = some c'
      ∧ c'.core.mem 0x280#64 = mc3.core.mem 0x280#64 ∧ mc3.core.mem 0x280#64 ≠ 0x40#8 ∧ c'.core.mem 0x180#64 = 0x40#8 :=
  ⟨_, rfl, by decide, by decide, by decide⟩

end Verif.VecMem
