import Verif.VecMem.Model
import Verif.VecLoop.Props
import Verif.Mem.Props
namespace Verif.VecMem
open Verif.Core Verif.Mem Verif.VecState Verif.VecLoop

/-- Byte `x` of a register of which `o` is the element there, `d` when there is none. -/
def pick (n : Nat) (o : Option (BitVec (8 * n))) (x : Nat) (d : BitVec 8) : BitVec 8 :=
  match o with
  | some v => v.extractLsb' (8 * (x % n)) 8
  | none => d

theorem updR_pick (n epv vd : Nat) (val : Nat → Option (BitVec (8 * n))) (lo hi : Nat) (R : VRegs) (r x : Nat) :
    updR n epv vd val lo hi R r x
      = if vd ≤ r ∧ x / n < epv ∧ lo ≤ (r - vd) * epv + x / n ∧ (r - vd) * epv + x / n < hi then
          pick n (val ((r - vd) * epv + x / n)) x (R r x) else R r x := rfl

/-- The optional element write of the write-back loops. -/
theorem put_spec (n : Nat) (o : Option (BitVec (8 * n))) (b : Buf) (i x : Nat) :
    put n o b i x = if x / n = i then pick n o x (b x) else b x := by
  unfold pick put
  cases o with
  | none => simp
  | some v => rfl

/-- The segment inner loop writes elements `i` to `i + k - 1`. -/
theorem segInner_spec (n : Nat) (vals : Nat → Option (BitVec (8 * n))) (k i idx : Nat) (b : Buf) (x : Nat) :
    segInner n vals k i idx b x
      = if i ≤ x / n ∧ x / n < i + k then pick n (vals (idx + (x / n - i))) x (b x) else b x := by
  induction k generalizing i idx b with
  | zero => rw [segInner, if_neg (by omega)]
  | succ k ih =>
    rw [segInner, ih]
    simp only [put_spec]
    generalize hy : x / n = y
    by_cases hx : y = i
    · subst hx
      rw [if_neg (by omega), if_pos rfl, if_pos (by omega), Nat.sub_self, Nat.add_zero]
    · simp only [if_neg hx]
      by_cases hc : i + 1 ≤ y ∧ y < i + 1 + k
      · rw [if_pos hc, if_pos (by omega), show idx + 1 + (y - (i + 1)) = idx + (y - i) by omega]
      · rw [if_neg hc, if_neg (by omega)]

theorem wbInner_eq (n : Nat) (vals : Nat → Option (BitVec (8 * n))) (idx k i : Nat) (b : Buf) :
    wbInner n vals idx k i b = segInner n vals k i (idx + i) b := by
  induction k generalizing i b with
  | zero => rfl
  | succ k ih => rw [wbInner, segInner, ih]; rfl

/-- Writing the elements `vi` to `hi - 1` that live in register `reg` of the group extends `updR`. -/
theorem updR_step (n epv vd : Nat) (val : Nat → Option (BitVec (8 * n))) (lo vi hi reg : Nat) (R : VRegs) (b : Buf)
    (h1 : reg * epv ≤ vi) (h2 : hi ≤ reg * epv + epv) (hlo : lo ≤ vi) (hv : vi ≤ hi)
    (hb : ∀ x, b x = if vi ≤ reg * epv + x / n ∧ reg * epv + x / n < hi then
        pick n (val (reg * epv + x / n)) x (updR n epv vd val lo vi R (vd + reg) x)
      else updR n epv vd val lo vi R (vd + reg) x) :
    (fun q => if q = vd + reg then b else updR n epv vd val lo vi R q) = updR n epv vd val lo hi R := by
  funext q x
  by_cases hq : q = vd + reg
  · subst hq
    rw [if_pos rfl, hb]
    simp only [updR_pick, Nat.add_sub_cancel_left]
    generalize x / n = y
    by_cases c1 : vi ≤ reg * epv + y ∧ reg * epv + y < hi
    · have n1 : ¬ (vd ≤ vd + reg ∧ y < epv ∧ lo ≤ reg * epv + y ∧ reg * epv + y < vi) := by omega
      have n2 : vd ≤ vd + reg ∧ y < epv ∧ lo ≤ reg * epv + y ∧ reg * epv + y < hi := by omega
      rw [if_pos c1, if_neg n1, if_pos n2]
    · rw [if_neg c1]
      by_cases c2 : vd ≤ vd + reg ∧ y < epv ∧ lo ≤ reg * epv + y ∧ reg * epv + y < vi
      · rw [if_pos c2, if_pos (by omega)]
      · rw [if_neg c2, if_neg (by omega)]
  · rw [if_neg hq]
    simp only [updR_pick]
    generalize x / n = y
    by_cases c2 : vd ≤ q ∧ y < epv ∧ lo ≤ (q - vd) * epv + y ∧ (q - vd) * epv + y < vi
    · rw [if_pos c2, if_pos (by omega)]
    · rw [if_neg c2, if_neg]
      rintro ⟨d1, d2, d3, d4⟩
      apply c2
      refine ⟨d1, d2, d3, ?_⟩
      by_cases hlt : q - vd < reg
      · have : (q - vd + 1) * epv ≤ reg * epv := Nat.mul_le_mul_right _ (by omega)
        rw [Nat.add_mul, Nat.one_mul] at this
        omega
      · have : (reg + 1) * epv ≤ (q - vd) * epv := Nat.mul_le_mul_right _ (by omega)
        rw [Nat.add_mul, Nat.one_mul] at this
        omega

/-- One field: starting at element `vi` (of the whole group, in register `reg`), with the data of element `e` at index
`e - vi + idx`, `rem` elements are written. -/
theorem segField_spec (n epv vd : Nat) (hepv : 0 < epv) (vals : Nat → Option (BitVec (8 * n))) (val : Nat → Option (BitVec (8 * n)))
    (R0 : VRegs) (lo : Nat) (k reg off rem idx vi : Nat) (hvi : vi = reg * epv + off) (hoff : off < epv) (hlo : lo ≤ vi)
    (hval : ∀ j, j < rem → vals (idx + j) = val (vi + j)) (hk : vi + rem ≤ (reg + k) * epv) :
    segField n epv vd vals k reg off rem idx (updR n epv vd val lo vi R0) = (updR n epv vd val lo (vi + rem) R0, idx + rem) := by
  induction k generalizing reg off rem idx vi with
  | zero =>
    rw [Nat.add_zero] at hk
    have : rem = 0 := by omega
    rw [segField, this]; rfl
  | succ k ih =>
    rw [segField]
    have hmul : (reg + 1) * epv = reg * epv + epv := by rw [Nat.add_mul, Nat.one_mul]
    have hmulk : (reg + (k + 1)) * epv = (reg + 1 + k) * epv := by congr 1; omega
    have hstep := updR_step n epv vd val lo vi (vi + (min (rem + off) epv - off)) reg R0
      (segInner n vals (min (rem + off) epv - off) off idx (updR n epv vd val lo vi R0 (vd + reg))) (by omega) (by omega) hlo (by omega)
      (by
        intro x
        rw [segInner_spec]
        generalize x / n = y
        by_cases c : off ≤ y ∧ y < off + (min (rem + off) epv - off)
        · rw [if_pos c, if_pos (by omega), hval (y - off) (by omega), show vi + (y - off) = reg * epv + y by omega]
        · rw [if_neg c, if_neg (by omega)])
    rw [hstep]
    by_cases hlast : rem + off ≤ epv
    · have e0 : rem - (min (rem + off) epv - off) = 0 := by omega
      have e1 : min (rem + off) epv - off = rem := by omega
      rw [e0, e1]
      -- the remaining registers get nothing
      have hrest : ∀ k reg (R : VRegs), segField n epv vd vals k reg 0 0 (idx + rem) R = (R, idx + rem) := by
        intro k
        induction k with
        | zero => intro reg R; rfl
        | succ k ihk =>
          intro reg R
          rw [segField]
          have : min (0 + 0) epv - 0 = 0 := by omega
          simp only [this, segInner, Nat.add_zero, Nat.sub_zero]
          have hR : (fun q => if q = vd + reg then R (vd + reg) else R q) = R := by
            funext q; by_cases h : q = vd + reg
            · rw [if_pos h, h]
            · rw [if_neg h]
          rw [hR, ihk]
      rw [hrest]
    · have e1 : min (rem + off) epv - off = epv - off := by omega
      rw [e1]
      have := ih (reg + 1) 0 (rem - (epv - off)) (idx + (epv - off)) (vi + (epv - off)) (by omega) hepv (by omega)
        (by
          intro j hj
          have := hval (epv - off + j) (by omega)
          rw [show idx + (epv - off) + j = idx + (epv - off + j) by omega, show vi + (epv - off) + j = vi + (epv - off + j) by omega]
          exact this)
        (by omega)
      rw [this, show vi + (epv - off) + (rem - (epv - off)) = vi + rem by omega, show idx + (epv - off) + (rem - (epv - off)) = idx + rem by omega]

/-- From a register boundary the plain write-back loop does the same. -/
theorem wbOuter_eq (n epv vd : Nat) (vals : Nat → Option (BitVec (8 * n))) (hepv : 0 < epv) (k reg cnt idx : Nat) (R : VRegs) :
    wbOuter n epv vd vals k reg 0 cnt idx R = (segField n epv vd vals k reg 0 cnt idx R).1 := by
  induction k generalizing reg cnt idx R with
  | zero => rfl
  | succ k ih =>
    rw [wbOuter, segField]
    by_cases hc : cnt > 0
    · rw [if_pos hc]
      simp only [Nat.sub_zero, Nat.add_zero]
      simp only [wbInner_eq, ih, Nat.add_zero, Nat.min_comm epv cnt]
    · have h0 : cnt = 0 := by omega
      subst h0
      rw [if_neg (by omega)]
      have : min (0 + 0) epv - 0 = 0 := by omega
      simp only [this, segInner, Nat.add_zero, Nat.sub_zero]
      have hR : (fun q => if q = vd + reg then R (vd + reg) else R q) = R := by
        funext q; by_cases h : q = vd + reg
        · rw [if_pos h, h]
        · rw [if_neg h]
      rw [hR, ← ih]
      cases k with
      | zero => rfl
      | succ k => rw [wbOuter, if_neg (by omega)]

/-- The whole write-back, when vstart is at a register boundary. -/
theorem writeBack_spec (v : VCore) (n vd start num : Nat) (vals : Nat → Option (BitVec (8 * n))) (hepv : 0 < v.vs.vlenb / n)
    (hg : num ≤ groupSize vd * (v.vs.vlenb / n)) (hs : start % (v.vs.vlenb / n) = 0) (hle : start ≤ num) :
    writeBack v n vd start num (num - start) vals
      = some { v with regs := updR n (v.vs.vlenb / n) vd (fun e => vals (e - start)) start num v.regs } := by
  unfold writeBack
  generalize v.vs.vlenb / n = epv at *
  have hmr : (num + epv - 1) / epv ≤ groupSize vd := by
    have := Nat.div_lt_of_lt_mul (m := num + epv - 1) (n := epv) (k := groupSize vd + 1) (by
      rw [Nat.mul_add, Nat.mul_one, Nat.mul_comm]; omega)
    omega
  simp only
  rw [if_neg (by omega), if_neg (by omega), if_neg (by omega), hs, wbOuter_eq _ _ _ _ hepv]
  have hdm := Nat.div_add_mod start epv
  rw [hs, Nat.add_zero, Nat.mul_comm] at hdm
  have h := segField_spec n epv vd hepv vals (fun e => vals (e - start)) v.regs start ((num + epv - 1) / epv - start / epv) (start / epv) 0
    (num - start) 0 start (by omega) hepv (Nat.le_refl _) (by intro j hj; rw [Nat.zero_add, Nat.add_sub_cancel_left])
    (by
      have hmul : num ≤ (num + epv - 1) / epv * epv := by
        have h1 := Nat.div_add_mod (num + epv - 1) epv
        have h2 := Nat.mod_lt (num + epv - 1) hepv
        rw [Nat.mul_comm] at h1
        omega
      by_cases hq : start / epv ≤ (num + epv - 1) / epv
      · rw [Nat.add_sub_cancel' hq]; omega
      · have : (num + epv - 1) / epv * epv ≤ start / epv * epv := Nat.mul_le_mul_right _ (by omega)
        rw [Nat.add_mul]; omega)
  rw [updR_empty _ _ _ _ _ _ _ (Nat.le_refl _)] at h
  rw [h, show start + (num - start) = num by omega]

/-- What is in memory at the elements of an access. -/
theorem gather_elems (m : Memory) (start num n : Nat) (addr : Nat → BitVec 64) (active : Nat → Bool) (data : Nat → Nat) (j : Nat) (hj : j < num - start) :
    (gather m (elems start num addr active data) n).getD j none
      = if active (start + j) then some (readLE m (addr (start + j)) n) else none := by
  unfold gather elems
  rw [List.getD_eq_getElem?_getD, List.getElem?_map, List.getElem?_map, List.getElem?_range hj]
  rfl

end Verif.VecMem
