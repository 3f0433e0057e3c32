import Verif.VecScan.Spec
import Verif.VecMask.Props
/-
C89: counting and scanning mask registers, viota and vid.
-/
namespace Verif.VecScan
open Verif.VecState Verif.VecLoop Verif.VecLoop.Spec Verif.VecMask.Spec Spec

theorem active_bool (R : VRegs) (vm : Bool) (i : Nat) : maskBit (maskOf R vm) i = (vm || mbit R 0 i) := by
  apply Bool.eq_iff_iff.2
  rw [maskBit_iff]
  unfold Active mbit
  simp

theorem hit_eq (R : VRegs) (vm : Bool) (vs2 i : Nat) :
    (maskBit (maskOf R vm) i && maskBit (R vs2) i) = hit R vm vs2 i := by
  rw [active_bool, maskBit_eq]
  rfl

/-! ### vcpop and vfirst -/

theorem howMany_succ (p : Nat → Bool) (n : Nat) : howMany p (n + 1) = howMany p n + if p n then 1 else 0 := by
  unfold howMany
  rw [List.range_succ, List.filter_append, List.length_append]
  congr 1
  by_cases h : p n = true
  · simp [h]
  · simp [h]

theorem howMany_le (p : Nat → Bool) (n : Nat) : howMany p n ≤ n := by
  unfold howMany
  exact Nat.le_trans (List.length_filter_le ..) (by simp)

theorem count_eq (m s : Buf) (k : Nat) : ∀ i, count m s k i (howMany (fun i => maskBit m i && maskBit s i) i)
    = howMany (fun i => maskBit m i && maskBit s i) (i + k) := by
  induction k with
  | zero => intro i; rfl
  | succ k ih =>
    intro i
    rw [count, show i + (k + 1) = i + 1 + k by omega, ← ih (i + 1), howMany_succ]
    congr 1
    by_cases h : (maskBit m i && maskBit s i) = true
    · rw [if_pos h, if_pos h]
    · rw [if_neg h, if_neg h, Nat.add_zero]

/-- C89 for vcpop: rd receives the number of active set bits of the body. -/
theorem C89_vcpop (w : Nat) (c : VCore) (vs2 : Nat) (vm : Bool) (h0 : c.vs.vstart = 0) (hl : c.vs.vl < 2 ^ w) :
    ∃ r, vcpop w c vs2 vm = (c, some r) ∧ r.toNat = howMany (hit c.regs vm vs2) c.vs.vl := by
  refine ⟨_, by rw [vcpop, if_neg (fun h => h h0)], ?_⟩
  have hc := count_eq (maskOf c.regs vm) (c.regs vs2) c.vs.vl 0
  have hz : howMany (fun i => maskBit (maskOf c.regs vm) i && maskBit (c.regs vs2) i) 0 = 0 := rfl
  have hf : (fun i => maskBit (maskOf c.regs vm) i && maskBit (c.regs vs2) i) = hit c.regs vm vs2 :=
    funext (hit_eq c.regs vm vs2)
  rw [hz, Nat.zero_add] at hc
  rw [hc, BitVec.toNat_ofNat, hf]
  exact Nat.mod_eq_of_lt (Nat.lt_of_le_of_lt (howMany_le _ _) hl)

theorem first_some (m s : Buf) (k : Nat) : ∀ i r, first m s k i = some r →
    i ≤ r ∧ r < i + k ∧ (maskBit m r && maskBit s r) = true ∧ ∀ j, i ≤ j → j < r → (maskBit m j && maskBit s j) = false := by
  induction k with
  | zero => intro i r h; cases h
  | succ k ih =>
    intro i r h
    rw [first] at h
    by_cases hp : (maskBit m i && maskBit s i) = true
    · rw [if_pos hp] at h
      cases h
      exact ⟨Nat.le_refl _, by omega, hp, fun j h1 h2 => by omega⟩
    · rw [if_neg hp] at h
      obtain ⟨a, b, d, e⟩ := ih (i + 1) r h
      refine ⟨by omega, by omega, d, fun j h1 h2 => ?_⟩
      by_cases hj : j = i
      · rw [hj]; exact Bool.eq_false_iff.2 hp
      · exact e j (by omega) h2

theorem first_none (m s : Buf) (k : Nat) : ∀ i, first m s k i = none →
    ∀ j, i ≤ j → j < i + k → (maskBit m j && maskBit s j) = false := by
  induction k with
  | zero => intro i _ j h1 h2; omega
  | succ k ih =>
    intro i h j h1 h2
    rw [first] at h
    by_cases hp : (maskBit m i && maskBit s i) = true
    · rw [if_pos hp] at h; cases h
    · rw [if_neg hp] at h
      by_cases hj : j = i
      · rw [hj]; exact Bool.eq_false_iff.2 hp
      · exact ih (i + 1) h j (by omega) (by omega)

/-- C89 for vfirst: rd receives the index of the first active set bit of the body, or -1. -/
theorem C89_vfirst (w : Nat) (hw : 0 < w) (c : VCore) (vs2 : Nat) (vm : Bool) (h0 : c.vs.vstart = 0) (hl : c.vs.vl < 2 ^ w) :
    ∃ r, vfirst w c vs2 vm = (c, some r) ∧ IsFirst (hit c.regs vm vs2) c.vs.vl r := by
  refine ⟨_, by rw [vfirst, if_neg (fun h => h h0)], ?_⟩
  cases hf : first (maskOf c.regs vm) (c.regs vs2) c.vs.vl 0 with
  | some i =>
    obtain ⟨_, b, d, e⟩ := first_some _ _ _ _ _ hf
    left
    refine ⟨i, by omega, by rw [← hit_eq]; exact d, fun j hj => by rw [← hit_eq]; exact e j (Nat.zero_le _) hj, ?_⟩
    show (BitVec.ofNat w i).toNat = i
    rw [BitVec.toNat_ofNat]
    exact Nat.mod_eq_of_lt (by omega)
  | none =>
    right
    refine ⟨fun j hj => by rw [← hit_eq]; exact first_none _ _ _ _ hf j (Nat.zero_le _) (by omega), ?_⟩
    show (BitVec.allOnes w).toInt = -1
    rw [BitVec.toInt_allOnes, if_pos hw]

/-- C89: with a vstart that is not 0, vcpop and vfirst are refused and write nothing. -/
theorem C89_scalar_refused (w : Nat) (c : VCore) (vs2 : Nat) (vm : Bool) (h : c.vs.vstart ≠ 0) :
    vcpop w c vs2 vm = (refuse c, none) ∧ vfirst w c vs2 vm = (refuse c, none) := by
  rw [vcpop, if_pos h, vfirst, if_pos h]
  exact ⟨rfl, rfl⟩

/-! ### vmsbf, vmsif, vmsof -/

/-- Bit `j` of a buffer. -/
def bitAt (d : Buf) (j : Nat) : Bool := (d (j / 8)).getLsbD (j % 8)

theorem setBit_bit (d : Buf) (i : Nat) (v : Bool) (j : Nat) : bitAt (setBit d i v) j = if j = i then v else bitAt d j := by
  unfold bitAt setBit
  rw [Nat.shiftRight_eq_div_pow, show i &&& 0b111 = i % 8 from Nat.and_two_pow_sub_one_eq_mod i 3]
  have hj : j % 8 < 8 := Nat.mod_lt _ (by decide)
  have hi : i % 8 < 8 := Nat.mod_lt _ (by decide)
  have hb : (1#8 <<< (i % 8)).getLsbD (j % 8) = decide (j % 8 = i % 8) := by
    have : ∀ a b : Fin 8, (1#8 <<< a.val).getLsbD b.val = decide (b.val = a.val) := by decide
    exact this ⟨i % 8, hi⟩ ⟨j % 8, hj⟩
  by_cases h8 : j / 8 = i / 2 ^ 3
  · rw [if_pos h8]
    by_cases h : j = i
    · subst h
      rw [if_pos rfl]
      cases v
      · rw [if_neg (by decide), BitVec.getLsbD_and, BitVec.getLsbD_not, hb]
        simp
      · rw [if_pos rfl, BitVec.getLsbD_or, hb]
        simp
    · rw [if_neg h]
      have hne : ¬ (j % 8 = i % 8) := by omega
      cases v
      · rw [if_neg (by decide), BitVec.getLsbD_and, BitVec.getLsbD_not, hb]
        simp [hne, hj]
      · rw [if_pos rfl, BitVec.getLsbD_or, hb]
        simp [hne]
  · rw [if_neg h8, if_neg (by omega)]

theorem msif_bit (m s : Buf) (k : Nat) : ∀ i v d j, (v = true ↔ ∀ j, j < i → (maskBit m j && maskBit s j) = false) →
    (bitAt (msif m s k i v d) j = true ↔
      if i ≤ j ∧ j < i + k ∧ maskBit m j = true then ∀ l, l < j → (maskBit m l && maskBit s l) = false else bitAt d j = true) := by
  induction k with
  | zero =>
    intro i v d j _
    rw [if_neg (by omega)]
    rfl
  | succ k ih =>
    intro i v d j hv
    rw [msif]
    by_cases hm : maskBit m i = true
    · rw [if_pos hm, ih (i + 1) _ _ j, setBit_bit]
      · by_cases hj : j = i
        · subst hj
          rw [if_neg (by omega), if_pos rfl, if_pos ⟨Nat.le_refl _, by omega, hm⟩]
          exact hv
        · rw [if_neg hj]
          by_cases hc : i ≤ j ∧ j < i + (k + 1) ∧ maskBit m j = true
          · rw [if_pos hc, if_pos ⟨by omega, by omega, hc.2.2⟩]
          · rw [if_neg hc, if_neg (fun h => hc ⟨by omega, by omega, h.2.2⟩)]
      · by_cases hs : maskBit s i = true
        · rw [if_pos hs]
          refine ⟨fun h => (by cases h), fun h => ?_⟩
          have := h i (by omega)
          rw [hm, hs] at this
          cases this
        · rw [if_neg hs, hv]
          refine ⟨fun h l hl => ?_, fun h l hl => h l (by omega)⟩
          by_cases hli : l = i
          · rw [hli, Bool.eq_false_iff.2 hs, Bool.and_false]
          · exact h l (by omega)
    · rw [if_neg hm, ih (i + 1) _ _ j]
      · by_cases hj : j = i
        · subst hj
          rw [if_neg (by omega), if_neg (fun h => hm h.2.2)]
        · by_cases hc : i ≤ j ∧ j < i + (k + 1) ∧ maskBit m j = true
          · rw [if_pos hc, if_pos ⟨by omega, by omega, hc.2.2⟩]
          · rw [if_neg hc, if_neg (fun h => hc ⟨by omega, by omega, h.2.2⟩)]
      · rw [hv]
        refine ⟨fun h l hl => ?_, fun h l hl => h l (by omega)⟩
        by_cases hli : l = i
        · rw [hli, Bool.eq_false_iff.2 hm, Bool.false_and]
        · exact h l (by omega)

theorem msof_bit (m s : Buf) (k : Nat) : ∀ i v d j, (v = true ↔ ∀ j, j < i → (maskBit m j && maskBit s j) = false) →
    (bitAt (msof m s k i v d) j = true ↔
      if i ≤ j ∧ j < i + k ∧ maskBit m j = true then
        (maskBit m j && maskBit s j) = true ∧ ∀ l, l < j → (maskBit m l && maskBit s l) = false
      else bitAt d j = true) := by
  induction k with
  | zero =>
    intro i v d j _
    rw [if_neg (by omega)]
    rfl
  | succ k ih =>
    intro i v d j hv
    rw [msof]
    have step : ∀ d', (∀ j, j ≠ i → bitAt d' j = bitAt d j) → j ≠ i →
        ((if i + 1 ≤ j ∧ j < i + 1 + k ∧ maskBit m j = true then
          (maskBit m j && maskBit s j) = true ∧ ∀ l, l < j → (maskBit m l && maskBit s l) = false else bitAt d' j = true) ↔
        (if i ≤ j ∧ j < i + (k + 1) ∧ maskBit m j = true then
          (maskBit m j && maskBit s j) = true ∧ ∀ l, l < j → (maskBit m l && maskBit s l) = false else bitAt d j = true)) := by
      intro d' hd' hj
      by_cases hc : i ≤ j ∧ j < i + (k + 1) ∧ maskBit m j = true
      · rw [if_pos hc, if_pos ⟨by omega, by omega, hc.2.2⟩]
      · rw [if_neg hc, if_neg (fun h => hc ⟨by omega, by omega, h.2.2⟩), hd' j hj]
    have grow : (maskBit m i && maskBit s i) = false → (v = true ↔ ∀ j, j < i + 1 → (maskBit m j && maskBit s j) = false) := by
      intro hn
      rw [hv]
      refine ⟨fun h l hl => ?_, fun h l hl => h l (by omega)⟩
      by_cases hli : l = i
      · rw [hli]; exact hn
      · exact h l (by omega)
    by_cases hm : maskBit m i = true
    · rw [if_pos hm]
      by_cases hf : (v && maskBit s i) = true
      · rw [if_pos hf]
        obtain ⟨hv1, hs1⟩ := Bool.and_eq_true_iff.1 hf
        rw [ih (i + 1) _ _ j]
        · by_cases hj : j = i
          · subst hj
            rw [if_neg (by omega), if_pos ⟨Nat.le_refl _, by omega, hm⟩, setBit_bit, if_pos rfl, hm, hs1]
            exact ⟨fun _ => ⟨rfl, hv.1 hv1⟩, fun _ => rfl⟩
          · exact step _ (fun j hj => by rw [setBit_bit, if_neg hj]) hj
        · refine ⟨fun h => (by cases h), fun h => ?_⟩
          have := h i (by omega)
          rw [hm, hs1] at this
          cases this
      · rw [if_neg hf]
        have hv' : v = true ↔ ∀ j, j < i + 1 → (maskBit m j && maskBit s j) = false := by
          cases v
          · refine ⟨fun h => (by cases h), fun h => ?_⟩
            exact hv.2 (fun l hl => h l (by omega))
          · apply grow
            rw [Bool.true_and] at hf
            rw [Bool.eq_false_iff.2 hf, Bool.and_false]
        rw [ih (i + 1) _ _ j hv']
        by_cases hj : j = i
        · subst hj
          rw [if_neg (by omega), if_pos ⟨Nat.le_refl _, by omega, hm⟩, setBit_bit, if_pos rfl]
          refine ⟨fun h => (by cases h), fun h => ?_⟩
          exfalso
          apply hf
          rw [hv.2 h.2, Bool.true_and]
          exact (Bool.and_eq_true_iff.1 h.1).2
        · exact step _ (fun j hj => by rw [setBit_bit, if_neg hj]) hj
    · rw [if_neg hm, ih (i + 1) _ _ j (grow (by rw [Bool.eq_false_iff.2 hm, Bool.false_and]))]
      by_cases hj : j = i
      · subst hj
        rw [if_neg (by omega), if_neg (fun h => hm h.2.2)]
      · exact step _ (fun j _ => rfl) hj

theorem clear_bit (k : Nat) : ∀ i d j, bitAt (clear k i d) j = if i ≤ j ∧ j < i + k then false else bitAt d j := by
  induction k with
  | zero =>
    intro i d j
    rw [if_neg (by omega)]
    rfl
  | succ k ih =>
    intro i d j
    rw [clear, ih, setBit_bit]
    by_cases hj : j = i
    · rw [if_neg (by omega), if_pos hj, if_pos (by omega)]
    · rw [if_neg hj]
      by_cases hc : i ≤ j ∧ j < i + (k + 1)
      · rw [if_pos hc, if_pos (by omega)]
      · rw [if_neg hc, if_neg (by omega)]

theorem before_bit (m s : Buf) (k : Nat) : ∀ i d,
    (before m s k i d).2 = first m s k i ∧
    ∀ j, bitAt (before m s k i d).1 j =
      if i ≤ j ∧ j < ((first m s k i).getD (i + k)) ∧ maskBit m j = true then true else bitAt d j := by
  induction k with
  | zero =>
    intro i d
    refine ⟨rfl, fun j => ?_⟩
    rw [if_neg (by simp [first]; omega)]
    rfl
  | succ k ih =>
    intro i d
    rw [before, first]
    by_cases hm : maskBit m i = true
    · by_cases hs : maskBit s i = true
      · rw [if_pos hm, if_pos hs, if_pos (by rw [hm, hs]; rfl)]
        refine ⟨rfl, fun j => ?_⟩
        rw [if_neg (by simp; omega)]
      · rw [if_pos hm, if_neg hs, if_neg (fun h => hs (Bool.and_eq_true_iff.1 h).2)]
        obtain ⟨e1, e2⟩ := ih (i + 1) (setBit d i true)
        refine ⟨e1, fun j => ?_⟩
        rw [e2, setBit_bit, show i + 1 + k = i + (k + 1) by omega]
        have hlt : i < (first m s k (i + 1)).getD (i + (k + 1)) := by
          cases hf : first m s k (i + 1) with
          | none => show i < i + (k + 1); omega
          | some r => have := (first_some m s k _ _ hf).1; show i < r; omega
        by_cases hj : j = i
        · subst hj
          rw [if_neg (by omega), if_pos rfl, if_pos ⟨Nat.le_refl _, hlt, hm⟩]
        · rw [if_neg hj]
          by_cases hc : i ≤ j ∧ j < (first m s k (i + 1)).getD (i + (k + 1)) ∧ maskBit m j = true
          · rw [if_pos hc, if_pos ⟨by omega, hc.2⟩]
          · rw [if_neg hc, if_neg (fun h => hc ⟨by omega, h.2⟩)]
    · rw [if_neg hm, if_neg (fun h => hm (Bool.and_eq_true_iff.1 h).1)]
      obtain ⟨e1, e2⟩ := ih (i + 1) d
      refine ⟨e1, fun j => ?_⟩
      rw [e2, show i + 1 + k = i + (k + 1) by omega]
      by_cases hj : j = i
      · subst hj
        rw [if_neg (by omega), if_neg (fun h => hm h.2.2)]
      · by_cases hc : i ≤ j ∧ j < (first m s k (i + 1)).getD (i + (k + 1)) ∧ maskBit m j = true
        · rw [if_pos hc, if_pos ⟨by omega, hc.2⟩]
        · rw [if_neg hc, if_neg (fun h => hc ⟨by omega, h.2⟩)]

/-- What vmsbf does: up to the first hit the active bits are set; from there on all bits are cleared. -/
theorem msbf_bit (m s : Buf) (vl : Nat) (d : Buf) (j : Nat) :
    bitAt (msbf m s vl d) j =
      match first m s vl 0 with
      | none => if j < vl ∧ maskBit m j = true then true else bitAt d j
      | some l => if l ≤ j ∧ j < vl then false else if j < l ∧ maskBit m j = true then true else bitAt d j := by
  obtain ⟨e1, e2⟩ := before_bit m s vl 0 d
  unfold msbf
  generalize hb : before m s vl 0 d = b at e1 e2
  obtain ⟨b1, b2⟩ := b
  simp only at e1 e2
  subst e1
  cases hf : first m s vl 0 with
  | none =>
    rw [hf] at e2
    show bitAt b1 j = _
    rw [e2]
    simp
  | some l =>
    rw [hf] at e2
    have hl := first_some m s vl 0 l hf
    show bitAt (clear (vl - l) l b1) j = if l ≤ j ∧ j < vl then false else if j < l ∧ maskBit m j = true then true else bitAt d j
    rw [clear_bit, e2]
    have : l + (vl - l) = vl := by omega
    rw [this]
    simp

theorem setMask_regs (o : Op) (c : VCore) (vd vs2 : Nat) (vm : Bool) (h0 : c.vs.vstart = 0) :
    setMask o c vd vs2 vm = ⟨c.vs, fun q => if q = vd then
      o.run (maskOf c.regs vm) (c.regs vs2) c.vs.vl (c.regs vd) else c.regs q⟩ := by
  rw [setMask, if_neg (fun h => h h0)]
  congr 1
  rw [← h0]

/-- C89 for vmsif.m and vmsof.m. -/
theorem C89_set_first (o : Op) (ho : o ≠ .msbf) (c : VCore) (vd vs2 : Nat) (vm : Bool) (h0 : c.vs.vstart = 0) :
    (setMask o c vd vs2 vm).vs = c.vs ∧
    Written c.vs.vl c.regs (setMask o c vd vs2 vm).regs vm vd (fun i => Wanted (hit c.regs vm vs2) i o) := by
  rw [setMask_regs o c vd vs2 vm h0]
  refine ⟨rfl, ?_⟩
  have hb : ∀ i, mbit (fun q => if q = vd then o.run (maskOf c.regs vm) (c.regs vs2) c.vs.vl (c.regs vd) else c.regs q) vd i = true ↔
      if i < c.vs.vl ∧ maskBit (maskOf c.regs vm) i = true then Wanted (hit c.regs vm vs2) i o else mbit c.regs vd i = true := by
    intro i
    have e : mbit (fun q => if q = vd then o.run (maskOf c.regs vm) (c.regs vs2) c.vs.vl (c.regs vd) else c.regs q) vd i
        = bitAt (o.run (maskOf c.regs vm) (c.regs vs2) c.vs.vl (c.regs vd)) i := by
      unfold mbit bitAt
      dsimp only
      rw [if_pos rfl]
    rw [e]
    have h2 := fun j => hit_eq c.regs vm vs2 j
    cases o with
    | msbf => exact absurd rfl ho
    | msif =>
      show bitAt (msif _ _ _ 0 true _) i = true ↔ _
      rw [msif_bit _ _ _ 0 true _ i ⟨fun _ j hj => by omega, fun _ => rfl⟩]
      by_cases hc : i < c.vs.vl ∧ maskBit (maskOf c.regs vm) i = true
      · rw [if_pos hc, if_pos ⟨Nat.zero_le _, by omega, hc.2⟩]
        simp only [h2, Wanted]
      · rw [if_neg hc, if_neg (fun h => hc ⟨by omega, h.2.2⟩)]
        rfl
    | msof =>
      show bitAt (msof _ _ _ 0 true _) i = true ↔ _
      rw [msof_bit _ _ _ 0 true _ i ⟨fun _ j hj => by omega, fun _ => rfl⟩]
      by_cases hc : i < c.vs.vl ∧ maskBit (maskOf c.regs vm) i = true
      · rw [if_pos hc, if_pos ⟨Nat.zero_le _, by omega, hc.2⟩]
        simp only [h2, Wanted]
      · rw [if_neg hc, if_neg (fun h => hc ⟨by omega, h.2.2⟩)]
        rfl
  refine ⟨fun i h1 h2 => ?_, fun i h1 h2 => ?_, fun i h1 => ?_, fun r hr => if_neg hr⟩
  · rw [hb i, if_pos ⟨h1, (maskBit_iff c.regs vm i).2 h2⟩]
  · apply Bool.eq_iff_iff.2
    rw [hb i, if_neg (fun h => h2 ((maskBit_iff c.regs vm i).1 h.2))]
  · apply Bool.eq_iff_iff.2
    rw [hb i, if_neg (fun h => by omega)]

theorem msbf_mbit (c : VCore) (vd vs2 : Nat) (vm : Bool) (h0 : c.vs.vstart = 0) (i : Nat) :
    mbit (setMask .msbf c vd vs2 vm).regs vd i = bitAt (msbf (maskOf c.regs vm) (c.regs vs2) c.vs.vl (c.regs vd)) i := by
  rw [setMask_regs .msbf c vd vs2 vm h0]
  unfold mbit bitAt
  dsimp only
  rw [if_pos rfl]
  rfl

/-- C89 for vmsbf.m: the active bits of the body and the bits of the tail.  Missing: the inactive bits behind the first
set one (`C89_vmsbf_inactive_violated`). -/
theorem C89_vmsbf_partial (c : VCore) (vd vs2 : Nat) (vm : Bool) (h0 : c.vs.vstart = 0) :
    (setMask .msbf c vd vs2 vm).vs = c.vs ∧
    (∀ i, i < c.vs.vl → Active c.regs vm i →
      (mbit (setMask .msbf c vd vs2 vm).regs vd i = true ↔ Wanted (hit c.regs vm vs2) i .msbf)) ∧
    (∀ i, i < c.vs.vl → ¬ Active c.regs vm i → (∀ j, j < i → hit c.regs vm vs2 j = false) →
      mbit (setMask .msbf c vd vs2 vm).regs vd i = mbit c.regs vd i) ∧
    (∀ i, c.vs.vl ≤ i → mbit (setMask .msbf c vd vs2 vm).regs vd i = mbit c.regs vd i) ∧
    (∀ r, r ≠ vd → (setMask .msbf c vd vs2 vm).regs r = c.regs r) := by
  refine ⟨by rw [setMask_regs _ c vd vs2 vm h0], ?_, ?_, ?_, fun r hr => by
    rw [setMask_regs _ c vd vs2 vm h0]; exact if_neg hr⟩
  · intro i hi ha
    have hm := (maskBit_iff c.regs vm i).2 ha
    rw [msbf_mbit c vd vs2 vm h0, msbf_bit]
    cases hf : first (maskOf c.regs vm) (c.regs vs2) c.vs.vl 0 with
    | none =>
      show (if _ then _ else _ : Bool) = true ↔ _
      rw [if_pos ⟨hi, hm⟩]
      refine ⟨fun _ j hj => ?_, fun _ => rfl⟩
      rw [← hit_eq]
      exact first_none _ _ _ _ hf j (Nat.zero_le _) (by omega)
    | some l =>
      obtain ⟨_, h2, h3, h4⟩ := first_some _ _ _ _ _ hf
      show (if _ then _ else _ : Bool) = true ↔ _
      by_cases hl : l ≤ i
      · rw [if_pos ⟨hl, hi⟩]
        refine ⟨fun h => (by cases h), fun h => ?_⟩
        have := h l hl
        rw [← hit_eq, h3] at this
        cases this
      · rw [if_neg (fun h => hl h.1), if_pos ⟨by omega, hm⟩]
        refine ⟨fun _ j hj => ?_, fun _ => rfl⟩
        rw [← hit_eq]
        exact h4 j (Nat.zero_le _) (by omega)
  · intro i hi ha hno
    have hm : ¬ maskBit (maskOf c.regs vm) i = true := fun h => ha ((maskBit_iff c.regs vm i).1 h)
    rw [msbf_mbit c vd vs2 vm h0, msbf_bit]
    cases hf : first (maskOf c.regs vm) (c.regs vs2) c.vs.vl 0 with
    | none =>
      show (if _ then _ else _ : Bool) = _
      rw [if_neg (fun h => hm h.2)]
      rfl
    | some l =>
      obtain ⟨_, h2, h3, h4⟩ := first_some _ _ _ _ _ hf
      show (if _ then _ else _ : Bool) = _
      have hl : ¬ (l ≤ i ∧ i < c.vs.vl) := by
        rintro ⟨h, _⟩
        rcases Nat.lt_or_eq_of_le h with h | h
        · have := hno l h
          rw [← hit_eq, h3] at this
          cases this
        · subst h
          exact hm (Bool.and_eq_true_iff.1 h3).1
      rw [if_neg hl, if_neg (fun h => hm h.2)]
      rfl
  · intro i hi
    rw [msbf_mbit c vd vs2 vm h0, msbf_bit]
    cases hf : first (maskOf c.regs vm) (c.regs vs2) c.vs.vl 0 with
    | none =>
      show (if _ then _ else _ : Bool) = _
      rw [if_neg (by omega)]
      rfl
    | some l =>
      obtain ⟨_, h2, h3, h4⟩ := first_some _ _ _ _ _ hf
      show (if _ then _ else _ : Bool) = _
      rw [if_neg (by omega), if_neg (by omega)]
      rfl

/-- C89 holds in full for vmsbf.m without a mask. -/
theorem C89_vmsbf_unmasked (c : VCore) (vd vs2 : Nat) (h0 : c.vs.vstart = 0) :
    (setMask .msbf c vd vs2 true).vs = c.vs ∧
    Written c.vs.vl c.regs (setMask .msbf c vd vs2 true).regs true vd (fun i => Wanted (hit c.regs true vs2) i .msbf) := by
  obtain ⟨a1, a2, _, a4, a5⟩ := C89_vmsbf_partial c vd vs2 true h0
  exact ⟨a1, a2, fun i _ h => absurd (Or.inl rfl) h, a4, a5⟩

/-- C89 fails for a masked vmsbf.m (riscv_vector_unary_instructions.cc:327-331): inactive bits behind the first set one
are cleared. -/
theorem C89_vmsbf_inactive_violated (c : VCore) (vd vs2 : Nat) (vm : Bool) (h0 : c.vs.vstart = 0) (i j : Nat)
    (hi : hit c.regs vm vs2 i = true) (hij : i < j) (hj : j < c.vs.vl) :
    mbit (setMask .msbf c vd vs2 vm).regs vd j = false := by
  rw [msbf_mbit c vd vs2 vm h0, msbf_bit]
  cases hf : first (maskOf c.regs vm) (c.regs vs2) c.vs.vl 0 with
  | none =>
    exfalso
    have := first_none _ _ _ _ hf i (Nat.zero_le _) (by omega)
    rw [hit_eq, hi] at this
    cases this
  | some l =>
    obtain ⟨_, h2, h3, h4⟩ := first_some _ _ _ _ _ hf
    have hl : l ≤ i := by
      rcases Nat.lt_or_ge i l with h | h
      · have := h4 i (Nat.zero_le _) h
        rw [hit_eq, hi] at this
        cases this
      · exact h
    exact if_pos ⟨by omega, hj⟩

/-- C89: with a vstart that is not 0, vmsbf, vmsif and vmsof are refused. -/
theorem C89_set_refused (o : Op) (c : VCore) (vd vs2 : Nat) (vm : Bool) (h : c.vs.vstart ≠ 0) :
    setMask o c vd vs2 vm = refuse c := by
  rw [setMask, if_pos h]

/-! ### viota and vid -/

theorem howMany_mono (p : Nat → Bool) {a b : Nat} (h : a ≤ b) : howMany p a ≤ howMany p b := by
  induction b with
  | zero => rw [Nat.le_zero.1 h]; exact Nat.le_refl _
  | succ b ih =>
    rcases Nat.lt_or_eq_of_le h with h | h
    · rw [howMany_succ]; exact Nat.le_trans (ih (by omega)) (Nat.le_add_right ..)
    · rw [h]; exact Nat.le_refl _

/-- What viota.m does in every state: the active element `i` of the body receives the number of active set bits from vstart
to below `i`. -/
theorem viota_elems (c : VCore) (vd vs2 : Nat) (vm : Bool)
    (hs : c.vs.sew = 1 ∨ c.vs.sew = 2 ∨ c.vs.sew = 4 ∨ c.vs.sew = 8) (hr : Ready c.vs [] c.vs.sew vd)
    (ho : vs2 < vd ∨ vd + (c.vs.vl * c.vs.sew + c.vs.vlenb - 1) / c.vs.vlenb ≤ vs2) :
    ∃ c', viota c vd vs2 vm = some c' ∧ c'.vs = { c.vs with vstart := 0 } ∧
      (∀ i, c.vs.vstart ≤ i → i < c.vs.vl → Active c.regs vm i → IsElem c.vs.vlenb c.vs.sew c'.regs vd i
        (BitVec.ofNat _ (howMany (hit c.regs vm vs2) i - howMany (hit c.regs vm vs2) c.vs.vstart))) ∧
      Undisturbed c.vs.vlenb c.vs.sew vd (fun i => c.vs.vstart ≤ i ∧ i < c.vs.vl ∧ Active c.regs vm i) c.regs c'.regs := by
  obtain ⟨hnd, hdd, hv⟩ := hr.size
  have hx := elementwise_elems c [] c.vs.sew vd
    (fun R i (n : Nat) =>
      let m := maskBit (maskOf c.regs vm) i
      let o := m && maskBit (R vs2) i
      (if m then some (BitVec.ofNat (8 * c.vs.sew) n) else none, if o then n + 1 else n))
    (fun i => if maskBit (maskOf c.regs vm) i then
      some (BitVec.ofNat _ (howMany (hit c.regs vm vs2) i - howMany (hit c.regs vm vs2) c.vs.vstart)) else none)
    (fun i => howMany (hit c.regs vm vs2) i - howMany (hit c.regs vm vs2) c.vs.vstart) hr
    (by
      intro e R s _ h2 h3
      have : R vs2 = c.regs vs2 := by
        apply h3
        rcases ho with h | h
        · exact Or.inl h
        · right
          rw [div_epv hnd hdd]
          have : e * c.vs.sew / c.vs.vlenb ≤ (c.vs.vl * c.vs.sew + c.vs.vlenb - 1) / c.vs.vlenb :=
            Nat.div_le_div_right (by have := Nat.mul_le_mul_right c.vs.sew (Nat.le_of_lt h2); omega)
          omega
      simp only [this])
    (by
      intro e h1 _
      have hmono := howMany_mono (hit c.regs vm vs2) h1
      simp only [hit_eq, howMany_succ]
      by_cases hh : hit c.regs vm vs2 e = true
      · rw [if_pos hh, if_pos hh, Nat.sub_add_comm hmono]
      · rw [if_neg hh, if_neg hh, Nat.add_zero])
  obtain ⟨c', e1, e2, e3, e4⟩ := hx
  refine ⟨c', ?_, e2, ?_, ?_⟩
  · rw [viota, if_pos hs]
    unfold nullary
    rw [Nat.sub_self] at e1
    exact congrArg (Option.map (·.1)) e1
  · intro i h1 hi ha
    exact e3 i _ h1 hi (if_pos ((maskBit_iff c.regs vm i).2 ha))
  · intro r x hxv hno
    apply e4 r x hxv
    rintro ⟨i, ⟨h1, h2, h3⟩, hcov⟩
    refine hno ⟨i, ⟨h1, h2, ?_⟩, hcov⟩
    by_cases hm : maskBit (maskOf c.regs vm) i = true
    · exact (maskBit_iff c.regs vm i).1 hm
    · rw [if_neg hm] at h3
      cases h3

/-- C89 for viota.m: each active element receives the number of active set bits below it.  `vs2` is not in the destination
group.  Missing: that other values of vstart are refused (`C89_viota_vstart_violated`). -/
theorem C89_viota_partial (c : VCore) (vd vs2 : Nat) (vm : Bool) (h0 : c.vs.vstart = 0)
    (hs : c.vs.sew = 1 ∨ c.vs.sew = 2 ∨ c.vs.sew = 4 ∨ c.vs.sew = 8) (hr : Ready c.vs [] c.vs.sew vd)
    (ho : vs2 < vd ∨ vd + (c.vs.vl * c.vs.sew + c.vs.vlenb - 1) / c.vs.vlenb ≤ vs2) :
    ∃ c', viota c vd vs2 vm = some c' ∧ c'.vs = c.vs ∧
      (∀ i, i < c.vs.vl → Active c.regs vm i →
        IsElem c.vs.vlenb c.vs.sew c'.regs vd i (BitVec.ofNat _ (howMany (hit c.regs vm vs2) i))) ∧
      Undisturbed c.vs.vlenb c.vs.sew vd (fun i => i < c.vs.vl ∧ Active c.regs vm i) c.regs c'.regs := by
  obtain ⟨c', e1, e2, e3, e4⟩ := viota_elems c vd vs2 vm hs hr ho
  refine ⟨c', e1, by rw [e2, ← h0], fun i hi ha => ?_, fun r x hx hno => ?_⟩
  · have := e3 i (by omega) hi ha
    have hz : howMany (hit c.regs vm vs2) c.vs.vstart = 0 := by rw [h0]; rfl
    rwa [hz, Nat.sub_zero] at this
  · exact e4 r x hx (fun ⟨i, h, hc⟩ => hno ⟨i, h.2, hc⟩)

/-- What vid.v does in every state: the active element `i` of the body receives `i - vstart`. -/
theorem vid_elems (c : VCore) (vd : Nat) (vm : Bool)
    (hs : c.vs.sew = 1 ∨ c.vs.sew = 2 ∨ c.vs.sew = 4 ∨ c.vs.sew = 8) (hr : Ready c.vs [] c.vs.sew vd) :
    ∃ c', vid c vd vm = some c' ∧ c'.vs = { c.vs with vstart := 0 } ∧
      (∀ i, c.vs.vstart ≤ i → i < c.vs.vl → Active c.regs vm i →
        IsElem c.vs.vlenb c.vs.sew c'.regs vd i (BitVec.ofNat _ (i - c.vs.vstart))) ∧
      Undisturbed c.vs.vlenb c.vs.sew vd (fun i => c.vs.vstart ≤ i ∧ i < c.vs.vl ∧ Active c.regs vm i) c.regs c'.regs := by
  have hx := elementwise_elems c [] c.vs.sew vd
    (fun _ i (n : Nat) =>
      let m := maskBit (maskOf c.regs vm) i
      (if m then some (BitVec.ofNat (8 * c.vs.sew) n) else none, n + 1))
    (fun i => if maskBit (maskOf c.regs vm) i then some (BitVec.ofNat _ (i - c.vs.vstart)) else none)
    (fun i => i - c.vs.vstart) hr (fun e R s _ _ _ => rfl)
    (by
      intro e h1 _
      have : e - c.vs.vstart + 1 = e + 1 - c.vs.vstart := by omega
      simp only [this])
  obtain ⟨c', e1, e2, e3, e4⟩ := hx
  refine ⟨c', ?_, e2, ?_, ?_⟩
  · rw [vid, if_pos hs]
    unfold nullary
    rw [Nat.sub_self] at e1
    exact congrArg (Option.map (·.1)) e1
  · intro i h1 hi ha
    exact e3 i _ h1 hi (if_pos ((maskBit_iff c.regs vm i).2 ha))
  · intro r x hxv hno
    apply e4 r x hxv
    rintro ⟨i, ⟨h1, h2, h3⟩, hcov⟩
    refine hno ⟨i, ⟨h1, h2, ?_⟩, hcov⟩
    by_cases hm : maskBit (maskOf c.regs vm) i = true
    · exact (maskBit_iff c.regs vm i).1 hm
    · rw [if_neg hm] at h3
      cases h3

/-- C89 for vid.v with vstart 0.  Missing: other values of vstart (`C89_vid_vstart_violated`). -/
theorem C89_vid_partial (c : VCore) (vd : Nat) (vm : Bool) (h0 : c.vs.vstart = 0)
    (hs : c.vs.sew = 1 ∨ c.vs.sew = 2 ∨ c.vs.sew = 4 ∨ c.vs.sew = 8) (hr : Ready c.vs [] c.vs.sew vd) :
    ∃ c', vid c vd vm = some c' ∧ c'.vs = c.vs ∧
      (∀ i, i < c.vs.vl → Active c.regs vm i → IsElem c.vs.vlenb c.vs.sew c'.regs vd i (BitVec.ofNat _ i)) ∧
      Undisturbed c.vs.vlenb c.vs.sew vd (fun i => i < c.vs.vl ∧ Active c.regs vm i) c.regs c'.regs := by
  obtain ⟨c', e1, e2, e3, e4⟩ := vid_elems c vd vm hs hr
  refine ⟨c', e1, by rw [e2, ← h0], fun i hi ha => ?_, fun r x hx hno => ?_⟩
  · have := e3 i (by omega) hi ha
    rwa [h0, Nat.sub_zero] at this
  · exact e4 r x hx (fun ⟨i, h, hc⟩ => hno ⟨i, h.2, hc⟩)

/-- C89 fails for vid.v with a vstart that is not 0 (riscv_vector_unary_instructions.cc:453): the numbers start at 0 with
element vstart. -/
theorem C89_vid_vstart_violated (c : VCore) (vd : Nat) (vm : Bool)
    (hs : c.vs.sew = 1 ∨ c.vs.sew = 2 ∨ c.vs.sew = 4 ∨ c.vs.sew = 8) (hr : Ready c.vs [] c.vs.sew vd)
    (hv : c.vs.vstart < c.vs.vl) (ha : Active c.regs vm c.vs.vstart) :
    ∃ c', vid c vd vm = some c' ∧ IsElem c.vs.vlenb c.vs.sew c'.regs vd c.vs.vstart (BitVec.ofNat _ 0) := by
  obtain ⟨c', e1, _, e3, _⟩ := vid_elems c vd vm hs hr
  refine ⟨c', e1, ?_⟩
  have := e3 _ (Nat.le_refl _) hv ha
  rwa [Nat.sub_self] at this

/-- C89 fails for viota.m with a vstart that is not 0 (riscv_vector_unary_instructions.cc:411-446): it is not refused, and
the count starts at vstart. -/
theorem C89_viota_vstart_violated (c : VCore) (vd vs2 : Nat) (vm : Bool)
    (hs : c.vs.sew = 1 ∨ c.vs.sew = 2 ∨ c.vs.sew = 4 ∨ c.vs.sew = 8) (hr : Ready c.vs [] c.vs.sew vd)
    (ho : vs2 < vd ∨ vd + (c.vs.vl * c.vs.sew + c.vs.vlenb - 1) / c.vs.vlenb ≤ vs2)
    (hv : c.vs.vstart < c.vs.vl) (ha : Active c.regs vm c.vs.vstart) :
    ∃ c', viota c vd vs2 vm = some c' ∧ c'.vs.exception = false ∧ c'.vs.vstart = 0 ∧
      IsElem c.vs.vlenb c.vs.sew c'.regs vd c.vs.vstart (BitVec.ofNat _ 0) := by
  obtain ⟨c', e1, e2, e3, _⟩ := viota_elems c vd vs2 vm hs hr ho
  refine ⟨c', e1, by rw [e2]; exact hr.ok, by rw [e2], ?_⟩
  have := e3 _ (Nat.le_refl _) hv ha
  rwa [Nat.sub_self] at this

/-! ### Non-vacuity -/

/-- VLEN = 128, SEW = 8 bits, LMUL = 1, 10 elements; v0 = 0b11_1110_1101, v1 = 0b10_0010_0010. -/
def core : VCore :=
  { vs := { vlenb := 16, vtype := 0#32, vl := 10, vmax := 16, lmul8 := 8, sew := 1 },
    regs := fun r x => if r = 0 then (if x = 0 then 0xed#8 else 0x3#8) else if r = 1 then (if x = 0 then 0x22#8 else 0x2#8)
      else 0xff#8 }

theorem ready_core : Ready core.vs [] 1 4 :=
  ⟨rfl, by decide, by simp, by decide, 1, by decide, by decide, by decide⟩

example : vcpop 32 core 1 false = (core, some 2#32) := by
  have : count (maskOf core.regs false) (core.regs 1) core.vs.vl 0 0 = 2 := by decide +kernel
  rw [vcpop, if_neg (by decide), this]
example : (vfirst 64 core 1 false).2 = some 5#64 := by decide +kernel
example : howMany (hit core.regs false 1) 10 = 2 := by decide
example := C89_vcpop 64 core 1 false rfl (by decide)
example := C89_vfirst 32 (by decide) core 1 false rfl (by decide)
example := C89_set_first .msof (by decide) core 3 1 false rfl
example : mbit (setMask .msof core 3 1 false).regs 3 5 = true ∧ mbit (setMask .msof core 3 1 false).regs 3 6 = false := by
  decide +kernel
/-- Bit 8 follows the hit at 5; make it inactive and it is still cleared. -/
example : mbit core.regs 3 8 = true ∧ mbit (setMask .msbf core 3 1 false).regs 3 8 = false := by decide +kernel
theorem C89_vmsbf_inactive_witness_violated : ∃ (c : VCore) (j : Nat), c.vs.vstart = 0 ∧ j < c.vs.vl ∧ ¬ Active c.regs false j
    ∧ mbit (setMask .msbf c 3 1 false).regs 3 j ≠ mbit c.regs 3 j :=
  ⟨{ core with regs := fun r x => if r = 0 then 0x21#8 else core.regs r x }, 6, rfl, by decide, by unfold Active; decide,
    by decide +kernel⟩
example := C89_viota_partial core 4 1 false rfl (by decide) ready_core (by decide)
example := C89_vid_partial core 4 false rfl (by decide) ready_core
/-- A state that resumes at element 2, which is active. -/
def resumed : VCore := { core with vs := { core.vs with vstart := 2 } }
theorem ready_resumed : Ready resumed.vs [] 1 4 :=
  ⟨rfl, by decide, by simp, by decide, 1, by decide, by decide, by decide⟩
example := C89_vid_vstart_violated resumed 4 false (by decide) ready_resumed (by decide) (by unfold Active; decide)
example := C89_viota_vstart_violated resumed 4 1 false (by decide) ready_resumed (by decide) (by decide)
  (by unfold Active; decide)

end Verif.VecScan
