import Verif.Decode.Pairs
import Verif.Decode.Isa

/-!
# Deciding whether a pattern agrees with the listing

`fits` decides that every word matched by an instruction has a given encoding,
`coverOk` that every word of an encoding is matched by one of several
instructions.
-/

namespace Verif.Decode

open BinFmt Isa

/-! ## Encodings as constraints -/

/-- One bit of a word has the given value. -/
def bitCmp (k : Nat) (b : Bool) : Cmp := ⟨[.word k], .eq, .num b.toNat⟩

theorem bitCmp_holds (k : Nat) (b : Bool) (w : Nat) :
    (bitCmp k b).holds w = true ↔ w.testBit k = b := by
  show Rel.eval .eq (value w [.word k]) b.toNat = true ↔ _
  rw [value_cons]
  have hg : Bit.get w (.word k) = w.testBit k := rfl
  rw [hg]
  cases hb : b <;> cases hw : w.testBit k <;> simp [BinFmt.value, BinFmt.weight, Rel.eval]

/-- `w` is `v` under `m`, bit by bit. -/
def bitCmps (m v : Nat) : Nat → List Cmp
  | 0 => []
  | n + 1 => if m.testBit n then bitCmp n (v.testBit n) :: bitCmps m v n else bitCmps m v n

theorem bitCmps_holds {m v w : Nat} (h : ∀ k, m.testBit k = true → w.testBit k = v.testBit k) :
    ∀ n, (bitCmps m v n).all (Cmp.holds w) = true
  | 0 => rfl
  | n + 1 => by
    unfold bitCmps
    split
    · rename_i hm
      rw [List.all_cons, Bool.and_eq_true]
      exact ⟨(bitCmp_holds _ _ _).2 (h n hm), bitCmps_holds h n⟩
    · exact bitCmps_holds h n

theorem bitCmps_bits {m v w : Nat} :
    ∀ {n : Nat}, (bitCmps m v n).all (Cmp.holds w) = true →
      ∀ k < n, m.testBit k = true → w.testBit k = v.testBit k
  | 0, _ => by omega
  | n + 1, h => by
    unfold bitCmps at h
    intro k hk hm
    split at h
    · rw [List.all_cons, Bool.and_eq_true] at h
      rcases Nat.lt_succ_iff_lt_or_eq.1 hk with hk | rfl
      · exact bitCmps_bits h.2 k hk hm
      · exact (bitCmp_holds _ _ _).1 h.1
    · rename_i hn
      rcases Nat.lt_succ_iff_lt_or_eq.1 hk with hk | rfl
      · exact bitCmps_bits h k hk hm
      · exact absurd hm hn

theorem and_bits {m v w : Nat} (h : w &&& m = v) (k : Nat) :
    (m.testBit k = true → w.testBit k = v.testBit k) ∧ (v.testBit k = true → w.testBit k = true) := by
  rw [← h, Nat.testBit_and]
  cases m.testBit k <;> cases w.testBit k <;> simp

/-- The value lies under the mask, and both fit a word. -/
def wf (m v : Nat) : Bool := (v &&& m == v) && decide (m < 2 ^ 32)

theorem bits_and {m v w : Nat} (hwf : wf m v = true)
    (h : ∀ k < 32, m.testBit k = true → w.testBit k = v.testBit k) : w &&& m = v := by
  unfold wf at hwf
  rw [Bool.and_eq_true, decide_eq_true_eq, beq_iff_eq] at hwf
  apply Nat.eq_of_testBit_eq
  intro k
  rw [← hwf.1, Nat.testBit_and, Nat.testBit_and]
  cases hm : m.testBit k with
  | false => simp
  | true =>
    have hk : k < 32 := by
      by_cases hk : k < 32
      · exact hk
      · rw [Nat.testBit_lt_two_pow
          (Nat.lt_of_lt_of_le hwf.2 (Nat.pow_le_pow_right (by decide) (by omega)))] at hm
        simp at hm
    rw [h k hk hm]

/-! ## Every matched word has the encoding -/

/-- No matched word is `p.2` under `p.1`. -/
def excluded (mv : Nat × Nat) (cs : List Cmp) (p : Nat × Nat) : Bool :=
  clash mv p || refute 16 (cs ++ bitCmps p.1 p.2 32) (known mv.1 mv.2).1 (known mv.1 mv.2).2

/-- Every matched word is `v` under `m`: by the fixed bits, or bit by bit from
all constraints. -/
def implied (mv : Nat × Nat) (cs : List Cmp) (m v : Nat) : Bool :=
  ((mv.1 &&& m == m) && (mv.2 &&& m == v)) ||
    (wf m v && (List.range 32).all fun k =>
      !m.testBit k ||
        refute 16 (cs ++ [bitCmp k (!v.testBit k)]) (known mv.1 mv.2).1 (known mv.1 mv.2).2)

/-- Every word matched by the instruction has the encoding. -/
def fits (mv : Nat × Nat) (i : Inst) (e : Enc) : Bool :=
  match i.cmps with
  | some cs => implied mv cs e.mask e.value && e.except.all (excluded mv cs)
  | none => true

theorem maskVal_between {i : Inst} {w : Nat} (hw : w < 2 ^ 32) (h : i.matches w = true) :
    Between (known i.maskVal.1 i.maskVal.2).1 (known i.maskVal.1 i.maskVal.2).2 w :=
  known_between hw (fun _ hk => Inst.maskVal_le h hk)
    (fun _ hk hwk => by rw [← Inst.maskVal_eq h hk]; exact hwk)

theorem excluded_sound {i : Inst} {cs : List Cmp} (hcs : i.cmps = some cs) {p : Nat × Nat}
    (h : excluded i.maskVal cs p = true) {w : Nat} (hw : w < 2 ^ 32) (hm : i.matches w = true) :
    w &&& p.1 ≠ p.2 := by
  intro hp
  unfold excluded at h
  rw [Bool.or_eq_true] at h
  rcases h with h | h
  · unfold clash at h
    rw [bne_iff_ne] at h
    apply h
    apply Nat.eq_of_testBit_eq
    intro k
    rw [Nat.zero_testBit, Nat.testBit_and, Nat.testBit_and, Nat.testBit_xor]
    cases h1 : (i.maskVal.1).testBit k with
    | false => simp
    | true =>
      cases h2 : p.1.testBit k with
      | false => simp
      | true => rw [← Inst.maskVal_eq hm h1, ← (and_bits hp k).1 h2]; simp
  · have hf := refute_sound h (maskVal_between hw hm)
    rw [List.all_append, ← Inst.cmps_matches hcs, hm,
      bitCmps_holds (fun k => (and_bits hp k).1)] at hf
    simp at hf

theorem implied_sound {i : Inst} {cs : List Cmp} (hcs : i.cmps = some cs) {m v : Nat}
    (h : implied i.maskVal cs m v = true) {w : Nat} (hw : w < 2 ^ 32) (hm : i.matches w = true) :
    w &&& m = v := by
  unfold implied at h
  rw [Bool.or_eq_true, Bool.and_eq_true, Bool.and_eq_true, beq_iff_eq, beq_iff_eq] at h
  rcases h with h | h
  · apply Nat.eq_of_testBit_eq
    intro k
    rw [← h.2, Nat.testBit_and, Nat.testBit_and]
    cases hk : m.testBit k with
    | false => simp
    | true =>
      have : (i.maskVal.1).testBit k = true := by
        rw [← h.1, Nat.testBit_and, Bool.and_eq_true] at hk
        exact hk.1
      rw [Inst.maskVal_eq hm this]
  · refine bits_and h.1 fun k hk hmk => ?_
    have hr := List.all_eq_true.1 h.2 k (List.mem_range.2 hk)
    rw [Bool.or_eq_true, hmk] at hr
    rcases hr with hr | hr
    · simp at hr
    · have hf := refute_sound hr (maskVal_between hw hm)
      rw [List.all_append, ← Inst.cmps_matches hcs, hm, Bool.true_and, List.all_cons,
        List.all_nil, Bool.and_true] at hf
      cases hwk : w.testBit k <;> cases hvk : v.testBit k
      · rfl
      · rw [(bitCmp_holds _ _ _).2 (by rw [hwk, hvk]; rfl)] at hf; simp at hf
      · rw [(bitCmp_holds _ _ _).2 (by rw [hwk, hvk]; rfl)] at hf; simp at hf
      · rfl

theorem fits_sound {i : Inst} {e : Enc} (h : fits i.maskVal i e = true) {w : Nat}
    (hw : w < 2 ^ 32) (hm : i.matches w = true) : e.assigns w := by
  unfold fits at h
  cases hcs : i.cmps with
  | none =>
    have : i.matches w = false := compileAll_none hcs w
    rw [this] at hm; simp at hm
  | some cs =>
    simp only [hcs, Bool.and_eq_true] at h
    exact ⟨implied_sound hcs h.1 hw hm,
      fun p hp => excluded_sound hcs (List.all_eq_true.1 h.2 p hp) hw hm⟩

/-! ## Every word of the encoding is matched -/

/-- Every word of the encoding, but for the gaps, is matched by one of the
instructions. -/
def coverOk (is : List Inst) (e : Enc) (gaps : List (Nat × Nat)) : Bool :=
  (e.except ++ gaps).all (fun p => wf p.1 p.2) &&
    covers 40 (is.filterMap Inst.cmps ++ (e.except ++ gaps).map fun p => bitCmps p.1 p.2 32)
      (known e.mask e.value).1 (known e.mask e.value).2

theorem coverOk_sound {is : List Inst} {e : Enc} {gaps : List (Nat × Nat)}
    (h : coverOk is e gaps = true) {w : Nat} (hw : w < 2 ^ 32) (ha : e.assigns w)
    (hg : ∀ p ∈ gaps, w &&& p.1 ≠ p.2) : ∃ i ∈ is, i.matches w = true := by
  unfold coverOk at h
  rw [Bool.and_eq_true] at h
  have hb : Between (known e.mask e.value).1 (known e.mask e.value).2 w :=
    known_between hw (fun k hk => (and_bits ha.1 k).2 hk)
      (fun k hk hwk => by rw [← (and_bits ha.1 k).1 hk]; exact hwk)
  obtain ⟨cs, hcs, hall⟩ := covers_sound h.2 hb
  rcases List.mem_append.1 hcs with hcs | hcs
  · obtain ⟨i, hi, hic⟩ := List.mem_filterMap.1 hcs
    exact ⟨i, hi, by rw [Inst.cmps_matches hic]; exact hall⟩
  · obtain ⟨p, hp, rfl⟩ := List.mem_map.1 hcs
    have hpe := bits_and (List.all_eq_true.1 h.1 p hp) (bitCmps_bits hall)
    rcases List.mem_append.1 hp with hp | hp
    · exact absurd hpe (ha.2 p hp)
    · exact absurd hpe (hg p hp)

end Verif.Decode
