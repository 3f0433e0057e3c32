import Verif.BinFmt.Formats

/-! # Facts about extraction and insertion of operands -/

namespace Verif.BinFmt

/-- The weight of a bit. -/
def weight (b : Bool) (n : Nat) : Nat := if b then 2 ^ n else 0

theorem value_cons (w : Nat) (b : Bit) (bs : List Bit) :
    value w (b :: bs) = weight (b.get w) bs.length + value w bs := rfl

theorem insert_word (k : Nat) (bs : List Bit) (v w : Nat) :
    insert (.word k :: bs) v w = setBit (insert bs v w) k (v.testBit bs.length) := rfl

theorem insert_const (c : Bool) (bs : List Bit) (v w : Nat) :
    insert (.const c :: bs) v w = insert bs v w := rfl

theorem value_lt (w : Nat) (bs : List Bit) : value w bs < 2 ^ bs.length := by
  induction bs with
  | nil => simp [value]
  | cons b bs ih =>
    simp only [value, List.length_cons, Nat.pow_succ]
    split <;> omega

theorem setBit_testBit (w i : Nat) (b : Bool) (j : Nat) :
    (setBit w i b).testBit j = if j = i then b else w.testBit j := by
  unfold setBit
  by_cases hj : j = i
  · subst hj
    cases b <;> simp [Nat.testBit_two_pow_self]
  · have hz : (2 ^ i).testBit j = false := Nat.testBit_two_pow_of_ne (fun h => hj h.symm)
    cases b <;> simp [hz, hj]

theorem insert_frame (bs : List Bit) (v w i : Nat) (h : i ∉ positions bs) :
    (insert bs v w).testBit i = w.testBit i := by
  induction bs with
  | nil => rfl
  | cons b bs ih =>
    cases b with
    | word k =>
      simp only [positions, List.mem_cons, not_or] at h
      simp only [insert, setBit_testBit, if_neg h.1]
      exact ih h.2
    | const c =>
      simp only [positions] at h
      exact ih h

theorem value_congr (bs : List Bit) (w w' : Nat)
    (h : ∀ i ∈ positions bs, w.testBit i = w'.testBit i) : value w bs = value w' bs := by
  induction bs with
  | nil => rfl
  | cons b bs ih =>
    cases b with
    | word k =>
      simp only [positions, List.mem_cons] at h
      rw [value_cons, value_cons, ih fun i hi => h i (Or.inr hi)]
      show weight (w.testBit k) _ + _ = weight (w'.testBit k) _ + _
      rw [h k (Or.inl rfl)]
    | const c =>
      simp only [positions] at h
      rw [value_cons, value_cons, ih h]
      rfl

/-- The top bit of a value and the remaining bits. -/
theorem mod_two_pow_split (v n : Nat) :
    v % 2 ^ (n + 1) = weight (v.testBit n) n + v % 2 ^ n := by
  unfold weight
  rw [Nat.pow_succ, Nat.mod_mul, Nat.testBit_eq_decide_div_mod_eq]
  have := Nat.mod_two_eq_zero_or_one (v / 2 ^ n)
  rcases this with h | h <;> simp [h, Nat.add_comm]

theorem value_cons_eq {w : Nat} {b : Bit} {bs : List Bit} {v : Nat}
    (h : value w (b :: bs) = v % 2 ^ (bs.length + 1)) :
    b.get w = v.testBit bs.length ∧ value w bs = v % 2 ^ bs.length := by
  rw [mod_two_pow_split] at h
  have h1 := value_lt w bs
  have h2 : v % 2 ^ bs.length < 2 ^ bs.length := Nat.mod_lt _ (Nat.two_pow_pos _)
  rw [value_cons] at h
  cases hb : b.get w <;> cases hv : v.testBit bs.length <;> simp [hb, hv, weight] at h ⊢ <;> omega

theorem value_insert (bs : List Bit) (v w w₀ : Nat) (hnd : (positions bs).Nodup)
    (h : value w₀ bs = v % 2 ^ bs.length) :
    value (insert bs v w) bs = v % 2 ^ bs.length := by
  induction bs with
  | nil => simp [value, Nat.mod_one]
  | cons b bs ih =>
    obtain ⟨hb, hr⟩ := value_cons_eq h
    cases b with
    | word k =>
      simp only [positions, List.nodup_cons] at hnd
      have ih := ih hnd.2 hr
      have hc : value (setBit (insert bs v w) k (v.testBit bs.length)) bs
          = value (insert bs v w) bs := by
        apply value_congr
        intro i hi
        rw [setBit_testBit, if_neg]
        intro he
        exact hnd.1 (he ▸ hi)
      rw [insert_word, value_cons, hc, ih, List.length_cons, mod_two_pow_split]
      show weight ((setBit _ k _).testBit k) _ + _ = _
      rw [setBit_testBit, if_pos rfl]
    | const c =>
      simp only [positions] at hnd
      have ih := ih hnd hr
      have hb : c = v.testBit bs.length := hb
      rw [insert_const, value_cons, ih, List.length_cons, mod_two_pow_split]
      show weight c _ + _ = _
      rw [hb]

theorem pattern_mod {x : Int} {n : Nat} (hn : n ≤ 64) :
    ((pattern x % 2 ^ n : Nat) : Int) = x % 2 ^ n := by
  have h0 : 0 ≤ x % (2 : Int) ^ 64 := Int.emod_nonneg _ (by decide)
  unfold pattern
  rw [Int.natCast_emod, Int.toNat_of_nonneg h0]
  have hd : ((2 ^ n : Nat) : Int) ∣ (2 : Int) ^ 64 := by
    rw [show ((2 ^ n : Nat) : Int) = (2 : Int) ^ n from by simp]
    exact ⟨2 ^ (64 - n), by rw [← Int.pow_add]; congr 1; omega⟩
  rw [Int.emod_emod_of_dvd _ hd]
  simp

/-- Extracting what was inserted gives the value back, when some word shows
that value and the operand's bits are distinct.  The inserted number may differ
from the value by a multiple of `2 ^ length`. -/
theorem extract_insert (s : Bool) (bs : List Bit) (x y : Int) (w w₀ : Nat)
    (hnd : (positions bs).Nodup) (hl : bs.length ≤ 64) (h : extract s bs w₀ = y)
    (hxy : x % 2 ^ bs.length = y % 2 ^ bs.length) :
    extract s bs (insert bs (pattern x) w) = y := by
  have hlt := value_lt w₀ bs
  have hv : value w₀ bs = pattern x % 2 ^ bs.length := by
    have hp := @pattern_mod x bs.length hl
    have : ((value w₀ bs : Nat) : Int) = y % 2 ^ bs.length := by
      rw [← h]
      unfold extract
      have hc : ((2 ^ bs.length : Nat) : Int) = (2 : Int) ^ bs.length := by simp
      split
      · rw [Int.sub_emod_right, ← hc, ← Int.natCast_emod, Nat.mod_eq_of_lt hlt]
      · rw [← hc, ← Int.natCast_emod, Nat.mod_eq_of_lt hlt]
    rw [hxy, ← this] at hp
    exact_mod_cast hp.symm
  have hi := value_insert bs (pattern x) w w₀ hnd hv
  refine Eq.trans ?_ h
  unfold extract
  rw [hi, ← hv]

/-- An operand whose bits lie inside `n` bits ignores the rest of the word. -/
theorem extract_congr (s : Bool) (bs : List Bit) (w w' : Nat)
    (h : ∀ i ∈ positions bs, w.testBit i = w'.testBit i) :
    extract s bs w = extract s bs w' := by
  unfold extract
  rw [value_congr bs w w' h]

end Verif.BinFmt
