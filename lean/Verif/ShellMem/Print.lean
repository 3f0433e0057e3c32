import Verif.ShellMem.Num
/-
The printed numbers.
-/
namespace Verif.ShellMem
open Verif.Shell (Text)
open Verif.Setup.Spec (Numeral IsDigit)

theorem numeral_snoc {b : Nat} {p : Text} {m : Nat} (h : Numeral b p m) {c : Char} {d : Nat}
    (hc : IsDigit c d) (hd : d < b) : Numeral b (p ++ [c]) (m * b + d) := by
  induction h with
  | nil =>
    have := Numeral.cons hc hd Numeral.nil
    simpa using this
  | @cons c' d' t n hd' hb _ ih =>
    have := Numeral.cons hd' hb ih
    rw [List.length_append, List.length_singleton, Nat.pow_succ, ← Nat.mul_assoc] at this
    rw [Nat.add_mul, Nat.add_assoc]
    exact this

theorem digitChar_isDigit {d : Nat} (h : d < 16) : IsDigit (digitChar d) d := by
  have : ∀ d : Fin 16, IsDigit (digitChar d.val) d.val := by
    intro d
    unfold IsDigit
    revert d
    decide
  exact this ⟨d, h⟩

theorem digitsOf_numeral {b : Nat} (h2 : 2 ≤ b) (h16 : b ≤ 16) : ∀ fuel n, n < b ^ (fuel + 1) →
    Numeral b (digitsOf b fuel n) n := by
  intro fuel
  induction fuel with
  | zero =>
    intro n hn
    rw [Nat.zero_add, Nat.pow_one] at hn
    have := Numeral.cons (digitChar_isDigit (show n < 16 by omega)) hn Numeral.nil
    unfold digitsOf
    simpa using this
  | succ fuel ih =>
    intro n hn
    unfold digitsOf
    split
    · rename_i h
      have := Numeral.cons (digitChar_isDigit (show n < 16 by omega)) h Numeral.nil
      simpa using this
    · have hq : n / b < b ^ (fuel + 1) := by
        rw [Nat.div_lt_iff_lt_mul (by omega), ← Nat.pow_succ]
        exact hn
      have hm : n % b < b := Nat.mod_lt _ (by omega)
      have := numeral_snoc (ih _ hq) (digitChar_isDigit (show n % b < 16 by omega)) hm
      rwa [Nat.mul_comm, Nat.div_add_mod] at this

theorem digitsOf_head {b : Nat} (h2 : 2 ≤ b) (h16 : b ≤ 16) : ∀ fuel n, n < b ^ (fuel + 1) →
    ∃ c, (digitsOf b fuel n).head? = some c ∧ (c = '0' → n = 0) := by
  have hz : ∀ d : Fin 16, digitChar d.val = '0' → d.val = 0 := by decide
  intro fuel
  induction fuel with
  | zero =>
    intro n hn
    rw [Nat.zero_add, Nat.pow_one] at hn
    exact ⟨_, rfl, hz ⟨n, by omega⟩⟩
  | succ fuel ih =>
    intro n hn
    unfold digitsOf
    split
    · rename_i h
      exact ⟨_, rfl, hz ⟨n, by omega⟩⟩
    · rename_i h
      have hq : n / b < b ^ (fuel + 1) := by
        rw [Nat.div_lt_iff_lt_mul (by omega), ← Nat.pow_succ]
        exact hn
      obtain ⟨c, h1, h3⟩ := ih _ hq
      refine ⟨c, by rw [List.head?_append, h1]; rfl, fun hc => ?_⟩
      have := h3 hc
      rw [Nat.div_eq_zero_iff] at this
      omega

theorem digitsOf_length {b : Nat} (h2 : 2 ≤ b) : ∀ k fuel n, n < b ^ (k + 1) →
    (digitsOf b fuel n).length ≤ k + 1 := by
  intro k
  induction k with
  | zero =>
    intro fuel n hn
    rw [Nat.zero_add, Nat.pow_one] at hn
    cases fuel with
    | zero => simp [digitsOf]
    | succ fuel => rw [digitsOf, if_pos hn]; simp
  | succ k ih =>
    intro fuel n hn
    cases fuel with
    | zero => simp [digitsOf]
    | succ fuel =>
      rw [digitsOf]
      split
      · simp
      · have hq : n / b < b ^ (k + 1) := by
          rw [Nat.div_lt_iff_lt_mul (by omega), ← Nat.pow_succ]
          exact hn
        have := ih fuel _ hq
        rw [List.length_append, List.length_singleton]
        omega

theorem numeral_zeros {b : Nat} (h2 : 2 ≤ b) {p : Text} {n : Nat} (h : Numeral b p n) (k : Nat) :
    Numeral b (List.replicate k '0' ++ p) n := by
  induction k with
  | zero => exact h
  | succ k ih =>
    have := Numeral.cons isDigit_zero (show 0 < b by omega) ih
    rwa [Nat.zero_mul, Nat.zero_add] at this

theorem decimal_spec {n : Nat} (h : n < 2 ^ 64) :
    Numeral 10 (decimal n) n ∧ ((decimal n).head? = some '0' → n = 0) := by
  have hb : n < 10 ^ 65 := Nat.lt_trans h (by decide +kernel)
  refine ⟨digitsOf_numeral (by decide) (by decide) _ _ hb, fun h0 => ?_⟩
  obtain ⟨c, h1, h2⟩ := digitsOf_head (by decide) (by decide) 64 n hb
  exact h2 (Option.some.inj (h1.symm.trans h0))

theorem octal_spec {n : Nat} (h : n < 2 ^ 64) :
    Numeral 8 (octal n) n ∧ ((octal n).head? = some '0' → n = 0) := by
  have hb : n < 8 ^ 65 := Nat.lt_trans h (by decide +kernel)
  refine ⟨digitsOf_numeral (by decide) (by decide) _ _ hb, fun h0 => ?_⟩
  obtain ⟨c, h1, h2⟩ := digitsOf_head (by decide) (by decide) 64 n hb
  exact h2 (Option.some.inj (h1.symm.trans h0))

theorem hex_spec {k n : Nat} (hk : k < 16) (h : n < 16 ^ (k + 1)) :
    (hex (k + 1) n).length = k + 1 ∧ Numeral 16 (hex (k + 1) n) n := by
  have hb : n < 16 ^ (64 + 1) :=
    Nat.lt_of_lt_of_le h (Nat.pow_le_pow_right (by decide) (by omega))
  have hl := digitsOf_length (b := 16) (by decide) k 64 n h
  constructor
  · unfold hex
    simp only [List.length_append, List.length_replicate]
    omega
  · exact numeral_zeros (by decide) (digitsOf_numeral (by decide) (by decide) _ _ hb) _

/-- The widths of a format. -/
def IsWidth (width : Nat) : Prop := width = 8 ∨ width = 16 ∨ width = 32 ∨ width = 64

/-- A `width`-bit number is shown as it should be in every integer format. -/
theorem shows {l : Char} {width n : Nat} (hl : l ∈ "oduxX".toList) (hw : IsWidth width) (hn : n < 2 ^ width) :
    Spec.Shows l width n (if l = 'd' then signed width n
      else if l = 'x' ∨ l = 'X' then hex (width / 4) n
      else if l = 'u' then decimal n else octal n) := by
  have h64 : n < 2 ^ 64 := Nat.lt_of_lt_of_le hn
    (Nat.pow_le_pow_right (by decide) (by unfold IsWidth at hw; omega))
  have hx : (hex (width / 4) n).length = width / 4 ∧ Numeral 16 (hex (width / 4) n) n := by
    rcases hw with rfl | rfl | rfl | rfl
    · exact hex_spec (k := 1) (by decide) hn
    · exact hex_spec (k := 3) (by decide) hn
    · exact hex_spec (k := 7) (by decide) hn
    · exact hex_spec (k := 15) (by decide) hn
  have hs : (n < 2 ^ (width - 1) → Numeral 10 (signed width n) n ∧ ((signed width n).head? = some '0' → n = 0))
      ∧ (2 ^ (width - 1) ≤ n → ∃ t, signed width n = '-' :: t ∧ Numeral 10 t (2 ^ width - n)
          ∧ t.head? ≠ some '0') := by
    constructor
    · intro h
      unfold signed
      rw [if_pos h]
      exact decimal_spec h64
    · intro h
      unfold signed
      rw [if_neg (by omega)]
      have h1 : 2 ^ width - n < 2 ^ 64 := by
        have : 2 ^ width ≤ 2 ^ 64 :=
          Nat.pow_le_pow_right (by decide) (by unfold IsWidth at hw; omega)
        have : 0 < 2 ^ (width - 1) := Nat.pow_pos (by decide)
        omega
      have hd := decimal_spec h1
      exact ⟨_, rfl, hd.1, fun h0 => by have := hd.2 h0; omega⟩
  unfold Spec.Shows
  simp only [show "oduxX".toList = ['o', 'd', 'u', 'x', 'X'] from rfl, List.mem_cons, List.not_mem_nil,
    or_false] at hl
  rcases hl with rfl | rfl | rfl | rfl | rfl
  · simpa using octal_spec h64
  · simpa using hs
  · simpa using decimal_spec h64
  · simpa using hx
  · simpa using hx

end Verif.ShellMem
