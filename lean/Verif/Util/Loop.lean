/-
Counted loops.
-/
namespace Verif

/-- `for (int i = lo; i < lo + n; i++) s = f(i, s);` -/
def loop {α : Type _} (f : Nat → α → α) (lo : Nat) : Nat → α → α
  | 0, s => s
  | n + 1, s => f (lo + n) (loop f lo n s)

/-- Exclusive or of `p lo, …, p (lo+n-1)`. -/
def parity (p : Nat → Bool) (lo : Nat) : Nat → Bool
  | 0 => false
  | n + 1 => (parity p lo n).xor (p (lo + n))

theorem parity_congr {p q : Nat → Bool} {lo n : Nat} (h : ∀ i, lo ≤ i → i < lo + n → p i = q i) :
    parity p lo n = parity q lo n := by
  induction n with
  | zero => rfl
  | succ n ih =>
    rw [parity, parity, ih (fun i h1 h2 => h i h1 (by omega)), h (lo + n) (by omega) (by omega)]

/-- Trailing terms that are all false do not matter. -/
theorem parity_extend {p : Nat → Bool} {lo n m : Nat}
    (h : ∀ i, lo + n ≤ i → i < lo + n + m → p i = false) : parity p lo (n + m) = parity p lo n := by
  induction m with
  | zero => rfl
  | succ m ih =>
    rw [show n + (m + 1) = (n + m) + 1 by omega, parity, ih (fun i h1 h2 => h i h1 (by omega)),
      h (lo + (n + m)) (by omega) (by omega), Bool.xor_false]

/-- A leading false term does not matter. -/
theorem parity_tail {p : Nat → Bool} {n : Nat} (h : p 0 = false) : parity p 0 (n + 1) = parity p 1 n := by
  induction n with
  | zero => simp [parity, h]
  | succ n ih => rw [parity, ih, parity, show 0 + (n + 1) = 1 + n by omega]

end Verif
