import Verif.Bitmanip.Model
/-
What the Zba, Zbb, Zbc and Zbs chapters of the ISA manual say, in terms of integers and single bits.
-/
namespace Verif.Bitmanip.Spec

variable {w : Nat}

/-- The number of one bits of `a` below position `n`. -/
def ones (a : BitVec w) (n : Nat) : Nat := ((List.range n).filter (fun i => a.getLsbD i)).length

/-- `n` is the number of leading zeros of a `w`-bit value. -/
def IsClz (a : BitVec w) (n : Nat) : Prop :=
  n ≤ w ∧ (∀ i, w - n ≤ i → a.getLsbD i = false) ∧ (n < w → a.getLsbD (w - 1 - n) = true)

/-- `n` is the number of trailing zeros of a `w`-bit value. -/
def IsCtz (a : BitVec w) (n : Nat) : Prop :=
  n ≤ w ∧ (∀ i, i < n → a.getLsbD i = false) ∧ (n < w → a.getLsbD n = true)

/-- Coefficient `k` of the product of `a` and `b` read as polynomials over GF(2): the parity of the
number of pairs of set bits whose positions add up to `k`. -/
def coeff (a b : BitVec w) (k : Nat) : Bool :=
  ((List.range (k + 1)).filter (fun j => b.getLsbD j && a.getLsbD (k - j))).length % 2 == 1

def un (o : Un) (a r : BitVec w) : Prop :=
  match o with
  | .not => ∀ i, i < w → r.getLsbD i = !a.getLsbD i
  | .clz => IsClz a r.toNat
  | .ctz => IsCtz a r.toNat
  | .cpop => r.toNat = ones a w
  | .sextB => r.toInt = (a.toNat : Int).bmod (2 ^ 8)
  | .sextH => r.toInt = (a.toNat : Int).bmod (2 ^ 16)
  | .zextB => r.toNat = a.toNat % 2 ^ 8
  | .zextH => r.toNat = a.toNat % 2 ^ 16
  | .orcb => ∀ i, i < w → (r.getLsbD i = true ↔ ∃ j, j < 8 ∧ a.getLsbD (8 * (i / 8) + j) = true)
  | .rev8 => ∀ i j, i < w / 8 → j < 8 → r.getLsbD (8 * i + j) = a.getLsbD (8 * (w / 8 - 1 - i) + j)

def bin (o : Bin) (a b r : BitVec w) : Prop :=
  match o with
  | .shAdd s => r.toNat = (a.toNat * 2 ^ (s.val + 1) + b.toNat) % 2 ^ w
  | .andn => ∀ i, i < w → r.getLsbD i = (a.getLsbD i && !b.getLsbD i)
  | .orn => ∀ i, i < w → r.getLsbD i = (a.getLsbD i || !b.getLsbD i)
  | .xnor => ∀ i, i < w → r.getLsbD i = (a.getLsbD i == b.getLsbD i)
  | .max => r.toInt = max a.toInt b.toInt
  | .maxu => r.toNat = max a.toNat b.toNat
  | .min => r.toInt = min a.toInt b.toInt
  | .minu => r.toNat = min a.toNat b.toNat
  | .rol => ∀ i, i < w → r.getLsbD ((i + b.toNat % w) % w) = a.getLsbD i
  | .ror => ∀ i, i < w → r.getLsbD i = a.getLsbD ((i + b.toNat % w) % w)
  | .clmul => ∀ k, k < w → r.getLsbD k = coeff a b k
  | .clmulh => ∀ k, k < w → r.getLsbD k = coeff a b (k + w)
  | .clmulr => ∀ k, k < w → r.getLsbD k = coeff a b (k + w - 1)
  | .bclr => ∀ i, i < w → r.getLsbD i = if i = b.toNat % w then false else a.getLsbD i
  | .bext => r.toNat = (a.getLsbD (b.toNat % w)).toNat
  | .binv => ∀ i, i < w → r.getLsbD i = if i = b.toNat % w then !a.getLsbD i else a.getLsbD i
  | .bset => ∀ i, i < w → r.getLsbD i = if i = b.toNat % w then true else a.getLsbD i

def unW (o : UnW) (a r : BitVec 64) : Prop :=
  match o with
  | .clzw => IsClz (a.setWidth 32) r.toNat
  | .ctzw => IsCtz (a.setWidth 32) r.toNat
  | .cpopw => r.toNat = ones a 32

/-- `r` is the sign extension of a word `v` satisfying `P`. -/
def sextOf (r : BitVec 64) (P : BitVec 32 → Prop) : Prop := ∃ v : BitVec 32, P v ∧ r.toInt = v.toInt

def binW (o : BinW) (a b r : BitVec 64) : Prop :=
  match o with
  | .addUw => r.toNat = (a.toNat % 2 ^ 32 + b.toNat) % 2 ^ 64
  | .shAddUw s => r.toNat = (a.toNat % 2 ^ 32 * 2 ^ (s.val + 1) + b.toNat) % 2 ^ 64
  | .slliUw => r.toNat = a.toNat % 2 ^ 32 * 2 ^ b.toNat % 2 ^ 64
  | .rolw => sextOf r (fun v => ∀ i, i < 32 → v.getLsbD ((i + b.toNat % 32) % 32) = a.getLsbD i)
  | .rorw => sextOf r (fun v => ∀ i, i < 32 → v.getLsbD i = a.getLsbD ((i + b.toNat % 32) % 32))

end Verif.Bitmanip.Spec
