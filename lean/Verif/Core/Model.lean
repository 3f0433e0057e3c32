import Verif.Hart.Model
import Verif.Regs.Model
/-
A hart with its integer registers and memory: the state used by the models of control transfer,
loads and stores, atomics and push/pop.

Memory is a map from 64-bit addresses to bytes, little-endian, as mpact-sim's flat memories are
(that library is not part of this code base).
-/
namespace Verif.Core

abbrev Memory := BitVec 64 → BitVec 8

structure Core (w : Nat) where
  hart : Hart.Hart w
  regs : Regs.File w
  mem : Memory
  /-- `max_physical_address_` -/
  limit : BitVec 64
  /-- the C bit of misa -/
  hasC : Bool

variable {w : Nat}

/-- `n` bytes at `a`, least significant first. -/
def readLE (m : Memory) (a : BitVec 64) : Nat → Nat
  | 0 => 0
  | n + 1 => (m a).toNat + 256 * readLE m (a + 1#64) n

/-- One byte replaced. -/
def setByte (m : Memory) (a : BitVec 64) (v : BitVec 8) : Memory := fun b => if b = a then v else m b

/-- The low `n` bytes of `v` written at `a`, least significant first. -/
def writeLE (m : Memory) (a : BitVec 64) : Nat → Nat → Memory
  | 0, _ => m
  | n + 1, v => writeLE (setByte m a (BitVec.ofNat 8 v)) (a + 1#64) n (v / 256)

/-- The instruction raised an exception through `RiscVState::Trap` (riscv_state.cc:665-799, modelled
by `Hart.trap`), with no other effect. `handled` is the answer of the user's trap callback. -/
def raise (c : Core w) (tval code epc : BitVec 64) (handled : Bool) : Core w :=
  { c with hart := c.hart.trap false tval code epc handled }

theorem readLE_lt (m : Memory) (a : BitVec 64) (n : Nat) : readLE m a n < 256 ^ n := by
  induction n generalizing a with
  | zero => simp [readLE]
  | succ n ih =>
    have h1 := (m a).isLt
    have h2 := ih (a + 1#64)
    have e : 256 ^ (n + 1) = 256 * 256 ^ n := by rw [Nat.pow_succ, Nat.mul_comm]
    rw [readLE, e]
    omega

theorem add_one_sub (a b : BitVec 64) (n : Nat) (hn : n + 1 ≤ 2 ^ 64) (h : n + 1 ≤ (b - a).toNat) :
    n ≤ (b - (a + 1#64)).toNat := by
  rw [BitVec.toNat_sub] at *
  rw [BitVec.toNat_add]
  have := a.isLt; have := b.isLt
  simp only [BitVec.toNat_ofNat] at *
  omega

/-- Bytes outside the written range keep their value. -/
theorem writeLE_frame (m : Memory) (a : BitVec 64) (n v : Nat) (hn : n ≤ 2 ^ 64) (b : BitVec 64)
    (h : n ≤ (b - a).toNat) : writeLE m a n v b = m b := by
  induction n generalizing a v m with
  | zero => rfl
  | succ n ih =>
    rw [writeLE, ih _ _ _ (by omega) (add_one_sub a b n hn h), setByte, if_neg]
    rintro rfl
    simp at h

/-- The byte written at offset `i`. -/
theorem writeLE_byte (m : Memory) (a : BitVec 64) (n v i : Nat) (hn : n ≤ 2 ^ 64) (hi : i < n) :
    writeLE m a n v (a + BitVec.ofNat 64 i) = BitVec.ofNat 8 (v / 256 ^ i) := by
  induction n generalizing a v m i with
  | zero => omega
  | succ n ih =>
    cases i with
    | zero =>
      rw [writeLE, writeLE_frame _ _ _ _ (by omega)]
      · simp [setByte]
      · rw [show a + BitVec.ofNat 64 0 = a by simp, BitVec.toNat_sub, BitVec.toNat_add]
        have := a.isLt
        simp only [BitVec.toNat_ofNat]
        omega
    | succ i =>
      have e : a + BitVec.ofNat 64 (i + 1) = (a + 1#64) + BitVec.ofNat 64 i := by
        apply BitVec.eq_of_toNat_eq
        simp only [BitVec.toNat_add, BitVec.toNat_ofNat]
        omega
      rw [writeLE, e, ih _ _ _ _ (by omega) (by omega), Nat.div_div_eq_div_mul, Nat.pow_succ,
        Nat.mul_comm 256]

/-- Reading back what was written. -/
theorem readLE_writeLE (m : Memory) (a : BitVec 64) (n v : Nat) (hn : n ≤ 2 ^ 64) :
    readLE (writeLE m a n v) a n = v % 256 ^ n := by
  induction n generalizing a v m with
  | zero => simp [readLE, Nat.mod_one]
  | succ n ih =>
    rw [readLE, writeLE, ih _ _ _ (by omega), writeLE_frame _ _ _ _ (by omega)]
    · rw [setByte, if_pos rfl, Nat.pow_succ, Nat.mul_comm (256 ^ n), Nat.mod_mul, BitVec.toNat_ofNat]
    · rw [BitVec.toNat_sub, BitVec.toNat_add]
      have := a.isLt
      simp only [BitVec.toNat_ofNat]
      omega

/-- Byte `i` of the value read. -/
theorem readLE_byte (m : Memory) (a : BitVec 64) (n i : Nat) (hi : i < n) :
    readLE m a n / 256 ^ i % 256 = (m (a + BitVec.ofNat 64 i)).toNat := by
  induction n generalizing a i with
  | zero => omega
  | succ n ih =>
    have hb := (m a).isLt
    cases i with
    | zero => rw [readLE]; simp; omega
    | succ i =>
      have e : a + BitVec.ofNat 64 (i + 1) = (a + 1#64) + BitVec.ofNat 64 i := by
        apply BitVec.eq_of_toNat_eq
        simp only [BitVec.toNat_add, BitVec.toNat_ofNat]
        omega
      rw [readLE, e, ← ih _ _ (by omega), Nat.pow_succ, Nat.mul_comm (256 ^ i), ← Nat.div_div_eq_div_mul]
      congr 2
      omega

theorem readLE_congr (m m' : Memory) (a : BitVec 64) (n : Nat)
    (h : ∀ i, i < n → m (a + BitVec.ofNat 64 i) = m' (a + BitVec.ofNat 64 i)) :
    readLE m a n = readLE m' a n := by
  induction n generalizing a with
  | zero => rfl
  | succ n ih =>
    have h0 := h 0 (by omega)
    rw [show a + BitVec.ofNat 64 0 = a by simp] at h0
    rw [readLE, readLE, h0, ih (a + 1#64) (fun i hi => ?_)]
    have := h (i + 1) (by omega)
    have e : a + BitVec.ofNat 64 (i + 1) = (a + 1#64) + BitVec.ofNat 64 i := by
      apply BitVec.eq_of_toNat_eq
      simp only [BitVec.toNat_add, BitVec.toNat_ofNat]
      omega
    rwa [e] at this

end Verif.Core
