import Verif.FpHost.Model
import Verif.FpHost.Spec
import Verif.Util.Bits
/-
C36: flag translation. C64: rounding mode used by host arithmetic.
-/
namespace Verif.FpHost
open Spec

theorem low5 (v : BitVec 32) : (v &&& 0b11111#32).toNat = (v.setWidth 5).toNat := by
  rw [BitVec.toNat_and, show (0b11111#32).toNat = 2 ^ 5 - 1 from rfl, Nat.and_two_pow_sub_one_eq_mod,
    BitVec.toNat_setWidth]

theorem low6 (v : BitVec 32) : (v &&& 0b111111#32).toNat = (v.setWidth 6).toNat := by
  rw [BitVec.toNat_and, show (0b111111#32).toNat = 2 ^ 6 - 1 from rfl, Nat.and_two_pow_sub_one_eq_mod,
    BitVec.toNat_setWidth]

theorem low5' (v : BitVec 64) : (v &&& 0b11111#64).toNat = (v.setWidth 5).toNat := by
  rw [BitVec.toNat_and, show (0b11111#64).toNat = 2 ^ 5 - 1 from rfl, Nat.and_two_pow_sub_one_eq_mod,
    BitVec.toNat_setWidth]

theorem rm3 (v : BitVec 32) : ((v >>> 5) &&& 7#32).toNat = (v.extractLsb' 5 3).toNat := by
  rw [BitVec.toNat_and, show (7#32).toNat = 2 ^ 3 - 1 from rfl, Nat.and_two_pow_sub_one_eq_mod,
    BitVec.extractLsb'_toNat, BitVec.toNat_ushiftRight]

theorem rm2 (v : BitVec 32) : ((v >>> 13) &&& 3#32).toNat = (v.extractLsb' 13 2).toNat := by
  rw [BitVec.toNat_and, show (3#32).toNat = 2 ^ 2 - 1 from rfl, Nat.and_two_pow_sub_one_eq_mod,
    BitVec.extractLsb'_toNat, BitVec.toNat_ushiftRight]

theorem rvBit_lt (e : Exc) : rvBit e < 5 := by cases e <;> decide

namespace X86

def tblFrom (f : BitVec 5) : BitVec 8 := fromRiscV[f.toNat]?.getD 0#8
def tblTo (f : BitVec 6) : BitVec 8 := toRiscV[f.toNat]?.getD 0#8
def tblRm (r : BitVec 3) : BitVec 32 := rmFromRiscV[r.toNat]?.getD 0#32
def tblRmTo (r : BitVec 2) : BitVec 32 := rmToRiscV[r.toNat]?.getD 0#32

theorem tblTo_ok : ∀ f : BitVec 6, ∀ e ∈ [Exc.inexact, .underflow, .overflow, .divByZero, .invalid],
    (tblTo f).getLsbD (rvBit e) = f.getLsbD (x86Bit e) := by decide +kernel

theorem tblFrom_ok : ∀ f : BitVec 5, ∀ e ∈ [Exc.inexact, .underflow, .overflow, .divByZero, .invalid],
    (tblFrom f).getLsbD (x86Bit e) = f.getLsbD (rvBit e) := by decide +kernel

theorem tblFrom_only : ∀ f : BitVec 5, (tblFrom f) &&& 0b11000010#8 = 0#8 := by decide +kernel

theorem mem_all (e : Exc) : e ∈ [Exc.inexact, .underflow, .overflow, .divByZero, .invalid] := by
  cases e <;> simp

theorem get_flag (s : Status) (e : Exc) : (get s).getLsbD (rvBit e) = s.getLsbD (x86Bit e) := by
  have h1 := tblTo_ok (s.setWidth 6) e (mem_all e)
  unfold tblTo at h1
  unfold get
  simp only [low6, rm2]
  have hb := rvBit_lt e
  simp only [BitVec.getLsbD_or, BitVec.getLsbD_shiftLeft, BitVec.getLsbD_and, BitVec.getLsbD_setWidth]
    at h1 ⊢
  rw [h1]
  cases e <;> simp [rvBit, x86Bit]

theorem tblRm_only : ∀ r : BitVec 3, (tblRm r) &&& 0xffff9fff#32 = 0#32 := by decide +kernel

theorem tblRm_low (r : BitVec 3) (i : Nat) (hi : i < 6) : (tblRm r).getLsbD i = false := by
  have h := congrArg (fun x => x.getLsbD i) (tblRm_only r)
  have hm : (0xffff9fff#32).getLsbD i = true := by
    exact allLt (n := 6) (P := fun i => (0xffff9fff#32).getLsbD i = true) (by decide) i hi
  simpa [BitVec.getLsbD_and, hm] using h

theorem set_flag (v : BitVec 32) (e : Exc) : (set v).getLsbD (x86Bit e) = v.getLsbD (rvBit e) := by
  have h1 := tblFrom_ok (v.setWidth 5) e (mem_all e)
  have h2 := tblRm_low (v.extractLsb' 5 3) (x86Bit e) (by cases e <;> decide)
  have h3 : kExceptionFlags.getLsbD (x86Bit e) = false := by cases e <;> decide
  unfold tblFrom at h1
  unfold tblRm at h2
  unfold set
  simp only [low5, rm3, BitVec.getLsbD_or, h2, h3, Bool.false_or]
  rw [BitVec.getLsbD_setWidth, h1, BitVec.getLsbD_setWidth]
  have hb := rvBit_lt e
  have : x86Bit e < 32 := by cases e <;> decide
  simp [hb, this]

end X86

/-- **C36 (x86, both tables).** Every host flag combination is reported as the RISC-V flags it
denotes, whatever the rest of the status register holds. -/
theorem C36_x86_get (s : BitVec 32) (e : Exc) : (X86.get s).getLsbD (rvBit e) = s.getLsbD (x86Bit e) :=
  X86.get_flag s e

/-- **C36 (x86).** RISC-V flags are stored as the host flags they denote. -/
theorem C36_x86_set (v : BitVec 32) (e : Exc) : (X86.set v).getLsbD (x86Bit e) = v.getLsbD (rvBit e) :=
  X86.set_flag v e

/-- Equality on the five flag bits. -/
theorem flags_ext (a b : BitVec 32) (h : ∀ e, a.getLsbD (rvBit e) = b.getLsbD (rvBit e)) :
    a &&& 0x1f#32 = b &&& 0x1f#32 := by
  apply BitVec.eq_of_getLsbD_eq
  intro i hi
  simp only [BitVec.getLsbD_and]
  by_cases h5 : i < 5
  · have : a.getLsbD i = b.getLsbD i := by
      rcases (by omega : i = 0 ∨ i = 1 ∨ i = 2 ∨ i = 3 ∨ i = 4) with h' | h' | h' | h' | h' <;> subst h'
      · exact h .inexact
      · exact h .underflow
      · exact h .overflow
      · exact h .divByZero
      · exact h .invalid
    rw [this]
  · have : (0x1f#32).getLsbD i = false := by
      have : (0x1f#32).toNat < 2 ^ i := Nat.lt_of_lt_of_le (by decide : _ < 2 ^ 5)
        (Nat.pow_le_pow_right (by omega) (by omega))
      unfold BitVec.getLsbD
      exact Nat.testBit_lt_two_pow this
    simp [this]

/-- **C36 (x86 round trip).** -/
theorem C36_x86_roundtrip (v : BitVec 32) : X86.get (X86.set v) &&& 0x1f#32 = v &&& 0x1f#32 :=
  flags_ext _ _ fun e => by rw [C36_x86_get, C36_x86_set]

/-- **C36 (x86 accrual).** Host arithmetic run in a scope adds exactly the exceptions it raises to the
simulated flags, for every rounding mode argument. -/
theorem C36_x86_accrue (s : BitVec 32) (rm : Option (BitVec 3)) (f : BitVec 6) (e : Exc) :
    (X86.get (X86.runIn s rm f)).getLsbD (rvBit e)
      = ((X86.get s).getLsbD (rvBit e) || f.getLsbD (x86Bit e)) := by
  rw [C36_x86_get, C36_x86_get]
  have hx : x86Bit e < 6 := by cases e <;> decide
  have h3 : X86.kExceptionFlags.getLsbD (x86Bit e) = false := by cases e <;> decide
  have hl : (X86.load s rm).getLsbD (x86Bit e) = s.getLsbD (x86Bit e) := by
    cases rm with
    | none => rfl
    | some r =>
      simp only [X86.load]
      split
      · have h2 := X86.tblRm_low r (x86Bit e) hx
        unfold X86.tblRm at h2
        simp only [BitVec.getLsbD_or, h2, Bool.false_or, BitVec.getLsbD_and]
        have : (0x1fff#32).getLsbD (x86Bit e) = true := by cases e <;> decide
        simp [this]
      · rfl
  simp only [X86.runIn, X86.leave, BitVec.getLsbD_or, h3, hl, Bool.false_or, BitVec.getLsbD_setWidth]
  have : x86Bit e < 32 := by omega
  simp [this]

/-! ### ARM -/
namespace Arm

def tblFrom (f : BitVec 5) : BitVec 8 := fromRiscV[f.toNat]?.getD 0#8
def tblTo (f : BitVec 5) : BitVec 8 := toRiscV[f.toNat]?.getD 0#8
def tblRm (r : BitVec 3) : BitVec 32 := rmFromRiscV[r.toNat]?.getD 0#32

theorem tblTo_ok : ∀ f : BitVec 5, ∀ e ∈ [Exc.inexact, .underflow, .overflow, .divByZero, .invalid],
    (tblTo f).getLsbD (rvBit e) = f.getLsbD (armBit e) := by decide +kernel

theorem tblFrom_ok : ∀ f : BitVec 5, ∀ e ∈ [Exc.inexact, .underflow, .overflow, .divByZero, .invalid],
    (tblFrom f).getLsbD (armBit e) = f.getLsbD (rvBit e) := by decide +kernel

end Arm

/-- **C36 (ARM, flags read).** -/
theorem C36_arm_get (s : Arm.Status) (e : Exc) :
    (Arm.get s).getLsbD (rvBit e) = s.fpsr.getLsbD (armBit e) := by
  have h1 := Arm.tblTo_ok (s.fpsr.setWidth 5) e (X86.mem_all e)
  unfold Arm.tblTo at h1
  unfold Arm.get
  simp only [low5']
  have hb := rvBit_lt e
  simp only [BitVec.getLsbD_or, BitVec.getLsbD_shiftLeft, BitVec.getLsbD_and, BitVec.getLsbD_setWidth]
    at h1 ⊢
  rw [h1]
  cases e <;> simp [rvBit, armBit]

/-- **C36 (ARM, flags written).** -/
theorem C36_arm_set (v : BitVec 32) (e : Exc) :
    (Arm.set v).fpsr.getLsbD (armBit e) = v.getLsbD (rvBit e) := by
  have h1 := Arm.tblFrom_ok (v.setWidth 5) e (X86.mem_all e)
  unfold Arm.tblFrom at h1
  unfold Arm.set
  simp only [low5]
  rw [BitVec.getLsbD_setWidth, h1, BitVec.getLsbD_setWidth]
  have hb := rvBit_lt e
  have : armBit e < 64 := by cases e <;> decide
  simp [hb, this]

/-- **C36 (ARM round trip).** -/
theorem C36_arm_roundtrip (v : BitVec 32) : Arm.get (Arm.set v) &&& 0x1f#32 = v &&& 0x1f#32 :=
  flags_ext _ _ fun e => by rw [C36_arm_get, C36_arm_set]

/-- **C36 (ARM accrual).** -/
theorem C36_arm_accrue (s : Arm.Status) (rm : Option (BitVec 3)) (f : BitVec 5) (e : Exc) :
    (Arm.get (Arm.runIn s rm f)).getLsbD (rvBit e)
      = ((Arm.get s).getLsbD (rvBit e) || f.getLsbD (armBit e)) := by
  rw [C36_arm_get, C36_arm_get]
  have hl : (Arm.load s rm).fpsr = s.fpsr := by
    cases rm with
    | none => rfl
    | some r => simp only [Arm.load]; split <;> rfl
  have : armBit e < 64 := by cases e <;> decide
  simp [Arm.runIn, Arm.leave, hl, this]

example : X86.get (X86.runIn (X86.set 0x43#32) none 0b000001#6) &&& 0x1f#32 = 0x13#32 := by decide

/-! ### C64: rounding direction -/

theorem x86Dir_or (s : BitVec 32) (h14 : s.getLsbD 14 = a) (h13 : s.getLsbD 13 = b) (t : BitVec 32)
    (g14 : t.getLsbD 14 = a) (g13 : t.getLsbD 13 = b) : x86Dir s = x86Dir t := by
  unfold x86Dir; rw [h14, h13, g14, g13]

/-- Modes the host can represent: RNE, RTZ, RDN, RUP. -/
def hostable (r : BitVec 3) : Prop := r.toNat ≤ 3

theorem tblRm_dir : ∀ r : BitVec 3, r.toNat ≤ 3 → some (x86Dir (X86.tblRm r)) = rvDir r := by
  decide +kernel

theorem set_dir (v : BitVec 32) : x86Dir (X86.set v) = x86Dir (X86.tblRm (v.extractLsb' 5 3)) := by
  have key : ∀ i, 13 ≤ i → i < 32 → (X86.set v).getLsbD i = (X86.tblRm (v.extractLsb' 5 3)).getLsbD i := by
    intro i h1 h2
    unfold X86.set X86.tblRm
    simp only [rm3, BitVec.getLsbD_or, BitVec.getLsbD_setWidth]
    have hk : X86.kExceptionFlags.getLsbD i = false := by
      unfold BitVec.getLsbD
      exact Nat.testBit_lt_two_pow (Nat.lt_of_lt_of_le (by decide : X86.kExceptionFlags.toNat < 2 ^ 13)
        (Nat.pow_le_pow_right (by omega) h1))
    rw [hk, BitVec.getLsbD_of_ge (X86.fromRiscV[_]?.getD 0#8) i (by omega)]
    simp
  exact x86Dir_or _ (key 14 (by omega) (by omega)) (key 13 (by omega) (by omega)) _ rfl rfl

/-- **C64 (explicit mode, partial).** Arithmetic that passes one of the modes 0..3 is run in that
direction. Missing: mode 4 (nearest, ties away) is run as nearest-even. -/
theorem C64_x86_explicit_partial (s : BitVec 32) (r : BitVec 3) (h : r.toNat ≤ 3) :
    some (x86Dir (X86.load s (some r))) = rvDir r := by
  rw [← tblRm_dir r h]
  have h7 : r ≠ 7#3 := by intro hc; subst hc; exact absurd h (by decide)
  have key : ∀ i, 13 ≤ i → (X86.load s (some r)).getLsbD i = (X86.tblRm r).getLsbD i := by
    intro i h1
    simp only [X86.load, ne_eq, h7, not_false_eq_true, if_true, BitVec.getLsbD_or, BitVec.getLsbD_and]
    have : (0x1fff#32).getLsbD i = false := by
      unfold BitVec.getLsbD
      exact Nat.testBit_lt_two_pow (Nat.lt_of_lt_of_le (by decide : (0x1fff#32).toNat < 2 ^ 13)
        (Nat.pow_le_pow_right (by omega) h1))
    rw [this]; simp [X86.tblRm]
  exact congrArg some (x86Dir_or _ (key 14 (by omega)) (key 13 (by omega)) _ rfl rfl)

/-- **C64 (dynamic mode right after a write, partial).** After fcsr has been written with a mode 0..3,
arithmetic without its own mode runs in that direction. Missing: the state after other arithmetic. -/
theorem C64_x86_dynamic_partial (v : BitVec 32) (h : (v.extractLsb' 5 3).toNat ≤ 3) :
    some (x86Dir (X86.load (X86.set v) none)) = rvDir (v.extractLsb' 5 3) := by
  rw [← tblRm_dir _ h]; exact congrArg some (set_dir v)

/-- **C64 (x86, partial).** The direction survives arithmetic that has no mode of its own. -/
theorem C64_x86_keep_partial (s : BitVec 32) (f : BitVec 6) :
    x86Dir (X86.runIn s none f) = x86Dir s := by
  have key : ∀ i, 13 ≤ i → i < 32 → (X86.runIn s none f).getLsbD i = s.getLsbD i := by
    intro i h1 h2
    have hk : X86.kExceptionFlags.getLsbD i = false := by
      unfold BitVec.getLsbD
      exact Nat.testBit_lt_two_pow (Nat.lt_of_lt_of_le (by decide : X86.kExceptionFlags.toNat < 2 ^ 13)
        (Nat.pow_le_pow_right (by omega) h1))
    simp only [X86.runIn, X86.leave, X86.load, BitVec.getLsbD_or, hk, BitVec.getLsbD_setWidth]
    rw [BitVec.getLsbD_of_ge f i (by omega)]
    simp
  exact x86Dir_or _ (key 14 (by omega) (by omega)) (key 13 (by omega) (by omega)) _ rfl rfl

/-- **C64 violated (x86).** A mode given in an instruction stays in force: whatever fcsr was, after
arithmetic with its own mode `r`, arithmetic without a mode runs in the direction of `r`. -/
theorem C64_x86_violated (s : BitVec 32) (r : BitVec 3) (h : r.toNat ≤ 3) (f : BitVec 6) :
    some (x86Dir (X86.load (X86.runIn s (some r) f) none)) = rvDir r := by
  rw [← C64_x86_explicit_partial s r h]
  have := C64_x86_keep_partial (X86.load s (some r)) f
  unfold X86.runIn at this
  exact congrArg some this

/-- The concrete case: frm is RNE, an instruction uses RTZ, and the next vector operation truncates. -/
example : x86Dir (X86.load (X86.runIn (X86.set 0#32) (some 1#3) 0#6) none) = .towardZero := by decide

theorem tblRm_shift : ∀ r : BitVec 3, (Arm.tblRm r) <<< 22 = 0#32 := by decide +kernel

/-- **C64 violated (ARM).** On an ARM host the mode written to fcsr is lost: arithmetic without its
own mode always runs to nearest. -/
theorem C64_arm_violated (v : BitVec 32) : armDir (Arm.load (Arm.set v) none).fpcr = .nearestEven := by
  have h : (Arm.set v).fpcr = 0#64 := by
    have h1 := tblRm_shift (v.extractLsb' 5 3)
    unfold Arm.tblRm at h1
    unfold Arm.set
    simp only [rm3, h1]
    rfl
  show armDir (Arm.set v).fpcr = _
  rw [h]; decide

theorem arm_tblRm_dir : ∀ r : BitVec 3, r.toNat ≤ 3 → some (armDir ((Arm.tblRm r).setWidth 64)) = rvDir r := by
  decide +kernel

/-- **C64 (ARM, explicit mode, partial).** -/
theorem C64_arm_explicit_partial (s : Arm.Status) (r : BitVec 3) (h : r.toNat ≤ 3) :
    some (armDir (Arm.load s (some r)).fpcr) = rvDir r := by
  rw [← arm_tblRm_dir r h]
  have h7 : r ≠ 7#3 := by intro hc; subst hc; exact absurd h (by decide)
  simp only [Arm.load, ne_eq, h7, not_false_eq_true, if_true, Arm.tblRm]

/-- **C64 (ARM, partial).** A mode given in an instruction does not stay in force. -/
theorem C64_arm_keep_partial (s : Arm.Status) (rm : Option (BitVec 3)) (f : BitVec 5) :
    armDir (Arm.runIn s rm f).fpcr = armDir s.fpcr := by
  unfold armDir
  simp only [Arm.runIn, Arm.leave, BitVec.getLsbD_and]
  rw [show (Arm.kToZero.setWidth 64).getLsbD 23 = true from by decide,
    show (Arm.kToZero.setWidth 64).getLsbD 22 = true from by decide]
  simp

end Verif.FpHost
