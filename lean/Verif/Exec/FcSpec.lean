import Verif.Exec.FaSpec
import Verif.Exec.FcModel
import Verif.FpConvert.Spec
import Verif.FpCvt.Spec

/-!
# Conversions, by the manual

`VSem` serves as a list of the instructions.
-/

namespace Verif.Exec.Spec

open Decode Decode.Isa Core
open FpFma.Spec (NaN Signalling)
open FpConvert (int32 uint32 int64 uint64)

/-- The conversions from and to 64 bits belong to RV64 only. -/
def vkind (x : Xlen) : Op → Option VSem
  | .fcvt_ws => some (.toInt .s int32)
  | .fcvt_wus => some (.toInt .s uint32)
  | .fcvt_sw => some (.ofInt .s int32)
  | .fcvt_swu => some (.ofInt .s uint32)
  | .fcvt_wd => some (.toInt .d int32)
  | .fcvt_wud => some (.toInt .d uint32)
  | .fcvt_dw => some (.ofInt .d int32)
  | .fcvt_dwu => some (.ofInt .d uint32)
  | .fcvt_sd => some .narrow
  | .fcvt_ds => some .widen
  | .fcvt_ls => if x = .rv64 then some (.toInt .s int64) else none
  | .fcvt_lus => if x = .rv64 then some (.toInt .s uint64) else none
  | .fcvt_sl => if x = .rv64 then some (.ofInt .s int64) else none
  | .fcvt_slu => if x = .rv64 then some (.ofInt .s uint64) else none
  | .fcvt_ld => if x = .rv64 then some (.toInt .d int64) else none
  | .fcvt_lud => if x = .rv64 then some (.toInt .d uint64) else none
  | .fcvt_dl => if x = .rv64 then some (.ofInt .d int64) else none
  | .fcvt_dlu => if x = .rv64 then some (.ofInt .d uint64) else none
  | _ => none

/-- The word `w` is such an instruction. -/
def IsV (x : Xlen) (w : Nat) (k : VSem) : Prop := ∃ o, vkind x o = some k ∧ Listed x o w

variable {n : Nat} {ρ : Type} {H : FpState.Host}

/-- The integer in the lower bits of a register. -/
def Integer (t : FpConvert.To) (v : BitVec n) (z : Int) : Prop :=
  (∃ k : Int, z = v.toNat + k * 2 ^ t.bits) ∧ FpConvert.Spec.lo t.bits t.signed ≤ z ∧
    z ≤ FpConvert.Spec.hi t.bits t.signed

/-- The effect of a conversion to an integer in the rounding mode `m`: the rounded number, or the nearest one
of the type; rd is extended from the sign even for unsigned types. -/
def DoesToInt (m : BitVec 3) (p : Prec) (t : FpConvert.To) (a : BitVec p.fmt.bits) (w : Nat)
    (st st' : FSt n ρ H) : Prop :=
  ∃ v fl, FpConvert.Spec.Value t.bits t.signed m.toNat a v ∧ FpConvert.Spec.Flags t.bits t.signed m.toNat a fl ∧
    AccruesAll st st' (BitVec.ofNat 5 fl) ∧ GivesX st st' (rd w) fun r => r.toInt = v.bmod (2 ^ t.bits)

/-- The effect of a conversion from the integer `z`. -/
def DoesOfInt (after : Bool) (d : Way) (p : Prec) (z : Int) (w : Nat) (st st' : FSt n ρ H) : Prop :=
  ∃ fl, FpFlags.Spec.Flags p.fmt after d (FpCvt.Spec.ofInt p.fmt z) False False fl ∧ AccruesAll st st' fl ∧
    GivesF p st st' (rd w) (FpFma.Spec.Meets d (FpCvt.Spec.ofInt p.fmt z))

/-- The effect of the conversion of a double precision number to single precision. -/
def DoesNarrow (after : Bool) (d : Way) (a : BitVec Fp.double.bits) (w : Nat) (st st' : FSt n ρ H) : Prop :=
  ∃ fl, FpFlags.Spec.Flags Fp.single after d (FpCvt.Spec.converted Fp.single a) (Signalling a) False fl ∧
    AccruesAll st st' fl ∧ GivesF .s st st' (rd w) (Right d (FpCvt.Spec.converted Fp.single a))

/-- The effect of the conversion of a single precision number to double precision: it is exact. -/
def DoesWiden (a : BitVec Fp.single.bits) (w : Nat) (st st' : FSt n ρ H) : Prop :=
  ∃ fl : BitVec 5, (Signalling a → fl = 16#5) ∧ (¬ Signalling a → fl = 0#5) ∧ AccruesAll st st' fl ∧
    GivesF .d st st' (rd w) fun v => VecWiden.Spec.Same a v ∧ (NaN v → v = Fp.canonicalNaN Fp.double)

/-- The effect of an instruction that rounds in direction `d`. -/
def DoesV (after : Bool) (d : Way) (k : VSem) (w : Nat) (st st' : FSt n ρ H) : Prop :=
  match k with
  | .toInt p t => ∃ a, ValueF p st (rs1 w) a ∧ DoesToInt (modeOf w st) p t a w st st'
  | .ofInt p t => ∃ z, Integer t (X st.core (rs1 w)) z ∧ DoesOfInt after d p z w st st'
  | .narrow => ∃ a, ValueF .d st (rs1 w) a ∧ DoesNarrow after d a w st st'
  | .widen => ∃ a, ValueF .s st (rs1 w) a ∧ DoesWiden a w st st'

/-! ## The cases in which the simulator does something else -/

/-- The number is rounded to the least one of a signed type, or is far below those of 64 bits: undefined
behaviour. -/
def Undefined {f : Fp.Fmt} (t : FpConvert.To) (m : Nat) (a : BitVec f.bits) : Prop :=
  ¬ FpConvert.Spec.Special a ∧ t.signed = true ∧
    (FpConvert.Spec.Rounded m (FpConvert.Spec.num a) (FpConvert.Spec.den a) (-2 ^ (t.bits - 1)) ∨
     (t.bits = 64 ∧ FpConvert.Spec.num a ≤ -2 ^ 64 * FpConvert.Spec.den a))

/-- The cases left out: the dynamic rounding mode while the simulator takes it to be invalid; operands of
single precision that are not boxed; ties away from zero, for conversions to integers only if the number is
half way between two of them; undefined behaviour; signalling NaNs. -/
def WrongV (d : Way) (k : VSem) (w : Nat) (st : FSt n ρ H) : Prop :=
  (rmField w = 7#3 ∧ st.fp.valid = false) ∨
  match k with
  | .toInt p t => (p = .s ∧ ¬ BoxedS st (rs1 w)) ∨ ∃ a, ValueF p st (rs1 w) a ∧
      ((d = .nearestAway ∧ FpConvert.Spec.Tie a) ∨ Undefined t (modeOf w st).toNat a)
  | .ofInt _ _ => d = .nearestAway
  | .narrow => d = .nearestAway ∨ ∃ a, ValueF .d st (rs1 w) a ∧ Signalling a
  | .widen => ¬ BoxedS st (rs1 w) ∨ ∃ a, ValueF .s st (rs1 w) a ∧ Signalling a

end Verif.Exec.Spec
