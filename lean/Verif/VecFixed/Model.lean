/-
The element operations of the fixed-point and saturating vector instructions
(riscv/riscv_vector_instruction_helpers.h:694-730, riscv/riscv_vector_opi_instructions.cc:738-936, 1165-1404,
riscv/riscv_vector_opm_instructions.cc:34-187).

The functions are templates over the element type; the model takes its width `m` (8, 16, 32 or 64; 128 for the
wide type of 64-bit elements).  C++ promotes the narrow types to `int` inside expressions; the results are
converted back to the element type, so computing at the element's width gives the same values.
-/
namespace Verif.VecFixed

/-- Bit `k` of `b`: `(b >> k) & 0b1`. -/
def bitAt {m : Nat} (b : BitVec m) (k : Nat) : Bool := ((b >>> k) &&& 1#m) ≠ 0#m

/-- `(b & ~(max << k)) != 0`. -/
def lowNonzero {m : Nat} (b : BitVec m) (k : Nat) : Bool := (b &&& ~~~(BitVec.allOnes m <<< k)) ≠ 0#m

/-- `GetRoundingBit` (riscv_vector_instruction_helpers.h:694-723). -/
def getRoundingBit {m : Nat} (rm : BitVec 2) (b : BitVec m) (size : Nat) : Bool :=
  if rm = 0#2 then (if size < 2 then false else bitAt b (size - 2))
  else if rm = 1#2 then
    let d1 := if size < 2 then false else bitAt b (size - 2)
    let d := if size = 0 then false else bitAt b (size - 1)
    let d20 := if size < 3 then false else lowNonzero b (size - 2)
    d1 && (d20 || d)
  else if rm = 2#2 then false
  else
    let d10 := if size < 2 then false else lowNonzero b (size - 1)
    let d := bitAt b (size - 1)
    !d && d10

/-- A rounding bit as a number. -/
def bit (m : Nat) (b : Bool) : BitVec m := if b then 1#m else 0#m

/-- `RoundOff` (riscv_vector_instruction_helpers.h:725-730); `sgn` is the signedness of the type. -/
def roundOff {m : Nat} (sgn : Bool) (rm : BitVec 2) (value : BitVec m) (size : Nat) : BitVec m :=
  (if sgn then value.sshiftRight size else value >>> size) + bit m (getRoundingBit rm value (size + 1))

/-- `VssrHelper` (riscv_vector_opi_instructions.cc:1166-1182). -/
def vssr {m : Nat} (sgn : Bool) (rm : BitVec 2) (vs2 vs1 : BitVec m) : BitVec m :=
  let maxShift := m - 1
  let shift := (vs1 &&& BitVec.ofNat m maxShift).toNat
  let roundBits := if shift < maxShift then vs2 &&& ~~~(BitVec.allOnes m <<< (shift + 1)) else vs2
  (if sgn then vs2.sshiftRight shift else vs2 >>> shift) + bit m (getRoundingBit rm roundBits (shift + 1))

/-- The largest and smallest value of an `n`-bit type. -/
def maxVal (sgn : Bool) (n : Nat) : Int := if sgn then 2 ^ (n - 1) - 1 else 2 ^ n - 1
def minVal (sgn : Bool) (n : Nat) : Int := if sgn then -2 ^ (n - 1) else 0

/-- The value of an element. -/
def val {m : Nat} (sgn : Bool) (b : BitVec m) : Int := if sgn then b.toInt else b.toNat

/-- The saturation at the end of `VnclipHelper` and `VsmulHelper`: the result and whether vxsat is set. -/
def saturate {m : Nat} (sgn : Bool) (n : Nat) (b : BitVec m) : BitVec n × Bool :=
  if val sgn b > maxVal sgn n then (BitVec.ofInt n (maxVal sgn n), true)
  else if val sgn b < minVal sgn n then (BitVec.ofInt n (minVal sgn n), true)
  else (b.setWidth n, false)

/-- `VnclipHelper` (riscv_vector_opi_instructions.cc:1249-1274).  `vs1` has the narrow width. -/
def vnclip {n : Nat} (sgn : Bool) (rm : BitVec 2) (vs2 : BitVec (2 * n)) (vs1 : BitVec n) : BitVec n × Bool :=
  let maxShift := 2 * n - 1
  let shift := (vs1 &&& BitVec.ofNat n maxShift).toNat
  let mask := if shift < maxShift then ~~~(BitVec.allOnes (2 * n) <<< (shift + 1)) else vs2
  let roundBits := vs2 &&& mask
  let v := (if sgn then vs2.sshiftRight shift else vs2 >>> shift) + bit (2 * n) (getRoundingBit rm roundBits (shift + 1))
  saturate sgn n v

/-- Conversion to the wide type. -/
def widen {n : Nat} (sgn : Bool) (b : BitVec n) : BitVec (2 * n) := if sgn then b.signExtend (2 * n) else b.setWidth (2 * n)

/-- `VsmulHelper` (riscv_vector_opi_instructions.cc:1357-1374), signed. -/
def vsmul {n : Nat} (rm : BitVec 2) (vs2 vs1 : BitVec n) : BitVec n × Bool :=
  let prod := widen true vs2 * widen true vs1
  saturate true n (vssr true rm prod (BitVec.ofNat (2 * n) (n - 1)))

/-- `VaaddHelper` (riscv_vector_opm_instructions.cc:35-43). -/
def vaadd {n : Nat} (sgn : Bool) (rm : BitVec 2) (vs2 vs1 : BitVec n) : BitVec n :=
  (roundOff sgn rm (widen sgn vs2 + widen sgn vs1) 1).setWidth n

/-- `VasubHelper` (riscv_vector_opm_instructions.cc:113-120). -/
def vasub {n : Nat} (sgn : Bool) (rm : BitVec 2) (vs2 vs1 : BitVec n) : BitVec n :=
  (roundOff sgn rm (widen sgn vs2 - widen sgn vs1) 1).setWidth n

/-- `Vsaddu` (riscv_vector_opi_instructions.cc:739-788): the result and whether vxsat is set. -/
def vsaddu {n : Nat} (vs2 vs1 : BitVec n) : BitVec n × Bool :=
  let sum := vs2 + vs1
  if sum.toNat < vs1.toNat then (BitVec.allOnes n, true) else (sum, false)

/-- `VsaddHelper` (riscv_vector_opi_instructions.cc:793-805). -/
def vsadd {n : Nat} (vs2 vs1 : BitVec n) : BitVec n × Bool :=
  let sum := vs2 + vs1
  if (vs2 ^^^ vs1).toInt ≥ 0 ∧ (sum ^^^ vs2).toInt < 0 then
    (if vs2.toInt > 0 then BitVec.ofInt n (maxVal true n) else BitVec.ofInt n (minVal true n), true)
  else (sum, false)

/-- `Vssubu` (riscv_vector_opi_instructions.cc:840-889). -/
def vssubu {n : Nat} (vs2 vs1 : BitVec n) : BitVec n × Bool :=
  let diff := vs2 - vs1
  if vs2.toNat < vs1.toNat then (0#n, true) else (diff, false)

/-- `VssubHelper` (riscv_vector_opi_instructions.cc:891-903). -/
def vssub {n : Nat} (vs2 vs1 : BitVec n) : BitVec n × Bool :=
  let diff := vs2 - vs1
  if (vs2 ^^^ vs1).toInt < 0 ∧ (diff ^^^ vs1).toInt ≥ 0 then
    (if vs1.toInt < 0 then BitVec.ofInt n (maxVal true n) else BitVec.ofInt n (minVal true n), true)
  else (diff, false)

/-- `Vmadc` for 8, 16 and 32 bit elements (riscv_vector_opi_instructions.cc:977-1003): the sum in the double
width type, shifted right. -/
def vmadc {n : Nat} (vs2 vs1 : BitVec n) (mask : Bool) : Bool :=
  let sum := vs2.setWidth (2 * n) + vs1.setWidth (2 * n) + bit (2 * n) mask
  (sum >>> n) ≠ 0#(2 * n)

/-- `Vmadc` for 64 bit elements (riscv_vector_opi_instructions.cc:1004-1017).  `vs1 & 0xff + vs2 & 0xff + mask`
parses as `vs1 & (0xff + vs2) & (0xff + mask)`. -/
def vmadc64 (vs2 vs1 : BitVec 64) (mask : Bool) : Bool :=
  let carry := (vs1 &&& (0xff#64 + vs2) &&& (0xff#64 + bit 64 mask)) >>> 8
  let sum := (vs1 >>> 8) + (vs2 >>> 8) + carry
  (sum >>> 56) ≠ 0#64

/-- `Vmsbc` for 8, 16 and 32 bit elements (riscv_vector_opi_instructions.cc:1065-1082). -/
def vmsbc {n : Nat} (vs2 vs1 : BitVec n) (mask : Bool) : Bool :=
  (vs2.setWidth (2 * n)).toNat < (bit (2 * n) mask + vs1.setWidth (2 * n)).toNat

/-- `Vmsbc` for 64 bit elements (riscv_vector_opi_instructions.cc:1083-1089). -/
def vmsbc64 (vs2 vs1 : BitVec 64) (mask : Bool) : Bool :=
  if vs2.toNat < vs1.toNat then true else if vs2 = vs1 then mask else false

/-- `Vadc`, `Vsbc` (riscv_vector_opi_instructions.cc:938-970, 1026-1058). -/
def vadc {n : Nat} (vs2 vs1 : BitVec n) (mask : Bool) : BitVec n := vs2 + vs1 + bit n mask
def vsbc {n : Nat} (vs2 vs1 : BitVec n) (mask : Bool) : BitVec n := vs2 - vs1 - bit n mask

end Verif.VecFixed
