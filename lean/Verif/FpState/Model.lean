import Verif.FpHost.Model
/-
The floating-point CSRs (riscv/riscv_fp_state.cc, riscv_fp_state.h).

`SetBits`/`ClearBits` are inherited from `RiscVSimpleCsr<uint32_t>` (riscv_csr.h:459-463) and call the
overridden `GetUint32` and `Write` of each class. The 64-bit overloads convert to 32 bits
(riscv_fp_state.h:46-49, 62-68, 83-89, riscv_fp_state.cc:112, 124), so only 32-bit operands appear.
-/
namespace Verif.FpState

/-- `HostFloatingPointInterface` (riscv_fp_host.h:30-35) with the effect of a `ScopedFPStatus`
around host arithmetic that raises the RISC-V flags `f`. -/
structure Host where
  σ : Type
  init : σ
  get : σ → BitVec 32
  set : BitVec 32 → σ
  runIn : σ → Option (BitVec 3) → BitVec 5 → σ

/-- The x86 interface (riscv_fp_host_x86.cc). -/
def x86 : Host where
  σ := FpHost.X86.Status
  init := FpHost.X86.init
  get := FpHost.X86.get
  set := FpHost.X86.set
  runIn s rm f := FpHost.X86.runIn s rm ((FpHost.X86.fromRiscV[f.toNat]?.getD 0#8).setWidth 6)

/-- The ARM interface (riscv_fp_host_arm.cc). -/
def arm : Host where
  σ := FpHost.Arm.Status
  init := FpHost.Arm.init
  get := FpHost.Arm.get
  set := FpHost.Arm.set
  runIn s rm f := FpHost.Arm.runIn s rm ((FpHost.Arm.fromRiscV[f.toNat]?.getD 0#8).setWidth 5)

/-- `RiscVFPState` with its three CSRs. Only fcsr has storage in use: `value_` of frm and fflags is
never read, their `GetUint32` being overridden. -/
structure Fp (H : Host) where
  stored : BitVec 32
  host : H.σ
  rm : BitVec 32
  valid : Bool

variable {H : Host}

/-- Construction (riscv_fp_state.cc:52-63, 34-37; riscv_fp_state.h:158-159). -/
def init (H : Host) : Fp H := ⟨0#32, H.init, 0#32, true⟩

/-- `RiscVFcsr::AsUint32` (riscv_fp_state.cc:105-110). -/
def fcsrRead (s : Fp H) : BitVec 32 :=
  ((s.stored &&& ~~~0x1f#32) ||| (H.get s.host &&& 0x1f#32)) &&& 0xff#32

/-- `RiscVFflags::AsUint32` (riscv_fp_state.cc:133-137). -/
def fflagsRead (s : Fp H) : BitVec 32 := fcsrRead s &&& 0b11111#32

/-- `RiscVFrm::AsUint32` (riscv_fp_state.cc:158-162). -/
def frmRead (s : Fp H) : BitVec 32 := (fcsrRead s >>> 5) &&& 0b111#32

/-- First half of `RiscVFcsr::Write` (riscv_fp_state.cc:116-119): `Set` and the host update. -/
def rawWrite (s : Fp H) (v : BitVec 32) : Fp H :=
  { s with stored := v &&& 0xff#32, host := H.set (v &&& 0xff#32) }

/-- `RiscVFPState::SetRoundingMode` (riscv_fp_state.cc:74-95). The call `frm_->Write(mode)` writes fcsr
again, which calls `SetRoundingMode(mode)` again; `rounding_mode_` has just become `mode`, so that
inner call does nothing and only `rawWrite` remains of it. -/
def setRoundingMode (s : Fp H) (mode : BitVec 32) : Fp H :=
  if s.rm ≠ mode then
    if mode = 4#32 ∨ mode = 0#32 ∨ mode = 1#32 ∨ mode = 2#32 ∨ mode = 3#32 then
      let s := { s with rm := mode }
      let s := rawWrite s ((fcsrRead s &&& 0b11111#32) ||| ((mode &&& 0b111#32) <<< 5))
      { s with valid := true }
    else { s with valid := false }
  else s

/-- `RiscVFcsr::Write` (riscv_fp_state.cc:116-122). -/
def fcsrWrite (s : Fp H) (v : BitVec 32) : Fp H :=
  setRoundingMode (rawWrite s v) (((v &&& 0xff#32) >>> 5) &&& 0b111#32)

/-- `RiscVFflags::Write` (riscv_fp_state.cc:139-144). -/
def fflagsWrite (s : Fp H) (v : BitVec 32) : Fp H :=
  let current := fcsrRead s
  let new := (current &&& ~~~0b11111#32) ||| (v &&& 0b11111#32)
  if new = current then s else fcsrWrite s new

/-- `RiscVFrm::Write` (riscv_fp_state.cc:164-169). -/
def frmWrite (s : Fp H) (v : BitVec 32) : Fp H :=
  fcsrWrite s ((fcsrRead s &&& 0b11111#32) ||| ((v &&& 0b111#32) <<< 5))

/-- What can happen to the floating-point state. -/
inductive Op where
  | fcsrWrite (v : BitVec 32) | fcsrSet (v : BitVec 32) | fcsrClear (v : BitVec 32)
  | fflagsWrite (v : BitVec 32) | fflagsSet (v : BitVec 32) | fflagsClear (v : BitVec 32)
  | frmWrite (v : BitVec 32) | frmSet (v : BitVec 32) | frmClear (v : BitVec 32)
  /-- Host arithmetic, with or without its own rounding mode, raising `f`. -/
  | arith (rm : Option (BitVec 3)) (f : BitVec 5)
  deriving DecidableEq, Repr

/-- One step. fcsr inherits `GetUint32` returning the stored word (riscv_csr.h:465); fflags and frm
override it with `AsUint32`. -/
def step (s : Fp H) : Op → Fp H
  | .fcsrWrite v => fcsrWrite s v
  | .fcsrSet v => fcsrWrite s (s.stored ||| v)
  | .fcsrClear v => fcsrWrite s (s.stored &&& ~~~v)
  | .fflagsWrite v => fflagsWrite s v
  | .fflagsSet v => fflagsWrite s (fflagsRead s ||| v)
  | .fflagsClear v => fflagsWrite s (fflagsRead s &&& ~~~v)
  | .frmWrite v => frmWrite s v
  | .frmSet v => frmWrite s (frmRead s ||| v)
  | .frmClear v => frmWrite s (frmRead s &&& ~~~v)
  | .arith rm f => { s with host := H.runIn s.host rm f }

/-- Host arithmetic raising `f` in a `ScopedFPStatus` during which `inner` happens to the state: the end
of the scope stores the host's register (riscv_fp_host_x86.cc:272-288, riscv_fp_host_arm.cc:266-277), in
which nothing is of what was written to the interface in between. -/
def scopedFp (s : Fp H) (rm : Option (BitVec 3)) (inner : Fp H → Fp H) (f : BitVec 5) : Fp H :=
  { inner s with host := H.runIn s.host rm f }

/-- A history. -/
def run (s : Fp H) (ops : List Op) : Fp H := ops.foldl step s

/-- Choice of the rounding mode by the arithmetic helpers (riscv_instruction_helpers.h:494-502, and the
same text in the other helpers): `none` is the early return, which raises no exception. -/
def resolve (s : Fp H) (field : BitVec 3) : Option (BitVec 32) :=
  if field = 7#3 then (if s.valid then some s.rm else none) else some (field.setWidth 32)

end Verif.FpState
