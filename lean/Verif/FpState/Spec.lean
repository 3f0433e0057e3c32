import Verif.FpState.Model
/-
fcsr as one register with two fields.
-/
namespace Verif.FpState.Spec

structure Reg where
  frm : BitVec 3
  flags : BitVec 5
  deriving DecidableEq, Repr

/-- fcsr = frm << 5 | fflags. -/
def Reg.fcsr (r : Reg) : BitVec 32 := (r.frm ++ r.flags).setWidth 32

def ofFcsr (v : BitVec 32) : Reg := ⟨v.extractLsb' 5 3, v.setWidth 5⟩

def step (r : Reg) : Op → Reg
  | .fcsrWrite v => ofFcsr v
  | .fcsrSet v => ofFcsr (r.fcsr ||| v)
  | .fcsrClear v => ofFcsr (r.fcsr &&& ~~~v)
  | .fflagsWrite v => { r with flags := v.setWidth 5 }
  | .fflagsSet v => { r with flags := r.flags ||| v.setWidth 5 }
  | .fflagsClear v => { r with flags := r.flags &&& ~~~v.setWidth 5 }
  | .frmWrite v => { r with frm := v.setWidth 3 }
  | .frmSet v => { r with frm := r.frm ||| v.setWidth 3 }
  | .frmClear v => { r with frm := r.frm &&& ~~~v.setWidth 3 }
  | .arith _ f => { r with flags := r.flags ||| f }

def run (ops : List Op) : Reg := ops.foldl step ⟨0#3, 0#5⟩

/-- frm holds a rounding mode. -/
def Valid (frm : BitVec 3) : Prop := frm.toNat ≤ 4

end Verif.FpState.Spec
