import Verif.Exec.FkModel

/-!
# Interrupts between instructions

The turns of `Exec.FkModel` are those of the loop when no interrupt is available.  Here the rest of the
loop is added: between an instruction and the next the interrupt lines may change, and then an interrupt
that is available is taken.
-/

namespace Verif.Exec

open Decode Decode.Isa Core Operands

/-- The lines of the interface that interrupt controllers use (riscv_xip_xie.h:35-41), without the external
supervisor line. -/
inductive Line where
  | software | timer | external
  deriving DecidableEq, Repr

/-- `set_msip`, `set_mtip`, `set_meip` (riscv_xip_xie.h:67, 76, 84). -/
def Line.bit : Line → Nat
  | .software => 3
  | .timer => 7
  | .external => 11

variable {n : Nat}

/-- A line is set (riscv_clint.cc:40-64, 197-216; riscv_renode.cc:570-590). -/
def drive (h : Hart.Hart n) (p : Line × Bool) : Hart.Hart n :=
  Hart.step h (.mip (.setBit p.1.bit (if p.2 then 1 else 0)))

/-- Lines are set one after the other. -/
def driveAll (h : Hart.Hart n) (ls : List (Line × Bool)) : Hart.Hart n := ls.foldl drive h

/-- The program counter for the next turn (riscv_top.cc:282-288, 356-362, 460-466). -/
def moveOn (h : Hart.Hart n) (nextPc : BitVec 64) : Hart.Hart n :=
  if h.branch then { h with branch := false } else { h with pc := nextPc.setWidth n }

/-- The end of a turn of the loop (riscv_top.cc:338-362 and the same in 442-466, 274-288), in the order of
the code: the lines change, an interrupt is taken if one is available, the program counter moves. -/
def lastPart (ls : List (Line × Bool)) (c : Core n) (pc : BitVec 64) (size : Nat) : Core n :=
  let h := driveAll c.hart ls
  let nextPc := pc + BitVec.ofNat 64 size
  { c with hart := moveOn (h.takeAvailable (if h.branch then h.pc.setWidth 64 else nextPc)) nextPc }

/-- The same after the program counter has moved (`lastPart_next`). -/
def between (ls : List (Line × Bool)) (c : Core n) : Core n :=
  let h := driveAll c.hart ls
  { c with hart := { h.takeAvailable (h.pc.setWidth 64) with branch := false } }

variable {ρ : Type} {H : FpState.Host}

/-- A turn of the loop in which the lines change as in `ls`. -/
def TurnN (A : Arith H) (C : Cvt) (s : Sim) (dev : Option (Atomic.Device ρ)) (ls : List (Line × Bool))
    (st st' : FSt s.xlen.bits ρ H) : Prop :=
  ∃ st₁, TurnK A C s dev st st₁ ∧ st' = st₁.withCore (between ls st₁.core)

end Verif.Exec
