import Verif.VecLoop.Spec
import Verif.FpArith.Spec
import Verif.FpClass.Spec
import Verif.HalfFp.Spec
/-
Reductions, after section 14 of the RISC-V vector specification: `vd[0]` receives the scalar `vs1[0]` combined with
every active element of `vs2`.
-/
namespace Verif.VecRed.Spec
open Verif.Fp Verif.FpHost.Spec Verif.VecState Verif.VecLoop.Spec

/-- A reduction may execute: no pending exception, vstart zero (it is an illegal instruction otherwise), SEW and the
register length positive, LMUL between 1/8 and 8 (in eighths). -/
structure Legal (s : VState) : Prop where
  ok : s.exception = false
  vstart : s.vstart = 0
  lmul : 1 ≤ s.lmul8 ∧ s.lmul8 ≤ 64
  vlenb : 0 < s.vlenb

/-- Sum of `f 0` to `f (n - 1)`. -/
def sumUpTo (f : Nat → Nat) : Nat → Nat
  | 0 => 0
  | n + 1 => sumUpTo f n + f n

/-- `r` is the smallest, in the order of `key`, of `a` and the active elements. -/
def Least {m : Nat} (key : BitVec m → Int) (vl : Nat) (act : Nat → Bool) (x : Nat → BitVec m) (a r : BitVec m) : Prop :=
  (r = a ∨ ∃ i, i < vl ∧ act i = true ∧ r = x i) ∧ key r ≤ key a ∧ ∀ i, i < vl → act i = true → key r ≤ key (x i)

inductive Kind where
  | sum | and | or | xor | minu | min | maxu | max

/-- The result of an integer reduction of the active ones of `x 0 … x (vl - 1)` with `a`. -/
def Result {m : Nat} (k : Kind) (vl : Nat) (act : Nat → Bool) (x : Nat → BitVec m) (a r : BitVec m) : Prop :=
  match k with
  | .sum => r.toNat = (a.toNat + sumUpTo (fun i => if act i then (x i).toNat else 0) vl) % 2 ^ m
  | .and => ∀ j, j < m → (r.getLsbD j = true ↔ a.getLsbD j = true ∧ ∀ i, i < vl → act i = true → (x i).getLsbD j = true)
  | .or => ∀ j, j < m → (r.getLsbD j = true ↔ a.getLsbD j = true ∨ ∃ i, i < vl ∧ act i = true ∧ (x i).getLsbD j = true)
  | .xor => ∀ j, j < m → (r.getLsbD j).toNat =
      ((a.getLsbD j).toNat + sumUpTo (fun i => if act i then ((x i).getLsbD j).toNat else 0) vl) % 2
  | .minu => Least (fun v => (v.toNat : Int)) vl act x a r
  | .min => Least (fun v => v.toInt) vl act x a r
  | .maxu => Least (fun v => -(v.toNat : Int)) vl act x a r
  | .max => Least (fun v => -v.toInt) vl act x a r

/-- Signed sum of the active elements. -/
def signedSum {m : Nat} (act : Nat → Bool) (x : Nat → BitVec m) : Nat → Int
  | 0 => 0
  | n + 1 => signedSum act x n + if act n then (x n).toInt else 0

/-- The widening sum: elements are sign- or zero-extended, the scalar has the wide type. -/
def WideSum {m n : Nat} (sgn : Bool) (vl : Nat) (act : Nat → Bool) (x : Nat → BitVec m) (a r : BitVec n) : Prop :=
  if sgn then r.toInt = (a.toInt + signedSum act x vl).bmod (2 ^ n)
  else r.toNat = (a.toNat + sumUpTo (fun i => if act i then (x i).toNat else 0) vl) % 2 ^ n

/-- Applying `step` to the active elements in order. -/
def Chain {α β : Type} (step : α → β → α → Prop) (vl : Nat) (act : Nat → Bool) (x : Nat → β) (a r : α) : Prop :=
  ∃ s : Nat → α, s 0 = a ∧ s vl = r ∧
    ∀ i, i < vl → (act i = true → step (s i) (x i) (s (i + 1))) ∧ (act i = false → s (i + 1) = s i)

/-- `y` is `x` in a wider format. -/
def Widened {f g : Fmt} (x : BitVec f.bits) (y : BitVec g.bits) : Prop :=
  (FpFma.Spec.NaN x → FpFma.Spec.NaN y) ∧ (FpFma.Spec.Inf x → FpFma.Spec.Inf y ∧ y.msb = x.msb) ∧
  (¬ FpFma.Spec.NaN x → ¬ FpFma.Spec.Inf x → ¬ FpFma.Spec.NaN y ∧ ¬ FpFma.Spec.Inf y ∧ HalfFp.Spec.SameValue x y)

/-- One step of a minimum (maximum) reduction: `s'` is the minimum (maximum) of `s` and `v` as the scalar fmin and
fmax define it. -/
def MinMax {f : Fmt} (isMax : Bool) (s v s' : BitVec f.bits) : Prop :=
  (FpClass.Spec.NaN s → FpClass.Spec.NaN v → s' = canonicalNaN f) ∧
  (FpClass.Spec.NaN s → ¬ FpClass.Spec.NaN v → s' = v) ∧ (¬ FpClass.Spec.NaN s → FpClass.Spec.NaN v → s' = s) ∧
  (¬ FpClass.Spec.NaN s → ¬ FpClass.Spec.NaN v → (s' = s ∨ s' = v) ∧
    if isMax then FpClass.Spec.Before s s' ∧ FpClass.Spec.Before v s' else FpClass.Spec.Before s' s ∧ FpClass.Spec.Before s' v)

/-- The state after a reduction that wrote `r`: element 0 of `vd`, and nothing else. -/
def Wrote (vlenb nd vd : Nat) (r : BitVec (8 * nd)) (R R' : Regs) : Prop :=
  IsElem vlenb nd R' vd 0 r ∧ Undisturbed vlenb nd vd (· = 0) R R'

end Verif.VecRed.Spec
