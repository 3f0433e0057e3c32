import Verif.Plic.Model
import Verif.Shell.Model

/-!
# The PLIC's configuration texts and its accesses over the bus

`RiscVPlic::Configure`, `Load` and `Store` (riscv_plic.cc:89-141, 200-263) around the registers of
`Plic`.  `RE2::Consume` takes a match off the front of the text; it takes nothing if a number does not fit
an `int`.  Texts are lists of characters.
-/

namespace Verif.PlicBus

open Verif.Plic (Plic upd)
open Verif.Shell (Text sp dig digitsValue)

/-! ## Configuration -/

/-- `\s*`. -/
def skip (t : Text) : Text := t.dropWhile sp

/-- `(\d+)` read into an `int`. -/
def takeNum (t : Text) : Option (Nat × Text) :=
  if t.takeWhile dig = [] then none
  else if digitsValue 10 (t.takeWhile dig) < 2 ^ 31 then
    some (digitsValue 10 (t.takeWhile dig), t.dropWhile dig)
  else none

/-- One character. -/
def lit (c : Char) : Text → Option Text
  | x :: t => if x = c then some t else none
  | [] => none

/-- `(\d)`. -/
def takeDigit : Text → Option (Nat × Text)
  | x :: t => if dig x then some (x.toNat - 48, t) else none
  | [] => none

/-- `(;|$)`. -/
def endItem : Text → Option Text
  | [] => some []
  | x :: t => if x = ';' then some t else none

/-- `(,|;)`, and whether it is the semicolon. -/
def terminator : Text → Option (Bool × Text)
  | x :: t => if x = ',' then some (false, t) else if x = ';' then some (true, t) else none
  | [] => none

/-- `^(\d+)\s*=\s*(\d+)\s*(;|$)` (riscv_plic.cc:92). -/
def sourceItem (t : Text) : Option (Nat × Nat × Text) :=
  (takeNum t).bind fun a => (lit '=' (skip a.2)).bind fun u =>
    (takeNum (skip u)).bind fun b => (endItem (skip b.2)).map fun r => (a.1, b.1, r)

/-- `^(\d+)\s*=\s*(\d+)\s*,\s*` (riscv_plic.cc:109). -/
def contextHead (t : Text) : Option (Nat × Nat × Text) :=
  (takeNum t).bind fun a => (lit '=' (skip a.2)).bind fun u =>
    (takeNum (skip u)).bind fun b => (lit ',' (skip b.2)).map fun r => (a.1, b.1, skip r)

/-- `(\d+)\s*,\s*(\d)\s*(,|;)\s*` (riscv_plic.cc:110). -/
def enableItem (t : Text) : Option (Nat × Nat × Bool × Text) :=
  (takeNum t).bind fun a => (lit ',' (skip a.2)).bind fun u =>
    (takeDigit (skip u)).bind fun b => (terminator (skip b.2)).map fun r => (a.1, b.1, r.1, skip r.2)

/-- How `Configure` ends: in order, with an error, or with a shift that is undefined; the errors
leave what was done before them. -/
inductive Res where
  | done (p : Plic)
  | refused (p : Plic)
  | ub

/-- The list of sources (riscv_plic.cc:96-106). -/
def sources : Nat → Plic → Text → Res
  | 0, p, _ => .refused p
  | n + 1, p, t =>
    match sourceItem t with
    | some (s, v, r) =>
      if p.nS ≤ s then .refused p
      else sources n { p with prio := upd p.prio s (BitVec.ofNat 32 v) } r
    | none => if t = [] then .done p else .refused p

/-- One `<source>,<enable>` (riscv_plic.cc:125-132); `enable << bit` is an `int` shift. -/
def setEnable (p : Plic) (c s d : Nat) : Option Plic :=
  if d * 2 ^ (s % 32) < 2 ^ 32 then
    let w := p.enabled c (s / 32)
    some { p with
      s2c := upd p.s2c s (p.s2c s ++ [c])
      c2s := upd p.c2s c (p.c2s c ++ [s])
      enabled := upd p.enabled c (upd (p.enabled c) (s / 32)
        ((w &&& ~~~(1#32 <<< (s % 32))) ||| BitVec.ofNat 32 (d * 2 ^ (s % 32)))) }
  else none

/-- How the inner loop ends. -/
inductive Inner where
  | rest (p : Plic) (t : Text)
  | refused (p : Plic)
  | ub

/-- The sources of a context (riscv_plic.cc:119-134). -/
def enables : Nat → Plic → Nat → Text → Inner
  | 0, p, _, t => .rest p t
  | n + 1, p, c, t =>
    match enableItem t with
    | some (s, d, last, r) =>
      if p.nS ≤ s then .refused p
      else match setEnable p c s d with
        | none => .ub
        | some q => if last then .rest q r else enables n q c r
    | none => .rest p t

/-- The list of contexts (riscv_plic.cc:113-139). -/
def contexts : Nat → Plic → Text → Res
  | 0, p, _ => .refused p
  | n + 1, p, t =>
    match contextHead t with
    | some (c, v, r) =>
      if p.nC ≤ c then .refused p
      else match enables (r.length + 1) { p with thresh := upd p.thresh c (BitVec.ofNat 32 v) } c r with
        | .rest q u => contexts n q u
        | .refused q => .refused q
        | .ub => .ub
    | none => if t = [] then .done p else .refused p

/-- `Configure` (riscv_plic.cc:89-141). -/
def configure (p : Plic) (source context : Text) : Res :=
  match sources (source.length + 1) p source with
  | .done q => contexts (context.length + 1) q context
  | r => r

/-! ## Loads and stores -/

/-- The offset of an address (riscv_plic.cc:202, 249). -/
def offset (a : BitVec 64) : Nat := a.toNat % 2 ^ 24

/-- The sizes of access, in bytes.  (Other sizes clear four bytes of the buffer, or are dropped; they
are not modelled.) -/
inductive Size where
  | one
  | two
  | four
  | eight
deriving DecidableEq, Repr

/-- `Load` (riscv_plic.cc:200-220): the bytes as a number. -/
def load (p : Plic) (a : BitVec 64) : Size → Option (Nat × Plic)
  | .one => (p.read (offset a)).map fun r => (r.1.toNat % 2 ^ 8, r.2)
  | .two => (p.read (offset a)).map fun r => (r.1.toNat % 2 ^ 16, r.2)
  | .four => (p.read (offset a)).map fun r => (r.1.toNat, r.2)
  | .eight => (p.read (offset a)).bind fun r => (r.2.read (offset a + 4)).map fun q =>
      (r.1.toNat + 2 ^ 32 * q.1.toNat, q.2)

/-- `Store` (riscv_plic.cc:248-263), of the value in the buffer; line 259 is never reached. -/
def store (p : Plic) (a : BitVec 64) (value : Nat) : Size → Option Plic
  | .one => p.write (offset a) (BitVec.ofNat 32 (value % 2 ^ 8))
  | .two => p.write (offset a) (BitVec.ofNat 32 (value % 2 ^ 16))
  | .four => p.write (offset a) (BitVec.ofNat 32 value)
  | .eight => p.write (offset a) (BitVec.ofNat 32 value)

end Verif.PlicBus
