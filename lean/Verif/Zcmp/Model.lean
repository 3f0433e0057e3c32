import Verif.Mem.Model
import Verif.Control.Model
/-
Push/pop, double moves and table jumps (riscv/riscv_zc_instructions.cc; RV32 30-168, RV64 170-311 are copies
except for `kStackAdjBase`) with their register-list operands (riscv/riscv_zc_getters.h).

`spimm6` is the scaled immediate operand.  The register list operand is `rlist` of the encoding, which the
decoder restricts to 4..15 (riscv_zc.bin_fmt:91-94).
-/
namespace Verif.Zcmp
open Verif.Core

variable {w : Nat}

/-- The registers of a register list, in operand order (riscv_zc_getters.h:369-402 for sources, 408-453 for
destinations). -/
def regsOf (rlist : BitVec 4) : List (BitVec 5) :=
  let r := rlist.toNat
  if r < 4 then [] else
  if r = 4 then [1#5] else
  if r = 5 then [1#5, 8#5] else
  if r = 6 then [1#5, 8#5, 9#5] else
  if r = 7 then [1#5, 8#5, 9#5, 18#5] else
  if r = 8 then [1#5, 8#5, 9#5, 18#5, 19#5] else
  if r = 9 then [1#5, 8#5, 9#5, 18#5, 19#5, 20#5] else
  if r = 10 then [1#5, 8#5, 9#5, 18#5, 19#5, 20#5, 21#5] else
  if r = 11 then [1#5, 8#5, 9#5, 18#5, 19#5, 20#5, 21#5, 22#5] else
  if r = 12 then [1#5, 8#5, 9#5, 18#5, 19#5, 20#5, 21#5, 22#5, 23#5] else
  if r = 13 then [1#5, 8#5, 9#5, 18#5, 19#5, 20#5, 21#5, 22#5, 23#5, 24#5] else
  if r = 14 then [1#5, 8#5, 9#5, 18#5, 19#5, 20#5, 21#5, 22#5, 23#5, 24#5, 25#5] else
  [1#5, 8#5, 9#5, 18#5, 19#5, 20#5, 21#5, 22#5, 23#5, 24#5, 25#5, 26#5, 27#5]

/-- `kStackAdjBase` (RV32: riscv_zc_instructions.cc:35-37, RV64: 174-176). -/
def kStackAdjBase (w : Nat) (rlist : BitVec 4) : Nat :=
  if w = 32 then [0, 0, 0, 0, 16, 16, 16, 16, 32, 32, 32, 32, 48, 48, 48, 64].getD rlist.toNat 0
  else [0, 0, 0, 0, 16, 16, 32, 32, 48, 48, 64, 64, 80, 80, 96, 112].getD rlist.toNat 0

/-- A data buffer of `k`-byte words stored to consecutive addresses. -/
def storeWords (k : Nat) : Memory → BitVec 64 → List Nat → Memory
  | m, _, [] => m
  | m, a, v :: vs => storeWords k (writeLE m a k v) (a + BitVec.ofNat 64 k) vs

/-- `n` consecutive words loaded. -/
def loadWords (m : Memory) (k : Nat) : BitVec 64 → Nat → List Nat
  | _, 0 => []
  | a, n + 1 => readLE m a k :: loadWords m k (a + BitVec.ofNat 64 k) n

/-- `RiscVZCmpPush` (45-67, 184-206).  `sp - sizeof(UIntReg) * num_regs` is computed in 64 bits on both
widths.  The whole buffer is one store: `StoreMemory` checks the first address only
(riscv_state.cc:554-562).  The new sp is written whether or not the store trapped. -/
def push (c : Core w) (spimm6 : BitVec w) (rlist : BitVec 4) (epc : BitVec 64) (handled : Bool := false) : Core w :=
  let rs := regsOf rlist
  let vals := rs.map (fun r => (Regs.read c.regs r).toNat)
  let sp := Regs.read c.regs 2#5
  let a := sp.setWidth 64 - BitVec.ofNat 64 (w / 8 * rs.length)
  let c1 := if c.limit.ult a then raise c a Mem.kStoreFault epc handled
            else { c with mem := storeWords (w / 8) c.mem a vals }
  { c1 with regs := Regs.write c1.regs 2#5 (sp - (spimm6 + BitVec.ofNat w (kStackAdjBase w rlist))) }

/-- Values written to destination operands one after the other. -/
def writeAll (f : Regs.File w) : List (BitVec 5) → List (BitVec w) → Regs.File w
  | d :: ds, v :: vs => writeAll (Regs.write f d v) ds vs
  | _, _ => f

/-- `RiscVZCmpPopHelper` (73-95, 212-234) on the first `size + 1` destination operands `dests`.  If the load
traps the data buffer keeps what it held when it was allocated, `junk`, and is copied to the registers all the
same. -/
def popHelper (c : Core w) (dests : List (BitVec 5)) (size : Nat) (spimm6 : BitVec w) (rlist : BitVec 4)
    (junk : List (BitVec w)) (epc : BitVec 64) (handled : Bool) : Core w :=
  let adj := spimm6 + BitVec.ofNat w (kStackAdjBase w rlist)
  let sp := Regs.read c.regs 2#5
  let a := (sp + adj).setWidth 64 - BitVec.ofNat 64 (w / 8 * size)
  let (c1, vals) :=
    if c.limit.ult a then (raise c a Mem.kLoadFault epc handled, junk)
    else (c, (loadWords c.mem (w / 8) a size).map (BitVec.ofNat w))
  let f := writeAll c1.regs (dests.take size) vals
  { c1 with regs := Regs.write f (dests.getD size 0#5) (sp + adj) }

/-- `RiscVZCmpPop` (99-103, 238-242) with the destination operands `[rlist], x2` of the RV64 description
(riscv_zc.isa:367) and of the unit tests of both widths. -/
def pop (c : Core w) (spimm6 : BitVec w) (rlist : BitVec 4) (junk : List (BitVec w)) (epc : BitVec 64)
    (handled : Bool := false) : Core w :=
  popHelper c (regsOf rlist ++ [2#5]) (regsOf rlist).length spimm6 rlist junk epc handled

/-- `RiscVZCmpPop` with the destination operands `x2, [rlist]` of the RV32 description (riscv_zc.isa:334). -/
def pop32 (c : Core 32) (spimm6 : BitVec 32) (rlist : BitVec 4) (junk : List (BitVec 32)) (epc : BitVec 64)
    (handled : Bool := false) : Core 32 :=
  popHelper c (2#5 :: regsOf rlist) (regsOf rlist).length spimm6 rlist junk epc handled

/-- `RiscVZCmpPopRet` (105-115, 244-254), operands as riscv_zc.isa:371: the target is x1 after the pop, not
masked. -/
def popRet (c : Core w) (spimm6 : BitVec w) (rlist : BitVec 4) (junk : List (BitVec w)) (epc : BitVec 64)
    (handled : Bool := false) : Core w :=
  let c1 := pop c spimm6 rlist junk epc handled
  { c1 with hart := { c1.hart with pc := Regs.read c1.regs 1#5, branch := true } }

/-- `RiscVZCmpPopRetz` (117-129, 256-268), operands as riscv_zc.isa:375. -/
def popRetz (c : Core w) (spimm6 : BitVec w) (rlist : BitVec 4) (junk : List (BitVec w)) (epc : BitVec 64)
    (handled : Bool := false) : Core w :=
  let c1 := pop c spimm6 rlist junk epc handled
  let c2 := { c1 with regs := Regs.write c1.regs 10#5 0#w }
  { c2 with hart := { c2.hart with pc := Regs.read c2.regs 1#5, branch := true } }

/-- `kSRegToXRegMap` (riscv_zc_getters.h:284). -/
def sreg (n : BitVec 3) : BitVec 5 :=
  [8#5, 9#5, 18#5, 19#5, 20#5, 21#5, 22#5, 23#5].getD n.toNat 0#5

/-- `RiscVZCmpMvTwoRegs` (131-136, 270-275): the second source is read after the first write. -/
def mvTwo (f : Regs.File w) (s0 s1 d0 d1 : BitVec 5) : Regs.File w :=
  let f1 := Regs.write f d0 (Regs.read f s0)
  Regs.write f1 d1 (Regs.read f1 s1)

/-- cm.mvsa01 and cm.mva01s (riscv_zc.isa:379, 383). -/
def mvsa01 (f : Regs.File w) (r1 r2 : BitVec 3) : Regs.File w := mvTwo f 10#5 11#5 (sreg r1) (sreg r2)
def mva01s (f : Regs.File w) (r1 r2 : BitVec 3) : Regs.File w := mvTwo f (sreg r1) (sreg r2) 10#5 11#5

/-- `RiscVZCmtJtHelper` (141-162, 280-301).  `jvt` is the value of the jvt CSR, `junk` the content of the data
buffer if the load traps: the jump is made all the same.  The entry address is truncated to xlen bits. -/
def jt (c : Core w) (jvt : BitVec 64) (index : BitVec 8) (junk : BitVec w) (epc : BitVec 64) (handled : Bool := false) :
    Core w :=
  if jvt &&& 0x3f#64 ≠ 0#64 then raise c 0#64 2#64 epc handled
  else
    let entry : BitVec w := ((jvt &&& ~~~0x3f#64) + BitVec.ofNat 64 (index.toNat * (w / 8))).setWidth w
    let (c1, target) :=
      if c.limit.ult (entry.setWidth 64) then (raise c (entry.setWidth 64) Mem.kLoadFault epc handled, junk)
      else (c, BitVec.ofNat w (readLE c.mem (entry.setWidth 64) (w / 8)))
    { c1 with hart := { c1.hart with pc := target, branch := true } }

/-- `RiscVZCmtJalt` (168-172, 305-309). -/
def jalt (c : Core w) (jvt : BitVec 64) (index : BitVec 8) (junk : BitVec w) (epc : BitVec 64) (size : Nat)
    (handled : Bool := false) : Core w :=
  let c1 := jt c jvt index junk epc handled
  { c1 with regs := Regs.write c1.regs 1#5 ((epc + BitVec.ofNat 64 size).setWidth w) }

end Verif.Zcmp
