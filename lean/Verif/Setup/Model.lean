import Verif.Xip.Model
/-
Model of how the front ends set a run up: `riscv/rv32g_sim.cc`, `riscv/rv32gv_sim.cc`,
`riscv/rv64g_sim.cc`, `riscv/rv64gv_sim.cc`, `riscv/riscv_renode.cc` and
`riscv/stoull_wrapper.cc`.

The ELF loader is mpact-sim's and is represented by what it reports. Text is a list of
characters.
-/
namespace Verif.Setup

/-! ## Numbers in a Renode configuration -/

/-- `isspace` in the C locale, as used by `std::stoull`. -/
def isSpace (c : Char) : Bool :=
  c = ' ' || (9 ≤ c.toNat && c.toNat ≤ 13)

/-- The value of a digit in the given base, as used by `std::stoull`. -/
def digit (base : Nat) (c : Char) : Option Nat :=
  let n := c.toNat
  let v := if 48 ≤ n ∧ n ≤ 57 then some (n - 48)
    else if 97 ≤ n ∧ n ≤ 122 then some (n - 87)
    else if 65 ≤ n ∧ n ≤ 90 then some (n - 55)
    else none
  match v with
  | some d => if d < base then some d else none
  | none => none

/-- The digits at the front of the text. -/
def takeDigits (base : Nat) : List Char → List Nat
  | [] => []
  | c :: t => match digit base c with
    | some d => d :: takeDigits base t
    | none => []

/-- In base 16 `std::stoull` skips a `0x` that a digit follows. -/
def skipHexMark : List Char → List Char
  | '0' :: x :: c :: t =>
    if (x = 'x' ∨ x = 'X') ∧ (digit 16 c).isSome then c :: t else '0' :: x :: c :: t
  | s => s

/-- A sign, and what follows it. -/
def takeSign : List Char → Bool × List Char
  | '-' :: t => (true, t)
  | '+' :: t => (false, t)
  | s => (false, s)

/-- `riscv::internal::stoull` (stoull_wrapper.cc:34-46): `std::stoull` with its exceptions
turned into errors (`none`). Only the text the number starts with is looked at; a minus sign
negates modulo 2^64. -/
def stoull (base : Nat) (s : List Char) : Option (BitVec 64) :=
  let (neg, t) := takeSign (s.dropWhile isSpace)
  let t := if base = 16 then skipHexMark t else t
  let ds := takeDigits base t
  if ds.isEmpty then none
  else
    let v := ds.foldl (fun acc d => acc * base + d) 0
    if v < 2 ^ 64 then some (if neg then -BitVec.ofNat 64 v else BitVec.ofNat 64 v) else none

/-- `ParseNumber` (riscv_renode.cc:386-403). -/
def parseNumber : List Char → Option (BitVec 64)
  | [] => none
  | '0' :: 'x' :: c :: t => stoull 16 (c :: t)
  | '0' :: t => stoull 8 t
  | s => stoull 10 s

/-! ## The initial stack pointer -/

/-- What the executable says about the stack: the value of `__stack_end`, the size of the
GNU_STACK segment and the value of `__stack_size`, each if it has one. -/
structure Elf where
  stackEnd : Option (BitVec 64)
  gnuStack : Option (BitVec 64)
  stackSize : Option (BitVec 64)

/-- The value written to `sp`, if any, given the `stack_end` and `stack_size` settings
(rv32g_sim.cc:391-443, rv32gv_sim.cc:375-427, rv64g_sim.cc:335-387, rv64gv_sim.cc:350-402,
riscv_renode.cc:512-550). The size of the GNU_STACK segment is assigned to `stack_end`. -/
def stackPointer (elf : Elf) (endSetting sizeSetting : Option (BitVec 64)) :
    Option (BitVec 64) :=
  let fromSymbol := elf.stackEnd
  let location := match endSetting with
    | some v => some v
    | none => fromSymbol
  match location with
  | none => none
  | some stackEnd =>
    let stackSize : BitVec 64 := 0x8000#64
    let stackEnd := match elf.gnuStack with
      | some v => v
      | none => stackEnd
    let stackSize := match elf.stackSize with
      | some v => v
      | none => stackSize
    let stackSize := match sizeSetting with
      | some v => v
      | none => stackSize
    some (stackEnd + stackSize)

/-- The front ends. -/
inductive Front where
  | rv32g | rv32gv | rv64g | rv64gv | renode
deriving DecidableEq, Repr

/-- The `stack_end` setting the code reads when the user gives `given`: the flag's default is
the number 0, not the absence of a value, in the 32-bit simulators (rv32g_sim.cc:128,
rv32gv_sim.cc:129; rv64g_sim.cc:122, rv64gv_sim.cc:127, riscv_renode.cc:412-413). -/
def endSetting (f : Front) (given : Option (BitVec 64)) : Option (BitVec 64) :=
  match f with
  | .rv32g | .rv32gv => some (given.getD 0#64)
  | .rv64g | .rv64gv | .renode => given

/-- Likewise `stack_size`, whose default is 32 KiB in the 32-bit simulators
(rv32g_sim.cc:115, rv32gv_sim.cc:116; rv64g_sim.cc:109, rv64gv_sim.cc:114,
riscv_renode.cc:414-415). -/
def sizeSetting (f : Front) (given : Option (BitVec 64)) : Option (BitVec 64) :=
  match f with
  | .rv32g | .rv32gv => some (given.getD 0x8000#64)
  | .rv64g | .rv64gv | .renode => given

/-- The stack pointer a front end starts with. -/
def initialSp (f : Front) (elf : Elf) (givenEnd givenSize : Option (BitVec 64)) :
    Option (BitVec 64) :=
  stackPointer elf (endSetting f givenEnd) (sizeSetting f givenSize)

/-! ## Ending the run by a store to `tohost` -/

/-- A store: its address, its number of bytes, whether an atomic instruction makes it, and
the 32-bit word at `tohost` once it is done. The watcher is mpact-sim's: it performs the
store and then calls back when the bytes stored meet the range watched. -/
structure Store where
  addr : Nat
  size : Nat
  atomic : Bool
  word : BitVec 32

/-- The bytes `[a, a+n-1]` and `[lo, hi]` meet. -/
def meets (a n lo hi : Nat) : Bool := decide (a ≤ hi) && decide (lo + 1 ≤ a + n)

/-- The last byte of the range watched: one byte in the simulators (`AddressRange(tohost)`;
rv32g_sim.cc:358, rv32gv_sim.cc:341, rv64g_sim.cc:301, rv64gv_sim.cc:316), eight in Renode
(riscv_renode.cc:269-270). -/
def lastWatched (f : Front) (tohost : Nat) : Nat :=
  match f with
  | .renode => tohost + 7
  | _ => tohost

/-- Whether the watcher lies on the path of the store: stores of ordinary instructions go
through the memory the state was made with, atomics through the atomic memory
(rv32g_sim.cc:265-286, rv64g_sim.cc:232-255, rv64gv_sim.cc:240-262). In the 32-bit vector
simulator the state is given the memory below the watcher (rv32gv_sim.cc:284-289). In Renode
the watcher is that of the core, which atomics bypass (riscv_renode.cc:94-102,268;
riscv_top.cc:125-127). -/
def onPath (f : Front) (atomic : Bool) : Bool :=
  match f with
  | .rv32gv => atomic
  | .renode => !atomic
  | _ => true

/-- The state of the exit mechanism: whether a halt has been requested, the code reported,
and, for Renode, whether the buffer the callback loads into has been released. -/
structure Exit where
  halted : Bool
  code : BitVec 32
  released : Bool
deriving DecidableEq, Repr

/-- The callback (rv32g_sim.cc:359-373, rv32gv_sim.cc:342-356, rv64g_sim.cc:302-317,
rv64gv_sim.cc:317-332; riscv_renode.cc:271-285). `none`: the callback uses the buffer it has
released. -/
def callback (f : Front) (e : Exit) (word : BitVec 32) : Option Exit :=
  match f with
  | .renode =>
    if e.released then none
    else if word.getLsbD 0 then some ⟨true, word >>> 1, true⟩
    else some e
  | _ => some ⟨true, word >>> 1, e.released⟩

/-- A store as the exit mechanism sees it. -/
def store (f : Front) (tohost : Nat) (e : Exit) (s : Store) : Option Exit :=
  if onPath f s.atomic && meets s.addr s.size tohost (lastWatched f tohost) then
    callback f e s.word
  else some e

/-- Before the first store. -/
def start : Exit := ⟨false, 0#32, false⟩

/-- A history of stores, up to the first that requests a halt: the run loop leaves then. -/
def run (f : Front) (tohost : Nat) : Exit → List Store → Option Exit
  | e, [] => some e
  | e, s :: rest =>
    match store f tohost e s with
    | none => none
    | some e' => if e'.halted then some e' else run f tohost e' rest

/-! ## Interrupt lines from Renode -/

/-- `SetIrqValue` (riscv_renode.cc:574-589): the lines numbered by the machine interrupt
codes drive the bits of mip; `none` is the error for any other number. The setters write one
bit (riscv_xip_xie.h, `Verif.Xip`). -/
def setIrqValue (mip : Xip.MIp) (irq : Int) (value : Bool) : Option Xip.MIp :=
  let v : BitVec 64 := if value then 1#64 else 0#64
  if irq = 11 then some (mip.setBit 11 v)
  else if irq = 7 then some (mip.setBit 7 v)
  else if irq = 3 then some (mip.setBit 3 v)
  else none

/-- What Renode is told about a register: number, width, whether it is a general one, whether
it is read-only. -/
structure RegInfo where
  number : Nat
  width : Nat
  general : Bool
  readonly : Bool
deriving DecidableEq, Repr

/-- `InitializeRenodeRegisterInfo` (riscv_renode_register_info.cc:28-68), the same for all
harts. -/
def registerInfo : List RegInfo :=
  ⟨0x7b1, 32, true, false⟩ :: ⟨0x1000, 32, true, true⟩ ::
  (((List.range 31).map fun i => ⟨0x1001 + i, 32, true, false⟩) ++
   ((List.range 32).map fun i => ⟨0x1020 + i, 32, false, false⟩))

/-- `GetRenodeRegisterInfo` (riscv_renode.cc:367-384), the numbers. -/
def getRegisterInfo (index : Int) : Option RegInfo :=
  if index < 0 ∨ index ≥ registerInfo.length then none else registerInfo[index.toNat]?

end Verif.Setup
