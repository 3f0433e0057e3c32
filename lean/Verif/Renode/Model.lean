import Verif.Setup.Model
/-
Model of how a Renode hart is configured, loaded and reached from outside: `SetConfig`, `LoadExecutable`,
`ReadMemory` and `WriteMemory` of `riscv/riscv_renode.cc`.

mpact-sim's router is represented by what it is assumed to do: a target can be added unless its last address
lies below its first or it meets a target already there; an access goes, with its address unchanged, to the
target it lies in, and to the default target if it meets none. Where an access goes that lies partly in a
target is left open. The demand memory is a map from addresses to bytes.
-/
namespace Verif.Renode

abbrev Text := List Char
abbrev Byte := BitVec 8

/-- What the core's router sends accesses to, other than the system bus. -/
inductive Target where
  | memory | clint
deriving DecidableEq, Repr

/-- A target with its first and its last address. -/
structure Range where
  base : BitVec 64
  top : BitVec 64
  target : Target
deriving DecidableEq, Repr

/-- `SingleInitiatorRouter::AddTarget` (mpact-sim); `none` is an error. -/
def addTarget (m : List Range) (r : Range) : Option (List Range) :=
  if r.top < r.base then none
  else if m.any fun q => decide (q.base ≤ r.top) && decide (r.base ≤ q.top) then none
  else some (m ++ [r])

/-- Where the router sends an access. -/
inductive Where where
  | to (t : Target)
  | bus
  | open
deriving DecidableEq, Repr

/-- The routing of an access to the bytes from `a` to `b` (mpact-sim). -/
def route : List Range → BitVec 64 → BitVec 64 → Where
  | [], _, _ => .bus
  | r :: m, a, b =>
    if r.base ≤ a ∧ b ≤ r.top then .to r.target
    else if r.base ≤ b ∧ a ≤ r.top then .open
    else route m a b

/-- `map`, `atomics`: the targets of `router_` for ordinary and for atomic accesses, the bus being the default
of the former (riscv_renode.cc:136-139). `bytes`: `memory_`, the default target, and the only one, of
`renode_router_` (riscv_renode.cc:141-149). `sp`: the value last written to sp, if any. `profiler`: whether
`inst_profiler_` is there; `trace`: whether `counter_pc_` is enabled. `elf`: what `program_loader_` reports,
if it is there. `cli`: the port of the socket and whether to wait for a connection. `icache`, `dcache`: the
text each cache was configured with. -/
structure Dev where
  map : List Range
  atomics : List Range
  bytes : BitVec 64 → Byte
  sp : Option (BitVec 64)
  memProfile : Bool
  profiler : Bool
  trace : Bool
  elf : Option Setup.Elf
  cli : Option (BitVec 32 × Bool)
  icache : Option Text
  dcache : Option Text

/-- The constructor (riscv_renode.cc:92-174); counters start enabled (mpact-sim). -/
def new : Dev := ⟨[], [], fun _ => 0#8, none, false, false, true, none, none, none, none⟩

/-- The local variables of `SetConfig` (riscv_renode.cc:407-418). -/
structure Given where
  icache : Text := []
  dcache : Text := []
  base : BitVec 64 := 0#64
  size : BitVec 64 := 0#64
  clint : BitVec 64 := 0#64
  stackEnd : Option (BitVec 64) := none
  stackSize : Option (BitVec 64) := none
  profile : Bool := false
  port : BitVec 32 := 0#32
  wait : BitVec 32 := 0#32

/-- A setting whose value is a number, other than memProfile (riscv_renode.cc:431-452). `cli_port` and
`wait_for_cli` are of type int. Any other name is only logged. -/
def take (name : String) (v : BitVec 64) (g : Given) : Given :=
  if name = "memoryBase" then { g with base := v }
  else if name = "memorySize" then { g with size := v }
  else if name = "clintMMRBase" then { g with clint := v }
  else if name = "cliPort" then { g with port := v.truncate 32 }
  else if name = "waitForCLI" then { g with wait := v.truncate 32 }
  else if name = "instProfile" then { g with profile := decide (v ≠ 0#64) }
  else if name = "stackEnd" then { g with stackEnd := some v }
  else if name = "stackSize" then { g with stackSize := some v }
  else g

/-- The loop over the settings (riscv_renode.cc:419-456): memProfile takes effect at once; a value that is no
number ends it (`none`). -/
def read : Dev → Given → List (String × Text) → Dev × Option Given
  | d, g, [] => (d, some g)
  | d, g, (name, text) :: rest =>
    if name = "iCache" then read d { g with icache := text } rest
    else if name = "dCache" then read d { g with dcache := text } rest
    else match Setup.parseNumber text with
      | none => (d, none)
      | some v =>
        if name = "memProfile" then read { d with memProfile := decide (v ≠ 0#64) } g rest
        else read d (take name v g) rest

/-- What a call comes to: `abort` is a failed CHECK, which ends the process. -/
inductive Result where
  | ok (d : Dev)
  | refused (d : Dev)
  | abort

/-- The memory targets and the clint (riscv_renode.cc:460-472). `none`: a CHECK fails. -/
def addTargets (d : Dev) (g : Given) : Option Dev :=
  match addTarget d.atomics ⟨g.base, g.base + g.size - 1#64, .memory⟩,
      addTarget d.map ⟨g.base, g.base + g.size - 1#64, .memory⟩ with
  | some atomics, some map =>
    if g.clint ≠ 0#64 then
      match addTarget map ⟨g.clint, g.clint + 0xffff#64, .clint⟩ with
      | some map => some { d with map := map, atomics := atomics }
      | none => none
    else some { d with map := map, atomics := atomics }
  | _, _ => none

/-- The instruction profiler (riscv_renode.cc:473-487). -/
def addProfiler (d : Dev) (g : Given) : Dev :=
  if g.profile && !d.profiler then { d with profiler := true, trace := d.elf.isSome } else d

/-- The stack pointer (riscv_renode.cc:512-550), `Verif.Setup`; without a loader no symbol is found. -/
def setStack (d : Dev) (g : Given) : Dev :=
  match Setup.stackPointer (d.elf.getD ⟨none, none, none⟩) g.stackEnd g.stackSize with
  | some v => { d with sp := some v }
  | none => d

/-- `ConfigureCache` (riscv_top.cc:208-224): a cache is configured once. -/
def setCache (c : Option Text) (t : Text) : Option Text :=
  if t.isEmpty then c else some (c.getD t)

/-- The caches (riscv_renode.cc:551-570). -/
def setCaches (d : Dev) (g : Given) : Dev :=
  { d with icache := setCache d.icache g.icache, dcache := setCache d.dcache g.dcache }

/-- `SetConfig` (riscv_renode.cc:405-572); `socket` tells whether a socket can be opened on a port
(riscv_renode.cc:488-511). -/
def setConfig (socket : BitVec 32 → Bool) (d : Dev) (pairs : List (String × Text)) : Result :=
  match read d {} pairs with
  | (d, none) => .refused d
  | (d, some g) =>
    if g.size = 0#64 then .refused d
    else match addTargets d g with
      | none => .abort
      | some d =>
        let d := addProfiler d g
        if g.port ≠ 0#32 ∧ d.cli = none then
          let d := { d with cli := some (g.port, decide (g.wait ≠ 0#32)) }
          if socket g.port then .ok (setCaches (setStack d g) g) else .refused d
        else .ok (setCaches (setStack d g) g)

/-- `WriteMemory` (riscv_renode.cc:329-340) of at most 2^64 bytes. -/
def write (m : BitVec 64 → Byte) (a : BitVec 64) (bs : List Byte) : BitVec 64 → Byte :=
  fun x => match bs[(x - a).toNat]? with
    | some b => b
    | none => m x

/-- An executable: its segments and what it says about the stack. -/
structure Image where
  segments : List (BitVec 64 × List Byte)
  elf : Setup.Elf

/-- `LoadExecutable` (riscv_renode.cc:242-300), but for tohost (`Verif.Setup`): the loader writes the segments
through `WriteMemory`. `file` is `none` if it cannot be loaded; the loader stays, and reports nothing. The
flag tells whether the call succeeds. -/
def load (d : Dev) (file : Option Image) (symbolsOnly : Bool) : Dev × Bool :=
  match file with
  | none => ({ d with elf := some ⟨none, none, none⟩ }, false)
  | some f =>
    let d := { d with elf := some f.elf }
    let d := if symbolsOnly then d
      else { d with bytes := f.segments.foldl (fun m s => write m s.1 s.2) d.bytes }
    if d.profiler then ({ d with trace := true }, true)
    else ({ d with profiler := true, trace := false }, true)

/-- `ReadMemory` (riscv_renode.cc:318-327). -/
def readMemory (d : Dev) (a : BitVec 64) (n : Nat) : List Byte :=
  (List.range n).map fun i => d.bytes (a + BitVec.ofNat 64 i)

/-- A store of the core of one byte or more (riscv_renode.cc:95-103): through `router_`. `none`: not described
here. Stores to the bus and the clint do not change the memory. -/
def coreStore (d : Dev) (a : BitVec 64) (bs : List Byte) : Option Dev :=
  match route d.map a (a + BitVec.ofNat 64 bs.length - 1#64) with
  | .to .memory => some { d with bytes := write d.bytes a bs }
  | .to .clint => some d
  | .bus => some d
  | .open => none

/-- A load of the core of `n` bytes; `none`: it is not the memory that answers. -/
def coreLoad (d : Dev) (a : BitVec 64) (n : Nat) : Option (List Byte) :=
  match route d.map a (a + BitVec.ofNat 64 n - 1#64) with
  | .to .memory => some ((List.range n).map fun i => d.bytes (a + BitVec.ofNat 64 i))
  | _ => none

/-- What Renode and the core do. -/
inductive Event where
  | load (file : Option Image) (symbolsOnly : Bool)
  | config (pairs : List (String × Text))
  | write (a : BitVec 64) (bs : List Byte)
  | store (a : BitVec 64) (bs : List Byte)

/-- One of them; `none`: the process has ended, or the access is not described here. -/
def step (socket : BitVec 32 → Bool) (d : Dev) : Event → Option Dev
  | .load f s => some (load d f s).1
  | .config p => match setConfig socket d p with
    | .ok d => some d
    | .refused d => some d
    | .abort => none
  | .write a bs => some { d with bytes := Renode.write d.bytes a bs }
  | .store a bs => coreStore d a bs

/-- A history. -/
def run (socket : BitVec 32 → Bool) : Dev → List Event → Option Dev
  | d, [] => some d
  | d, e :: h => match step socket d e with
    | some d => run socket d h
    | none => none

end Verif.Renode
