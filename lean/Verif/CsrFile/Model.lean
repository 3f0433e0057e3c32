import Verif.Csr.Model
import Verif.CsrSet.Model
/-
Model of the control and status registers a simulated hart is built with: the creation
sequence of `riscv/riscv_state.cc`, `riscv/riscv_pmp.h`, `riscv/riscv_fp_state.cc` and
`riscv/riscv_vector_state.cc`, with the numbers of `riscv/riscv_csr.h`; and the two register
classes not covered elsewhere, `riscv/riscv_misa.cc` and `riscv/riscv_jvt.h`.
-/
namespace Verif.CsrFile

/-- The class of a created CSR object, with the constructor arguments that matter. A
`high` object keeps a pointer to the counter whose upper half it is; `low` is the name of
that counter, or `none` when the pointer is past the end of the object it was derived from. -/
inductive Class (w : Nat) where
  | simple (initial readMask writeMask : BitVec w)
  | misa | mip | mie | mstatus | sstatus | sip | sie | jvt | mode
  | counter | high (low : Option String)
  | fp | vec

/-- One creation: name, number, class, and whether failing to register it aborts the
simulator (`CHECK_NE`) or is only logged. -/
structure Created (w : Nat) where
  name : String
  index : Nat
  cls : Class w
  checked : Bool := true

/-- A `RiscVSimpleCsr<T>` built without masks: both masks are all ones (riscv_csr.h:389-396). -/
def plain (w : Nat) (name : String) (index : Nat) (checked : Bool := true) : Created w :=
  ⟨name, index, .simple 0 (BitVec.allOnes w) (BitVec.allOnes w), checked⟩

/-- A `RiscVSimpleCsr<T>` built with initial value and masks (riscv_csr.h:417-420). -/
def masked (w : Nat) (name : String) (index : Nat) (r wm : BitVec w) : Created w :=
  ⟨name, index, .simple 0 r wm, true⟩

/-- A counter and, on RV32, its upper half (the pattern of riscv_state.cc:238-246). -/
def pair (w : Nat) (name nameH : String) (index indexH : Nat) (low : Option String) :
    List (Created w) :=
  ⟨name, index, .counter, true⟩ ::
    (if w = 32 then [⟨nameH, indexH, .high low, true⟩] else [])

/-- `kNumHardwarePerfCounters` and `kMinimumHardwarePerfIndex` (riscv_state.h:46-47): the
numbers 3 to 31. -/
def perf : List Nat := (List.range 29).map (· + 3)

/-- The loops over the performance counters (riscv_state.cc:292-316): `hpmcounterN` at
`kCycle + N`, its upper half at `kCycleH + N`. -/
def hpm (w : Nat) : List (Created w) :=
  perf.flatMap fun n =>
    pair w ("hpmcounter" ++ toString n) ("hpmcounter" ++ toString n ++ "h")
      (0xc00 + n) (0xc80 + n) (some ("hpmcounter" ++ toString n))

/-- The second loop (riscv_state.cc:318-344): `mhpmcounterN` at `kMCycle + N`, its upper
half at `kMCycleH + N`. The pointer handed to the upper half is
`mhpmcounter + kMinimumHardwarePerfIndex`, three objects past the counter just created. -/
def mhpm (w : Nat) : List (Created w) :=
  perf.flatMap fun n =>
    pair w ("mhpmcounter" ++ toString n) ("mhpmcounter" ++ toString n ++ "h")
      (0xb00 + n) (0xb80 + n) none

/-- `RiscVPmp::CreatePmpCsrs<T>` (riscv_pmp.h:68-113), with riscv_csr.h:178-197. -/
def pmp (w : Nat) : List (Created w) :=
  [plain w "pmpcfg0" 0x3a0 false] ++
  (if w = 64 then [] else [plain w "pmpcfg1" 0x3a1 false]) ++
  [plain w "pmpcfg2" 0x3a2 false] ++
  (if w = 64 then [] else [plain w "pmpcfg3" 0x3a3 false]) ++
  (List.range 16).map fun n => plain w ("pmpaddr" ++ toString n) (0x3b0 + n) false

/-- `CreateCsrs<T>` (riscv_state.cc:161-432) in order, with the numbers of
riscv_csr.h:44-285. -/
def created (w : Nat) : List (Created w) :=
  [plain w "menvcfg" 0x30a, ⟨"misa", 0x301, .misa, true⟩, plain w "mtvec" 0x305,
   plain w "mcause" 0x342, ⟨"mip", 0x344, .mip, true⟩, ⟨"mie", 0x304, .mie, true⟩,
   masked w "mhartid" 0xf14 (BitVec.allOnes w) 0, plain w "mepc" 0x341,
   plain w "mscratch" 0x340, masked w "medeleg" 0x302 0xb3ff 0xb3ff,
   masked w "mideleg" 0x303 0x0bbb 0x0bbb, ⟨"mstatus", 0x300, .mstatus, true⟩,
   plain w "mtval" 0x343] ++
  pair w "minstret" "minstreth" 0xb02 0xb82 (some "minstret") ++
  pair w "mcycle" "mcycleh" 0xb00 0xb80 (some "mcycle") ++
  pair w "cycle" "cycleh" 0xc00 0xc80 (some "cycle") ++
  pair w "time" "timeh" 0xc01 0xc81 (some "time") ++
  pair w "instret" "instreth" 0xc02 0x82 (some "instret") ++
  hpm w ++ mhpm w ++
  [plain w "henvcfg" 0x60a, plain w "senvcfg" 0x10a, plain w "scounteren" 0x106,
   ⟨"sstatus", 0x100, .sstatus, true⟩, ⟨"sip", 0x144, .sip, true⟩,
   ⟨"sie", 0x104, .sie, true⟩, plain w "stvec" 0x105, plain w "scause" 0x142,
   plain w "sepc" 0x141, plain w "stval" 0x143, plain w "sscratch" 0x140,
   masked w "sideleg" 0x103 0x0bbb 0x0bbb, masked w "ustatus" 0x000 0x11 0x11] ++
  pmp w ++
  [⟨"jvt", 0x017, .jvt, true⟩, ⟨"$mode", 0x1800, .mode, true⟩]

/-- The registers `RiscVFPState` adds (riscv_fp_state.cc:60-62). -/
def fpCsrs (w : Nat) : List (Created w) :=
  [⟨"fcsr", 0x003, .fp, false⟩, ⟨"frm", 0x002, .fp, false⟩, ⟨"fflags", 0x001, .fp, false⟩]

/-- The registers `RiscVVectorState` adds (riscv_vector_state.cc:153-159). -/
def vecCsrs (w : Nat) : List (Created w) :=
  [⟨"vl", 0xc20, .vec, false⟩, ⟨"vtype", 0xc21, .vec, false⟩, ⟨"vlenb", 0xc22, .vec, false⟩,
   ⟨"vstart", 0x008, .vec, false⟩, ⟨"vxsat", 0x009, .vec, false⟩,
   ⟨"vxrm", 0x00a, .vec, false⟩, ⟨"vcsr", 0x00f, .vec, false⟩]

/-- Everything a hart is built with: the constructor of `RiscVState`, then the
floating-point state and the vector state when the simulator has them. -/
def all (w : Nat) (fp vec : Bool) : List (Created w) :=
  created w ++ (if fp then fpCsrs w else []) ++ (if vec then vecCsrs w else [])

/-- The object as the registry sees it; `ptr` numbers the objects in creation order. -/
def Created.csr {w : Nat} (e : Created w) (ptr : Nat) : CsrSet.Csr := ⟨ptr, e.name, e.index⟩

/-- The creation sequence: each object is registered with `AddCsr`. A refused registration
aborts if it is checked (riscv_state.cc:102-156, `CHECK_NE`), and is otherwise skipped
(riscv_pmp.h:84-90,106-112, riscv_fp_state.cc:48-51, riscv_vector_state.cc:63-66). -/
def construct {w : Nat} : List (Created w) → Nat → CsrSet.State → Option CsrSet.State
  | [], _, s => some s
  | e :: es, p, s =>
    match CsrSet.addCsr s (some (e.csr p)) with
    | (.ok, s') => construct es (p + 1) s'
    | (_, s') => if e.checked then none else construct es (p + 1) s'

/-- The name of the register a hart finds at a CSR number (`GetCsr(uint64_t)`,
riscv_csr.cc:98-104) after construction; `none` also if construction aborts. -/
def lookup (w : Nat) (fp vec : Bool) (i : Nat) : Option String :=
  (construct (all w fp vec) 0 CsrSet.State.empty).bind fun s => (s.byIndex i).map (·.name)

/-- The number of the register a hart finds under a name (`GetCsr(string_view)`,
riscv_csr.cc:90-96) after construction. -/
def numberOf (w : Nat) (fp vec : Bool) (n : String) : Option Nat :=
  (construct (all w fp vec) 0 CsrSet.State.empty).bind fun s => (s.byName n).map (·.index)

/-- Reading the upper half of a counter dereferences the stored pointer
(riscv_counter_csr.h `RiscVCounterCsrHigh`): `none` is the undefined behaviour of using a
pointer past the end, and a CSR that is not an upper half. -/
def lowOf {w : Nat} (e : Created w) : Option String :=
  match e.cls with
  | .high low => low
  | _ => none

/-! ### misa -/

/-- `StretchMisa32` (riscv_misa.cc:31-35). -/
def stretch (v : BitVec 32) : BitVec 64 :=
  ((v.setWidth 64 &&& 0xc0000000#64) <<< 32) ||| (v.setWidth 64 &&& 0x03ffffff#64)

/-- `CompressMisa64` (riscv_misa.cc:37-40). -/
def compress (v : BitVec 64) : BitVec 32 :=
  (((v >>> 32) &&& 0xc0000000#64) ||| (v &&& 0x3fffffff#64)).setWidth 32

/-- A `RiscVMIsa` object: a `RiscVSimpleCsr<uint64_t>` and the 32-bit read mask. -/
structure Misa where
  csr : Csr.SimpleCsr 64
  readMask32 : BitVec 32
deriving DecidableEq

namespace Misa

/-- The constructor from a 64-bit value (riscv_misa.cc:46-51). -/
def mk64 (v : BitVec 64) : Misa :=
  ⟨⟨v, 0xc000000003ffffff#64, 0⟩, compress 0xc000000003ffffff#64⟩

/-- The constructor from a 32-bit value (riscv_misa.cc:43-44). -/
def mk32 (v : BitVec 32) : Misa := mk64 (stretch v)

/-- `GetUint32` (riscv_misa.cc:59-62). -/
def get32 (m : Misa) : BitVec 32 := compress m.csr.value

/-- `AsUint32` (riscv_misa.cc:54-57). -/
def as32 (m : Misa) : BitVec 32 := m.get32 &&& m.readMask32

/-- `AsUint64`, inherited (riscv_csr.h:446-448). -/
def as64 (m : Misa) : BitVec 64 := m.csr.as 64

/-- `Write`, both overloads (riscv_misa.cc:64-72): ignored. `SetBits` and `ClearBits`
(riscv_csr.h:459-463) go through `Write`. -/
def step (m : Misa) (_ : Csr.Op) : Misa := m

/-- A history of operations. -/
def run (m : Misa) (ops : List Csr.Op) : Misa := ops.foldl step m

/-- `Set`, inherited (riscv_csr.h:468-469). -/
def set {n : Nat} (m : Misa) (v : BitVec n) : Misa := { m with csr := m.csr.set v }

/-- `Reset`, inherited (riscv_csr.h:492). -/
def reset (m : Misa) : Misa := { m with csr := m.csr.reset }

/-- `HasSupervisorMode` (riscv_misa.cc:74-76): `GetUint32() & (1 << 18)`. -/
def hasSupervisorMode (m : Misa) : Bool := m.get32 &&& 0x40000#32 != 0#32

/-- `HasUserMode` (riscv_misa.cc:78). -/
def hasUserMode (_ : Misa) : Bool := true

/-- `RiscVXlen` (riscv_state.h:209-213). -/
inductive Xlen where
  | rv32 | rv64 | unknown
deriving DecidableEq, Repr

/-- `Xlen` (riscv_misa.cc:80-89). The mask is the hexadecimal number `0xb11`. -/
def xlen (m : Misa) : Xlen :=
  let k := (m.csr.get 64 >>> 62) &&& 0xb11#64
  if k = 0b01#64 then .rv32 else if k = 0b10#64 then .rv64 else .unknown

end Misa

/-- The extension bits of `kMisaInitialValue` (riscv_state.cc:61-66,86-91): M, I, G, F, D,
C, A and S (riscv_state.h:117-145). -/
def misaExtensions (w : Nat) : BitVec w :=
  (1#w <<< 12) ||| (1#w <<< 8) ||| (1#w <<< 6) ||| (1#w <<< 5) ||| (1#w <<< 3) |||
    (1#w <<< 2) ||| (1#w <<< 0) ||| (1#w <<< 18)

/-- `CsrInfo<uint32_t>::kMisaInitialValue` (riscv_state.cc:61-66). -/
def misaInitial32 : BitVec 32 := (1#32 <<< 30) ||| misaExtensions 32

/-- `CsrInfo<uint64_t>::kMisaInitialValue` (riscv_state.cc:86-91). -/
def misaInitial64 : BitVec 64 := (2#64 <<< 62) ||| misaExtensions 64

/-! ### jvt -/

/-- `RiscVJvtCsr<T>::Write` (riscv_jvt.h:34-37) on a `RiscVSimpleCsr<T>`: the low six bits
are cleared before the value is set. -/
def jvtWrite {w n : Nat} (c : Csr.SimpleCsr w) (v : BitVec n) : Csr.SimpleCsr w :=
  c.set (v &&& ~~~(0x3f#n))

/-- One operation on jvt; `SetBits` and `ClearBits` go through `Write`
(riscv_csr.h:459-463). -/
def jvtStep {w : Nat} (c : Csr.SimpleCsr w) : Csr.Op → Csr.SimpleCsr w
  | .write32 v => jvtWrite c v
  | .write64 v => jvtWrite c v
  | .setBits32 v => jvtWrite c (c.get 32 ||| v)
  | .setBits64 v => jvtWrite c (c.get 64 ||| v)
  | .clearBits32 v => jvtWrite c (c.get 32 &&& ~~~v)
  | .clearBits64 v => jvtWrite c (c.get 64 &&& ~~~v)

/-- A history of operations on jvt. -/
def jvtRun {w : Nat} (c : Csr.SimpleCsr w) (ops : List Csr.Op) : Csr.SimpleCsr w :=
  ops.foldl jvtStep c

/-- The initial object of a simple CSR. -/
def Created.simple {w : Nat} (e : Created w) : Option (Csr.SimpleCsr w) :=
  match e.cls with
  | .simple v r wm => some ⟨v, r, wm⟩
  | .jvt => some ⟨0, BitVec.allOnes w, BitVec.allOnes w⟩
  | _ => none

end Verif.CsrFile
