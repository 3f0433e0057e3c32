/-
The CSR numbers of the RISC-V ISA (Privileged Architecture, chapter "CSR Listing"; for jvt
the code-size extension, for sideleg and ustatus the withdrawn user-level interrupts), and
what the ISA requires of some registers. Nothing here refers to the model.
-/
namespace Verif.CsrFile.Spec

/-- Names `base3` to `base31` (with `suffix`), numbered upwards from `first`. -/
def family (base suffix : String) (first : Nat) : List (String × Nat) :=
  (List.range 29).map fun k => (base ++ toString (k + 3) ++ suffix, first + k)

/-- Name and number of every CSR of the ISA this hart could have. -/
def table : List (String × Nat) :=
  [("fflags", 0x001), ("frm", 0x002), ("fcsr", 0x003), ("vstart", 0x008), ("vxsat", 0x009),
   ("vxrm", 0x00a), ("vcsr", 0x00f), ("jvt", 0x017), ("ustatus", 0x000),
   ("cycle", 0xc00), ("time", 0xc01), ("instret", 0xc02), ("vl", 0xc20), ("vtype", 0xc21),
   ("vlenb", 0xc22), ("cycleh", 0xc80), ("timeh", 0xc81), ("instreth", 0xc82),
   ("sstatus", 0x100), ("sedeleg", 0x102), ("sideleg", 0x103), ("sie", 0x104),
   ("stvec", 0x105), ("scounteren", 0x106), ("senvcfg", 0x10a), ("sscratch", 0x140),
   ("sepc", 0x141), ("scause", 0x142), ("stval", 0x143), ("sip", 0x144), ("satp", 0x180),
   ("henvcfg", 0x60a),
   ("mvendorid", 0xf11), ("marchid", 0xf12), ("mimpid", 0xf13), ("mhartid", 0xf14),
   ("mconfigptr", 0xf15), ("mstatus", 0x300), ("misa", 0x301), ("medeleg", 0x302),
   ("mideleg", 0x303), ("mie", 0x304), ("mtvec", 0x305), ("mcounteren", 0x306),
   ("menvcfg", 0x30a), ("mstatush", 0x310), ("menvcfgh", 0x31a), ("mcountinhibit", 0x320),
   ("mscratch", 0x340), ("mepc", 0x341), ("mcause", 0x342), ("mtval", 0x343), ("mip", 0x344),
   ("pmpcfg0", 0x3a0), ("pmpcfg1", 0x3a1), ("pmpcfg2", 0x3a2), ("pmpcfg3", 0x3a3),
   ("pmpaddr0", 0x3b0), ("pmpaddr1", 0x3b1), ("pmpaddr2", 0x3b2), ("pmpaddr3", 0x3b3),
   ("pmpaddr4", 0x3b4), ("pmpaddr5", 0x3b5), ("pmpaddr6", 0x3b6), ("pmpaddr7", 0x3b7),
   ("pmpaddr8", 0x3b8), ("pmpaddr9", 0x3b9), ("pmpaddr10", 0x3ba), ("pmpaddr11", 0x3bb),
   ("pmpaddr12", 0x3bc), ("pmpaddr13", 0x3bd), ("pmpaddr14", 0x3be), ("pmpaddr15", 0x3bf),
   ("mcycle", 0xb00), ("minstret", 0xb02), ("mcycleh", 0xb80), ("minstreth", 0xb82)] ++
  family "hpmcounter" "" 0xc03 ++ family "hpmcounter" "h" 0xc83 ++
  family "mhpmcounter" "" 0xb03 ++ family "mhpmcounter" "h" 0xb83 ++
  family "mhpmevent" "" 0x323

/-- The CSRs the privileged architecture requires of a hart with machine, supervisor and
user mode. (`w` is XLEN; the upper halves exist on RV32 only.) -/
def required (w : Nat) : List String :=
  ["mvendorid", "marchid", "mimpid", "mhartid", "mconfigptr", "mstatus", "misa", "medeleg",
   "mideleg", "mie", "mtvec", "mcounteren", "menvcfg", "mscratch", "mepc", "mcause", "mtval",
   "mip", "mcycle", "minstret", "sstatus", "sie", "stvec", "scounteren", "senvcfg",
   "sscratch", "sepc", "scause", "stval", "sip", "satp"] ++
  (if w = 32 then ["mstatush", "menvcfgh", "mcycleh", "minstreth"] else []) ++
  ((family "mhpmcounter" "" 0).map (·.1)) ++ ((family "mhpmevent" "" 0).map (·.1)) ++
  (if w = 32 then (family "mhpmcounter" "h" 0).map (·.1) else [])

/-- The CSRs a hart with the given XLEN and extensions has, and that the ISA gives to
every such hart with counters: unprivileged counters, and the registers of F and V. -/
def unprivileged (w : Nat) (fp vec : Bool) : List String :=
  ["cycle", "time", "instret"] ++
  (if w = 32 then ["cycleh", "timeh", "instreth"] else []) ++
  ((family "hpmcounter" "" 0).map (·.1)) ++
  (if w = 32 then (family "hpmcounter" "h" 0).map (·.1) else []) ++
  (if fp then ["fflags", "frm", "fcsr"] else []) ++
  (if vec then ["vl", "vtype", "vlenb", "vstart", "vxsat", "vxrm", "vcsr"] else [])

/-- CSR numbers with both top bits set are read-only (Privileged Architecture, 2.1). -/
def readOnlyNumber (n : Nat) : Bool := n / 1024 % 4 == 3

/-- The letters of misa: bit 0 is A, …, bit 25 is Z. -/
def hasLetter {w : Nat} (misa : BitVec w) (c : Char) : Bool :=
  misa.getLsbD (c.toNat - 'A'.toNat)

/-- The MXL field of misa: the top two bits. -/
def mxl {w : Nat} (misa : BitVec w) : Nat := misa.toNat >>> (w - 2)

end Verif.CsrFile.Spec
