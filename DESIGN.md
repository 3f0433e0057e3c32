# Formal model of mpact-riscv: design

## What this is

A Lean 4 model of the logic of the simulator in `/repo/riscv`, and theorems about
it.  The C++ is never run; the tie between model and code is the citation on every
definition (`file:lines`), which is meant to be re-read against the source.

## Layout

For every area `X` there are up to three modules under `lean/Verif/X/`:

* `Model.lean` - the code, function by function, each definition citing its lines;
* `Spec.lean`  - a small specification written from the ISA manual / the English
  property, not from the model (it does not use the model's helpers);
* `Props.lean` - the property theorems `Cnn_...`, each with a non-vacuity `example`.

Helper lemmas live in `Lemmas.lean` files or at the top of `Props.lean`.

## Conventions

* Machine integers are `BitVec n`; C++ `uintN_t`/`intN_t` differ only in the
  operations used.  Unbounded `Nat`/`Int` only where no wrap-around can occur.
* Undefined behaviour (signed overflow where it matters, out-of-range indexing,
  division by zero, null dereference) is a separate outcome (`Option`/`Except`
  with a `ub` constructor), never silently given a value.
* `DataBuffer::Set<T>(0, v)` (mpact-sim, not in this repository) writes exactly
  `sizeof(T)` bytes, `Submit()` with zero latency takes effect immediately.
* A property that the code violates has (a) a theorem `Cnn_..._violated` exhibiting
  a concrete counterexample in the model, and (b) a theorem `Cnn_..._partial` with
  the strongest part that does hold.  These are listed under "Disagreements".

## Trusted base

* Lean 4.33.0's kernel; axioms `propext`, `Classical.choice`, `Quot.sound` only
  (checked with `#print axioms`); no `sorry`, `native_decide`, `bv_decide`, or own
  axioms.  `decide +kernel` is used for genuinely finite tables (instruction
  listings, format tables, register names) and for concrete witnesses; the kernel
  evaluates them.
* The faithfulness of the model to the cited lines.
* The generated modules `BinFmt/Formats`, `Encoding/Setters`, `Decode/*` are written
  by the scripts in `tools/` from the `.bin_fmt` files and the setter sources; the
  scripts are not trusted in any proof, but the generated tables are part of the
  model and must agree with the sources.
* `Decode/Isa.lean` (masks and matches written from the RISC-V manuals) and every
  `Spec.lean` are what the theorems are about; they have to be read.

### Assumptions about code outside the repository

mpact-sim, absl and the host are not in `/repo`.  What is assumed of them:

* `DataBuffer::Set<T>(0, v)` writes `sizeof(T)` bytes and keeps the rest (so a 32-bit
  set on a 64-bit register keeps the upper half); `Submit` with latency 0 takes
  effect at once; a freshly allocated buffer holds arbitrary bytes (`junk`);
  `DataBufferFactory::Allocate(n)` gives `n` bytes.
* `GetInstructionSource<T>`/`AsInt`/`AsUint` sign- or zero-extend, or truncate, to
  the type asked for.
* `FPTypeInfo` has the standard IEEE constants.
* Host comparisons compare values; host division by a power of two, `fma`, `*`, `+`,
  `sqrt` and conversions are correctly rounded in the direction the host is set to
  (stated as hypotheses, e.g. `FpFma.Ieee`, and shown satisfiable); host arithmetic
  only ORs sticky flags.
* Memory is flat and little-endian; vector loads and stores touch the active
  elements only, in order.  The atomic memory contract is `Atomic.Spec.Contract`.
* `SingleInitiatorRouter::AddTarget` refuses a range that ends before it begins or
  meets one already there; an access within a range goes there with its address
  unchanged, one that meets none goes to the default target; for one that lies partly
  in a range nothing is assumed.  Counters start enabled.
* `ActionPointManagerBase`/`BreakpointManager` write and restore the breakpoint
  instruction on set and clear.
* The bin_format generator: `Extract` concatenates the pieces of an overlay (and
  sign-extends if signed), `Insert` writes the word bits and ignores constant
  pieces; base-format extractors equal the overlay of the only derived format that
  defines it.  In which order overlapping patterns are tried is not assumed.
* The assembler ORs operand encodings into the opcode word; `SimpleAtoi` and
  `SimpleHexAtoi` reject numbers out of range of their type.
* The code is compiled as C++17: signed overflow, shifting a negative value left and
  converting an out-of-range floating-point number are undefined.

## Modelled

| area | source |
|------|--------|
| `Csr`, `CsrSet` | riscv_csr.h/.cc |
| `XStatus`, `Xip` | riscv_xstatus.h, riscv_xip_xie.h, riscv_misa.h |
| `Hart` | riscv_state.cc (interrupts, traps, returns), riscv_priv_instructions.cc |
| `Zicsr` | riscv_zicsr_instructions.cc |
| `Counter` | riscv_counter_csr.h |
| `Clint`, `Plic` | riscv_clint.cc, riscv_plic.cc |
| `Alu`, `MulDiv`, `Bitmanip`, `Control`, `Mem`, `Atomic` | riscv_i/m/b/bitmanip/a_instructions, riscv_zb*, riscv_instruction_helpers.h |
| `FpHost`, `FpState`, `NaNBox`, `FpClass`, `FpConvert`, `HalfFp`, `FpFma` | riscv_fp_host*, riscv_fp_state.cc, riscv_f/d/zfh_instructions.cc, riscv_instruction_helpers.h |
| `Zcmp` | riscv_zc_instructions.cc |
| `VecState`, `VecLoop`, `VecFixed`, `VecMask`, `VecMem` | riscv_vector_state.cc, riscv_vector_instruction_helpers.h, riscv_vector_opi/opm/memory_instructions.cc |
| `ActionPoint`, `RunLoop`, `BranchTrace`, `DebugMem`, `Dispatch` | riscv_top.cc, riscv_action_point*, riscv_state.cc |
| `BinFmt`, `Encoding`, `Decode` | *.bin_fmt, riscv_bin_setters.cc, riscv_encoding_common.h, riscv_getters*.h |

## Not modelled

* Host floating-point arithmetic itself: the host FPU enters as a hypothesis.
* Threads (`RiscVTop::Run` in a detached thread): the loop body is modelled
  sequentially; asynchronous `Halt` is a possible event between iterations.
* Host OS calls of the semihosting code, command-line shell text formatting, Renode
  glue, protobuf/instrumentation, the gdb server.
* The text of the `.isa` files other than what areas cite (operand lists,
  disassembly formats).

## Reading seeded/LOG.jsonl

Each line is one edit of the model in a scratch copy.  "failed" lists the first
declarations that no longer compile; modules that depend on them are not built and
are not listed, so a property theorem can be killed through a lemma it rests on.

## Disagreements

Where code and property disagree, a theorem named `Cnn_..._violated` proves it of the
model.  They are, by property:

* C02: a 32-bit write to a 64-bit CSR clears the upper half.
* C07, C08, C09: sstatus reads expose machine fields; writing mip latches the external
  line; sip/sie writes lack a complement.  SD is never set by the code; misa's Xlen
  constant is written `0xb11`; MPP is not legalised.
* C11, C13, C60: a reported interrupt is never withdrawn; mret with cleared low bits and
  the external line do not trigger a new evaluation.
* C15: sret in machine mode.  C16: exceptions are vectored.
* C17: writes to read-only CSRs and unknown CSRs do not trap.
* C19, C20, C62: counter halves disturb each other; instret and minstret have separate
  offsets.
* C21-C25, C63: CLINT timer line stale after mtime writes; 8-byte stores drop a word; PLIC
  register map and out-of-bounds accesses, disabled sources claimable, nested claims.
* C26: masked-off elements fault, accesses straddling the limit and atomics do not.
* C27, C28: W-forms overflow signed 32-bit arithmetic (undefined).
* C29, C30: RV32 clmulr, cpopw.  C31: mtval of a misaligned branch is the pc.
* C34, C35: fcsr set/clear drop accrued flags; a reserved mode stays invalid.
* C37: operands used unboxed, half results never boxed.
* C38: RMM ties lose NX; INT_MIN negation is undefined.
* C40: RV64 fclass.s keeps the upper half of rd; half fsgnj canonicalises NaNs.
* C41, C42, C69: RV32 frames wrapping at zero; RV32 operand order of the description; faulting
  push/pop/table jumps have effects; odd targets are not masked.
* C43: rd = rs1 = x0 changes vl; AVL truncated to 32 bits; reserved SEW divides by zero;
  reserved LMUL does not set vill.
* C47, C48: 64-bit vmadc; mask logicals whose body lies within one byte, or with vl = 0.
* C49-C51, C70: inactive elements fault; loads and stores with vstart not at a register
  boundary; segment layout for EMUL > 1 and vl < VLMAX; odd vd; vl = 0 divides by zero;
  indexed segment stores sign-extend the index.
* C52: set/clear of vcsr, vxrm, vxsat work from a copy that is always zero.
* C53, C54: overlapping breakpoints, stale originals; an action point's instruction is
  executed again at every step, and the further cases listed in the manifest.
* C55: branch trace addresses are cut to 32 bits, counts wrap.
* C58: operands placed in a wrong field (second source of compressed FP stores, rounding
  mode), c.swsp/c.sdsp offsets, refused negative store offsets, CSR names missing or wrong.
* C59, C71: overlapping patterns; entries that match foreign words and missed words
  (`Decode/Modules.lean`).
* C64, C65: explicit rounding mode outlasts its instruction (x86), is lost (ARM); RMM is
  nearest-even; reserved modes do not trap.
* C67: signs of zero and directed rounding of double precision fused multiply-adds.
* C68: UF before rounding, RMM.
* C72, C73: no range checks; names of double precision registers.
* C74: double precision fused multiply-adds and float/double conversions raise nothing for signalling NaNs; the vector square root raises invalid for quiet NaNs; the flag that the fused multiply-adds submit for infinity times zero is lost, because it is submitted inside the scope of the host status, so infinity times zero plus a quiet NaN raises nothing in double precision, and in single precision only if the host does.
* C75: vector arithmetic does not canonicalise NaNs.
* C76: vector conversions ignore the rounding mode and do not raise inexact; 2^n to an n-bit type is undefined.
* C77: entry 88 of the reciprocal square root table is 20 instead of 90; vfrsqrt7 raises invalid for +inf and quiet NaNs; vfrec7 returns 64 or 32 units for every operand of the two largest binades and never raises a flag.
* C78: with vl = 0 the reductions overwrite vd[0] with vs1[0]; with vstart not 0 they do nothing and raise no illegal-instruction exception; widening integer sums read the scalar with the narrow width, so that its upper half is lost, and refuse LMUL = 8; minimum and maximum give the canonical NaN if an operand is signalling, keep the scalar among zeros of different signs and never raise the invalid flag.
* C66: `fmv.x.h`, `fmin.h`, `fmax.h` and the half-precision sign injections are described without a rounding mode but their functions read one (riscv_zfh.isa:83,113,158-181); `cm.popret`/`cm.popretz` of the 32-bit description do not give `ra` as a source (riscv_zc.isa:338-345), the functions read it as source 3.  The table of uses is extracted from the text by `tools/gen_operands.py`; a use on some paths counts as made.  The slots `riscv_zcb64`, `zcmt64`, `zcf64`, `zcd64` override opcodes of a slot they do not inherit from and are in no instruction set; they are not in the table.
* C79: vfmerge.vfm takes its second operand from the vector register whose number is the scalar's; the compares raise no flag for NaNs; the scalar operand of a .vf instruction with 32-bit elements is not checked for NaN-boxing.
* C84: in the RV64G and both vector encoding classes the destination of `c.fld`/`c.flw` is an integer register (riscv64g_encoding.cc:437-448, riscv32g_vec_encoding.cc:580-592, riscv64g_vec_encoding.cc:537-548: `kXregPrefix`).  The `vsetvli`/`vsetivli` immediates are declared `signed`.  Zvbb source operands are made with the mask-register helper and hold one register only.  In riscv_zc_getters.h the `c.lbu`/`c.sb` offset bits are exchanged (format `CLB`/`CSB` declare `uimm2[2]`; the manual puts offset bit 0 in word bit 6), and `Zcd` loads and stores use the word-sized offsets; that header also names formats and fields that do not exist (`CMMP`, `CR::ExtractRd`, `CLB::ExtractClRd`) and no encoding class uses it yet.
* C86: `vsuxsegei*` uses the strided function (riscv_vector.isa:433-442); `vsll.vi`, `vsrl.vi`, `vsra.vi` take a sign-extended immediate (701,728,737); `vfmerge.vfm` takes vs1; `vfwadd.w*`/`vfwsub.w*` use the function of `vfwadd.v*`/`vfwsub.v*` (1226-1235); `vfwredosum.vs` names no function (1224); RV32 `c.flw`/`c.flwsp` are not NaN-boxed, `c.fld`/`c.fldsp`/`c.fsdsp` form a 64-bit address, `c.fsw`/`c.fswsp` and RV64 `c.fsd`/`c.fsdsp` use the integer stores (no test of mstatus.FS); `c.zext.*`, `c.sext.*`, `c.not`, `c.mul` of Zcb write the register in the wrong field.
* C87: with mstatus.FS Off no floating-point load or store raises an illegal instruction; `fsw` and `fsd` silently do nothing, the others act as usual. On RV32 `c.flw` and `c.flwsp` leave the upper half of the register as it was instead of NaN-boxing, and `c.fld`, `c.fldsp` and `c.fsdsp` add base and offset in 64 bits, so that a sum past 2^32 addresses memory above the address space.
* C88: the mask bit of an element is looked up with its index within its register, so that masked gathers and slides of more than one register use the wrong bits; vrgather's bound is the size of the aligned register group of the source's number, not VLMAX, and indices and offsets are cut to 32 bits; vslidedown by more than 2^31 slides up; vslide1up writes the scalar to element 1 as well as element 0; vslide1down with vl < VLMAX reads an element behind the end instead of the scalar; vslideup by more than VLMAX leaves vstart; vcompress does not refuse a vstart other than 0.
* C83: vmv.x.s writes nothing if vl = 0 or vstart is not 0; on RV64 it sets only the low half of rd, the upper half is whatever the new buffer held; vmv.s.x, vfmv.s.f and vfmv.v.f with vstart not 0 do nothing and leave vstart; vfmv.v.f writes behind the register's buffer if vl elements need more than one register; vfmv.s.f and vfmv.v.f do not check the NaN box; whole-register moves overwrite the elements before vstart in the register where they resume.
* C89: a masked vmsbf clears the inactive bits behind the first set one; viota with vstart not 0 is not refused and counts from vstart; vid with vstart not 0 numbers the elements from 0 at vstart.
* C85: vrem of the least 32- or 64-bit integer by -1 is undefined behaviour of the host; on RV32 with 64-bit elements the operations that read operand 1 as unsigned take the scalar register without its sign; vsll.vi, vsrl.vi, vsra.vi take a signed immediate, so with 64-bit elements amounts from 16 on have 32 added.
* C90: vandn.vx on RV32 with 64-bit elements takes the scalar without its sign.
* C91: `instreth` (RV32) is registered at 0x082 instead of 0xc82 (`C91_instreth_violated`); `mvendorid`, `marchid`, `mimpid`, `mconfigptr`, `mcounteren`, `satp`, `mstatush`, `menvcfgh` and `mhpmevent3`–`mhpmevent31` do not exist (`C91_absent_violated`); the upper halves of `mhpmcounter3`–`mhpmcounter31` hold a pointer three objects past their counter (`C91_halves_violated`).
* C92: `RiscVMIsa::Xlen` masks with `0xb11` instead of `0b11` and never reports RV64 (`C92_xlen_violated`); misa does not report user mode and reports the reserved letter G (`C92_misa_user_violated`); `Set(uint32_t)` loses the MXL field (`C92_misa_set32_violated`); `Reset` clears misa (`C92_misa_reset_violated`); bit 0 of mepc and sepc is writable (`C92_epc_violated`); locked PMP entries and reserved PMP bits are writable (`C92_pmp_violated`).
* C93: `SysOpen` opens every file read-only (open flags are `O_RDONLY` or `O_CREAT` only), mode 1 creates the file, `:tt` in modes 1–3 and 8–11 is standard output, and a failed open saves the error of `dup(-1)`; `SysClose` keeps the handle when the host's close succeeds and drops it when it fails, so a closed handle later stands for another file; read and write return the number of bytes moved instead of the number not moved, a short read overwrites the rest of the buffer; seek offsets and the heap block address go through `int`; the command line call returns the length instead of 0; an unknown operation leaves a0 unchanged; heap information writes 16 bytes on RV64.
* C94: files opened through the host-target interface are never entered in the descriptor map, so every later call on the returned descriptor goes to host descriptor -1; close never closes the host file; failures are answered with -1 instead of minus the error number; an unsupported call is never answered and without an error callback calls a null callable.
* C95: a debugger can store into x0 and reads the value back; vector registers have the numbers of the floating-point registers in the debug enumeration; they are in the gdb target description but not in the gdb map; without floating point the vector control registers' numbers differ from the target description; the size given for every register is that of an integer register; computing the cache key overflows for vectors of 256 bits or more.
* C80: the widening instructions do not replace NaNs by the canonical one.
* C81: the fused multiply-adds round twice when rounding to nearest: 3 × 683·2^-11 + 2^-24 gives 1 rather than 1 + 2^-10. The mode "to nearest, ties away" is computed as "ties to even".
* C82: vfncvt.rod.f.f rounds to nearest and then sets the last bit, so numbers in the upper half above an odd neighbour go to the second number above, large ones to infinity, and inexact small ones are not made odd. The vector conversions do not replace NaNs by the canonical one.
* C96: fence.i does nothing and stores do not invalidate decoded instructions, so a program that changes an instruction it has executed keeps executing the old one. A breakpoint in the middle of an executed instruction is not seen. The physical limit is compared with the first byte of an instruction only and only when it is first decoded.
* C97: `stack_end = loader_res.value()` (rv32g_sim.cc:420 and the same line in the other front ends) assigns the size of the GNU_STACK segment to the end of the stack: the stack pointer starts at the sum of two sizes, wherever the stack is. The precedence of segment and `__stack_size` is also the reverse of the documented one. In rv32g_sim and rv32gv_sim the flags default to 0 and 32 KiB instead of `std::nullopt`, so `__stack_end` and `__stack_size` are never used and sp is 0x8000 for every executable (`C97_symbols_violated`).
* C98: `ParseNumber` strips the leading `0` of an octal number before calling `stoull`, so `0` itself becomes the empty string and is refused (riscv_renode.cc:393-394); every option whose value 0 means off cannot be turned off explicitly. Text after the number is ignored and a minus sign wraps around (`12MB` is 12, `-4` is 2^64-4).
* C99: rv32gv_sim gives the hart the memory below the watcher (rv32gv_sim.cc:289, `memory` instead of `memory_interface`, which is marked unused), so `--exit_on_tohost` never ends a run by an ordinary store (`C99_vector_violated`). The simulators stop at any value stored, also one that is no exit code. They watch a single byte. In Renode atomics are not watched, and the callback keeps a function-local static pointer to a buffer it releases at the first exit: the next one uses it after release (riscv_renode.cc:272,283), also in another instance.
* C102: riscv_renode_register_info.cc gives 32 as the width of every register, also on a 64-bit hart, and of the floating-point registers, which have 64 bits on both (`C102_width_violated`).
* C101: the expression for symbols (`[a-zA-Z_][^)]+`, riscv_bin_setters.cc:51-52) needs two characters, so a symbol of one letter silently gets no relocation; it also takes spaces before the closing parenthesis into the name. The map has no entries for loads, for stores other than sd, and for branches (`kBranch` is never used), so `lw a0, %lo(sym)(a1)` and a branch to an external symbol assemble without relocation. `RelocateLuiUImm20` and `RelocateJJImm20` ignore the function, the ones of auipc, jr and jalr drop those they do not know, including `%lo`.
* C104: `Run` steps over the breakpoint first and clears `halted_` and `halt_reason_` afterwards, in the new thread (riscv_top.cc:405-423). If the instruction at the breakpoint hits a watchpoint or ends the program (semihosting, tohost), the request is lost and the core runs on (`C104_lost_violated`, for every machine); `Step`, which clears first, stops (C103).
* C106: atomics use `state->atomic_memory()`, which lies below the watcher of the top level, so they never trigger a watchpoint. `ReadMemory` and `WriteMemory` go through `state_->memory()`, which is the watcher, in spite of their comments (riscv_top.cc:654, 674): looking at watched memory in the debugger requests a halt and overwrites the halt reason, the watchpoint information and the halt string. `SetDataWatchpoint(0, 0, …)` wraps around to the whole address space. `ClearDataWatchpoint` of both kinds fails after removing the one for loads when none is set for stores. Not modelled: with `--semihost_htif` rv32g_sim and rv32gv_sim replace the state's memory, watcher of the top level included (rv32g_sim.cc:459), so that no watchpoint triggers.
* C107: `StepPastBreakpoint` calls `AddToBranchTrace(pc, bpt_pc)` where both are the address of the breakpoint (riscv_top.cc:285), so a jump at a breakpoint or action point is recorded as a jump to itself (`C107_breakpoint_violated`).
* C109: `core` alone is not understood. A number with a leading zero after `core` or `step` is read as octal (`step 010` is 8, `step 08` is refused). `mem set A V` needs two blanks before the value. `vreg set` needs the index and the format. `break set A` gives the breakpoint no number. `watch set A N rw` watches writes only. After a tab `r` and `rw` are taken for `w`. Action points are named `*N`, not `#N`. A blank after the file name of `exec` becomes part of it.
* C111: at the end of the memory `mem get` ignores how many bytes it got and shows, for the missing ones, the bytes left in its buffer by earlier commands (`C111_end_violated`).
* C112: a value with more bits than the format is cut without an error and shown in full (`C112_truncated_violated`); at the end of the memory the bytes beyond are dropped, and the whole value is shown as stored (`C112_end_violated`).
* C113: with `d` a negative element is shown without its sign, because the value is formatted as an unsigned type (`C113_signed_violated`).
* C114: with the format `o` every value is refused (`C114_octal_violated`); a value with more bits than the element is cut without an error (`C114_truncated_violated`).
* C115: `watch clear VALUE` clears by address but marks the first entry with that address and kind, active or not: after `watch A`, `watch clear #0`, `watch A`, `watch clear A` the list shows #1 as active, nothing is watched, and `watch set #1` refuses (`C115_clear_violated`, for every stretch and kind).
* C116: `action clear-all` clears the actions but leaves the list as it was; its lines can no longer be removed and keep saying enabled (`C116_clear_all_violated`, after every history). The index is cut to 32 bits: `*4294967296` is taken for `*0` (`C116_number_violated`).
* C117: the last line of a file is passed over if no newline follows it (`C117_last_line_violated`). A line of 512 characters or more in a file is cut, and the shell then never goes on (`C117_long_line_violated`). At the end of the input the last command is carried out again and again (`C117_end_of_input_violated`).
* C120: the operand getters of the compressed formats read register 0 like any other (`riscv_getters.h`, `Crs1`, `Crs2`, …), unlike those of the 32-bit formats. As long as nothing writes to it this makes no difference (and C120 proves that no instruction does), but after a debugger write to x0 (C95) `c.swsp x0` stores, and `c.mv rd, x0`-like forms copy, what was written; an example in `Exec/Props.lean` shows it.
* C121: the decoder of RV32 with vectors and bit manipulation lists only four of the seven groups of `riscv32zb.bin_fmt` (riscv32v.bin_fmt:35-36): `RiscVZbbInst32Only`, `RiscVZbbImmInst32` and `RiscVZbsImmInst32` are missing, so `zext.h`, `rori`, `bclri`, `bexti`, `binvi` and `bseti` are illegal instructions there although the core without vectors has them. On RV64 `rev8`, `bclri`, `bexti`, `binvi` and `bseti` are illegal because of the wrong bits of C71. `C121_absent_violated` proves that no entry matches any of their words.
* C122: the last context must be followed by a semicolon, though the contexts are documented as a list separated by semicolons, and the list of priorities goes without (`C122_separator_violated`). Any digit is taken for an enable and shifted into the word of enable bits, so 2 enables the next source instead, or shifts out of an int (`C122_enable_violated`). A text that is refused has been applied up to the first wrong item (`C122_refused_violated`).
* C123: a store of eight bytes writes only the low word: the second write comes after a `return` (`C123_store8_violated`, for every address and value). The window is 16 MB, so from context 3584 on (the specification allows 15872) the addresses of thresholds and claims are those of other registers (`C123_window_violated`).
* C124: `mret` that leaves machine mode keeps MPRV set (`C124_mprv_violated`; the manual clears it; `sret` likewise). Atomic accesses that are misaligned or beyond the limit of memory are performed instead of raising an exception (`C124_refused_violated`). `sret` in machine mode is the deviation of C15. Fences with a reserved field that is not zero are left out (one whose mode is neither 0 nor that of fence.tso has no entry in the decoders; the manual asks to treat it as an ordinary fence).
* C125: an access to a register that does not exist raises no exception; the instruction does nothing (`C125_missing_violated`). A write to a read-only register is carried out instead of raising an exception (`C125_readonly_violated`). MSIP can be set in mip by a CSR instruction, although the manual makes the bit read-only (`C125_msip_violated`). `csrrw` to 0xc00 with rd or rs1 other than 0 has no entry in the decoders (C71) and is left out with the other writes to read-only registers.
* C126: words that belong to an instruction the core has but that the decoders miss (C71) raise the exception too (`C126_missed_violated`). Words caught by an entry that is too wide (C71, `unsoundOps`) are left out of `C126_unassigned_partial`; `C126_unassigned32` and `C126_unassigned16` have no such exception. `unimp` beyond the highest physical address raises two exceptions in a row and is left out.
* C127: with the unit off (FS = 0) the instructions are carried out all the same, and fsw and fsd pass without storing and without an exception (`C127_off_violated`). No instruction makes FS Dirty (`C127_dirty_violated`). On RV32 feq.s, flt.s and fle.s compare the lower halves of registers that are not boxed (`C127_compare_violated`). fclass.s classifies the lower half of a register that is not boxed, and on RV64 leaves the upper half of rd as it was (`C127_fclass_violated`).
* C128: fmadd.d and its relatives raise nothing for signalling operands (`C128_signalling_violated`), and fnmadd.d computes −(a·b + c) by negating a sum rounded in the wrong direction, so that rounding up raises overflow although the result is the greatest number (`C128_directed_violated`).
* C129: the instructions are carried out with FS off (`C129_off_violated`); rounding modes 4, 5 and 6 in the word act as 0, where 4 is to nearest, ties away, and 5 and 6 are reserved (`C129_static_violated`); with the dynamic mode, once a reserved mode has been written to frm, they are passed over without an exception, and a square root is NaN (`C129_dynamic_violated`); fused multiply-adds of single precision use the lower halves of unboxed registers (`C129_unboxed_violated`).
* C130: the instructions are carried out with FS off (`C130_off_violated`); rounding modes 4, 5 and 6 in the word act as 0 in conversions from integers and to single precision (`C130_static_violated`), while with 5 and 6 conversions to integers are passed over without an exception (`C130_reserved_violated`); after a reserved mode has been written to frm all conversions with the dynamic mode are passed over (`C130_dynamic_violated`); unboxed operands of single precision are not taken to be NaN (`C130_unboxed_violated`); signalling NaNs do not set the invalid flag between the precisions (`C130_signalling_violated`); numbers rounded to the least integer of a signed type are undefined behaviour (`C130_undefined_violated`).
* C131: the registers can be accessed with FS off (`C131_off_violated`); setting or clearing bits of fcsr loses the flags raised since it was last written (`C131_fcsr_violated`); after a reserved mode, writing the mode that was in frm before leaves the dynamic mode invalid (`C131_again_violated`).
* C132: an interrupt that can be taken after `mret` (or `sret`) is not taken if no enable bit of mstatus is set after it; nor is one whose delegation is taken back by a write to mideleg; an interrupt whose line rises and falls in one turn is taken although it is no longer pending. The writes to mideleg and sideleg, those returns, and lines that withdraw the last interrupt are left out of `C132_step_partial` and `C132_run_partial`.
* C133: mepc and sepc keep an odd number that is written to them (C92), and `mret` and `sret` jump to it. CSR instructions that write odd numbers there are left out of `C133_step_partial` and `C133_run_partial`.
* C134: in the simulators rv64g and rv64gv every `c.fld`, and in rv32gv every `c.flw`, loads the integer register of the same number and leaves the floating-point registers alone (`C134_integer_violated`); in rv32gv every `c.fld` writes eight bytes to a buffer of four (`C134_beyond_violated`). `c.flw` and `c.flwsp` leave the upper half of the register as it was (`C134_upper_violated`). On RV32 the address of `c.fld`, `c.fldsp` and `c.fsdsp` does not wrap (`C134_wrap_violated`). With the unit off nothing is refused (`C134_off_violated`, `C134_off_store_violated`).
* C135: `stats disable counters` also stops what the program sees: mcycle and the CLINT's timer stand still and minstret goes back by one for every exception (`C135_frozen_violated`). At an address named in a command the one instruction is counted twice (`C135_plan_violated`). `counter_pc_`, which feeds the instruction profiler, is never written, so the profile stays empty (`C135_profile_violated`).
* C136: a CLINT asked for at address 0 is not there, and one within the memory ends the process instead of being refused (`C136_map_violated`); so does any second configuration whose memory meets the first (`C136_again_violated`). A refused configuration may have switched the memory profiler, and an unknown setting whose value is not a number refuses the whole configuration (`C136_refused_violated`). A port that is a multiple of 2^32 is none (`C136_cli_violated`). An instruction profile asked for after loading is not taken, and loading twice switches it on unasked (`C136_profile_violated`); the executable's stack is not used by a hart configured before loading (`C136_stack_violated`). What Renode or the loader writes outside the memory is accepted, but the core does not see it (`C136_beyond_violated`). A cache that is there keeps its configuration (`C136_cache_violated`), and a data cache that is asked for twice becomes its own memory, so that no access of the core gets to the memory any more (`C136_twice_violated`).
* C137: no disagreement of its own; the exceptions of C119 to C134 are left out through `MeantQ`, the interrupts overlooked (C132) and odd return addresses (C133) through `Overlooks` and `NoOdd`.
* C138: the breakpoint interface is built over the watcher (riscv_top.cc:128-130, 179-181), so where a watchpoint for stores meets the instruction of a breakpoint, disassembling it counts as a store of the program: halt reason and watchpoint information are overwritten (`C138_watch_violated`). The shell disassembles the instruction at the pc for every prompt (debug_command_shell.cc:236-241), so with such a watchpoint this happens unasked. Where the program has overwritten the instruction of a breakpoint, the old one is shown and the breakpoint is written over the new one (`C138_overwritten_violated`).
* C139: vsetvli, vsetivli and vsetvl leave vstart as it is, where the manual has every vector instruction clear it (`C139_vstart_violated`), so the next vector instruction skips elements; with rd and rs1 both x0 vl becomes VLMAX instead of staying (`C139_keep_violated`, C43 from the word in memory).
* C140: vsll.vi, vsrl.vi and vsra.vi on 64-bit elements by 16 or more shift by 32 more than the word says (`C140_shift_violated`, C85 from the word in memory, for every such word and state).
* C142: a fault-only-first load traps at any element (the manual: only at element 0, otherwise vl is reduced): `C142_ff_violated`. On RV32 the address of an element is not taken modulo 2^32, so an access that passes the end of the address space traps: `C142_wrap_violated`. After a fault vstart is 0 instead of the number of the element.
* C144: with no elements vd is overwritten by vs1[0] (`C144_empty_violated`); with vstart other than 0 the instruction does nothing and no exception is raised (`C144_vstart_violated`); the widening sums read only the lower half of the scalar (`C144_scalar_violated`).
* C145: if vstart is inside of the byte that holds the last bit, the bits before vstart in this byte are written (`C145_same_byte_violated`); with vl = 0 bits 0 to 7 are written (`C145_empty_violated`).



## Plan per property

| id | property | module | model and proof |
|----|----------|--------|-----------------|
| C01 | Masked CSR writes only touch writable bits | `Csr` | state = stored word + masks; induction over op lists; per-bit statement (getLsbD) |
| C02 | A 32-bit write to a 64-bit CSR preserves the upper half | `Csr` | same model at 64 bits; expected to be false of the code: witness + partial |
| C03 | A shadow CSR is a masked window onto its primary CSR | `Csr` | shadow over primary; per-bit statement, induction over op lists |
| C04 | The CSR set is a consistent two-key finite map | `CsrSet` | two association maps; invariant + refinement to a set of (name,index) pairs |
| C05 | The RV32 and RV64 views of mstatus are the same register | `XStatus` | BitVec 64 model of the views; per-field statement |
| C06 | Submitting mstatus field updates changes only those fields | `XStatus` | staged buffer/mask model; per-field statement |
| C07 | sstatus exposes only supervisor fields of mstatus | `XStatus` | read leaks machine fields in the code: witness + partial for writes |
| C08 | External supervisor interrupt line does not get latched into mip | `Xip` | state machine over setters/line changes; latch witness + partial |
| C09 | Supervisor writes to sip/sie set and clear only delegated/writable bits | `Xip` | missing ~ in the code: witness + partial |
| C10 | Interrupt selection follows the privileged specification | `Interrupt` | decision procedure vs an independently written spec (exists/maximal) |
| C11 | A reported interrupt is still pending, enabled and takeable | `Interrupt` | stale flag witness + partial (fresh right after evaluation) |
| C12 | Trap entry records the trapped context in the right CSRs | `Trap` | record-update model of Trap; field-by-field statement |
| C13 | Traps never reduce privilege | `Trap` | case analysis over mode/delegation, combined with the selection theorem |
| C14 | Trap followed by xRET is a round trip | `Trap` | composition of Trap and mret/sret models |
| C15 | Privileged instructions are rejected in insufficient privilege | `Trap` | decision tables for mret/sret/sfence |
| C16 | Trap vectoring | `Trap` | witness for vectored exceptions + partial |
| C17 | CSR instructions respect CSR privilege, read-only and existence rules | `Zicsr` | permission model; witness for read-only and unknown CSR + partial |
| C18 | CSR instructions are atomic read-modify-write | `Zicsr` | read-modify-write law over the CSR model |
| C19 | Counters read back the written value plus elapsed events | `Counter` | BitVec offset arithmetic, induction over events |
| C20 | Writing one half of an RV32 counter leaves the other half alone | `Counter` | witness for carry disturbance + partial |
| C21 | CLINT timer interrupt is level-sensitive and exact | `Clint` | state machine; invariant by induction; stale mtip witness for mtime writes |
| C22 | CLINT MMIO stores and loads round-trip | `Clint` | MMIO decode; 8-byte store witness + partial |
| C23 | PLIC claim returns the highest-priority enabled pending source | `Plic` | list/array model; maximality theorem for claim |
| C24 | PLIC MMIO register map | `Plic` | register-map mismatch witness + partial; UB modelled as a distinct outcome |
| C25 | PLIC gateways deliver each edge/level at most once until completed | `Plic` | gateway state machine invariant |
| C26 | Physical address limit is enforced before memory is touched | `Mem` | check before access; address lists of any length |
| C27 | Base integer instructions compute the ISA result | `Alu` | BitVec semantics vs Int-level spec |
| C28 | Multiply/divide instructions compute the ISA result, including division by zero and overflow | `MulDiv` | Int-level spec with special cases |
| C29 | Bit-manipulation instructions compute the ISA result | `Bitmanip` | per-bit or Int-level spec, loops by induction |
| C30 | The two RV64 bit-manipulation implementations agree | `Bitmanip` | equality of two models |
| C31 | Jumps and branches | `Control` | outcome type (trap/jump/fallthrough) |
| C32 | Loads and stores of every size round-trip with correct extension | `Mem` | byte memory Nat→byte; little-endian load/store |
| C33 | Atomic memory operations are one indivisible read-modify-write | `Atomic` | request model; memory side is a parameter |
| C34 | fcsr, fflags and frm are consistent views of one register | `FpState` | state machine incl. host flags; refinement to (frm, fflags) |
| C35 | Dynamic rounding mode validity tracks frm | `FpState` | staleness witness + partial |
| C36 | Host FP flag translation is lossless | `FpHost` | finite tables, decide over the whole table |
| C37 | Single-precision values in wide registers are NaN-boxed | `NaNBox` | BitVec model parametric in widths; half-precision witness + partial |
| C38 | Float-to-integer conversion rounds correctly and saturates | `FpConvert` | parametric in exponent/significand width; spec over rationals |
| C39 | Half-precision widening is exact | `HalfFp` | value over rationals |
| C40 | fclass, fsgnj and fmin/fmax | `FpClass` | bit-level model vs IEEE class spec |
| C41 | Zcmp push/pop build and tear down a correct stack frame | `Zcmp` | register file/memory model; round-trip theorem |
| C42 | A faulting push or pop has no architectural effect | `Zcmp` | witness + partial |
| C43 | vsetvl sets vl according to the specification | `Vsetvl` | VLMAX arithmetic; witnesses + partial |
| C44 | Vector element-wise instructions update exactly the active body | `VecLoop` | nested loop model refined to flat element-wise spec, induction |
| C45 | Fixed-point vector rounding is exact | `VecFixed` | Int-level rounding spec |
| C46 | Saturating vector add/subtract | `VecFixed` | Int clamp spec |
| C47 | Vector carry/borrow generation | `VecCarry` | Nat carry spec; 64-bit vmadc witness + partial |
| C48 | Vector mask-register logical instructions only write the active bits | `VecMask` | byte/bit spec; witness + partial |
| C49 | Vector unit-stride and strided loads access exactly the active elements | `VecMem` | address list and write-back models |
| C50 | Segment loads place field f of segment i in element i of register group f | `VecMem` | witness + partial |
| C51 | Vector memory instructions are restartable | `VecMem` | witness + partial |
| C52 | vcsr aliases vxrm and vxsat | `Vcsr` | aliasing state machine |
| C53 | Breakpoint patching preserves the program | `ActionPoint` | memory patch model; invariants over histories |
| C54 | Action points are transparent to the simulated program | `RunLoop` | abstract ISA machine; witness + partial |
| C55 | Branch trace is the run-length-encoded suffix of taken branches | `BranchTrace` | ring buffer refinement to a list |
| C56 | Debugger memory access is clamped to physical memory | `DebugMem` | BitVec length arithmetic |
| C57 | Environment calls and breakpoints dispatch to the first handler that accepts | `Dispatch` | list of handlers |
| C58 | Instruction encoders and decoders are inverse | `Encoding` | field insert/extract, bit-level round trip |
| C59 | Instruction decoding is unambiguous | `Decode` | pattern table, pairwise disjointness by kernel evaluation lifted to all words |
| C60 | No takeable interrupt goes unreported | `Hart` | same state machine as C10/C11; witness + partial |
| C61 | Interrupt handler depth counts nested interrupt handlers | `Hart` | counter over trap/return histories; witness + partial |
| C62 | Unprivileged counters show the machine counters | `Counter` | two counter models driven by one event history; witness + partial |
| C63 | PLIC interrupt line follows pending enabled sources | `Plic` | invariant over histories; witness + partial |
| C64 | Arithmetic rounds in the architected direction | `FpHost` | finite tables + bit fields of the host control word; general violation theorems + partial |
| C65 | Reserved rounding modes are rejected | `FpState` | mode resolution; witness + partial |
| C66 | Instructions use only the operands they are given | `Operands` | table of described and used operands; whole-table check and the exceptions as violations |
| C67 | Fused multiply-add sign of zero | `FpFma` | zero branches over signs and modes; violation witnesses + partial |
| C68 | Narrowing to half precision | `HalfFp` | rational-value specification; correct rounding for all operands, flags; underflow and RMM violations |
| C69 | Zcmp returns and moves, table jumps | `Zcmp` | functional correctness; odd targets and faulting table loads as violations |
| C70 | Segment stores write field f of segment i from element i of register group f | `VecMem` | same element-list model; index sign as violation |
| C71 | Each word is decoded as the instruction the ISA assigns to it | `Decode` | independent table of masks and matches; verified cover checker, lifted to all words |
| C72 | The assembler refuses an operand that does not fit | `Encoding.Text` | accepted registers fit; immediates violated in general |
| C73 | Printed register operands can be assembled again | `Encoding.Text` | name tables, all registers; double precision violated in general |
| C74 | Invalid flag | `FpArith` | case analysis over operand classes, host contract as hypothesis; violated for signalling NaNs (double fma, conversions), quiet NaNs (vector square root) and infinity times zero plus a NaN (fma) |
| C75 | Results and canonical NaNs | `FpArith` | host contract (shown satisfiable) implies the results; vectors keep NaN payloads (violated) |
| C76 | Vector float to integer | `VecCvt` | values as fractions, specification shared with C38; undefined operands characterised, mode and inexact flag violated in general, values of rtz forms proved |
| C77 | vfrsqrt7, vfrec7 | `VecEst` | results from the manual's tables and error bounds in exact arithmetic, for all normalised significands; wrong table entry, subnormal results and flags as violations in general |
| C78 | `VecRed`: the reductions on top of the modelled loop of `VecLoop`; the result stated per kind (sums, bits, least element, chain of rounded additions) without reference to the loop | induction over the element index |
| C79 | `VecFp`: the element operations with their flags, on the loops of `VecLoop` and `VecMask`; the result stated with the order and the classes of C40 | case analysis on NaNs and zeros, induction for the collected flags |
| C84 | `Getters`: the getters of all nine encoding classes and of riscv_zc_getters.h, generated into `Tables.lean`; a table of layouts from the manual in `Spec.lean`; a checker proved sound for all words, evaluated on the whole table |
| C86 | Each mnemonic is described with its operands and its function | `Described` | rows written from the manuals, compared with the generated description tables; the exceptions as violations |
| C87 | `FpMem`: the load and store helpers with the functions each description names, over `Core` and `Mem`; compared with a specification of the address, the boxed result, the stored bytes and the frame; FS, wrap-around and `c.flw` are separate theorems. |
| C88 | `VecPerm`: the helpers over the loops of `VecLoop`, compress with the buffer it fills; compared element by element with the definitions of the vector specification by an invariant of the loops. |
| C83 | `VecMove`: the six functions on the register file of `VecLoop`; compared with the value the specification names, byte by byte for what is left alone. |
| C89 | `VecScan`: the loops over mask bits with their running state, and viota and vid over the loop of `VecLoop`; induction over the loops against counting and first-index functions on the bits. |
| C85 | `VecInt`: one element function per instruction over the loops of `VecLoop`, undefined behaviour as a flag carried through the loop; compared with integer formulas of the specification. |
| C90 | `VecBits`: the bit and byte loops and the library calls of `Bitmanip`, over the loops of `VecLoop`; loop invariants on single bits. |
| C91 | The creation sequence of all CSRs as a list per XLEN and extension, folded through the registry model of C04 | A general lemma: distinct names and numbers make every registration succeed and lookups return exactly the list; distinctness and agreement with a separate ISA table are decided over the whole (finite) table. Violations: `instreth`, missing registers, upper halves of `mhpmcounterN` |
| C92 | misa and jvt classes; the masks each register is created with | Bitwise proofs for all values and induction over operation sequences; general theorems for the violations (no misa value reports RV64, every value written to mepc, sepc or a pmp register is kept) |
| C93 | `Semihost`: the semihosting object (memory, handle table, error number), the host as a function of the calls made so far, every operation, the dispatch and the marker test; `Semihost/Spec.lean` states open modes, the console and the results of the ARM specification | Per operation by case analysis on table and host answer; frame theorems over all operations; violations as general theorems |
| C94 | `Htif`: the store event, the system call switch, the descriptor map and the response; host as a function of the calls made so far | Per system call from the parameter block; an invariant of the descriptor map over all histories |
| C95 | `DebugReg`: register map with aliases, `ReadRegister`, `WriteRegister`, the two number maps, the target description, the cache of information objects, escaping | Name tables by evaluation over all 32 registers; round trip and frame by case analysis; the cache by an invariant over all histories; escaping by induction |
| C80 | `VecWiden`: the element operations over the host's double arithmetic and its exact widening | The product of two single precision numbers is a double precision number (48 significant bits, exponent in range), so rounding it changes nothing; rounding depends on the fraction only |
| C81 | `HalfArith`: widening, the host's single precision arithmetic, and narrowing (`HalfFp`) composed | A general lemma on rounding twice (`Cut.lean`): it goes wrong only where the first rounding makes a tie of the second. That no sum, quotient, product or square root of half precision numbers comes so close to a tie without being one is proved by arithmetic on significands |
| C82 | `FpCvt`: the conversions over the host's casts | An integer with no more bits than the significand is a number of the format; the low 29 bits of a double tell whether a number in the normal range is exact; a case analysis on the parity of the lower neighbour |
| C96 | `Fetch`: the generic decoder behind a decode cache with arbitrary evictions, over histories of stores, patches and limit changes | Invariant: a cached instruction is what decoding would yield now; kept by every history whose stores touch no cached instruction; C12 for the exceptions |
| C97 | `Verif.Setup`: the stack pointer computation, which is the same in the five front ends, and the flags' defaults, which are not; the ELF loader is what it reports (mpact-sim). Spec: the flags' comments. Case analysis, for all values. Violated when there is a GNU_STACK segment (its size is assigned to the end) and, in the 32-bit simulators, whenever a flag is left out (the defaults count as given, so the symbols are never used). |
| C98 | `Verif.Setup`: `ParseNumber` and the wrapper around `std::stoull`, whose behaviour (spaces, sign, 0x, longest run of digits, range) is modelled from the C++ standard. Spec: an inductive grammar of integer constants with positional values. Proved by induction over the text for every constant except `0`. Violated: `0` is refused, `12MB`, `-4` and `079` are accepted. |
| C99 | `Verif.Setup`: which stores pass the watcher in each front end, the range watched, the callback, and histories of stores up to the halt. The watcher is mpact-sim's (calls back after a store that meets the range). Spec: touching the word, exit codes. Induction over the history. Violated: rv32gv_sim sees only atomics, Renode everything but atomics, the simulators stop at any value and see one byte, Renode uses a released buffer after a second exit. |
| C100 | `Verif.Setup`: `SetIrqValue` on the mip model of `Verif.Xip`. Bitwise, for all contents of mip. |
| C101 | `Verif.Reloc`: the relocation functions, the regular expression as it acts on texts the setters accept, and the map of operands. Spec: the psABI's table of types by class of instruction. For all symbols by cases on their form. Violated: one-letter symbols get none; loads, all stores but sd, and branches get none; lui and jumps take any function for theirs; auipc, jr and jalr drop others. |
| C102 | `Verif.Setup`: the register table and `GetRenodeRegisterInfo`, by evaluation of all its 65 entries. Violated for 64-bit harts: every width is given as 32. |
| C103 | `Verif.Halt`: the loop of `Step` and `StepPastBreakpoint` over an arbitrary machine (as in `RunLoop`) with requests by instructions; action points and breakpoints ahead are left to C61-C63. Spec: the plain execution and the first request. Induction over the steps. |
| C104 | `Verif.Halt`: the loop of `Run`, watched for any number of turns, with the user's request arriving in any turn. Spec: the plain execution and the first request of either kind. Induction. Violated when execution resumes at a breakpoint and the instruction there makes the request: `Run` clears the flags after stepping over it. |
| C105 | `Verif.Watch`: the two calls with their error recovery, over the watcher of mpact-sim (assumed: sets of disjoint ranges). Spec: stretches of whole numbers, overlap by a common byte, calls that do all or nothing. Induction over the history with the invariant that ranges are ordered and disjoint. |
| C106 | `Verif.Watch`: which accesses pass the watcher, and the call that removes both kinds. Proved where both kinds are set; violated otherwise (atomics, debugger, empty range at 0, half a removal). |
| C107 | `Verif.Halt`: the calls of `AddToBranchTrace` in the loops; what the ring buffer does with them is C55. Spec: the transfers of the plain execution. Induction. Violated for the instruction at a breakpoint that is stepped over: its address is recorded as the target. |
| C108 | `Verif.HalfCmp`: the three helpers over the models of widening (C39), boxing (C37) and the host's comparison of single-precision numbers. Spec: boxed operand by its bits, values as in C40. Widening is strictly increasing on values, infinities included. |
| C109 | `Verif.Shell`: the regular expressions and a backtracking matcher (RE2 is assumed to return the first match such a matcher finds), the 38 rules in order and the commands made of the groups. Spec: a line is its list of words; a table of the rows of the help text. Proved by reducing a match to a word-by-word comparison. |
| C110 | `ShellMem/Model.lean`: `strtoull` with the position it reports, `getValue`. `ShellMem/Spec.lean`: integer constants as an inductive relation over positional numerals | induction on the digits; the resolved base and mark are those of a `Number`, and the longest digit prefix decides the other case |
| C111 | `ShellMem/Model.lean`: `readMemory` with the buffer it keeps between commands, printing by digits. `ShellMem/Spec.lean`: `stored`, `Format`, `Shows` | printed digits form the numeral (induction on the digits), bytes read are the number stored (C56), all five letters and four widths |
| C112 | `ShellMem/Model.lean`: `writeMemory`. `ShellMem/Spec.lean`: `SetFormat`, `Denotes`, `stored` | the bytes of a number and the number of bytes are inverse (induction), C56 for the memory; composition with C111 for the round trip |
| C113 | `ShellVec/Model.lean`: `vregGet` over the register's bytes. `ShellVec/Spec.lean`: `element`, `count`, `joined` | elements by `number_stored`, texts by the numerals of C111, induction on the elements for the whole register |
| C114 | `ShellVec/Model.lean`: `vregSet`, `SimpleAtoi`, `SimpleHexAtoi`. `ShellVec/Spec.lean`: `Value`, `element` | bytes before and after the element are kept (append lemmas), the element read back is the number |
| C115 | `ShellWatch/Model.lean`: the numbered entries next to the watcher of C105. `ShellWatch/Spec.lean`: the list alone, `Free`, `Follows`, `Touches` | invariant: the watcher's ranges are a permutation of those of the active entries, kept by every command; induction on the history |
| C116 | `ShellAction/Model.lean`: the numbered map next to the manager's actions, the conversion of the index. `ShellAction/Spec.lean`: the list alone | invariant: manager and map hold the same actions, numbers and (address, id) pairs are all different; induction on the history |
| C117 | `ShellInput/Model.lean`: `getline` with its flags, the loop that passes over empty lines, the stacks of streams and of previous lines, turn by turn. `ShellInput/Spec.lean`: `Runs`, the commands a script stands for | induction on `Runs`: the turns from a file's first line lead to the state before the `exec`, with its commands carried out |
| C118 | `TraceList/Model.lean`: the loop over the buffer of C55. Specification of C55 | reversal of the indices; refinement of C55; induction on the runs |
| C119 | `Exec/Model.lean`: the tables of `Decode`, `Operands` and `Getters` and the semantic functions of `Alu`, `MulDiv`, `Control` and `Mem` put together as one turn of the loop; names of opcodes generated by `tools/gen_names.py`. `Exec/Spec.lean`: operands from bit positions, effects on the state | composition of C71, C59, C84, C27, C28, C31, C32; finite check of every decoder entry against its description (`Exec/Tables.lean`); induction over the run |
| C120 | as C119, with the 16-bit decoders and the choice between the decoders by the two low bits (`Finds`); `Exec/Spec.lean`: `expand` gives the instruction a compressed word is short for, with its operands | composition as C119 with the same lemmas for the common effects (`Exec/Step.lean`, `Exec/Compressed.lean`); operands do not depend on the upper half of the word (`Exec/Half.lean`); finite check of every entry of the 16-bit decoders (`Exec/TablesC.lean`); induction over the run |
| C121 | as C119, with the descriptions of the bit manipulation instructions (`Exec/Model.lean`: `fnsB32`, `fnsB64`, `fnsBW`); `Exec/SpecB.lean`: kinds, operands, effects (by the specification of C29) | composition of C71, C59, C84, C29; finite check of every entry of the four decoders (`Exec/TablesB.lean`); induction over the run |
| C122 | `PlicBus/Model.lean`: the regular expressions of `Configure` as functions on texts, its three loops, the error exits; `PlicBus/Spec.lean`: the documented grammar as a way of writing lists down, and what the lists say | the text of an item is read back as the item; induction over the lists |
| C123 | `PlicBus/Model.lean`: `offset`, `load`, `store` over the registers of `Plic/Model.lean` | arithmetic on addresses; cases on the sizes |
| C124 | as C119, with the descriptions of the system and atomic instructions and the functions they name (`Exec/System.lean`); `Exec/SpecS.lean`: what each word is and does | composition of C71, C84 and the theorems on traps, returns and atomics (C12, C14, C15, C33); finite check of every entry of the eight decoders (`Exec/TablesS.lean`); induction over the run |
| C125 | as C124, with a file of registers: those of the hart model (mstatus, mie, mip, delegation, trap registers), and any others as registers with masks (`Exec/CsrModel.lean`); `Exec/CsrSpec.lean`: what reading and writing each register means | composition of C71, C84, C91 and the theorems on the single registers; finite check of every entry of the eight decoders (`Exec/CsrTables.lean`); induction over the run |
| C126 | as C125, with the default opcode of each core and the functions for illegal instructions (`Exec/Illegal.lean`) | from the soundness of the decoder tables (C71) and the theorem on traps; finite check of the two words; induction over the run |
| C127 | as C126, with floating-point registers, fflags and the functions of F and D that do not round (`Exec/FpModel.lean`) | finite check of the descriptions of all entries; the theorems on memory, boxing, classes, signs and flags (C26, C37, C40, C74, C87); induction over the run |
| C128 | the functions of C67 and C75 with the host's five flags per operation (`FpFlags/Model.lean`) | IEEE 754 conditions for each flag stated on exact values (`FpFlags/Spec.lean`); case analysis of the early returns; the flags of the negated operation in symmetric directions |
| C129 | turns of the cores (`Exec/FaModel.lean`): the composition of C127 with the functions of C67, C75 and C128, the rounding mode state of C35 and the scopes of C64 and C74 | the effect of each instruction by the manual (`Exec/FaSpec.lean`); descriptions checked over the whole decoder tables; effects from C128, C67 and the invariant of C35; induction over runs |
| C130 | turns of the cores (`Exec/FcModel.lean`): the composition of C129 with the conversions of C38 and C82 | the effect of each instruction by the manual (`Exec/FcSpec.lean`); descriptions checked over the whole decoder tables; effects from C38, C82 and the invariant of C35; induction over runs |
| C131 | turns of the cores (`Exec/FkModel.lean`): the composition of C130 with the registers of the floating-point unit (C34, C35) | the effect by the manual, bit by bit (`Exec/FkSpec.lean`); descriptions of the CSR instructions from C125; refinement of the register from C34; invariant that the three numbers stay registered for the unit; induction over runs |
| C132 | the end of a turn of the loop (`Exec/IrModel.lean`: lines change, an available interrupt is taken, the program counter moves) after the turns of C131 | the interrupt by the manual (`Exec/IrSpec.lean`) with the choice of C10; the program counter may move first (`lastPart_next`); invariant that what the simulator has found is what is to be taken, over all effects of C131 (C124 and C125 say what is found after returns and writes to mstatus and mie); induction over runs |
| C133 | the turns with interrupts of C132 | invariant of the program counter, mepc and sepc over every effect of C131 and over interrupts (`Exec/IrEven.lean`): immediates of jumps and branches are multiples of two, `jalr` clears the lowest bit, trap vectors are multiples of four; induction over runs, which also removes the assumption of C132 that the program counter is even in every state |
| C134 | the decoders of halfwords, getters, descriptions and the semantic functions of the eight instructions on top of the turns of C131 (`Exec/CfModel.lean`) | finite checks of the entries and descriptions, operand meanings from C84, loads and stores as in C127 with the width of the function as a parameter; induction over runs |
| C135 | the pattern, `PerformShellCommand`, the counters' switches, the action points of C116, the counter CSRs of C19 and the CLINT of C21 (`Stats`) | language of the pattern from the lemmas of C109, places from C110, a relation between the simulator's switches and plans and the specification kept by induction over sessions |
| C136 | the settings loop, the router's targets, the profiler's switch, the socket, the stack of C97, the loader's writes and both paths to the memory (`Renode`); the pointers to the memory and behind the data cache (`Renode/Caches.lean`) | the settings loop by induction over the list against "the value given last"; the map by arithmetic on the ranges; profile and memory by induction over histories |
| C137 | the turn of C134 followed by the lines of C132, from the state the constructors leave (`Exec/PropsW`: `TurnW`, `Built`) | the constructed state meets every invariant of C131 to C134; induction over the run; for lines that only rise nothing is assumed of them |
| C138 | `Inspect`: the swap of breakpoint and instruction around a decode, over the breakpoints of C53, the cache of C96 and the watcher of C105 | the swap is a clear and a set of C53, whose invariant determines memory; the cache by cases |
| C139 | `Exec` (Vs files): the turn of the vset instructions from the word in memory, over the tables of C71, C66 and C84 and the function of C43, beside the base instructions of C119 | finite checks over the whole tables, C43 for the function; the loop by induction over its rounds |
| C140 | `Exec` (Va files): the turn of the element-wise integer instructions from the word in memory, over the tables of C71, C66 and C84 and the functions of C85, beside the instructions of C139 and C119 | finite checks over the whole tables, C84 for the operands, C85 (by induction over the elements) for the functions |
| C141 | `Exec` (Vw files): the turn of these instructions from the word in memory, over the tables of C71, C66 and C84 and the functions of C85, beside C140 | finite checks over the whole tables, C84 for the operands, C85 (by induction over the elements) for the functions |
| C142 | `Exec` (Vm files): the turn of these instructions from the word in memory, over the tables of C71, C66 and C84 and the functions of C49, beside C141 | finite checks over the whole tables, C84 for the operands, C49 and C51 (by induction over the elements) for the functions |
| C143 | `Exec` (Vk files): four turns of the model of C142 (with C140 for vadd.vv) | composition of C140 and C142, with the registers of the first load shown to survive the second; all executions of four turns |
| C144 | `Exec` (Vr files): the turn of these instructions from the word in memory, over the tables of C71, C66 and C84 and the functions of C78, beside C142 | finite checks over the whole tables, C84 for the operands, C78 (by induction over the elements) for the functions |
| C145 | `Exec` (Vl files): the turn of these instructions from the word in memory, over the tables of C71, C66 and C84 and the functions of C48, beside C144 | finite checks over the whole tables, C84 for the operands, C48 for the functions |
