{"id": "C01", "title": "Masked CSR writes only touch writable bits", "statement": "For a CSR with any read mask and write mask: Write(v), SetBits(v) and ClearBits(v) leave every bit outside the write mask unchanged and set every bit inside it to the value of v (resp. OR-ed with v, AND-ed with not v); a read returns exactly the stored bits inside the read mask. Hence after any history of Write/SetBits/ClearBits the bits outside the write mask still hold their initial value.", "quantifier": "all widths, masks, stored values, written values and all finite sequences of CSR operations", "why_tests_cant": "2^64 masks x 2^64 values x unbounded histories; tests only try a handful of literals", "anchors": ["riscv/riscv_csr.h RiscVSimpleCsr", "riscv/riscv_csr.h RiscVCsrBase"]}
{"id": "C02", "title": "A 32-bit write to a 64-bit CSR preserves the upper half", "statement": "Writing a 64-bit CSR through the 32-bit Write/SetBits/ClearBits entry points changes only bits in the low 32 bits of the write mask.", "quantifier": "all 64-bit CSR values, masks and 32-bit operands", "why_tests_cant": "needs every stored upper half and mask; existing tests only use values that fit in 32 bits", "anchors": ["riscv/riscv_csr.h RiscVSimpleCsr<uint64_t>"]}
{"id": "C03", "title": "A shadow CSR is a masked window onto its primary CSR", "statement": "Reading a shadow CSR returns the primary's visible value restricted to the shadow's read mask, and any sequence of writes, bit sets and bit clears through a shadow CSR changes no bit of the primary CSR outside the shadow's write mask (nor outside the primary's own write mask).", "quantifier": "all masks of both CSRs, all values and all finite operation sequences through the shadow", "why_tests_cant": "unbounded histories and all mask combinations", "anchors": ["riscv/riscv_csr.h RiscVShadowCsr"]}
{"id": "C04", "title": "The CSR set is a consistent two-key finite map", "statement": "Under any sequence of AddCsr / RemoveCsr / GetCsr(name) / GetCsr(index): lookup by name and by index always agree, no two registered CSRs share a name or an index, a failed operation changes nothing and reports exactly AlreadyExists / NotFound / InvalidArgument, and a successful Add followed by Remove restores the previous contents.", "quantifier": "all finite sequences of registry operations", "why_tests_cant": "the invariant relates two hash maps over unbounded histories; unit tests exercise one short history", "anchors": ["riscv/riscv_csr.cc RiscVCsrSet::AddCsr", "riscv/riscv_csr.cc RiscVCsrSet::RemoveCsr", "riscv/riscv_csr.cc RiscVCsrSet::GetCsr"]}
{"id": "C05", "title": "The RV32 and RV64 views of mstatus are the same register", "statement": "The 32-bit view of mstatus shows the same TSR/TW/TVM/MXR/SUM/MPRV/XS/FS/MPP/SPP/MPIE/SPIE/UPIE/MIE/SIE/UIE fields and SD bit as the 64-bit view, a software write through either view changes exactly the writable fields, and never changes SXL/UXL.", "quantifier": "all 64-bit mstatus contents and all written values of both widths", "why_tests_cant": "2^64 x 2^64 combinations of contents and written values", "anchors": ["riscv/riscv_xstatus.cc StretchMStatus32", "riscv/riscv_xstatus.cc CompressMStatus64", "riscv/riscv_xstatus.cc RiscVMStatus::Write", "riscv/riscv_xstatus.cc RiscVMStatus::Set"]}
{"id": "C06", "title": "Submitting mstatus field updates changes only those fields", "statement": "After any sequence of set_<field> calls followed by Submit, every updated writable field reads back the last value given to it, and every other field keeps its previous value.", "quantifier": "all mstatus contents, all sequences of field updates", "why_tests_cant": "the staged buffer/mask pair has 2^128 states and arbitrary call sequences", "anchors": ["riscv/riscv_xstatus.h RiscVMStatus::set_mpp and other setters", "riscv/riscv_xstatus.cc RiscVMStatus::Submit"]}
{"id": "C07", "title": "sstatus exposes only supervisor fields of mstatus", "statement": "A supervisor read of sstatus returns mstatus restricted to the supervisor-visible fields, and a write to sstatus changes only supervisor-writable fields of mstatus.", "quantifier": "all mstatus contents and all written values", "why_tests_cant": "every leaked bit is a separate input; exhaustive testing impossible", "anchors": ["riscv/riscv_xstatus.cc RiscVSStatus::AsUint64", "riscv/riscv_xstatus.cc RiscVSStatus::Set"]}
{"id": "C08", "title": "External supervisor interrupt line does not get latched into mip", "statement": "mip.SEIP reads as the OR of the software-writable bit and the external line; after the external line is lowered, SEIP reads as the value software last wrote, regardless of how other interrupt-pending bits were updated while the line was high.", "quantifier": "all sequences of mip writes, field setters and external line changes", "why_tests_cant": "history-dependent; needs every interleaving of line changes and field updates", "anchors": ["riscv/riscv_xip_xie.cc RiscVMIp::set_ext_seip", "riscv/riscv_xip_xie.cc RiscVMIp::GetUint64", "riscv/riscv_xip_xie.h SetterHelper"]}
{"id": "C09", "title": "Supervisor writes to sip/sie set and clear only delegated/writable bits", "statement": "A supervisor write of v to sip (sie) makes each writable bit of mip (mie) equal to the corresponding bit of v and leaves the other bits of mip (mie) unchanged.", "quantifier": "all mip/mie/mideleg contents and written values", "why_tests_cant": "clearing vs setting, delegated vs not, over all values", "anchors": ["riscv/riscv_xip_xie.cc RiscVSIp::Set", "riscv/riscv_xip_xie.cc RiscVSIe::Set"]}
{"id": "C10", "title": "Interrupt selection follows the privileged specification", "statement": "Whenever the interrupt state is evaluated, an interrupt is reported available exactly when some enabled pending interrupt may be taken in the current mode (M-level: mode below M or MIE; S-level delegated: mode below S, or mode S with SIE; ...), and the chosen one is the highest priority in the order MEI, MSI, MTI, SEI, SSI, STI, UEI, USI, UTI among those of the most privileged takeable level.", "quantifier": "all values of mip, mie, mideleg, sideleg, mstatus enables and privilege mode", "why_tests_cant": "2^40+ combinations of pending/enable/delegation/mode bits", "anchors": ["riscv/riscv_state.cc RiscVState::CheckForInterrupt", "riscv/riscv_state.cc RiscVState::PickInterrupt"]}
{"id": "C11", "title": "A reported interrupt is still pending, enabled and takeable", "statement": "At every point of any history, if the simulator reports that an interrupt is available then that interrupt is pending, enabled and takeable in the current privilege mode (the report is never stale).", "quantifier": "all histories of CSR writes, field updates, line changes, traps and returns", "why_tests_cant": "staleness only appears after particular sequences of enable/disable/clear operations", "anchors": ["riscv/riscv_state.cc RiscVState::CheckForInterrupt", "riscv/riscv_state.cc RiscVState::TakeAvailableInterrupt", "riscv/riscv_state.h is_interrupt_available"]}
{"id": "C12", "title": "Trap entry records the trapped context in the right CSRs", "statement": "Taking a trap writes xepc, xcause (with the interrupt bit in the top position), xtval and the previous-privilege/previous-interrupt-enable fields of the destination level, disables that level's interrupt enable, switches to the destination mode, and redirects the pc; no other level's trap CSRs change.", "quantifier": "all causes, addresses, values, delegation settings, modes and mstatus contents", "why_tests_cant": "product of 64-bit CSRs, modes, causes and delegation masks", "anchors": ["riscv/riscv_state.cc RiscVState::Trap"]}
{"id": "C13", "title": "Traps never reduce privilege", "statement": "Taking an exception or an available interrupt never moves execution to a less privileged mode than the one it interrupted, for any delegation configuration.", "quantifier": "all modes, delegation registers, pending interrupts and exception codes", "why_tests_cant": "delegation x mode x cause space, and depends on reachable interrupt-availability state", "anchors": ["riscv/riscv_state.cc RiscVState::Trap", "riscv/riscv_state.cc RiscVState::CheckForInterrupt"]}
{"id": "C14", "title": "Trap followed by xRET is a round trip", "statement": "Executing mret (sret) directly after a trap taken to M (S) restores the privilege mode, the interrupt-enable bit and the pc (epc) of the interrupted context, for any trap cause.", "quantifier": "all initial modes, interrupt-enable values, pcs, causes", "why_tests_cant": "depends on every combination of pre-trap state", "anchors": ["riscv/riscv_state.cc RiscVState::Trap", "riscv/riscv_priv_instructions.cc RiscVPrivMRet", "riscv/riscv_priv_instructions.cc RiscVPrivSRet"]}
{"id": "C15", "title": "Privileged instructions are rejected in insufficient privilege", "statement": "mret in a mode below M, sret in a mode below S or with TSR set in S-mode, and sfence.vma in U-mode or in S-mode with TVM set raise an illegal-instruction exception and have no other effect; otherwise they execute.", "quantifier": "all modes and mstatus contents, RV32 and RV64", "why_tests_cant": "mode x status-bit combinations across both widths with absence-of-effect claims", "anchors": ["riscv/riscv_priv_instructions.cc"]}
{"id": "C16", "title": "Trap vectoring", "statement": "With a direct-mode xtvec every trap enters at BASE; with a vectored xtvec interrupts enter at BASE + 4*cause and exceptions at BASE.", "quantifier": "all xtvec values, causes and kinds of trap", "why_tests_cant": "every 64-bit base and cause", "anchors": ["riscv/riscv_state.cc RiscVState::Trap"]}
{"id": "C17", "title": "CSR instructions respect CSR privilege, read-only and existence rules", "statement": "A CSR instruction executed in a mode lower than the CSR's required privilege, or writing a read-only CSR, or naming a nonexistent CSR, raises illegal instruction and changes neither the CSR nor the destination register.", "quantifier": "all CSR addresses, modes, operand values, CSR files", "why_tests_cant": "4096 addresses x modes x contents with a no-effect claim", "anchors": ["riscv/riscv_zicsr_instructions.cc CheckCsrPermission", "riscv/riscv_zicsr_instructions.cc RiscVZiCsrrw and variants"]}
{"id": "C18", "title": "CSR instructions are atomic read-modify-write", "statement": "csrrw/csrrs/csrrc (and immediate forms) return the old visible value in rd and update the CSR to v, old|v, old&~v on its writable bits; the read-only variants do not write and the write-only variants do not read the CSR.", "quantifier": "all CSR masks, contents, operands", "why_tests_cant": "all masks and values", "anchors": ["riscv/riscv_zicsr_instructions.cc"]}
{"id": "C19", "title": "Counters read back the written value plus elapsed events", "statement": "After software writes v to a cycle/instret-style counter and n events then elapse, reading the counter returns v + n modulo its width (retirement counters account for the writing instruction itself); on RV32 the low and high halves together behave as one 64-bit counter.", "quantifier": "all written values, all numbers and interleavings of events and writes", "why_tests_cant": "wrap-around and carry cases over 64-bit counters and unbounded event counts", "anchors": ["riscv/riscv_counter_csr.h"]}
{"id": "C20", "title": "Writing one half of an RV32 counter leaves the other half alone", "statement": "On RV32, writing the low half of a counter does not change the value read from its high half and vice versa.", "quantifier": "all counter values, offsets and written values", "why_tests_cant": "carry between halves occurs only for particular value combinations", "anchors": ["riscv/riscv_counter_csr.h RiscVCounterCsrHigh", "riscv/riscv_state.cc RiscVState::Trap"]}
{"id": "C21", "title": "CLINT timer interrupt is level-sensitive and exact", "statement": "After any sequence of clock updates and register writes, the machine timer interrupt line equals (mtime >= mtimecmp), mtime advances by one per period updates and the software interrupt line equals msip bit 0.", "quantifier": "all periods, all finite sequences of ticks, register writes and resets", "why_tests_cant": "requires all interleavings of time advance and register writes", "anchors": ["riscv/riscv_clint.cc RiscVClint::SetValue", "riscv/riscv_clint.cc RiscVClint::Load", "riscv/riscv_clint.cc RiscVClint::Store"]}
{"id": "C22", "title": "CLINT MMIO stores and loads round-trip", "statement": "A store of any supported size to a CLINT register followed by a load of the same size at the same address returns the stored value, and accesses outside the defined registers have no effect.", "quantifier": "all offsets, access sizes, values", "why_tests_cant": "every address x size x value", "anchors": ["riscv/riscv_clint.cc RiscVClint::Load", "riscv/riscv_clint.cc RiscVClint::Store"]}
{"id": "C23", "title": "PLIC claim returns the highest-priority enabled pending source", "statement": "A claim by a context returns 0 if no enabled source is pending, otherwise an enabled pending source whose priority is maximal (lowest id among equals), and clears exactly that source's pending bit.", "quantifier": "all numbers of sources and contexts, all configurations and pending sets", "why_tests_cant": "unbounded number of sources and configurations", "anchors": ["riscv/riscv_plic.cc RiscVPlic::ClaimInterrupt", "riscv/riscv_plic.cc RiscVPlic::SetInterrupt"]}
{"id": "C24", "title": "PLIC MMIO register map", "statement": "Each documented PLIC register address reads back the value stored at that address, for every source and context, and no access goes outside the configured register arrays.", "quantifier": "all source/context counts, all offsets and values", "why_tests_cant": "address decoding over the whole 64MB window", "anchors": ["riscv/riscv_plic.cc RiscVPlic::Read", "riscv/riscv_plic.cc RiscVPlic::Write"]}
{"id": "C25", "title": "PLIC gateways deliver each edge/level at most once until completed", "statement": "Between a claim and its completion no further interrupt of the same source becomes pending, and a completed level source that is still asserted becomes pending again.", "quantifier": "all finite sequences of source changes, claims and completions", "why_tests_cant": "history-dependent protocol over unbounded sequences", "anchors": ["riscv/riscv_plic.cc RiscVPlic::SetInterrupt", "riscv/riscv_plic.cc RiscVPlic::CompleteInterrupt"]}
{"id": "C26", "title": "Physical address limit is enforced before memory is touched", "statement": "A scalar or vector load/store with any accessed element address above the configured maximum physical address raises the access-fault trap with that address and performs no memory access; otherwise the access is passed to memory unchanged. Whatever limits are requested, the limit in force is the last request capped at the architectural maximum.", "quantifier": "all addresses, limits, address vectors of any length", "why_tests_cant": "unbounded element lists, 64-bit addresses", "anchors": ["riscv/riscv_state.cc RiscVState::LoadMemory", "riscv/riscv_state.cc RiscVState::StoreMemory", "riscv/riscv_state.cc set_max_physical_address"]}
{"id": "C27", "title": "Base integer instructions compute the ISA result", "statement": "For every operand value the RV32I/RV64I arithmetic, logic, shift, compare, lui/auipc and W-form instructions write exactly the value the ISA manual defines.", "quantifier": "all operand values for both register widths", "why_tests_cant": "2^128 operand pairs per instruction", "anchors": ["riscv/riscv_i_instructions.cc"]}
{"id": "C28", "title": "Multiply/divide instructions compute the ISA result, including division by zero and overflow", "statement": "For every operand pair, mul/mulh/mulhsu/mulhu/div/divu/rem/remu and W forms return the mathematically defined result, with the ISA-defined results for division by zero and signed overflow.", "quantifier": "all operand pairs, both widths", "why_tests_cant": "2^128 operand pairs; special cases at the corners", "anchors": ["riscv/riscv_m_instructions.cc"]}
{"id": "C29", "title": "Bit-manipulation instructions compute the ISA result", "statement": "For every operand, the Zba/Zbb/Zbc/Zbs instructions return the ISA-defined result (address generation, rotates, counts, min/max, byte reverse, or-combine, single-bit operations, carry-less multiply).", "quantifier": "all operand pairs, both widths", "why_tests_cant": "2^128 operand pairs per instruction", "anchors": ["riscv/riscv_bitmanip_instructions.cc", "riscv/riscv_b_instructions.cc"]}
{"id": "C30", "title": "The two RV64 bit-manipulation implementations agree", "statement": "Where the code base has two implementations of the same RV64 bit-manipulation instruction they compute the same result for every operand.", "quantifier": "all operands", "why_tests_cant": "2^128 operand pairs", "anchors": ["riscv/riscv_b_instructions.cc", "riscv/riscv_bitmanip_instructions.cc"]}
{"id": "C31", "title": "Jumps and branches", "statement": "A taken branch/jal/jalr sets the pc to the ISA-defined target (jalr clears bit 0), writes the link value pc+instruction size, an untaken branch leaves the pc alone, and a target that is misaligned for the configured extensions raises an instruction-address-misaligned exception without changing pc or link register.", "quantifier": "all pcs, offsets, register values, instruction sizes, misa settings", "why_tests_cant": "2^128 combinations", "anchors": ["riscv/riscv_i_instructions.cc RiscVIJal/RiscVIJalr", "riscv/riscv_instruction_helpers.h BranchConditional"]}
{"id": "C32", "title": "Loads and stores of every size round-trip with correct extension", "statement": "Storing a register with sb/sh/sw/sd and loading it back with a load of the same size at the same address returns the sign- or zero-extended low part, and no byte outside the accessed range changes.", "quantifier": "all addresses, values, memories, sizes", "why_tests_cant": "every address/value/memory", "anchors": ["riscv/riscv_instruction_helpers.h RVLoad/RVLoadChild/RVStore", "riscv/riscv_i_instructions.cc"]}
{"id": "C33", "title": "Atomic memory operations are one indivisible read-modify-write", "statement": "Each amo instruction requests from memory the operation the ISA defines with rs2 as operand and returns the old value sign-extended; lr/sc success is reported as 0 and failure as non-zero; without atomic-memory support all raise illegal instruction with no effect.", "quantifier": "all operand values, memories and support configurations", "why_tests_cant": "all values", "anchors": ["riscv/riscv_a_instructions.cc"]}
{"id": "C34", "title": "fcsr, fflags and frm are consistent views of one register", "statement": "After any sequence of writes to fcsr, fflags and frm and of FP operations accumulating flags: reading fcsr equals frm<<5 | fflags, writing fflags does not change frm and vice versa, and flags are sticky until explicitly cleared.", "quantifier": "all finite sequences of CSR writes and FP flag accruals", "why_tests_cant": "unbounded histories with three aliases and a host flag register", "anchors": ["riscv/riscv_fp_state.cc RiscVFcsr", "riscv/riscv_fp_state.cc RiscVFflags", "riscv/riscv_fp_state.cc RiscVFrm"]}
{"id": "C35", "title": "Dynamic rounding mode validity tracks frm", "statement": "At any time the dynamic rounding mode is reported valid exactly when frm currently holds 0..4.", "quantifier": "all sequences of frm/fcsr writes", "why_tests_cant": "only particular write sequences expose staleness", "anchors": ["riscv/riscv_fp_state.cc RiscVFPState::SetRoundingMode"]}
{"id": "C36", "title": "Host FP flag translation is lossless", "statement": "Translating accrued exception flags from RISC-V to host format and back is the identity, and every host flag combination maps to the RISC-V flags it denotes.", "quantifier": "all 32 RISC-V flag sets and all 64 host flag sets", "why_tests_cant": "relates two tables; each entry must be right", "anchors": ["riscv/riscv_fp_host_x86.cc"]}
{"id": "C37", "title": "Single-precision values in wide registers are NaN-boxed", "statement": "Narrow FP results are written with all upper bits one; a narrow operand that is not properly boxed is read as the canonical NaN; boxing then unboxing is the identity.", "quantifier": "all bit patterns, all (narrow, register) width pairs", "why_tests_cant": "2^64 register patterns", "anchors": ["riscv/riscv_instruction_helpers.h GetNaNBoxedSource", "riscv/riscv_instruction_helpers.h RiscVBinaryNaNBoxOp"]}
{"id": "C38", "title": "Float-to-integer conversion rounds correctly and saturates", "statement": "Converting a floating-point bit pattern to a 32/64-bit signed/unsigned integer under rounding mode RNE/RTZ/RDN/RUP/RMM returns the correctly rounded value if representable (raising NX iff inexact), otherwise the ISA-defined saturated value with NV; NaN converts to the maximum.", "quantifier": "all bit patterns of half/single/double, all rounding modes, all destination types", "why_tests_cant": "2^64 inputs x 5 modes x 4 types", "anchors": ["riscv/riscv_instruction_helpers.h RiscVConvertFloatWithFflagsOp"]}
{"id": "C39", "title": "Half-precision widening is exact", "statement": "Converting a half-precision value to single or double precision preserves its value exactly (normals, subnormals, zeros, infinities) and maps NaN to NaN, raising NV only for signalling NaNs.", "quantifier": "all 65536 half patterns", "why_tests_cant": "exactness is a statement about real values, not bit patterns", "anchors": ["riscv/riscv_zfh_instructions.cc ConvertFromHalfFP"]}
{"id": "C40", "title": "fclass, fsgnj and fmin/fmax", "statement": "fclass reports exactly one class bit, matching the IEEE class of the operand; fsgnj/fsgnjn/fsgnjx change only the sign bit; fmin/fmax return one of their operands (or canonical NaN), order -0 below +0, ignore a single NaN and raise NV exactly for signalling NaNs.", "quantifier": "all bit patterns of all widths", "why_tests_cant": "2^128 operand pairs", "anchors": ["riscv/riscv_instruction_helpers.h ClassifyFP", "riscv/riscv_f_instructions.cc RiscVFMin/FMax/FSgnj"]}
{"id": "C41", "title": "Zcmp push/pop build and tear down a correct stack frame", "statement": "cm.push stores exactly the registers of the register list at the ISA-defined slots below the old stack pointer and lowers sp by the ISA-defined amount; cm.pop with the same operands directly afterwards restores all of them and sp; no memory outside the frame changes.", "quantifier": "all register lists, stack adjustments, stack pointers, register and memory contents, RV32 and RV64", "why_tests_cant": "all register/memory contents and sp values including wrap-around", "anchors": ["riscv/riscv_zc_instructions.cc RiscVZCmpPush", "riscv/riscv_zc_instructions.cc PopHelper", "riscv/riscv_zc_getters.h"]}
{"id": "C42", "title": "A faulting push or pop has no architectural effect", "statement": "If the memory access of cm.push/cm.pop faults, sp and the saved registers keep their values so that the instruction can be restarted.", "quantifier": "all states in which the frame lies above the physical address limit", "why_tests_cant": "needs fault injection at every address", "anchors": ["riscv/riscv_zc_instructions.cc"]}
{"id": "C43", "title": "vsetvl sets vl according to the specification", "statement": "vsetvl/vsetvli/vsetivli set vl to AVL when AVL<=VLMAX and to VLMAX otherwise, keep vl when rd=rs1=x0 and VLMAX is unchanged, and always establish vl<=VLMAX where VLMAX = LMUL*VLEN/SEW.", "quantifier": "all VLEN, vtype values, AVLs and previous states", "why_tests_cant": "all 64-bit AVLs and configurations", "anchors": ["riscv/riscv_vector_memory_instructions.cc Vsetvl", "riscv/riscv_vector_state.cc SetVectorType"]}
{"id": "C44", "title": "Vector element-wise instructions update exactly the active body", "statement": "For any VLEN, SEW, LMUL, vstart and vl, an element-wise vector instruction writes op(vs2[i], vs1[i]) to every active element vstart<=i<vl, leaves prestart, masked-off and tail elements undisturbed, and clears vstart.", "quantifier": "all register contents, masks, vector lengths, register-group sizes and element operations", "why_tests_cant": "unbounded VLEN/vl; nested register/element loops must be equivalent to the flat element loop", "anchors": ["riscv/riscv_vector_instruction_helpers.h RiscVBinaryVectorOp and siblings"]}
{"id": "C45", "title": "Fixed-point vector rounding is exact", "statement": "vssrl/vssra/vnclip/vnclipu/vaadd/vasub/vsmul compute the exact infinitely-precise result shifted right with the rounding increment of vxrm (rnu, rne, rdn, rod), and saturate exactly when the rounded result is out of range, setting vxsat.", "quantifier": "all element values, shift amounts, rounding modes, element widths", "why_tests_cant": "2^130 operand combinations", "anchors": ["riscv/riscv_vector_instruction_helpers.h RoundOff", "riscv/riscv_vector_opi_instructions.cc VssrHelper", "riscv/riscv_vector_opi_instructions.cc VnclipHelper", "riscv/riscv_vector_opm_instructions.cc VaaddHelper"]}
{"id": "C46", "title": "Saturating vector add/subtract", "statement": "vsaddu/vsadd/vssubu/vssub return the mathematical sum/difference clamped to the element range and set vxsat iff clamping occurred.", "quantifier": "all operand pairs and widths", "why_tests_cant": "2^128 operand pairs", "anchors": ["riscv/riscv_vector_opi_instructions.cc VsaddHelper", "riscv/riscv_vector_opi_instructions.cc VssubHelper", "riscv/riscv_vector_opi_instructions.cc Vsaddu"]}
{"id": "C47", "title": "Vector carry/borrow generation", "statement": "vmadc/vmsbc produce the carry-out of vs2+vs1+carry (borrow-out of vs2-vs1-borrow) for every element width.", "quantifier": "all operand pairs, carry-ins, element widths", "why_tests_cant": "2^129 combinations; 64-bit case uses a different algorithm", "anchors": ["riscv/riscv_vector_opi_instructions.cc Vmadc", "riscv/riscv_vector_opi_instructions.cc Vmsbc"]}
{"id": "C48", "title": "Vector mask-register logical instructions only write the active bits", "statement": "vmand/vmor/... write op(vs2.bit[i], vs1.bit[i]) for vstart<=i<vl and leave prestart bits unchanged; with vl=0 nothing is written.", "quantifier": "all mask register contents, vstart, vl", "why_tests_cant": "byte/bit boundary cases for every vl and vstart", "anchors": ["riscv/riscv_vector_opm_instructions.cc BitwiseMaskBinaryOp"]}
{"id": "C49", "title": "Vector unit-stride and strided loads access exactly the active elements", "statement": "A vector load reads memory only at base+i*stride for active elements and places the element read into vd[i], leaving other elements undisturbed; a vector store writes exactly those locations.", "quantifier": "all bases, strides, vl, masks, register contents, VLEN", "why_tests_cant": "unbounded vl and address patterns", "anchors": ["riscv/riscv_vector_memory_instructions.cc VlStrided", "riscv/riscv_vector_memory_instructions.cc WriteBackLoadData", "riscv/riscv_vector_memory_instructions.cc StoreVectorStrided"]}
{"id": "C50", "title": "Segment loads place field f of segment i in element i of register group f", "statement": "A segment load writes field f of segment i into element i of the f-th destination register group for every vl and LMUL.", "quantifier": "all vl, LMUL, field counts, VLEN", "why_tests_cant": "layout arithmetic over all sizes", "anchors": ["riscv/riscv_vector_memory_instructions.cc WriteBackSegmentLoadData"]}
{"id": "C51", "title": "Vector memory instructions are restartable", "statement": "Executing a vector load/store with vstart=k has the same effect on elements k..vl-1 as executing it with vstart=0, and does not touch elements below k.", "quantifier": "all vstart values and configurations", "why_tests_cant": "all restart points", "anchors": ["riscv/riscv_vector_memory_instructions.cc"]}
{"id": "C52", "title": "vcsr aliases vxrm and vxsat", "statement": "After any sequence of writes to vcsr, vxrm, vxsat: vcsr = vxrm<<1 | vxsat, and writes to one field do not change the other.", "quantifier": "all finite write sequences", "why_tests_cant": "unbounded histories", "anchors": ["riscv/riscv_vector_state.cc"]}
{"id": "C53", "title": "Breakpoint patching preserves the program", "statement": "Setting breakpoints and clearing them again, in any order and any number, restores instruction memory exactly, and while set only the bytes of the patched instructions differ.", "quantifier": "all memories, addresses, sequences of patch/unpatch", "why_tests_cant": "overlap and ordering cases over unbounded histories", "anchors": ["riscv/riscv_action_point_memory_interface.cc"]}
{"id": "C54", "title": "Action points are transparent to the simulated program", "statement": "Stepping or running a program over action points whose actions do nothing executes the same instruction sequence as without the action points.", "quantifier": "all programs, action point sets, step counts", "why_tests_cant": "control-flow of the run loop over unbounded executions", "anchors": ["riscv/riscv_top.cc RiscVTop::Step", "riscv/riscv_top.cc RiscVTop::Run", "riscv/riscv_top.cc RiscVTop::StepPastBreakpoint"]}
{"id": "C55", "title": "Branch trace is the run-length-encoded suffix of taken branches", "statement": "After any sequence of taken branches and resizes the branch-trace ring buffer holds the most recent distinct consecutive branches in order with their repeat counts, and resizing keeps the most recent entries.", "quantifier": "all branch sequences and resize sequences", "why_tests_cant": "ring-buffer wrap-around and resize over unbounded histories", "anchors": ["riscv/riscv_top.cc RiscVTop::AddToBranchTrace", "riscv/riscv_top.cc RiscVTop::ResizeBranchTrace"]}
{"id": "C56", "title": "Debugger memory access is clamped to physical memory", "statement": "ReadMemory/WriteMemory reject addresses above the physical limit, transfer at most the bytes up to the limit, and report the transferred length; a write followed by a read returns the written bytes.", "quantifier": "all addresses, lengths, limits, buffers", "why_tests_cant": "64-bit arithmetic near the limit", "anchors": ["riscv/riscv_top.cc RiscVTop::ReadMemory", "riscv/riscv_top.cc RiscVTop::WriteMemory"]}
{"id": "C57", "title": "Environment calls and breakpoints dispatch to the first handler that accepts", "statement": "ecall invokes the registered handler and, if it declines, traps with the code of the current mode; ebreak consults handlers in registration order, stops at the first that accepts, and traps with breakpoint cause only if all decline.", "quantifier": "all handler lists and modes", "why_tests_cant": "unbounded handler lists", "anchors": ["riscv/riscv_state.cc RiscVState::ECall", "riscv/riscv_state.cc RiscVState::EBreak"]}
{"id": "C58", "title": "Instruction encoders and decoders are inverse", "statement": "For every instruction format, inserting an immediate or register field with the assembler setters and extracting it with the decoder's field extractors returns the original value for every representable operand, and changes no other bit.", "quantifier": "all immediates of all formats", "why_tests_cant": "all operand values with scattered bit positions", "anchors": ["riscv/riscv_format32.bin_fmt", "riscv/riscv_format16.bin_fmt", "riscv/riscv_bin_setters.h"]}
{"id": "C59", "title": "Instruction decoding is unambiguous", "statement": "No instruction word matches two different instructions of the same decoder group.", "quantifier": "all 2^32 (2^16) instruction words", "why_tests_cant": "exhaustive decode of 2^32 words against hundreds of patterns", "anchors": ["riscv/riscv32g.bin_fmt", "riscv/riscv64g.bin_fmt"]}
{"id": "C60", "title": "No takeable interrupt goes unreported", "statement": "After any change of interrupt-pending, interrupt-enable, delegation or status registers and after any return from trap, if an enabled pending interrupt may be taken in the (new) current mode then the simulator reports that an interrupt is available.", "quantifier": "all histories of CSR writes, controller line changes, traps and returns", "why_tests_cant": "A missed re-evaluation only shows for particular orders of mode change, enable and pending updates; tests exercise a few orders.", "anchors": ["riscv/riscv_state.cc:RiscVState::CheckForInterrupt", "riscv/riscv_xstatus.cc:RiscVMStatus::Set", "riscv/riscv_xip_xie.h:set_ext_seip", "riscv/riscv_priv_instructions.cc"]}
{"id": "C61", "title": "Interrupt handler depth counts nested interrupt handlers", "statement": "InterruptHandlerDepth() equals the number of interrupts taken and not yet returned from; in particular it is never negative and does not change when an exception is taken and returned from.", "quantifier": "all histories of interrupts, exceptions and returns", "why_tests_cant": "The counters mix interrupt entries with returns from any trap; only histories that interleave exceptions and interrupts show it.", "anchors": ["riscv/riscv_state.h:InterruptHandlerDepth", "riscv/riscv_state.h:SignalReturnFromInterrupt", "riscv/riscv_state.cc:TakeAvailableInterrupt"]}
{"id": "C62", "title": "Unprivileged counters show the machine counters", "statement": "The unprivileged cycle and instret counters always read the same value as mcycle and minstret.", "quantifier": "all histories of retired instructions, exceptions and counter writes", "why_tests_cant": "depends on the whole history of writes and exceptions", "anchors": ["riscv/riscv_state.cc RiscVState::Trap", "riscv/riscv_top.cc RiscVTop::Initialize", "riscv/riscv_counter_csr.h"]}
{"id": "C63", "title": "PLIC interrupt line follows pending enabled sources", "statement": "The external interrupt line of a context is high whenever a source enabled for it with a priority above its threshold is pending, and low when there is none; a claim never loses another pending interrupt.", "quantifier": "all numbers of sources and contexts, all finite histories of source changes, claims, completions and register writes", "why_tests_cant": "the line is updated incrementally; only histories with several pending sources in particular orders show a lost interrupt", "anchors": ["riscv/riscv_plic.cc RiscVPlic::ClaimInterrupt", "riscv/riscv_plic.cc RiscVPlic::SetPlicPendingInterrupt"]}
{"id": "C64", "title": "Arithmetic rounds in the architected direction", "statement": "Floating-point arithmetic that takes its rounding direction from fcsr is carried out by the host in the direction named by frm, arithmetic with an explicit mode is carried out in that mode, and an explicit mode does not outlast the instruction that names it.", "quantifier": "all fcsr values, all explicit modes, all sets of exceptions raised by the arithmetic, both host implementations", "why_tests_cant": "the direction is carried through two table translations and a saved host word; whether it persists depends on the sequence of preceding instructions", "anchors": ["riscv/riscv_fp_host_x86.cc ScopedFPStatus", "riscv/riscv_fp_host_arm.cc ScopedFPStatus"]}
{"id": "C65", "title": "Reserved rounding modes are rejected", "statement": "A floating-point instruction with a reserved static rounding mode, or with the dynamic mode while frm is not 0..4, raises an illegal-instruction exception and has no other effect; otherwise it uses the mode it names, or frm.", "quantifier": "all rounding-mode fields, all frm values and all write histories that produce them", "why_tests_cant": "depends on the history of fcsr/frm writes as well as on the instruction", "anchors": ["riscv/riscv_instruction_helpers.h RiscVUnaryFloatNaNBoxOp", "riscv/riscv_instruction_helpers.h RiscVBinaryFloatNaNBoxOp", "riscv/riscv_fp_state.cc RiscVFPState::SetRoundingMode"]}
{"id": "C66", "title": "Instructions use only the operands they are given", "statement": "The function that carries out an instruction reads only source operands, and writes only destination operands, that the instruction description supplies for that instruction.", "quantifier": "every scalar instruction of every supported extension", "why_tests_cant": "the description files and the semantic functions are written separately and connected by position only; a test shows it for the instructions it runs", "anchors": ["riscv/riscv_zfh.isa", "riscv/riscv_zfh_instructions.cc", "riscv/riscv_instruction_helpers.h"]}
{"id": "C67", "title": "Fused multiply-add gives the right sign of zero", "statement": "For every kind of fused multiply-add (madd, msub, nmadd, nmsub), when the product or the addend is zero the result is the exact result, with the sign of zero prescribed by IEEE 754 for the rounding mode in force.", "quantifier": "all operand triples with a zero product or sum, all rounding modes", "why_tests_cant": "the functions special-case zeros by hand with bit manipulation on the sign; each combination of three signs and a rounding mode has to be right", "anchors": ["riscv/riscv_d_instructions.cc RiscVDMadd/RiscVDMsub/RiscVDNmadd/RiscVDNmsub"]}
{"id": "C68", "title": "Narrowing to half precision is correctly rounded", "statement": "Converting a single or double precision number to half precision gives the value correctly rounded in the selected mode, with the prescribed overflow result, and raises exactly the prescribed flags; infinities and zeros keep their sign, NaNs become canonical and signalling NaNs raise invalid.", "quantifier": "all single and double precision patterns and all rounding modes", "why_tests_cant": "the operand space is 2^64 and the difficult cases are at subnormal, tie and overflow boundaries", "anchors": ["riscv/riscv_zfh_instructions.cc ConvertToHalfFP"]}
{"id": "C69", "title": "Zcmp returns and moves and Zcmt table jumps", "statement": "cm.popret/cm.popretz are cm.pop followed by a return to the restored ra (with a0 cleared by cm.popretz), cm.mvsa01 and cm.mva01s move both registers, and cm.jt/cm.jalt go to the address held in the jump table entry with bit 0 cleared, cm.jalt writing the return address to ra; an access fault leaves the registers unchanged and transfers to the trap handler.", "quantifier": "all register and memory contents, all register lists, table indices, jvt values and addresses, RV32 and RV64", "why_tests_cant": "targets, table addresses and register contents are arbitrary and the fault paths are not exercised", "anchors": ["riscv/riscv_zc_instructions.cc RiscVZCmpPopRet", "riscv/riscv_zc_instructions.cc RiscVZCmpMvTwoRegs", "riscv/riscv_zc_instructions.cc RiscVZCmtJtHelper"]}
{"id": "C70", "title": "Segment stores write field f of segment i from element i of register group f", "statement": "A segment store writes, for every active segment i and field f, element i of the f-th register group to the segment's address plus f times the element size, in memory order, and nothing else; for the indexed form the segment's address is the base plus the zero-extended index.", "quantifier": "all bases, strides, index vectors, vl, LMUL, field counts, masks, VLEN, register contents", "why_tests_cant": "unbounded vl, address patterns with overlap, all index values", "anchors": ["riscv/riscv_vector_memory_instructions.cc VsSegment", "riscv/riscv_vector_memory_instructions.cc VsSegmentStrided", "riscv/riscv_vector_memory_instructions.cc VsSegmentIndexed"]}
{"id": "C71", "title": "Each instruction word is decoded as the instruction the ISA assigns to it", "statement": "Whenever the decoder assigns an instruction to a word, the RISC-V instruction listing assigns the same instruction to that word, and every word of an implemented instruction is decoded.", "quantifier": "all 2^32 words and 2^16 halfwords, RV32 and RV64", "why_tests_cant": "exhaustive decode of 2^32 words against hundreds of patterns", "anchors": ["riscv/riscv32g.bin_fmt", "riscv/riscv64g.bin_fmt", "riscv/riscv_format32.bin_fmt", "riscv/riscv_format16.bin_fmt"]}
{"id": "C72", "title": "The assembler refuses an operand that does not fit", "statement": "An operand text is accepted only if the value it stands for can be held by the operand's instruction field, so that an assembled instruction always means what was written.", "quantifier": "all operands, all texts, all instruction addresses", "why_tests_cant": "unbounded numbers and addresses", "anchors": ["riscv/riscv_bin_setters.h SimpleTextToInt", "riscv/riscv_bin_setters.h AddRiscvSourceOpBinSetters"]}
{"id": "C73", "title": "Printed register operands can be assembled again", "statement": "The name the disassembler prints for a register operand is accepted by the assembler for the same operand and denotes the same register.", "quantifier": "all register operands, all registers", "why_tests_cant": "all operand kinds times all registers; the tests use one spelling", "anchors": ["riscv/riscv_register_aliases.h", "riscv/riscv_bin_setters.h", "riscv/riscv_getters.h"]}
{"id": "C74", "title": "The invalid-operation flag is raised exactly when the operation is invalid", "statement": "A square root, fused multiply-add or conversion between floating point formats raises the invalid flag if and only if an operand is a signalling NaN or the operation has no defined result (negative root, infinity times zero even with a quiet NaN addend, cancelling infinities).", "quantifier": "all operand bit patterns, single and double precision, scalar and vector", "why_tests_cant": "operand triples over 2^192 patterns", "anchors": ["riscv/riscv_f_instructions.cc RiscVFSqrt RiscVFMadd", "riscv/riscv_d_instructions.cc RiscVDMadd RiscVDCvtSd", "riscv/riscv_vector_fp_unary_instructions.cc SqrtHelper"]}
{"id": "C75", "title": "Arithmetic results are correctly rounded and NaN results canonical", "statement": "Provided the host rounds correctly, sum, difference, product, quotient and square root are the IEEE 754 results for the selected rounding mode, and whenever the result is a NaN it is the canonical NaN.", "quantifier": "all operand bit patterns and rounding modes, scalar and vector", "why_tests_cant": "all bit patterns", "anchors": ["riscv/riscv_instruction_helpers.h RiscVBinaryFloatNaNBoxOp", "riscv/riscv_f_instructions.cc", "riscv/riscv_d_instructions.cc", "riscv/riscv_vector_fp_instructions.cc"]}
{"id": "C76", "title": "Vector floating-point to integer conversions round, saturate and flag as prescribed", "statement": "Each converted element is the operand rounded to an integer in the mode in force (towards zero for the rtz forms) and clamped to the destination type, NaN becoming the maximum; the invalid flag is raised for NaN and out-of-range operands and the inexact flag when rounding changes the value.", "quantifier": "all operand bit patterns, all source formats and destination types of vfcvt, vfwcvt and vfncvt, all rounding modes", "why_tests_cant": "the failing operands are single values (2^31, 2^63) or need a particular mode", "anchors": ["riscv/riscv_instruction_helpers.h CvtHelper", "riscv/riscv_vector_fp_unary_instructions.cc Vfcvtxfv Vfcvtrtzxfv Vfwcvtxfv Vfncvtxfw"]}
{"id": "C77", "title": "Reciprocal and reciprocal square root estimates", "statement": "vfrsqrt7 and vfrec7 return, for every operand, exactly the seven-bit estimate the manual prescribes, within 2^-7 of the true value wherever it is a normal number, with the prescribed results and flags for zeros, infinities, NaNs, negative numbers and results out of range.", "quantifier": "all operand bit patterns of both formats, all rounding modes", "why_tests_cant": "2^64 operands through a 128-entry table: a single wrong entry is hit by one operand in 128", "anchors": ["riscv/riscv_vector_fp_unary_instructions.cc kRecipSqrtMantissaTable kRecipMantissaTable RecipSqrt7 RecipSqrt7Helper Recip7 Recip7Helper"]}
{"id": "C78", "title": "Vector reductions combine the scalar with exactly the active elements", "statement": "A vector reduction writes to element 0 of the destination the combination of element 0 of vs1 with every active element of vs2 (sum modulo 2^SEW, and, or, xor, signed and unsigned minimum and maximum, widening sums, ordered floating-point sums with one correctly rounded addition per element, floating-point minimum and maximum as the scalar instructions define them), changes no other byte of any register, does nothing if vl is 0 and is an illegal instruction if vstart is not 0.", "quantifier": "every reduction instruction, register contents, mask, vl, SEW, LMUL and register length", "why_tests_cant": "register contents, masks and vector lengths are unbounded in combination; tests draw random contents for a few settings", "anchors": ["riscv/riscv_vector_reduction_instructions.cc", "riscv/riscv_vector_fp_reduction_instructions.cc", "riscv/riscv_vector_instruction_helpers.h:RiscVBinaryReductionVectorOp"]}
{"id": "C79", "title": "Vector floating-point minimum, maximum, sign injection, merge and compares agree with the scalar definitions", "statement": "Each active element of a vector floating-point minimum, maximum, sign injection, merge or compare receives what the scalar instruction of the same name gives for its operands, where a scalar operand is taken from the floating-point register (the canonical NaN if it is not properly NaN-boxed); nothing else changes; and the invalid flag is raised exactly when the scalar instruction would raise it for some active element.", "quantifier": "every operand value, including NaNs, infinities and zeros of both signs, mask, vl, vstart and element width", "why_tests_cant": "2^128 operand pairs per element; tests draw random values that rarely hit signalling NaNs or zeros of different signs", "anchors": ["riscv/riscv_vector_fp_instructions.cc:MaxMinHelper", "riscv/riscv_vector_fp_instructions.cc:Vfmerge", "riscv/riscv_vector_fp_compare_instructions.cc", "riscv/riscv_vector.isa:vfmerge_vf"]}
{"id": "C84", "title": "Operands are read from the bits the instruction set manual gives them", "statement": "For every instruction word, the operands handed to an instruction are the ones the RISC-V manual reads from that word: each immediate is assembled from the manual's bit positions, with its scale and sign; each register operand is the integer, floating-point or vector register with the number in the manual's field, x0 reads as zero and what is written to it is dropped; a vector register operand gives access to every register of each group that may start at that number.", "quantifier": "every encoding class, every source and destination operand made from the instruction word, every instruction word", "why_tests_cant": "There are nine sets of operand getters, over five hundred in all, each over 2^16 or 2^32 words; a permuted immediate bit or a wrong register file only shows on words that exercise it, and tests use a few encodings of a few instructions.", "anchors": ["riscv/riscv_format32.bin_fmt", "riscv/riscv_format16.bin_fmt", "riscv/riscv_getters.h", "riscv/riscv_getters_vector.h", "riscv/riscv_getters_zvbb.h", "riscv/riscv_zc_getters.h", "riscv/riscv32g_encoding.cc", "riscv/riscv64g_encoding.cc", "riscv/riscv32g_vec_encoding.cc", "riscv/riscv64g_vec_encoding.cc"]}
{"id": "C86", "title": "Each mnemonic is described with its operands and its function", "statement": "Every instruction of the supported instruction sets is described with exactly the source and destination operands, in order, that its mnemonic has in the RISC-V manuals, and is carried out by the function for that mnemonic; a compressed instruction is carried out by the function of the instruction it abbreviates.", "quantifier": "every instruction of every group of the description files other than Zcmp, Zcmt, Zimop, Zcmop, Zicbop and the Zihint groups", "why_tests_cant": "more than nine hundred descriptions connected to functions by name; tests of semantic functions build their own operands and never read the description", "anchors": ["riscv/riscv32g.isa", "riscv/riscv64g.isa", "riscv/riscv32zb.isa", "riscv/riscv64zb.isa", "riscv/riscv_vector.isa", "riscv/riscv_zvbb.isa", "riscv/riscv_zfh.isa", "riscv/riscv_zc.isa", "riscv/riscv_zicond.isa"]}
{"id": "C87", "title": "Floating-point loads and stores", "statement": "A floating-point load or store accesses the address rs1 + offset modulo 2^XLEN. A load sets the register to the bytes read, with ones above them; a store writes the low bytes of the register and nothing else; an address above the physical limit raises the access fault and changes nothing. When mstatus.FS is Off each of them raises an illegal instruction exception. A compressed form does exactly what the instruction it abbreviates does.", "quantifier": "every state of the hart, both base widths, every register, offset and memory, all the load and store instructions of F, D, Zfh and C", "why_tests_cant": "The compressed forms differ from the plain ones only for particular prior register contents, wrapping addresses or an mstatus.FS that no unit test sets, so agreement must hold for all states.", "anchors": ["riscv/riscv_f_instructions.cc: RiscVIFlwChild, RiscVFSw", "riscv/riscv_d_instructions.cc: RiscVDSd", "riscv/riscv_zfh_instructions.cc: RiscVZfhFlhChild", "riscv/riscv_instruction_helpers.h: RVLoad, RVLoadChild, RVStore", "riscv/riscv32g.isa: cflw, cflwsp, cfld, cfldsp, cfsdsp"]}
{"id": "C88", "title": "Vector permutations", "statement": "For every active element i of the body, vrgather sets vd[i] to vs2[index[i]], or 0 if the index is VLMAX or more; vslideup sets vd[i] to vs2[i-offset] for i at or above the offset; vslidedown sets it to vs2[i+offset], or 0 from VLMAX on; vslide1up and vslide1down do so by one place and put the scalar in the free place; vcompress packs the elements selected by vs1 from element 0 on. Nothing else changes, and vstart is cleared; vcompress with vstart other than 0 is refused.", "quantifier": "every vector configuration, register contents, mask, index, offset up to 2^XLEN, vstart and vl", "why_tests_cant": "The result depends on vl, VLMAX, LMUL, register numbers, the mask and offsets of the full register width at once; the failures need particular combinations, such as a masked group of several registers or vl below VLMAX.", "anchors": ["riscv/riscv_vector_permute_instructions.cc: VrgatherHelper, VSlideHelper, VSlide1Helper, VCompressHelper, Vslideup, Vslidedown"]}
{"id": "C83", "title": "Moves between scalar and vector registers", "statement": "vmv.x.s gives rd element 0 of vs2, sign-extended or cut to XLEN, and vfmv.f.s gives it to the floating-point register, NaN-boxed, whatever vl and vstart are; vmv.s.x and vfmv.s.f set element 0 of vd to the scalar if vl is above vstart; vfmv.v.f sets all elements of the body; a single-precision operand that is not NaN-boxed counts as the canonical NaN; the whole-register moves copy all elements from vstart on. Nothing else changes and vstart is cleared.", "quantifier": "every vector configuration, register contents, scalar, vstart and vl, on RV32 and RV64", "why_tests_cant": "The value must be right for every SEW, XLEN, LMUL, vl and vstart together; tests on RV32 with vl > 0 and LMUL = 1 see none of the failures.", "anchors": ["riscv/riscv_vector_unary_instructions.cc: VmvToScalar, VmvFromScalar", "riscv/riscv_vector_fp_unary_instructions.cc: Vfmvvf, Vfmvsf, Vfmvfs", "riscv/riscv_vector_opi_instructions.cc: Vmvr"]}
{"id": "C89", "title": "Counting and scanning masks", "statement": "vcpop gives rd the number of active elements of the body whose bit in vs2 is set, and vfirst the index of the first one or -1; vmsbf, vmsif and vmsof set the active bits before, up to, and only at the first one and clear the other active bits; viota gives each active element the number of such bits below it, vid its index. Inactive, prestart and tail bits and elements keep their values. All but vid refuse a vstart that is not 0.", "quantifier": "every vector configuration, register contents, mask, vstart and vl", "why_tests_cant": "The result at one position depends on all mask and source bits before it, for every vl; failures need a mask with zeros behind the first set bit, or a vstart other than 0.", "anchors": ["riscv/riscv_vector_unary_instructions.cc: Vcpop, Vfirst, Vmsbf, Vmsif, Vmsof, Viota, Vid", "riscv/riscv_vector_instruction_helpers.h: RiscVMaskNullaryVectorOp"]}
{"id": "C85", "title": "Element-wise vector integer arithmetic", "statement": "Every element-wise integer vector instruction (add, subtract, logic, shifts, minimum, maximum, divide, remainder, multiply, multiply-high, multiply-add, their widening and narrowing forms, extension and merge) gives each active body element the low bits of the integer the specification names, from the element of vs2, the element of vs1 or the scalar (sign-extended, or cut to SEW) and the old element of vd; all other bytes of the register file stay as they were and vstart is cleared.", "quantifier": "every instruction of the families, vector configuration, register contents, mask, scalar, vl and vstart, on RV32 and RV64", "why_tests_cant": "Some 60 instructions with 4 widths and 3 operand kinds each, over all operand values; failures sit at a single operand pair (least integer by -1) or a single combination of XLEN, SEW and scalar sign.", "anchors": ["riscv/riscv_vector_opi_instructions.cc: Vadd .. Vmax, Vmerge", "riscv/riscv_vector_opm_instructions.cc: Vdivu .. Vwmaccsu", "riscv/riscv_vector_unary_instructions.cc: Vzext2 .. Vsext8"]}
{"id": "C90", "title": "Vector bit manipulation (Zvbb)", "statement": "vandn, vbrev, vbrev8, vrev8, vclz, vctz, vcpop.v, vrol, vror and vwsll give each active body element the result the Zvbb chapter names, bit by bit; rotate and shift amounts count modulo the (double) element width, the 6-bit immediate of vror.vi included; all other bytes of the register file stay as they were and vstart is cleared.", "quantifier": "every instruction, vector configuration, register contents, mask, scalar or immediate, vl and vstart, on RV32 and RV64", "why_tests_cant": "Every bit position of every width for all element values and amounts; a loop that is right for the tested widths can be wrong in one byte of another.", "anchors": ["riscv/riscv_vector_basic_bit_manipulation_instructions.cc", "riscv/riscv_getters_zvbb.h", "riscv/riscv_zvbb.isa"]}
{"id": "C91", "title": "The control and status registers a hart is built with", "statement": "Building a hart (RV32 or RV64, with or without floating-point and vector state) never aborts. Afterwards looking up a 12-bit CSR number finds the register the ISA assigns to that number and nothing else; every register the privileged architecture requires of a hart with machine, supervisor and user mode is found at its number; the simulator's own registers can not be reached by a CSR instruction; and on RV32 each upper half of a counter belongs to the counter of the same name.", "quantifier": "both XLENs, every combination of extensions, every CSR number and every register name of the ISA", "why_tests_cant": "Tests look up the handful of registers they use. A wrong number in the table only shows when exactly that register is accessed, and a missing or doubled number only when the whole set is compared with the ISA's.", "anchors": ["riscv/riscv_state.cc CreateCsrs", "riscv/riscv_csr.h RiscVCsrEnum", "riscv/riscv_pmp.h CreatePmpCsrs", "riscv/riscv_fp_state.cc RiscVFPState", "riscv/riscv_vector_state.cc RiscVVectorState", "riscv/riscv_csr.cc RiscVCsrSet"]}
{"id": "C92", "title": "Registers with restricted legal values", "statement": "misa can not be changed by software, reads in the layout of its XLEN, reports exactly the extensions and privilege modes the hart has, and the library's own view of it (XLEN, supervisor mode) agrees with what software reads; a value set by the simulator is read back. jvt always has mode zero and the written base rounded down to 64 bytes. Bit 0 of mepc and sepc reads zero, a locked physical-memory-protection entry can not be changed, the exceptions that must not be delegated can not be, and mhartid ignores writes.", "quantifier": "every sequence of CSR operations, every value written or set, both XLENs", "why_tests_cant": "Each restriction is about all values that can be written and all sequences of writes; tests write one or two legal values.", "anchors": ["riscv/riscv_misa.cc RiscVMIsa", "riscv/riscv_jvt.h RiscVJvtCsr", "riscv/riscv_state.cc CsrInfo", "riscv/riscv_pmp.h CreatePmpCsrs", "riscv/riscv_csr.h RiscVSimpleCsr"]}
{"id": "C93", "title": "Semihosting calls", "statement": "An ebreak is a semihosting call exactly when it stands between the two marker instructions, and any other ebreak is untouched by semihosting. A call has the effect the semihosting specification gives its operation: open asks the host to open the named file with the access of its mode and returns a new handle for it, close ends a handle, read and write move exactly the bytes in question between program memory and the host file and return the number of bytes not moved, seek moves to the offset given, length, terminal status, error number, command line, heap information and exit answer as specified; a call on a handle that is not open returns -1 without touching the host; operations not supported return -1. Memory outside the buffers named in the call and handles other than the one concerned never change.", "quantifier": "every machine state, memory contents, table of open handles, call parameters, host behaviour and history of host calls, on 32- and 64-bit harts", "why_tests_cant": "The host's answers and the program's parameter blocks are arbitrary; a test exercises one host, one block and one short history of handles.", "anchors": ["riscv/riscv_arm_semihost.cc: OnEBreak, IsSemihostingCall, SysOpen, SysClose, SysRead, SysWrite, SysSeek, SysFlen, SysIsTty, SysErrno, SysGetCmdline, SysHeapInfo, SysException", "riscv/riscv_arm_semihost.h: RiscVArmSemihost"]}
{"id": "C94", "title": "Host-target interface system calls", "statement": "A store makes a system call through the host-target interface exactly if it covers the ready byte, leaves it one and the tohost word names the system call device and command; an odd tohost word ends the run. The call performs the system call in its parameter block on the host: open, close, seek, read, write, positioned read and write act on the host file of the program's descriptor, descriptors returned by open are usable in later calls, exactly the bytes transferred move between memory and file, the host's result (minus the error number on failure) is stored at the start of the block and the response-ready byte is set; nothing else in memory changes. Unsupported calls are answered with an error.", "quantifier": "every memory content, store, parameter block, host behaviour and history of calls", "why_tests_cant": "Tests fix a host and a handful of parameter blocks; the property is about every block, every host answer and every sequence of calls.", "anchors": ["riscv/riscv32_htif_semihost.cc: RiscV32HtifSemiHost::StoreEvent", "riscv/riscv32_htif_semihost.h: RiscV32HtifSemiHost"]}
{"id": "C95", "title": "Debugger register access", "statement": "Every register has its numeric and its calling convention name. With the simulator halted, a debugger that writes a register by any of its names reads that value back under all of them, and an instruction executed next sees it; every other register is unchanged; x0 stays zero. Writing is refused without effect while the simulator runs and for unknown names. Register numbers of the debug specification and of the target description sent to gdb denote the register of that number, with its size, for every configuration of integer, floating-point and vector widths and whatever configurations were used before in the process; the target description arrives at the client unchanged.", "quantifier": "every register state, name, value, register number, width configuration and history of requests", "why_tests_cant": "Tests write and read a few registers; the property ranges over all pairs of names, all values, all numbers and all sequences of configurations.", "anchors": ["riscv/riscv_top.cc: RiscVTop::ReadRegister, RiscVTop::WriteRegister", "riscv/riscv_register_aliases.h: kXRegisterAliases, kFRegisterAliases", "riscv/riscv_debug_info.cc: RiscVDebugInfo::RiscVDebugInfo", "riscv/riscv_gdb_debug_info.cc: RiscVGdbDebugInfo::Instance, EscapeString", "riscv/riscv_gdb_debug_info.h: GetRegisterByteWidth"]}
{"id": "C80", "title": "Widening vector floating-point arithmetic", "statement": "Each element of a widening floating-point sum, difference, product or multiply-add (vfwadd, vfwsub, their .w forms, vfwmul, vfwmacc, vfwnmacc, vfwmsac, vfwnmsac) is the exact result of the single precision operands and the double precision addend, rounded once to double precision in the current direction, with the right infinities, signs of zero and canonical NaNs; a product raises no inexact, overflow or underflow flag.", "quantifier": "every operand bit pattern and every rounding direction", "why_tests_cant": "The multiply-add is computed as a product and a sum; that this rounds only once must hold for all 2^128 operand triples including subnormal ones.", "anchors": ["riscv/riscv_vector_fp_instructions.cc: Vfwadd, Vfwsub, Vfwaddw, Vfwsubw, Vfwmul, Vfwmacc, Vfwnmacc, Vfwmsac, Vfwnmsac"]}
{"id": "C81", "title": "Half precision arithmetic", "statement": "The half precision sum, difference, product, quotient, square root and fused multiply-adds (fadd.h, fsub.h, fmul.h, fdiv.h, fsqrt.h, fmadd.h, fmsub.h, fnmadd.h, fnmsub.h) and the conversions of 32 and 64 bit integers to half precision return the exact result rounded once to half precision in the rounding mode of the instruction, with the right infinities, signs of zero and canonical NaNs.", "quantifier": "every operand bit pattern (2^48 for the fused multiply-adds), every integer and every rounding mode", "why_tests_cant": "The instructions compute in single precision and round again to half precision; that two roundings give the result of one must hold for every operand, and fails only for rare ones.", "anchors": ["riscv/riscv_zfh_instructions.cc: RiscVZfhUnaryHelper, RiscVZfhBinaryHelper, RiscVZfhTernaryHelper, RiscVZfhFadd, RiscVZfhFsub, RiscVZfhFmul, RiscVZfhFdiv, RiscVZfhFsqrt, RiscVZfhFmadd, RiscVZfhFmsub, RiscVZfhFnmadd, RiscVZfhFnmsub, RiscVZfhCvtHw, RiscVZfhCvtHwu, RiscVZfhCvtHl, RiscVZfhCvtHlu"]}
{"id": "C82", "title": "Conversions to floating-point formats", "statement": "Converting a number between single and double precision, or an integer to either format, with scalar or vector instructions, returns the value rounded once in the direction in force, exactly when it is representable, with the canonical NaN for a NaN; vfncvt.rod.f.f.w rounds to odd: a value that is not a single precision number becomes the one of its two neighbours whose last bit is 1, and one beyond all of them the largest.", "quantifier": "every operand bit pattern, every integer of up to 64 bits and every rounding direction", "why_tests_cant": "Rounding to odd is patched onto the host's own rounding; whether that is right depends on the parity and the fraction of each of 2^64 operands.", "anchors": ["riscv/riscv_f_instructions.cc: RiscVFCvtSw, RiscVFCvtSwu, RiscVFCvtSl, RiscVFCvtSlu", "riscv/riscv_d_instructions.cc: RiscVDCvtDw, RiscVDCvtDwu, RiscVDCvtDl, RiscVDCvtDlu, RiscVDCvtSd, RiscVDCvtDs", "riscv/riscv_vector_fp_unary_instructions.cc: Vfcvtfxuv, Vfcvtfxv, Vfwcvtfxuv, Vfwcvtfxv, Vfwcvtffv, Vfncvtffw, Vfncvtrodffw, Vfncvtfxuw, Vfncvtfxw"]}
{"id": "C96", "title": "The instruction executed is the one memory holds", "statement": "The instruction executed at an address is the one whose bytes memory holds there: stores made before are seen, at the latest after fence.i, and so are breakpoints set and removed. An odd address raises 'instruction address misaligned' and an instruction with a byte above the physical limit in force raises 'instruction access fault', each with that address as trap value.", "quantifier": "every history of fetches, stores, breakpoint changes, fence.i, cache evictions and limit changes, every address and memory contents", "why_tests_cant": "The outcome depends on which addresses were executed before and are still cached, over unbounded histories.", "anchors": ["riscv/riscv_generic_decoder.h: RiscVGenericDecoder::DecodeInstruction, CheckAddress", "riscv/riscv_state.cc: RiscVState::FenceI, set_max_physical_address", "riscv/riscv_action_point_memory_interface.cc: WriteOriginalInstruction, WriteBreakpointInstruction", "riscv/riscv_top.cc: Step, Run, WriteMemory"]}
{"id": "C97", "title": "The initial stack pointer is the documented one", "statement": "Before the first instruction, the simulators and the Renode model set sp to the end of the stack plus its size. The end is the stack_end setting, else the value of __stack_end; without either sp is not written. The size is the stack_size setting, else the size of the GNU_STACK segment, else the value of __stack_size, else 32 KiB.", "quantifier": "every front end, every executable (with or without each symbol and the segment, any values) and every combination of settings", "why_tests_cant": "There are 32 combinations of present and absent sources per front end and any values; tests run one executable with the default flags.", "anchors": ["riscv/rv32g_sim.cc:391-443", "riscv/rv32gv_sim.cc:375-427", "riscv/rv64g_sim.cc:335-387", "riscv/rv64gv_sim.cc:350-402", "riscv/riscv_renode.cc:512-550"]}
{"id": "C98", "title": "Numbers in a Renode configuration mean what they say", "statement": "A configuration value that is an integer constant (decimal, octal with a leading 0, hexadecimal with a leading 0x) is read as its value if that fits in 64 bits and refused otherwise; any other text is refused.", "quantifier": "every text of any length", "why_tests_cant": "The texts are unbounded in number and length; tests pass a handful of well-formed hexadecimal addresses.", "anchors": ["riscv/riscv_renode.cc:386-403", "riscv/stoull_wrapper.cc:34-46"]}
{"id": "C99", "title": "A store of an exit code to tohost ends the run with that code, and nothing else does", "statement": "With exit_on_tohost (and always in Renode) the run ends at the first store that leaves an exit code, a word with its lowest bit set, at the symbol tohost, whatever instruction makes the store; the code reported is the word shifted right by one. Stores elsewhere and of words that are no exit codes do not end it.", "quantifier": "every front end, every address of tohost, every finite history of stores of any size, alignment and value by ordinary and atomic instructions", "why_tests_cant": "Histories are unbounded; the tests end with a single word store of an exit code in one front end.", "anchors": ["riscv/rv32g_sim.cc:265-286,353-389", "riscv/rv32gv_sim.cc:269-289,336-372", "riscv/rv64g_sim.cc:232-255,296-332", "riscv/rv64gv_sim.cc:240-262,311-347", "riscv/riscv_renode.cc:257-286"]}
{"id": "C100", "title": "Interrupt lines driven from Renode are seen in mip", "statement": "Driving interrupt line 3, 7 or 11 from Renode sets or clears exactly that bit of mip as programs read it, leaves every other bit and the external line alone, and any other line number is refused.", "quantifier": "every contents of mip, every line number and level", "why_tests_cant": "mip has 2^64 contents and line numbers 2^32; tests drive one line on a reset hart.", "anchors": ["riscv/riscv_renode.cc:574-589", "riscv/riscv_xip_xie.h"]}
{"id": "C101", "title": "Operands that name symbols get the relocation of the psABI", "statement": "When an operand of an assembled instruction names a symbol, through a relocation function or bare, the assembler appends exactly one relocation for that symbol, with the type the RISC-V psABI assigns to that instruction and function; a function that does not apply to the instruction is refused; a number gets no relocation.", "quantifier": "every symbol of any length, every relocation function, every instruction of the 64-bit assembler with an immediate or target operand", "why_tests_cant": "Symbols and function names are unbounded texts; tests assemble a few programs with long names and the right functions.", "anchors": ["riscv/riscv_bin_setters.cc:34-139", "riscv/riscv_bin_setters.h:477-515,1014-1034", "riscv/riscv64g_bin_encoder_interface.cc:69-76"]}
{"id": "C102", "title": "Renode is told the hart's registers as they are", "statement": "The register table given to Renode names pc and the integer and floating-point registers once each under the numbers debuggers use, with their widths, and marks x0 alone as read-only; an index outside the table is refused.", "quantifier": "every index into the table, both register widths", "why_tests_cant": "The table is the same for all harts, whose registers differ; tests look at a few entries on a 32-bit hart.", "anchors": ["riscv/riscv_renode.cc:367-384", "riscv/riscv_renode_register_info.cc"]}
{"id": "C103", "title": "A step of n instructions executes n, or stops at the first that asks for it", "statement": "Step(n) of a halted core executes exactly n instructions, returns n and reports no halt reason, unless one of them requests a halt (a watched access, the program's exit): then it stops after the first that does, returns the number executed and reports that request, with the pc at the instruction that follows. So also when execution resumes at a breakpoint.", "quantifier": "every program (any effects, jumps, interrupts and requests), every state of the halted core, every positive n", "why_tests_cant": "The place of the first request and the number of steps are unbounded; tests step a fixed program a few times.", "anchors": ["riscv/riscv_top.cc:RiscVTop::Step", "riscv/riscv_top.cc:RiscVTop::StepPastBreakpoint", "riscv/riscv_top.cc:RiscVTop::RequestHalt"]}
{"id": "C104", "title": "A running core stops at the first request to stop, whoever makes it and whenever it comes", "statement": "A core that was told to run executes the program until the first halt request, by an instruction (watched access, exit of the program) or by the user at any moment, and stops after the instruction during which it came, with that reason and the pc at the instruction that follows.", "quantifier": "every program, every state of the halted core (also stopped at a breakpoint), every schedule of the user's request, any number of instructions", "why_tests_cant": "The moment of the request is a matter of schedule, and the run has no bound.", "anchors": ["riscv/riscv_top.cc:RiscVTop::Run", "riscv/riscv_top.cc:RiscVTop::Halt", "riscv/riscv_top.cc:RiscVTop::StepPastBreakpoint"]}
{"id": "C105", "title": "Watchpoints stop the core at exactly the accesses to their range", "statement": "After any history of calls that set watchpoints or remove one for loads or one for stores, a load or store instruction stops the core exactly if it touches a byte of a watchpoint of its kind that is set. A call to set succeeds exactly if the range is not empty, lies in the address space and overlaps no watchpoint of the kind, one to remove exactly if the address lies in a watchpoint of the kind; a call that fails changes nothing. (The empty range at address 0 is the subject of C106.)", "quantifier": "every finite history of calls with any addresses, lengths and kinds, and every access", "why_tests_cant": "Histories and addresses are unbounded; tests set one watchpoint and touch it.", "anchors": ["riscv/riscv_top.cc:RiscVTop::SetDataWatchpoint", "riscv/riscv_top.cc:RiscVTop::ClearDataWatchpoint"]}
{"id": "C106", "title": "Watchpoints concern all of the program's accesses and only those, and removing is all or nothing", "statement": "Every access of the program to a watched byte stops the core, also by an atomic instruction; the debugger's own reads and writes do not. An empty range is refused. Removing a watchpoint for both loads and stores removes both or fails and changes nothing.", "quantifier": "every set of watchpoints, every access by whichever means, every call", "why_tests_cant": "It ranges over all watchpoints, addresses and kinds of access; tests use plain loads and stores.", "anchors": ["riscv/riscv_top.cc:RiscVTop::Initialize", "riscv/riscv_top.cc:RiscVTop::ReadMemory", "riscv/riscv_top.cc:RiscVTop::WriteMemory", "riscv/riscv_top.cc:RiscVTop::ClearDataWatchpoint", "riscv/riscv_a_instructions.cc:42-60"]}
{"id": "C107", "title": "The branch trace receives every transfer of control with its source and target", "statement": "For each instruction executed that does not continue at the next one because it jumps or an exception or interrupt is taken, the branch trace is given the instruction's address and the address where execution continues, in order, and nothing else.", "quantifier": "every program, every state of the halted core (also stopped at a breakpoint), runs and steps of any length", "why_tests_cant": "Runs are unbounded and transfers may come from interrupts at any instruction; tests look at one loop.", "anchors": ["riscv/riscv_top.cc:RiscVTop::Step", "riscv/riscv_top.cc:RiscVTop::Run", "riscv/riscv_top.cc:RiscVTop::StepPastBreakpoint", "riscv/riscv_top.cc:RiscVTop::AddToBranchTrace"]}
{"id": "C108", "title": "Half-precision comparisons compare the values the registers hold", "statement": "feq.h, flt.h and fle.h write 1 if the operands are equal, ordered, or ordered or equal in value, and 0 otherwise, also for zeros of both signs, subnormals, infinities and NaNs. A register that does not hold a boxed half-precision number counts as a NaN. They raise no flag but invalid: feq.h exactly for a signalling NaN, the others for any NaN.", "quantifier": "every pair of 64-bit register contents, both integer register widths", "why_tests_cant": "There are 2^128 pairs of registers, and the comparison is made after a hand-written conversion to single precision; tests sample random operands.", "anchors": ["riscv/riscv_zfh_instructions.cc:RiscVZfhFcmpeqHelper", "riscv/riscv_zfh_instructions.cc:RiscVZfhFcmpltHelper", "riscv/riscv_zfh_instructions.cc:RiscVZfhFcmpleHelper", "riscv/riscv_zfh_instructions.cc:ConvertFromHalfFP"]}
{"id": "C109", "title": "The debugger understands the commands its help text lists", "statement": "Every command line of the form the help text describes is understood as the command described there, with the operands given, however many blanks separate the words. In particular no line is taken for a different command, and optional words may be left out.", "quantifier": "every line of text whose words form one of the documented commands, every address, symbol, register name, number and format, and every number of blanks", "why_tests_cant": "A line is tried against 38 regular expressions in turn, so its meaning depends on all the earlier ones failing on it. The lines are unbounded; tests use a handful.", "anchors": ["riscv/debug_command_shell.cc:DebugCommandShell::DebugCommandShell", "riscv/debug_command_shell.cc:DebugCommandShell::Run"]}
{"id": "C110", "title": "Numbers and symbols typed in the debugger's shell", "statement": "Where the command shell expects an address or a value, an integer constant (0x..., 0..., decimal, or plain digits in the base of the format) stands for its value whatever symbols the program has, one of more than 64 bits is refused, and a name that is no number in that base is looked up in the symbol table.", "quantifier": "all texts, bases 0, 8, 10 and 16, all symbol tables", "why_tests_cant": "The set of texts is infinite and the boundary between numbers, prefixes of numbers and names is where conversion functions differ.", "anchors": ["riscv/debug_command_shell.cc: GetValueFromString", "riscv/stoull_wrapper.cc: stoull"]}
{"id": "C111", "title": "mem get shows what is stored", "statement": "The shell's `mem get ADDRESS FORMAT` on a halted core shows the number stored at the address in the width and base of the format (hexadecimal with all digits, d with a sign), 32 bits in hexadecimal without a format, and gives an error while the core runs or when there is no memory at the address.", "quantifier": "all memories, addresses, address texts, formats and limits of the memory", "why_tests_cant": "The number shown depends on the bytes and the limit of the memory; tests look at a few words far from the end.", "anchors": ["riscv/debug_command_shell.cc: ReadMemory", "riscv/riscv_top.cc: ReadMemory"]}
{"id": "C112", "title": "mem set stores the value and nothing else", "statement": "The shell's `mem set ADDRESS FORMAT VALUE` on a halted core stores the value, read in the base of the format, in as many bytes as the format says, changes no other byte or register, and shows what is stored; `mem get` of the same width then shows that value. It stores nothing while the core runs or outside the memory.", "quantifier": "all memories, addresses, texts, formats and values", "why_tests_cant": "Whether other bytes change and whether what is shown is what is stored has to hold for all values, also those that do not fit.", "anchors": ["riscv/debug_command_shell.cc: WriteMemory", "riscv/riscv_top.cc: WriteMemory"]}
{"id": "C113", "title": "vreg get shows the elements", "statement": "The shell's `vreg get NAME:INDEX FORMAT` on a halted core shows the element of the register with the format's width and base (d with a sign), without an index all elements in order separated by colons, and gives an error for an index the register does not have, a name that is no register, or a running core.", "quantifier": "all register contents and lengths, names, indices and formats", "why_tests_cant": "The elements depend on every byte of a register of any length.", "anchors": ["riscv/debug_command_shell.cc: FormatDbValue, FormatAllDbValues, FormatSingleDbValue", "riscv/riscv_top.cc: GetRegisterDataBuffer"]}
{"id": "C114", "title": "vreg set stores one element", "statement": "The shell's `vreg set NAME:INDEX FORMAT VALUE` on a halted core stores the value, read in the base of the format, in the element and changes no other byte of the register; it refuses an index the register does not have, a name that is no register and a running core.", "quantifier": "all register contents and lengths, names, indices, formats and values", "why_tests_cant": "Whether other elements change has to hold for every index, width and content.", "anchors": ["riscv/debug_command_shell.cc: WriteDbValue, WriteSingleValueToDb"]}
{"id": "C115", "title": "The shell's list of watchpoints is true", "statement": "After any history of the shell's commands that set, reactivate and clear watchpoints, `watch list` shows the watchpoints by number with what became of them, and the loads and stores of the program that stop the core are exactly those that touch a watchpoint shown as active. A watchpoint is accepted exactly if it is a stretch of the address space that overlaps no active one for a common kind of access.", "quantifier": "all histories of set, set by number, clear by number, clear by address and clear-all commands; all addresses, lengths and kinds; all later accesses", "why_tests_cant": "The list and the watcher are two records of the same thing that have to agree after every history; a test follows one history.", "anchors": ["riscv/debug_command_shell.cc: Run (watch set, watch clear, watch clear-all, watch list)", "riscv/riscv_top.cc: SetDataWatchpoint, ClearDataWatchpoint"]}
{"id": "C116", "title": "The shell's list of action points is true", "statement": "After any history of action points being set and of commands that enable, disable and clear them by number, the shell's list shows exactly the action points that have not been cleared, with the numbers they were given in order and whether they are enabled; what is executed when the program reaches an address is what the list shows as enabled there. `action clear-all` empties the list.", "quantifier": "all histories of setting, enabling, disabling, clearing; all addresses, names, numbers and answers of the action point manager", "why_tests_cant": "The shell keeps its own record next to the manager's, and the two have to agree after every history.", "anchors": ["riscv/debug_command_shell.cc: SetActionPoint, EnableActionPointN, DisableActionPointN, ClearActionPointN, ClearAllActionPoints, ListActionPoints"]}
{"id": "C117", "title": "A session carries out the commands typed and those of the files", "statement": "The shell carries out the commands typed in order, an empty line repeating the one before, and in place of `exec NAME` the lines of the file, in which empty lines and comments are passed over and which may name further files; after a file it goes on where it was; `quit`, typed or in a file, ends the session.", "quantifier": "all sessions, all contents of all files, any depth of files naming files", "why_tests_cant": "Nesting is unbounded, and the end of a file, of a line and of the input are where streams set their flags in different ways.", "anchors": ["riscv/debug_command_shell.cc: Run (reading of lines, exec, quit)"]}
{"id": "C118", "title": "branch-trace lists the transfers in order", "statement": "The shell's command `branch-trace` prints the most recent runs of equal transfers of control, as many as the trace has room for, oldest first, each run once with its number of repetitions, and no entry that was never filled; the last line is always the last transfer made.", "quantifier": "all histories of transfers and resizes of the trace", "why_tests_cant": "The order depends on where the ring buffer's head is and on every resize before; a test sees a few positions.", "anchors": ["riscv/debug_command_shell.cc: Run (branch-trace)", "riscv/riscv_top.cc: AddToBranchTrace, ResizeBranchTrace"]}
{"id": "C119", "title": "An instruction word of RV32IM or RV64IM does what the manual says", "statement": "On each of the eight simulated cores, when the word at the program counter is one the manual gives to an integer computation, jump, branch, load, store, multiplication or division, then the simulator finds an entry for it, executes it without undefined behaviour, and the registers, memory, program counter and trap state afterwards are those the manual derives from the bits of the word: operands from the right bit fields, x0 zero, the right result, only the destination register or the addressed bytes changed, the next address or the jump target, or exactly the trap. This holds for every turn of every run. Excluded are the four words of C71 that no decoder entry matches, the W forms whose 32-bit result overflows (C27, C28), and the value of mtval after a branch to a misaligned address (C31).", "quantifier": "all eight cores, all such instruction words, all states of registers and memory, every decoder entry that matches, runs of any length", "why_tests_cant": "Tests check a decoder, a getter or a semantic function separately and on sample words; here the tables, the operand getters, the descriptions and the semantic functions have to fit together for all 2^32 words and all states.", "anchors": ["riscv/riscv32g.bin_fmt", "riscv/riscv64g.bin_fmt", "riscv/riscv32g.isa", "riscv/riscv64g.isa", "riscv/riscv_getters.h", "riscv/riscv_i_instructions.cc", "riscv/riscv_m_instructions.cc", "riscv/riscv_instruction_helpers.h: RiscVBinaryOp, BranchConditional, RVLoad, RVLoadChild, RVStore", "riscv/riscv_top.cc: Step, Run"]}
{"id": "C120", "title": "A compressed instruction does what the instruction it is short for does", "statement": "On each of the eight simulated cores, when the two bytes at the program counter are a word the manual gives to a compressed integer instruction, the simulator finds an entry of the 16-bit decoder for it and executes it, and the state afterwards is that of the 32-bit instruction the manual expands it to, with the operands taken from the scattered fields of the 16-bit format, except that the following instruction (and the return address of a jump) is two bytes away; the bytes after it do not matter. Hints change nothing but the program counter, and what is stored for register 0 is never changed. This holds for every turn of every run that mixes instructions of two and four bytes. Excluded are the words of C71 that no entry matches (four hints of c.add, shifts by 0), the W forms that overflow (C27, C28), and states in which a debugger has written to register 0 (C95).", "quantifier": "all eight cores, all 16-bit and 32-bit words of the integer instructions and their compressed forms, all states of registers and memory with register 0 zero, every decoder entry that matches, runs of any length", "why_tests_cant": "The tests of the compressed formats check a few words per instruction against the decoder and never execute them together with 32-bit instructions; the claim ranges over all words, all states and all mixed runs.", "anchors": ["riscv/riscv_format16.bin_fmt", "riscv/riscv32g.bin_fmt: RiscVCInst16", "riscv/riscv64g.bin_fmt: RiscVCInst16", "riscv/riscv32g.isa", "riscv/riscv64g.isa", "riscv/riscv_getters.h", "riscv/riscv32g_encoding.cc: ParseInstruction", "riscv/riscv64g_encoding.cc: ParseInstruction", "riscv/riscv_top.cc: Step, Run"]}
{"id": "C121", "title": "A core with bit manipulation carries out every instruction of Zba, Zbb, Zbc and Zbs", "statement": "On each of the four simulated cores with the bit manipulation extensions, when the word at the program counter is one the manual gives to an instruction of Zba, Zbb, Zbc or Zbs, the simulator finds an entry of the decoder for it and executes it, and the state afterwards is the one the manual describes: the destination register holds the specified function of the operands named by the word, the program counter has advanced by four, and nothing else has changed. This holds for every turn of every run that mixes these with the instructions of the base set, M and C.", "quantifier": "all four cores with bit manipulation, all words of these instructions, all states of registers and memory, every decoder entry that matches, runs of any length", "why_tests_cant": "The tests of the bit manipulation instructions call the semantic functions with operands they set up themselves, and the decoder tests cover one of the cores with a word per instruction; the claim ranges over all words and states of all four cores, from the bytes in memory to the register.", "anchors": ["riscv/riscv32zb.bin_fmt", "riscv/riscv64zb.bin_fmt", "riscv/riscv32v.bin_fmt: RiscV32GVZB", "riscv/riscv32gzb.bin_fmt", "riscv/riscv64gzb.bin_fmt", "riscv/riscv64v.bin_fmt", "riscv/riscv32zb.isa", "riscv/riscv64zb.isa", "riscv/riscv_bitmanip_instructions.cc", "riscv/riscv_getters_zba.h", "riscv/riscv_getters_zbb32.h", "riscv/riscv_getters_zbb64.h"]}
{"id": "C122", "title": "A PLIC is configured as its configuration texts say", "statement": "When the interrupt controller is given a text of priorities, a list of <source>=<priority> separated by semicolons, and a text of contexts, a list of <context>=<threshold>,(<source>,<enable>)+ separated by semicolons, it accepts them, with or without blanks, and afterwards the priority of every source, the threshold of every context and the enable bit of every source for every context are those of the last item that names them, and as before if none does. A text that is not of this form is refused and changes nothing.", "quantifier": "all controllers, all lists of items of any length, all numerals and blanks", "why_tests_cant": "The test configures one controller with one pair of texts; the claim is about every text of the documented grammar and of any length.", "anchors": ["riscv/riscv_plic.cc: RiscVPlic::Configure", "riscv/riscv_plic.h: RiscVPlic::Configure"]}
{"id": "C123", "title": "Registers of the PLIC are reached by loads and stores of every size at their documented addresses", "statement": "A load of four bytes at the documented address of a priority or threshold register, in a controller placed at a multiple of its window, gives the value of that register and changes nothing, and a narrower load gives its low bytes; a load of eight bytes is a load of four bytes followed by a load of the next four, and a store of eight bytes is a store of four bytes followed by a store of the next four. This holds for each of the contexts the PLIC specification allows.", "quantifier": "all controllers, all sources and contexts, all base addresses, all values", "why_tests_cant": "The tests access a few registers with one size; the claim covers every register, size and address.", "anchors": ["riscv/riscv_plic.cc: RiscVPlic::Load, RiscVPlic::Store", "riscv/riscv_plic.h: RiscVPlic"]}
{"id": "C124", "title": "System and atomic instructions take effect from the word in memory", "statement": "On every simulated core, when the word at the program counter is ecall, ebreak, c.ebreak, mret, sret, sfence.vma, fence, fence.tso, fence.i, wfi or an instruction of the A extension, the simulator finds an entry for it and the state afterwards is the one the manual describes: calls and breakpoints raise their exception, returns restore the mode and the interrupt enables and go to the saved address, an atomic memory operation, load-reserved or store-conditional performs its access at the address in rs1 with the operand in rs2 and leaves the old value (or the outcome) in rd, an access that is not allowed raises its exception, and nothing else changes. This holds for every turn of every run that mixes these with the base set, M, C and bit manipulation.", "quantifier": "all eight cores, all words of these instructions, all states of registers, privilege and memory reached from reset, all atomic memories that meet the stated contract, every decoder entry that matches, runs of any length", "why_tests_cant": "The unit tests call the semantic functions with operands they set up themselves; no test runs a return or an atomic instruction from the bytes in memory on every core, and the claim ranges over all words, all privilege states and all runs.", "anchors": ["riscv/riscv_i_instructions.cc RiscVIEcall, RiscVIEbreak, RiscVIFence", "riscv/riscv_priv_instructions.cc", "riscv/riscv_a_instructions.cc AInstructionHelper", "riscv/riscv_state.cc RiscVState::ECall", "riscv/riscv32g.isa", "riscv/riscv64g.isa", "riscv/riscv32g.bin_fmt", "riscv/riscv64g.bin_fmt", "riscv/riscv_top.cc"]}
{"id": "C125", "title": "CSR instructions take effect from the word in memory", "statement": "On every simulated core, when the word at the program counter is csrrw, csrrs, csrrc or one of their immediate forms, the simulator finds an entry for it. If the privilege mode is below the one in the register number, or the access is to satp in S-mode with TVM set, an illegal instruction exception is raised and nothing else changes. Otherwise rd gets the value the register held, the register takes the value the instruction makes of it and the operand (bits outside the register's writable bits keep their value), a set or clear with rs1 or the immediate equal to 0 writes nothing, the program counter moves to the next instruction, and nothing else changes. This holds for every turn of every run that mixes these with the base set, M, C, bit manipulation, system and atomic instructions. An access to a register that does not exist, or a write to a read-only register, raises an illegal instruction exception.", "quantifier": "all eight cores, all words of these instructions, all states of registers, privilege and memory reached from reset, any contents of the other registers, every decoder entry that matches (the decoders split each instruction into up to three entries by rd and rs1), runs of any length", "why_tests_cant": "The unit tests call the five semantic functions with operands they set up themselves; nothing checks that each of the entries the decoder splits an instruction into reads and writes the right register with the right operands, and the claim ranges over all words, register contents and runs.", "anchors": ["riscv/riscv_zicsr_instructions.cc", "riscv/riscv_csr.h RiscVSimpleCsr", "riscv/riscv_state.cc RiscVCsrSet, CreateCsrs", "riscv/riscv32g.isa riscv32_zicsr", "riscv/riscv64g.isa", "riscv/riscv32g.bin_fmt", "riscv/riscv64g.bin_fmt", "riscv/riscv_getters.h"]}
{"id": "C126", "title": "Words that are no instruction raise an illegal instruction exception", "statement": "On every simulated core, when the word (or halfword) at the program counter is one the manual gives to none of the instructions the core implements, the simulator raises an illegal instruction exception with trap value 0 at that address, and no register, no memory, no other control register and no reservation changes; unimp raises it with the word as trap value and two zero bytes raise it too. Words of implemented instructions do not raise it for want of a decoder entry. This holds for every turn of every run that mixes such words with the instructions of C120, C121, C124 and C125.", "quantifier": "all eight cores, all 2^32 words and 2^16 halfwords, all states reached from reset, runs of any length", "why_tests_cant": "The tests try a few illegal words; that no entry of the decoders catches any of the remaining ones, and that the default leaves everything else alone, ranges over all words and states.", "anchors": ["riscv/riscv_i_instructions.cc RiscVIllegalInstruction, RiscVIUnimplemented", "riscv/riscv32g.isa default opcode, unimp, cunimp", "riscv/riscv64g.isa default opcode, unimp, cunimp", "riscv/riscv32g.bin_fmt", "riscv/riscv64g.bin_fmt", "riscv/riscv_top.cc"]}
{"id": "C127", "title": "Floating-point loads, stores, comparisons and moves execute end to end as the manual says", "statement": "On every simulated core, when the word at the program counter is one the manual gives to flw, fld, fsw, fsd, fsgnj, fsgnjn, fsgnjx, fmin, fmax, feq, flt, fle, fclass or fmv of the F and D extensions, one turn of the simulator has the effect the manual describes: operands of single precision that are not NaN-boxed count as the canonical NaN, results of single precision are boxed, integer results go to rd, loads and stores move exactly the bytes at the computed address or raise an access fault, fflags gains the invalid flag exactly when the manual says so, the unit being off raises an illegal instruction exception, FS becomes Dirty when floating-point state is written, and nothing else changes. This holds for every turn of every run that mixes these instructions with those of C120, C121, C124, C125 and C126.", "quantifier": "all eight cores, all words of these instructions, all register, memory and flag contents, hosts of both kinds, runs of any length", "why_tests_cant": "The tests call one semantic function at a time with operands set up by hand; that the decoder, the description, the operand getters and the function together do the right thing ranges over all words and states.", "anchors": ["riscv/riscv_f_instructions.cc", "riscv/riscv_d_instructions.cc", "riscv/riscv_i_instructions.cc RiscVILw, RiscVILd", "riscv/riscv_instruction_helpers.h", "riscv/riscv_getters.h", "riscv/riscv32g.isa", "riscv/riscv64g.isa", "riscv/riscv_top.cc"]}
{"id": "C128", "title": "Scalar arithmetic raises exactly the five flags IEEE 754 asks for", "statement": "The sums, differences, products, quotients, square roots and fused multiply-adds of single and double precision raise invalid, division by zero, overflow, underflow and inexact exactly when IEEE 754 and the RISC-V manual say so, along with the correctly rounded result, in every rounding direction, on a host whose own arithmetic follows IEEE 754.", "quantifier": "all operands, both precisions, all rounding directions, hosts that detect tininess before or after rounding", "why_tests_cant": "The tests compare with the same host operations on random operands; the flags depend on operand classes, signs, the rounding direction and the exact position of the result between two neighbours.", "anchors": ["riscv/riscv_f_instructions.cc RiscVFSqrt, RiscVFMadd", "riscv/riscv_d_instructions.cc RiscVDSqrt, RiscVDMadd, RiscVDMsub, RiscVDNmadd, RiscVDNmsub", "riscv/riscv_instruction_helpers.h RiscVBinaryFloatNaNBoxOp, RiscVTernaryFloatNaNBoxOp"]}
{"id": "C129", "title": "From the word in memory, floating-point arithmetic rounds in the mode asked for and accrues its flags", "statement": "A word in memory that is an addition, subtraction, multiplication, division, square root or fused multiply-add of the F or D extension is carried out in every simulated core: rd gets the exact result rounded in the direction of the rounding mode in the word, or of frm if the word says so, with NaNs canonical and results of single precision boxed; the flags of IEEE 754 are added to fflags; frm and the rest of the state stay; and this goes on for runs that mix these with all the other instructions.", "quantifier": "all eight simulated cores, all words, all register contents, all rounding modes, all histories of the floating-point state, runs of any length", "why_tests_cant": "The tests call the semantic functions with hand-made operands and one rounding mode at a time; that decoder, operand descriptions, rounding mode state, host registers and the functions fit together for every word and state is never run.", "anchors": ["riscv/riscv_instruction_helpers.h RiscVBinaryFloatNaNBoxOp, RiscVTernaryFloatNaNBoxOp", "riscv/riscv_f_instructions.cc", "riscv/riscv_d_instructions.cc", "riscv/riscv32g.isa, riscv64g.isa", "riscv/riscv_fp_state.cc", "riscv/riscv_fp_host.h ScopedFPStatus"]}
{"id": "C130", "title": "From the word in memory, conversions between integers and floating-point numbers round, saturate, box and accrue flags as the manual says", "statement": "A word in memory that converts between an integer type, single precision and double precision is carried out in every simulated core: a conversion to an integer puts the number, rounded in the mode of the word or of frm, or the nearest integer of the type, into rd, extended from its sign bit; the other conversions put the correctly rounded number into rd, boxed if it has single precision and canonical if it is a NaN; the flags of the manual are added to fflags; frm and the rest of the state stay; and this goes on for runs that mix these with all the other instructions.", "quantifier": "all eight simulated cores, all words, all register contents, all rounding modes, all histories of the floating-point state, runs of any length", "why_tests_cant": "The tests call the semantic functions on samples of operands with one rounding mode at a time; the tie, boxing, saturation and signalling NaN cases, and the way from decoder and operand descriptions to fflags, are never run for every word and state.", "anchors": ["riscv/riscv_instruction_helpers.h RiscVConvertFloatWithFflagsOp, RiscVUnaryFloatNaNBoxOp, RiscVUnaryFloatOp, GetNaNBoxedSource", "riscv/riscv_f_instructions.cc RiscVFCvtSw, RV32::RiscVFCvtWs, RV64::RiscVFCvtLs", "riscv/riscv_d_instructions.cc RiscVDCvtSd, RiscVDCvtDs, RV64::RiscVDCvtDl", "riscv/riscv32g.isa, riscv64g.isa", "riscv/riscv_fp_state.cc"]}
{"id": "C131", "title": "From the word in memory, accesses to fflags, frm and fcsr read and change the accrued flags and the rounding mode as the manual says", "statement": "A word in memory that is a CSR instruction with fflags, frm or fcsr is carried out in every simulated core and mode: rd gets what the register holds, extended with zeros; the accrued flags and the rounding mode get the operand bits that belong to them, or have them set or cleared, and stay otherwise; nothing is written by the setting and clearing forms with rs1 0; the rest of the state stays; as long as frm holds a rounding mode the instructions that use the dynamic mode round in it; and this goes on for runs that mix these with all the other instructions, so that the mode can change between floating-point instructions.", "quantifier": "all eight simulated cores, all words, all register contents and modes, all histories of the floating-point state, both kinds of host, runs of any length", "why_tests_cant": "The tests write a few values to the registers through the C++ interface; the way from the decoder to the register, with every operand, after every history of arithmetic, writes and invalid modes, is never run.", "anchors": ["riscv/riscv_zicsr_instructions.cc RVZiCsrrw, RVZiCsrrs, RVZiCsrrc, RVZiCsrrwNr, RVZiCsrrNw", "riscv/riscv_fp_state.cc RiscVFcsr, RiscVFflags, RiscVFrm, SetRoundingMode", "riscv/riscv_csr.h RiscVSimpleCsr::SetBits, ClearBits", "riscv/riscv32g.isa, riscv64g.isa"]}
{"id": "C132", "title": "Interrupts are taken between instructions as the privileged manual says", "statement": "When interrupt lines (software, timer, external) change while an instruction is carried out, the instruction has its effect, the pending bits of mip follow the lines, and then the interrupt that is pending, enabled and not masked by the mode and mstatus, the one with the highest priority, is taken: into machine mode or, if delegated, supervisor mode, at the address given by mtvec or stvec, with the address of the next instruction in mepc or sepc, its number with the top bit set in mcause or scause, 0 in mtval or stval, and the mode and enable bit saved in mstatus; integer registers, floating-point registers and memory stay. If none is to be taken, nothing else happens. This holds for every run of the simulator loop, whichever instructions enable, mask or return from interrupts.", "quantifier": "every simulated core, every memory and register contents, every sequence of instructions of C131 and every sequence of line changes in every turn, in every privilege mode", "why_tests_cant": "interrupts can arrive at any of unboundedly many instruction boundaries with any combination of pending, enabled and delegated bits; tests sample a few", "anchors": ["riscv/riscv_top.cc: RiscVTop::Step, Run, StepPastBreakpoint", "riscv/riscv_state.cc: CheckForInterrupt, TakeAvailableInterrupt, Trap", "riscv/riscv_xip_xie.h: RiscVMIp", "riscv/riscv_clint.cc"]}
{"id": "C133", "title": "The program counter stays even", "statement": "If the program counter, mepc and sepc are even when a run begins, the simulator executes only instructions at even addresses: jumps, branches, traps, interrupts, returns and the move to the next instruction, of four bytes or two, lead from even addresses to even addresses, in every privilege mode and whatever interrupt lines change. mepc and sepc never hold odd addresses (their lowest bit is always zero by the privileged manual).", "quantifier": "every simulated core, every memory and register contents, every sequence of instructions of C131 and of line changes, of any length", "why_tests_cant": "the property is an invariant of unbounded runs over every instruction that can change the program counter, every immediate and every trap vector; tests run a few programs whose addresses are even anyway", "anchors": ["riscv/riscv_i_instructions.cc: jal, jalr, branches", "riscv/riscv_state.cc: Trap, TakeAvailableInterrupt", "riscv/riscv_priv_instructions.cc: mret, sret", "riscv/riscv_top.cc: RiscVTop::Run, Step", "riscv/riscv_csr.h: RiscVSimpleCsr (mepc, sepc)"]}
{"id": "C134", "title": "Compressed floating-point loads and stores from the halfword in memory", "statement": "A halfword that the manual gives to c.flw, c.fld, c.fsw, c.fsd, c.flwsp, c.fldsp, c.fswsp or c.fsdsp is decoded and carried out as the load or store it is short for: the floating-point register named by the instruction (one of f8 to f15 for the forms with three bits) gets the four or eight bytes at base plus offset, boxed if they are four, or memory gets the low bytes of the register; base plus offset wraps at the width of the integer registers; beyond the limit of the memory there is an access fault with the address; the next instruction is two bytes away and nothing else changes. With the floating-point unit off there is an illegal instruction exception.", "quantifier": "every simulated core, every such halfword, every state of registers, memory and CSRs, and every run that mixes these instructions with those of C131", "why_tests_cant": "the result depends on the decoder, the operand getters of eight encoding classes, the descriptions and the semantic functions together, for all registers, offsets and addresses; the unit tests of the semantic functions set up operands by hand and so never see which register file the getters of a particular simulator choose", "anchors": ["riscv/riscv32g.isa, riscv/riscv64g.isa: riscv32c, riscv64c floating-point loads and stores", "riscv/riscv64g_encoding.cc, riscv/riscv32gv_encoding.cc, riscv/riscv64gv_encoding.cc: getters of c3drd and c3frd", "riscv/riscv_getters.h", "riscv/riscv_i_instructions.cc: RiscVILw, RiscVILd, RiscVISw, RiscVISd", "riscv/riscv_d_instructions.cc: RiscVDSd"]}
{"id": "C135", "title": "stats switches the instrumentation asked for, when asked, and leaves the program alone", "statement": "The shell takes exactly the lines `stats enable|disable counters|iprofile|mprofile|all [VALUE|SYMBOL]` as stats commands, however many blanks separate the words. Such a line switches exactly the instrumentation it names, at once or whenever the instruction at the address is executed; a place that stands for no address changes nothing. While the instruction profile is on it records every instruction executed. The simulated program does not notice: mcycle, minstret and the timer go on as they would without the commands.", "quantifier": "every line of text, every symbol table and every session of lines and executed instructions, of any length", "why_tests_cant": "the effect depends on the history of commands and on which addresses the program reaches, and not disturbing the program is a statement about all later instructions", "anchors": ["riscv/riscv_instrumentation_control.cc: PerformShellCommand, Usage", "riscv/riscv_top.cc: EnableStatistics, DisableStatistics, SetCsrCounter, Initialize, Step, Run, StepPastBreakpoint", "riscv/riscv_renode.cc: SetConfig, LoadExecutable", "riscv/riscv_counter_csr.h"]}
{"id": "C136", "title": "A Renode hart is configured as asked, in whatever order, and its memory holds what was last written", "statement": "What a configuration does depends on the value given last for each setting alone. An accepted one gives the core a memory of memorySize bytes at memoryBase, a CLINT in the 64 KiB at clintMMRBase if one is asked for, and the system bus everywhere else, and sets profilers, stack pointer, command line and caches as asked; a refused one changes nothing. A hart can be configured before or after its executable is loaded, and again. The core and Renode read from every address the byte that Renode, the loader or the core wrote there last.", "quantifier": "every list of settings, every hart, and every history of configurations, loads, writes by Renode and stores by the core", "why_tests_cant": "settings can come in any number and order, with any value, and the memory's contents depend on the whole history of three writers", "anchors": ["riscv/riscv_renode.cc: SetConfig, LoadExecutable, ReadMemory, WriteMemory, RiscVRenode::RiscVRenode", "riscv/riscv_top.cc: ConfigureCache"]}
{"id": "C137", "title": "A program runs by the manual from the moment the core is built", "statement": "From a core that has just been constructed, with any program in memory and an even entry point, and with the interrupt lines changing at any time: before every instruction x0 reads 0, the program counter is even, the privilege mode is one of the three and no enabled interrupt is left untaken; every instruction has the effect the manual gives it, followed by the interrupt the manual asks for, if any; and the next instruction can always be carried out.", "quantifier": "every simulator, every memory content and size, every even entry point, every start value of the floating-point registers and of the integer registers other than x0, every sequence of line changes, every number of instructions of the modelled kinds", "why_tests_cant": "The invariants have to be established by the constructor and kept by every instruction and every interrupt in any order; tests run a few programs from states they prepare themselves.", "anchors": ["riscv/riscv_state.cc:RiscVState::CreateCsrs", "riscv/riscv_fp_state.cc:RiscVFPState::RiscVFPState", "riscv/riscv_top.cc:RiscVTop::Run", "riscv/riscv_top.cc:RiscVTop::Step", "riscv/rv32g_sim.cc:main", "riscv/rv64g_sim.cc:main"]}
{"id": "C138", "title": "Looking at an instruction shows the program's own and disturbs nothing", "statement": "At every address, whether a breakpoint or action point is set there or not, the debugger is shown the instruction the program has there. Looking leaves memory, breakpoints, watchpoints, what the core will carry out next, the reason of the last halt and the last watchpoint reported as they were.", "quantifier": "every program, every history of breakpoints set and cleared and of stores, every set of watchpoints, every address", "why_tests_cant": "Breakpoints are swapped out and in again through the watched memory while the decode cache has to follow; a test looks at a few addresses without watchpoints and without programs that change themselves.", "anchors": ["riscv/riscv_top.cc:RiscVTop::GetInstruction", "riscv/riscv_top.cc:RiscVTop::GetDisassembly", "riscv/riscv_top.cc:RiscVTop::Initialize", "riscv/riscv_action_point_memory_interface.cc:RiscVActionPointMemoryInterface::WriteOriginalInstruction", "riscv/riscv_action_point_memory_interface.cc:RiscVActionPointMemoryInterface::WriteBreakpointInstruction"]}
{"id": "C139", "title": "Instructions that configure the vector unit, and the loop over an array of any length", "statement": "In every core with vectors a word that the manual gives to vsetvli, vsetivli or vsetvl sets vtype, VLMAX and vl as the manual says, puts the new vl into rd, clears vstart and changes nothing else; with rd and rs1 both x0 vl stays. The manual's loop (vsetvli, subtract, branch back while elements are left) handles every element of an array exactly once and ends.", "quantifier": "every vector core, every word of the three instructions, every state, every register length, every legal type; for the loop every array length below 2^32, every place in memory and every choice of registers", "why_tests_cant": "Seven decoder entries, their operand descriptions, sign extended immediates and the arguments bound into one semantic function must agree for every word; that the loop ends for every length is an induction over its rounds.", "anchors": ["riscv/riscv_vector_memory_instructions.cc:Vsetvl", "riscv/riscv_vector_state.cc:RiscVVectorState::SetVectorType", "riscv/riscv_vector.isa:vsetvli_xn", "riscv/riscv_vector.bin_fmt:vsetvli_xn", "riscv/riscv_getters_vector.h:AddRiscVVectorSourceGetters"]}
{"id": "C140", "title": "Element-wise vector integer instructions, from the word in memory", "statement": "In every core with vectors a word that the manual gives to vadd, vsub, vrsub, vand, vor, vxor, vsll, vsrl, vsra, vmin(u), vmax(u), vdiv(u), vrem(u), vmul or vmulh(u/su), in its vector, register or immediate form, makes every active element of the body of the group at vd the value the manual gives for the word's operands, leaves all other bytes of the vector registers and the rest of the machine alone, clears vstart and goes on to the next instruction.", "quantifier": "every vector core, every word of the 49 instructions, every state, every register length, element width, vl, vstart and mask for which the instruction is legal", "why_tests_cant": "Decoder entries, operand descriptions, operand getters and the bound function must agree for all register numbers, immediates and mask bits of every instruction, and the loop over elements for all lengths.", "anchors": ["riscv/riscv_vector.isa:vadd_vv", "riscv/riscv_vector.bin_fmt:vadd_vv", "riscv/riscv_getters_vector.h:AddRiscVVectorSourceGetters", "riscv/riscv_vector_opi_instructions.cc:Vadd", "riscv/riscv_vector_opm_instructions.cc:Vmulh", "riscv/riscv_vector_instruction_helpers.h:RiscVMaskBinaryVectorOp"]}
{"id": "C141", "title": "Narrowing, widening and multiply-add vector instructions, from the word in memory", "statement": "In every core with vectors a word that the manual gives to vnsrl, vnsra, vwadd(u), vwsub(u) (both forms), vwmul, vwmulu, vwmulsu, vmacc, vnmsac, vmadd, vnmsub or vwmacc(u/su/us) makes every active element of the body of the group at vd the value the manual gives for the word's operands and the old element, leaves all other bytes of the vector registers and the rest of the machine alone, clears vstart and goes on to the next instruction; the instructions of C140, C139 and C119 do beside them what they do alone.", "quantifier": "every vector core, every word of the 43 instructions, every state, every register length, element width, vl, vstart and mask for which the instruction is legal", "why_tests_cant": "Decoder entries, operand descriptions (with vd among the sources), operand getters and the bound function must agree for all register numbers, immediates and mask bits, and the loops with two element widths for all lengths.", "anchors": ["riscv/riscv_vector.isa:vwmacc_vv", "riscv/riscv_vector.bin_fmt:vwmacc_vv", "riscv/riscv_getters_vector.h:AddRiscVVectorSourceGetters", "riscv/riscv_vector_opi_instructions.cc:Vnsrl", "riscv/riscv_vector_opm_instructions.cc:Vwmacc", "riscv/riscv_vector_instruction_helpers.h:RiscVTernaryVectorOp"]}
{"id": "C142", "title": "Unit-stride and strided vector loads and stores, from the word in memory", "statement": "In every core with vectors a word that the manual gives to vle8 to vle64, vlse8 to vlse64 or a fault-only-first load makes every active element of the body of the group at vd the bytes at rs1 plus its number times the stride (modulo 2^xlen), and a word for vse8 to vse64 or vsse8 to vsse64 writes the active elements of the group at vs3 there in order; all other bytes of vector registers and memory, and the integer registers, stay; vstart is cleared and the next instruction follows. A load with an address above the limit raises a load access fault at the first such element and changes nothing else; a fault-only-first load does so only for element 0.", "quantifier": "every vector core, every word of the 20 instructions, every state, every register length, element width, vl and mask for which the instruction is legal", "why_tests_cant": "Decoder entries (with separate ones for unmasked loads), operand descriptions, constants and the element width bound to the function must agree for all register numbers and mask bits, and the loops for all lengths, strides and memory contents.", "anchors": ["riscv/riscv_vector.isa:vle32", "riscv/riscv_vector.bin_fmt:vle32", "riscv/riscv_getters_vector.h:AddRiscVVectorSourceGetters", "riscv/riscv_vector_memory_instructions.cc:VlStrided", "riscv/riscv_vector_memory_instructions.cc:VsStrided", "riscv/riscv_state.cc:LoadMemory"]}
{"id": "C143", "title": "A vector program: the sum of two arrays of words", "statement": "In every core with vectors, with elements of 32 bits selected, vl elements fitting in a group of eight registers, vstart 0 and no interrupt pending, the four words of vle32.v v8,(x11); vle32.v v16,(x12); vadd.vv v24,v8,v16; vse32.v v24,(x10) in memory at the program counter, and arrays below the limit and inside of the address space: after four turns item i of the array at x10 is the sum modulo 2^32 of item i of the arrays at x11 and x12 as they were before the program, for all i below vl, also if the arrays overlap; no other byte of memory, no integer register and nothing else of the core changes, and the program counter is behind the program.", "quantifier": "every vector core (RV32 and RV64), every program address and memory, every position of the arrays (overlapping too), every register length, register grouping and vl that meets the conditions", "why_tests_cant": "The claim composes fetch, decoding, operands and the loops of four instructions for all lengths, register lengths, addresses and contents, and for all ways in which the arrays can overlap.", "anchors": ["riscv/riscv_vector_memory_instructions.cc:VlStrided", "riscv/riscv_vector_memory_instructions.cc:VsStrided", "riscv/riscv_vector_opi_instructions.cc:Vadd", "riscv/riscv_getters_vector.h:AddRiscVVectorSourceGetters", "riscv/riscv_top.cc:Step"]}
{"id": "C144", "title": "Integer vector reductions, from the word in memory", "statement": "In every core with vectors a word that the manual gives to vredsum, vredand, vredor, vredxor, vredminu, vredmin, vredmaxu, vredmax, vwredsumu or vwredsum makes element 0 of vd the combination of element 0 of vs1 with the active elements of the group at vs2 (for the widening sums with vs1, vd and the sum of double width); all other bytes of vector registers, the integer registers and memory stay and the next instruction follows. With vl = 0 vd stays, and with vstart other than 0 the instruction is illegal.", "quantifier": "every vector core, every word of the 10 instructions, every state, register length, element width, vl and mask for which the instruction is legal", "why_tests_cant": "Decoder entries, operand descriptions and functions must agree for all register numbers and mask bits, and the result for all lengths and contents of the registers.", "anchors": ["riscv/riscv_vector.isa:vredsum_vv", "riscv/riscv_vector.bin_fmt:vredsum_vv", "riscv/riscv_getters_vector.h:AddRiscVVectorSourceGetters", "riscv/riscv_vector_reduction_instructions.cc:Vredsum", "riscv/riscv_vector_instruction_helpers.h:RiscVBinaryReductionVectorOp"]}
{"id": "C145", "title": "Logical instructions on mask registers, from the word in memory", "statement": "In every core with vectors a word that the manual gives to vmand, vmnand, vmandn, vmor, vmnor, vmorn, vmxor or vmxnor makes every bit of vd from vstart up to vl the logical function of the bits of vs2 and vs1 with the same number; the bits before vstart, all other registers and memory stay, vstart becomes 0 and the next instruction follows. With vl = 0 no bit changes.", "quantifier": "every vector core, every word of the 8 instructions, every state, vstart and vl", "why_tests_cant": "Decoder entries, operand descriptions and functions must agree for all register numbers, and the treatment of the first and last byte for all vstart and vl.", "anchors": ["riscv/riscv_vector.isa:vmand_vv", "riscv/riscv_vector.bin_fmt:vmand_vv", "riscv/riscv_getters_vector.h:AddRiscVVectorSourceGetters", "riscv/riscv_vector_opm_instructions.cc:BitwiseMaskBinaryOp"]}
