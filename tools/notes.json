{
 "C01": {
  "note": "Parametric in the CSR width; accessors at least as wide as the CSR. Narrow accessors are C02."
 },
 "C02": {
  "note": "The code violates the property (upper half is cleared); exact behaviour and a partial theorem are proved."
 },
 "C03": {
  "note": "Primary is a simple CSR of the same width."
 },
 "C04": {
  "note": "Refinement to a single collection, plus absence of the undefined erase."
 },
 "C05": {
  "note": "Both views, getters, CSR operations at bit level and the SXL/UXL history."
 },
 "C06": {
  "note": "All batches of field setters from every reachable state."
 },
 "C07": {
  "note": "Writes proved for all histories; reads expose machine fields (violated), the supervisor fields are right (partial)."
 },
 "C08": {
  "note": "The code latches the external line on CSR writes (violated)."
 },
 "C09": {
  "note": "sip/sie writes are wrong for non-delegated and cleared bits (violated); exact behaviour proved."
 },
 "C10": {
  "note": "Refinement of the evaluation to a per-interrupt specification, for the three legal modes."
 },
 "C11": {
  "note": "Violated: a report is never withdrawn. Partial: histories in which no event withdraws the reported interrupt."
 },
 "C12": {
  "note": "Every reachable state, both destination levels, exact mstatus fields and frame conditions."
 },
 "C13": {
  "note": "Exceptions proved; interrupts proved for fresh reports; violated for stale reports."
 },
 "C14": {
  "note": "mret after any trap to M, sret after any trap to S from U or S."
 },
 "C15": {
  "note": "mret and sfence.vma proved; sret violated in machine mode (RV32 always, RV64 with TSR)."
 },
 "C16": {
  "note": "Violated: exceptions are vectored too. Interrupts and non-vectored modes proved."
 },
 "C17": {
  "note": "Privilege and satp/TVM refusals proved with no side effects; writes to read-only CSRs and nonexistent CSRs do not trap in the code (violated)."
 },
 "C18": {
  "note": "Plain CSRs, all six instructions, bit level."
 },
 "C19": {
  "note": "Single-CSR counters for every history; RV32 pairs for histories without the carry defect of C20."
 },
 "C20": {
  "note": "High-half writes are exact; low-half writes and exceptions disturb the high half (violated)."
 },
 "C21": {
  "note": "Software line and rate for every history; timer line exact after each clock update or mtimecmp access that refreshes it (partial), stale after mtime writes or reset (violated witness)."
 },
 "C22": {
  "note": "1/2/4-byte accesses and 8-byte loads; 8-byte stores drop the high word (violated)."
 },
 "C23": {
  "note": "Every history of good operations (no pending-register writes, enabling configuration only), any number of sources and contexts. Configuration with enable 0 makes a disabled source claimable (violated)."
 },
 "C24": {
  "note": "Thresholds round-trip. Priority registers of every source >= 1 and every enable register but the first do not read back what was stored, and some accesses are out of bounds (violated, general theorems)."
 },
 "C25": {
  "note": "For every covered history: no second request between claim and completion; completion re-arms a level source exactly if still asserted. Violated by priority writes on a waiting level source and by nested claims."
 },
 "C26": {
  "note": "Scalar accesses and the limit setter are proved in full (C26_load, C26_store, C26_limit, C26_limit_bound). Vector accesses are proved for the faults the code raises (C26_loadV_partial, C26_storeV_partial). Violations with witnesses: masked-off elements above the limit still fault (C26_masked_violated), an access that starts below the limit and ends above it is not stopped (C26_straddle_violated), atomics are not checked at all (C26_atomic_violated)."
 },
 "C27": {
  "note": "Every RV32 and RV64 integer operation, LUI, AUIPC and the register write are proved equal to the ISA result for all operands. The RV64 word forms (ADDW, SUBW, SLLW, ...) are computed in C++ on signed 32-bit values: proved correct exactly where the C++ is defined, with a witness that overflow is undefined behaviour (C27_w_violated)."
 },
 "C28": {
  "note": "Every RV32 and RV64 M-extension operation is proved for all operands, including division by zero and overflow. MULW multiplies signed 32-bit values, so overflow is undefined behaviour in C++: proved where defined, with a witness (C28_mulw_violated)."
 },
 "C29": {
  "note": "All RV64 forms and all RV32 forms except two proved against bit-level definitions. clmulr on RV32 is proved exactly when it is right (C29_clmulr32_partial, an iff) with a witness of the wrong case. cpopw returns the count of the 64-bit register in one implementation (C29_cpopw_violated)."
 },
 "C30": {
  "note": "Every pair of implementations proved equal except cpopw, where they differ (C30_cpopw_violated); C30_unW_partial covers the remaining unary word operations."
 },
 "C31": {
  "note": "jal and jalr proved in full. Branches: everything but the reported trap value (C31_branch_partial); for a misaligned target the code reports the pc of the branch rather than the target (C31_branch_tval_violated)."
 },
 "C32": {
  "note": "Proved for all sizes, both extensions, all addresses including wrap-around, with the frame condition."
 },
 "C33": {
  "note": "Proved for every atomic instruction, both sizes and both register widths. The memory side is mpact-sim's and enters as the hypothesis Spec.Contract, shown satisfiable by simpleDev_ok. The unsupported case needs no assumption."
 },
 "C34": {
  "note": "View equations proved for every history of writes and FP operations, on any host interface meeting HostOk (both shipped ones do). Violated: CSR set/clear-bits on fcsr itself works on the stored word, not on the accrued host flags, so flags raised by arithmetic are dropped (C34_fcsr_set_violated); C34_fcsr_set_partial says exactly when it is right."
 },
 "C35": {
  "note": "If the mode is reported valid then frm holds 0..4 and is the mode used, after any history (C35_valid_partial). The converse fails: writing a reserved mode and then the previous mode leaves it invalid (C35_violated); C35_invalid_partial shows that this is the only way it fails."
 },
 "C36": {
  "note": "Proved for x86 and ARM hosts, for all host words and all flag sets, including accrual through the scoped status."
 },
 "C37": {
  "note": "Reading and writing NaN-boxed values is proved for the generic helpers (read, write, round trip) and for the instructions that use them. Violated in general for fused multiply-add, fclass, float-to-int, fcvt.d.s and RV32 single compares, which use the low bits unchecked, and for half precision arithmetic results, which are never boxed."
 },
 "C38": {
  "note": "Value and flags proved for every format, operand, rounding mode and integer type whenever the conversion completes. Missing because the code violates it: ties in round-to-nearest-ties-to-max lose the inexact flag, and the exact set of operands that execute undefined behaviour (signed negation overflow) is proved in C38_ub_violated. Rounding modes 5 and 6 (reserved) are outside the statement."
 },
 "C39": {
  "note": "Every half pattern widened to single or double keeps its value and sign exactly; NaNs become canonical and signalling NaNs raise NV. Patterns are proved to be unique per value (C39_pattern_unique)."
 },
 "C40": {
  "note": "Classification, sign injection, min/max and compares proved against the standard's definitions for every bit pattern. Violated: RV64 fclass.s leaves the upper half of rd unchanged; half precision sign injection canonicalises NaNs. fmin.h/fmax.h are not modelled (host library call)."
 },
 "C41": {
  "note": "Push, pop and push-then-pop proved for every register list, adjustment and register/memory content, RV32 and RV64, with the operand order of the RV64 description and of the unit tests. Missing because the code violates it: RV32 frames that wrap around address zero fault (C41_wrap_violated), and the RV32 instruction description passes the destinations in another order than the semantic function expects (C41_operands_violated)."
 },
 "C42": {
  "note": "Violated by every faulting push and pop (C42_push_violated, C42_pop_violated). Proved: the fault is raised, memory and all registers outside the list except sp keep their values."
 },
 "C43": {
  "note": "C43_vsetvl_partial gives vl, vtype, VLMAX and rd for every legal vtype with AVL < 2^32 and not rd = rs1 = x0; C43_bound: vl <= VLMAX after every sequence. Violations, proved in general: rd = rs1 = x0 raises vl to VLMAX; AVL is truncated to 32 bits; reserved SEW divides by zero; reserved LMUL sets no vill."
 },
 "C44": {
  "note": "Unary, binary, ternary and mask-reading element loops of riscv_vector_instruction_helpers.h, for every element operation, register group, vl, vstart and mask: active body elements get the operation's value on the original source elements, every other destination byte is kept, vstart becomes 0, and an instruction whose effective LMUL is out of range raises the vector exception and changes nothing. Hypotheses are the ISA's register-group legality and overlap rules (Spec.Ready, Spec.SourceOk)."
 },
 "C45": {
  "note": "Element operations of vssrl/vssra, vnclipu/vnclip, vsmul, vaadd(u), vasub(u), for every power-of-two width, operand, shift and vxrm: the exact result rounded as vxrm demands (Spec.Rounds), clamped with vxsat exactly when out of range. vasub wraps modulo 2^SEW, as the ISA says."
 },
 "C46": {
  "note": "Element operations and the whole instructions (C46_saturating): clamped mathematical results in every active body element, vxsat set exactly when some active element is clamped."
 },
 "C47": {
  "note": "vmadc on 8/16/32-bit elements, vmsbc on all widths, vadc, vsbc, also as whole instructions. 64-bit vmadc is violated (operator precedence bug loses the carry of the low byte); C47_vmadc64_partial gives the operands for which it is right."
 },
 "C48": {
  "note": "C48_logical_partial: body bits and prestart bits right for every nonempty body that does not start and end inside the same byte; violated for exactly those (general theorems with witnesses) and for vl = 0. C48_compare: the compares' mask loop, without restriction."
 },
 "C49": {
  "note": "Unit-stride, strided, indexed, mask and whole-register loads and stores, element by element, for any VLEN, vl, mask and addresses. Partial: hypotheses exclude inactive elements above the limit (they fault, C49_masked_violated), strides whose product overflows int64 and, for loads, a vstart inside a register (C51)."
 },
 "C50": {
  "note": "Segment loads (unit, strided, indexed) for vstart = 0 when EMUL<=1 or vl=VLMAX. Violated otherwise: C50_layout_violated (EMUL>1 and vl<VLMAX), C50_alignment_violated (odd vd), C50_empty_violated (vl=0 divides by zero)."
 },
 "C51": {
  "note": "Holds for loads when vstart is a multiple of the elements per register and for stores when the unused tail of the buffers happens to be inactive; violated otherwise (C51_load_violated, C51_store_violated, C51_indexed_load_violated for every vstart>0, C51_indexed_store_violated). Indexed and segment instructions are only proved for vstart = 0."
 },
 "C52": {
  "note": "C52_writes_partial: after every history of writes the registers show the fields of the last write. Set and clear instructions violate it (C52_setbits_violated): they work from the base class's copy, always zero."
 },
 "C60": {
  "note": "Violated by mret with cleared low mstatus bits and by the external line; partial for mip, mie, mstatus stores."
 },
 "C61": {
  "note": "Violated by an exception and its return; exact accounting (depth_step) and interrupt-only histories proved."
 },
 "C62": {
  "note": "instret and minstret have separate offsets; equal only without exceptions and writes."
 },
 "C63": {
  "note": "Line raised by every accepted request, lowered by a claim with at most one candidate; with several candidates a claim can lower the line (violated), enable writes raise it spuriously (violated)."
 },
 "C64": {
  "note": "x86: explicit mode leaks into the saved host word and persists (C64_x86_violated); ARM: the mode written to fcsr is shifted twice and lost (C64_arm_violated). RMM is executed as round-to-nearest-even. Partial theorems cover modes 0..3."
 },
 "C65": {
  "note": "Instructions with a usable mode use it (C65_mode_partial). Reserved static modes are executed, and an invalid dynamic mode makes the instruction a silent no-op instead of an illegal-instruction trap."
 },
 "C68": {
  "note": "Value proved correctly rounded in RNE, RTZ, RDN, RUP for every finite operand of single and double, and special operands. Flags: OF and NX as prescribed; UF is raised on tininess before rounding where RISC-V prescribes after rounding (C68_underflow_violated). Ties-to-max mode is rounded to even (C68_rmm_violated). Assumes the host's own division by a power of two is correctly rounded."
 },
 "C69": {
  "note": "Moves proved in full. Returns and table jumps proved for even targets and accessible entries; odd targets are not masked (C69_popret_violated) and a faulting table load still jumps (C69_jt_violated)."
 },
 "C70": {
  "note": "Segment stores for vstart = 0 and operands with enough registers. Violated for indexed segment stores with an index that has its top bit set (C70_index_sign_violated)."
 },
 "C53": {
  "note": "Patching is exact for any sequence of sets, clears and ordinary stores when the instructions at breakpoint addresses do not overlap and are not stored to. Violated otherwise: overlapping breakpoints cleared in the order set leave breakpoint bytes behind; the remembered instruction is never forgotten, so a changed program gets its old instruction back."
 },
 "C54": {
  "note": "Violated: an action point's instruction is re-executed at every step (Run never leaves it), its branch target is dropped, an interrupt in the breakpoint's cycle skips the instruction, clearing the breakpoint one is stopped at or writing the pc there plants a breakpoint instruction. Proved for execution between action points and for stopping at and resuming from breakpoints, over an arbitrary machine. Not modelled: retried instructions, asynchronous halt requests."
 },
 "C55": {
  "note": "Refinement to a capacity-bounded list of runs, for all histories of branches and resizes, when addresses fit 32 bits and there are fewer than 2^32 events. Violated for 64-bit addresses (truncated, never merged) and when a count reaches 2^32."
 },
 "C56": {
  "note": "Complete for flat memory and any limit that set_max_physical_address can produce."
 },
 "C57": {
  "note": "Handlers are arbitrary state transformers. In the reserved privilege mode 2 a declined ecall does nothing (C57_ecall_reserved_mode). wfi and cease covered as well."
 },
 "C58": {
  "note": "Every field and overlay of every format round trips with a frame condition (C58_field_round_trip, all formats). Operand level: every operand of the RV64G assembler except the four placed in a wrong field; missing or wrong names and refused numbers are stated as violations. The external format compiler's Insert/Extract functions are modelled from the format files."
 },
 "C72": {
  "note": "Register operands proved; immediates and branch targets are never range checked (violated, general theorem)."
 },
 "C73": {
  "note": "Integer and single precision register operands proved; double precision names are never accepted (violated for every register). CSR operand names are covered by C58 violations only."
 },
 "C59": {
  "note": "For all 21 decoders and every 32-bit word: no two entries match the word unless their pair is in an explicit list (C59_unambiguous_partial); the compressed decoders of RV32G/RV64G and their variants, Zfh and Zvbb have an empty list, so the property holds in full there (C59_unambiguous, C59_unambiguous_decoders). For the others it is violated: every listed pair has a word matching both (C59_overlaps_violated). Which of the two the generated decoder then picks is decided by the mpact-sim generator and is not modelled. The pair checks run in the kernel over checkers proved sound for all words. C59_same_instruction: outside RVM23, entries sharing a word always stand for the same instruction."
 },
 "C71": {
  "note": "For all 20 decoders and all words: an entry matches only words the listing (Isa.enc, written from the manuals) gives to its instruction, and every listed word of an instruction with an entry is matched, up to exact lists of deviating entries (Modules.unsound) and missed words (Modules.gaps). Each deviating entry is shown to decode a foreign word; representative missed words are shown undecoded by any entry. Missing for the full claim: the code itself deviates, so it is false; which of two overlapping entries wins is not modelled."
 },
 "C67": {
  "note": "The host's fma and multiplication enter as the hypothesis Ieee (satisfiable: ieee_exists), a bit-exact rendering of IEEE 754. Single precision proved in full (C67_single), vector fused multiply-adds except that a NaN result need not be the canonical one (C67_vector_partial). Double precision proved outside four cases, each violated in general: opposite zeros when rounding down (C67_down_violated), fnmadd/fnmsub whose exact sum is zero (C67_nmadd_cancel_violated, C67_nmsub_cancel_violated), fnmsub of a zero product and -0 (C67_nmsub_zero_violated), every inexact fnmadd/fnmsub rounding up or down (C67_*_directed_violated). Half precision is C81."
 },
 "C74": {
  "note": "Square root proved. Fused multiply-adds proved except for infinity times zero plus a NaN (their submission of the flag is lost at the end of the scope of the host status, C74_scope), the double precision ones also except for signalling NaNs, where they raise nothing; conversions and vector square root violated. Assumes a host conforming to IEEE 754 (structure Ieee, proved satisfiable)."
 },
 "C75": {
  "note": "Scalar sum, difference, product, quotient and square root proved under the host contract Ieee (proved satisfiable). Vector results are right but NaNs are not canonicalised."
 },
 "C76": {
  "note": "Values of the truncating forms proved whenever defined; undefined exactly for 2^n (n = 31, 32, 63, 64 with a shorter significand). Inexact flag missing and rounding mode ignored: proved as general violations."
 },
 "C77": {
  "note": "Proved: values and error below 2^-7 outside table entry 88 (rsqrt) and outside subnormal results (rec); flags of vfrsqrt7 except +inf and quiet NaNs. Violated in general: entry 88, subnormal reciprocals, flags of vfrec7."
 },
 "C78": {
  "note": "Proved for vstart = 0 and vl > 0: all eight integer reductions; widening sums whose scalar fits the narrow type with LMUL at most 4; ordered sums (under the IEEE assumption on the host's addition); minimum and maximum without signalling NaNs or zeros of different signs. The deviations are the violated theorems."
 },
 "C79": {
  "note": "Minimum, maximum (values and flags) and sign injection in full for given operands; compares without flags; merge with the operand as described. Violated: vfmerge.vfm, the compares' flags, unboxed scalars."
 },
 "C84": {
  "note": "Proved for all words of all encoding classes except the listed operands, for which the negation is proved."
 },
 "C66": {
  "note": "Whole tables of the descriptions and of the operand positions used in the text of the semantic functions (tools/gen_operands.py), all twelve instruction sets of the repository. Missing: the eight instructions proved to violate the property."
 },
 "C86": {
  "note": "All groups of the description files listed in Spec.Group; the named exceptions are proved to violate the property."
 },
 "C87": {
  "note": "Proved for the plain instructions with the unit on and for the compressed ones under stated conditions; violated with FS Off, for c.flw on RV32, and for the compressed doubles of RV32 when the address wraps."
 },
 "C88": {
  "note": "Proved for unmasked forms and for groups of one register, with moderate indices and offsets; the deviations are separate theorems."
 },
 "C83": {
  "note": "Proved in full for vfmv.f.s; for the others with vstart 0 (whole-register moves: at the start of a register), on RV32 for vmv.x.s, with boxed operands and one register for vfmv.v.f. The deviations are separate theorems."
 },
 "C89": {
  "note": "Proved in full for vcpop, vfirst, vmsif, vmsof and the unmasked vmsbf; viota and vid with vstart 0."
 },
 "C85": {
  "note": "Proved in full for narrowing, widening, widening multiply-add and extension. The operations of one width without the overflowing remainder, and with a scalar as wide as the elements or read with its sign; the exceptions are separate theorems. Shift immediates for elements up to 32 bits or amounts up to 15."
 },
 "C90": {
  "note": "Proved in full for all but vandn, which needs a scalar as wide as the elements; that exception is a separate theorem."
 },
 "C91": {
  "note": "Construction never aborts and lookups by name and number return exactly the created registers (proved for all numbers and names). All numbers agree with the ISA except instreth; a list of required registers is missing; mhpmcounterNh hold out-of-range pointers."
 },
 "C92": {
  "note": "misa constant under software writes, letters, supervisor view, set of 64-bit values, jvt, medeleg and mhartid proved for all values. Xlen(), letter U, 32-bit Set, Reset, epc bit 0 and PMP locking disagree."
 },
 "C93": {
  "note": "Proved: marker recognition, unsupported operations, unknown handles, frame conditions, write, flen, isatty, errno, exit, seek below 2^31, open in mode 0, command line contents, full reads. Violated parts as in the disagreements list."
 },
 "C94": {
  "note": "Recognition, end of run, write, pwrite, read, pread, lseek, exit proved for all parameters with lengths below 2^31; open proved up to the use of its descriptor. Violations as general theorems, the unusable descriptors by an invariant over all histories."
 },
 "C95": {
  "note": "Round trip, frame, refusals, branch trace size, names and escaping proved in full; numbers and sizes for the registers that have right ones; cache for vectors up to 128 bits. Control and status registers with side effects are not covered by the round trip; sizes of the branch trace above 2^31 and the halt reason are not modelled."
 },
 "C80": {
  "note": "All nine instructions, all operands and directions, assuming an IEEE 754 host; NaN results are not canonical (violated) and therefore the rest is partial. Element loop and masking: C44."
 },
 "C81": {
  "note": "Sums, differences, products, quotients, square roots and integer conversions are correct for all operands in the four modes the host has; fused multiply-adds in the three directed modes, and to nearest if the exact result has at most 24 significant bits (violated otherwise). The mode 'ties away' is violated. Assumes an IEEE 754 host whose fma is the single precision one. The flags of these instructions are not covered."
 },
 "C82": {
  "note": "Scalar conversions and integers are covered fully, assuming a host whose casts are as IEEE 754 says. vfncvt.rod is right for NaN, infinity, zero and, in the normal range, where the lower neighbour is even or nearest (violated otherwise, and for large and small numbers). Its flags, and those of the other conversions, are not covered; see C36."
 },
 "C96": {
  "note": "Proved for every history whose stores touch no instruction fetched before (breakpoints may replace the instruction at their own address), and the exceptions for addresses not in the cache, taken in machine mode. Violated in general: fence.i, breakpoints inside an instruction, instructions across the limit, a lowered limit. The decode cache of mpact-sim is assumed to keep an instruction until it is invalidated or evicted."
 },
 "C97": {
  "note": "Proved for executables without a GNU_STACK segment (in the 32-bit simulators: with both flags given). With a segment, and in the 32-bit simulators without flags, the code violates the property (C97_segment_violated, C97_segment_witness_violated, C97_symbols_violated)."
 },
 "C98": {
  "note": "Proved for every integer constant but 0 (value if below 2^64, refused otherwise) and, for texts starting with 1 to 9, that the longest number at the front is what is read. 0 is refused and texts that are no numbers are accepted (C98_zero_violated, C98_accepted_violated)."
 },
 "C99": {
  "note": "Proved: an exit code stored over the first byte of tohost ends the run with its code after any history of unrelated stores (rv32gv_sim: atomics only; Renode: not atomics), and in Renode nothing else does. The rest is violated (C99_vector_violated, C99_renode_atomic_violated, C99_any_value_violated, C99_other_byte_violated, C99_released_violated)."
 },
 "C100": {
  "note": "Proved in full."
 },
 "C101": {
  "note": "Proved for symbols of two or more characters and the pairs of instruction and function the code handles, refusals of addi and sd, and numbers. The rest is violated (C101_one_letter_violated, C101_loads_stores_branches_violated, C101_wrong_function_violated, C101_space_violated)."
 },
 "C102": {
  "note": "Numbers, kinds and read-only marks proved for the whole table; widths are wrong for every register of a 64-bit hart and for the floating-point registers (C102_width_violated)."
 },
 "C103": {
  "note": "Proved for every machine and number of steps, with and without a breakpoint to step over."
 },
 "C104": {
  "note": "Proved when execution does not resume at a breakpoint, and when it does but the instruction there makes no request. The request of that instruction is lost (C104_lost_violated)."
 },
 "C105": {
  "note": "Proved for every history of such calls, results included, and that refused calls change nothing."
 },
 "C106": {
  "note": "Proved: removing both kinds where both are set. The rest is violated (C106_clear_violated, C106_empty_violated, C106_atomic_violated, C106_debugger_violated)."
 },
 "C107": {
  "note": "Proved when execution does not resume at a breakpoint. The transfer made by the instruction there is recorded with a wrong target (C107_breakpoint_violated)."
 },
 "C108": {
  "note": "Proved for all register contents."
 },
 "C109": {
  "note": "Proved for all lines except the rows listed in Spec.Deviates. Each of those is violated, by a general theorem or a witness."
 },
 "C110": {
  "note": "All texts without sign; a text that starts with a number of more than 64 bits is refused even if it is a symbol (hypothesis of C110_symbol; cannot happen for names unless the base is 16)."
 },
 "C111": {
  "note": "Partial: objects that lie in the memory as a whole; f and i formats are not covered (the result only says what is to be printed)."
 },
 "C112": {
  "note": "Partial: values that fit the width, objects that lie in the memory as a whole."
 },
 "C113": {
  "note": "Partial: with d, elements that are not negative."
 },
 "C114": {
  "note": "Partial: formats d, u, x, X and values that fit the width."
 },
 "C115": {
  "note": "Partial: histories without the empty stretch at address 0 and without `watch clear VALUE` that finds an inactive entry first while the address is watched."
 },
 "C116": {
  "note": "Partial: histories without clear-all, indices below 2^31. Assumes that mpact-sim's ActionPointManager never hands out an id in use at the address."
 },
 "C117": {
  "note": "Partial: files all of whose lines end with a newline, lines of at most 511 characters; commands added with AddCommand are left out."
 },
 "C118": {
  "note": "Partial as C55: addresses of at most 32 bits and fewer than 2^32 events (C55_wide_violated, C55_count_violated)."
 },
 "C119": {
  "note": "No interrupt is available and no trap callback is installed during the turn; the word is read from memory in each turn (the decode cache is not modelled here, so a program that overwrites instructions already executed is outside). mpact-sim's operand objects and instruction dispatch are assumed to do what they document."
 },
 "C120": {
  "note": "As C119; compressed floating-point loads and stores, c.ebreak and the Zcb/Zcmp forms are not included."
 },
 "C121": {
  "note": "Proved for all other instructions of the extensions, except the operands for which clmulr (RV32) and cpopw give wrong results (C29)."
 },
 "C122": {
  "note": "Proved for all lists in which every context has its semicolon and the enables are 0 or 1; the rest is violated."
 },
 "C123": {
  "note": "Loads proved for all contexts below 3584 and all sources; eight byte loads proved; eight byte stores violated. Sizes other than 1, 2, 4 and 8 are not modelled."
 },
 "C124": {
  "note": "Proved for every other case: left out are returns that should clear MPRV, sret in machine mode, misaligned and out-of-range atomics (each with its own theorem here or in C15) and fences with reserved fields set. The run theorem supposes that every program counter on the way is even."
 },
 "C125": {
  "note": "Proved for every access to the machine and supervisor trap registers, mstatus, mie, the delegation registers, reads of mip, sstatus (reads say what the supervisor's fields are, not that the others are 0), and all registers with masks. sie and sip are covered when all bits set are delegated and none is cleared, and sip when only SSIP is written (C09); writes to mip and sip while the external line is low (C08), and without MSIP. Left out: counters and fcsr and the other registers with their own classes, values of mepc, sepc, mtvec and stvec the register must not hold (C92), and the two violated cases."
 },
 "C126": {
  "note": "C126_unassigned32 (RV32G, RV32GZB, RV64G) and C126_unassigned16 (all RV64 cores) are complete; for the other decoders the words matched by the entries C71 lists as too wide are left out. C126_missed_violated shows that words of implemented instructions can raise the exception."
 },
 "C127": {
  "note": "C127_step_partial and C127_run_partial assume that the unit is on and leave out fclass.s of a register that is not boxed (on RV64 also into a register with a nonzero upper half) and on RV32 single-precision comparisons of registers that are not boxed, where the code deviates (the violated theorems say what it does). FS becoming Dirty is not part of the effect, as the code never does it. Compressed loads and stores are not covered here (C87)."
 },
 "C128": {
  "note": "C128_binary and C128_sqrt hold without restriction. C128_fma_single_partial leaves out infinity times zero plus a NaN, where the flag is submitted and then lost (C74); C128_fma_double_partial also leaves out signalling operands and, for fnmadd.d and fnmsub.d, rounding up and down, where the code deviates."
 },
 "C129": {
  "note": "C129_step_partial and C129_run_partial leave out the unit being off, ties away from zero, the dynamic rounding mode after a reserved mode was written to frm, and the cases of fused multiply-adds in which C67, C74 and C128 show the code to deviate. The host's own arithmetic is assumed to follow IEEE 754 (Ieee); that such a host exists is arith_exists."
 },
 "C130": {
  "note": "C130_step_partial and C130_run_partial leave out the unit being off and the cases of WrongV, each of which is shown to go wrong: the dynamic rounding mode after a reserved mode was written to frm, unboxed operands, ties away from zero, undefined negations and signalling NaNs between the precisions. The host's own conversions are assumed to follow IEEE 754 (IeeeV); that such a host exists is cvt_exists."
 },
 "C131": {
  "note": "C131_step_partial and C131_run_partial leave out the unit being off and setting or clearing bits of fcsr, both of which are shown to go wrong; C131_valid_partial needs the dynamic mode to be valid before, and C131_again_violated shows why."
 },
 "C132": {
  "note": "Partial because the code misses interrupts after some returns and delegation changes and takes withdrawn ones; not covered are the external supervisor line (C11, C60) and the instructions outside C131."
 },
 "C133": {
  "note": "Partial because mepc and sepc keep odd numbers (C133_odd_violated); the instructions outside C131 are not covered."
 },
 "C134": {
  "note": "Partial because of the violated cases: integer destinations in rv64g, rv64gv and rv32gv, upper halves kept by c.flw and c.flwsp, addresses of RV32 that do not wrap, and the unit being off."
 },
 "C135": {
  "note": "Reading of lines and switching are proved for all sessions. Partial because disabling the counters is visible to the program, planned addresses count twice and the instruction profile records nothing."
 },
 "C136": {
  "note": "Settings, memory map, acceptance, profile switch and memory contents are proved for all settings and histories. Partial because of the deviations listed under Disagreements; where an access goes that lies partly in a target of the router is left open."
 },
 "C137": {
  "note": "Combines C131 to C134 into one statement from the constructed state. Missing: the instructions outside these claims (vector, Zfh, Zcmp), the exceptions of each claim, and the run-time conditions MeantQ, Overlooks, NoOdd and Withdraws, which are assumed at every step of the run rather than derived from the program."
 },
 "C138": {
  "note": "Partial: breakpoints that do not overlap and are not stored to (C53), none inside the instruction looked at, cache up to date (C96), no store watchpoint on a breakpoint's instruction. The instruction is the word decoded; its text, addresses that cannot be decoded and evictions are left out. Violated otherwise."
 },
 "C139": {
  "note": "Partial: legal types with the bits above 7 clear, application vector lengths below 2^32, registers of less than 2^25 bytes, not rd = rs1 = x0; the loop is vsetvli, sub, bne with nothing between. Violated: vstart is not cleared; rd = rs1 = x0 does not keep vl."
 },
 "C140": {
  "note": "Partial: element widths and groups for which the instruction is legal; not 64-bit elements with an integer register in the unsigned operations on RV32, not vrem of the least 32- or 64-bit integer by -1 (C85). Violated: shifts of 64-bit elements by immediates of 16 and above."
 },
 "C141": {
  "note": "Partial: element widths and groups for which the instruction is legal; not vmacc and its like with 64-bit elements and an integer register on RV32 (C85). vwmaccus with a vector operand, which the decoder accepts, is not an instruction of the manual and is left out."
 },
 "C142": {
  "note": "Partial: vstart at a register boundary for loads and 0 for stores (C51), no address (also of inactive elements) above the limit (C49), products within 64 bits; no vle64 and its like on RV32 (not in the decoder). Violated: fault-only-first, wrapping on RV32."
 },
 "C143": {
  "note": "All executions of four turns of the model of C142. The conditions are in the statement; the program is fixed (straight-line code of four instructions)."
 },
 "C144": {
  "note": "Partial: vl > 0, vstart 0; for the widening sums a scalar that fits the narrow width and LMUL up to 4 (C78). Violated: vl = 0, vstart other than 0, wide scalars."
 },
 "C145": {
  "note": "Partial: at least one bit to write, and vstart not inside of the byte that holds the last bit (C48). Violated in these two cases."
 }
}