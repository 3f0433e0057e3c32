{
 "claims": [
  {
   "property": "C01",
   "status": "proved",
   "theorems": [
    "Verif.Csr.C01_masked_history",
    "Verif.Csr.C01_readonly_bits_constant",
    "Verif.Csr.C01_read",
    "Verif.Csr.C01_data_buffer"
   ],
   "note": "Parametric in the CSR width; accessors at least as wide as the CSR. Narrow accessors are C02."
  },
  {
   "property": "C02",
   "status": "partial",
   "theorems": [
    "Verif.Csr.C02_upper_half_violated",
    "Verif.Csr.C02_narrow_access_exact",
    "Verif.Csr.C02_upper_half_partial"
   ],
   "note": "The code violates the property (upper half is cleared); exact behaviour and a partial theorem are proved."
  },
  {
   "property": "C03",
   "status": "proved",
   "theorems": [
    "Verif.Csr.C03_shadow_history",
    "Verif.Csr.C03_shadow_protects",
    "Verif.Csr.C03_shadow_read"
   ],
   "note": "Primary is a simple CSR of the same width."
  },
  {
   "property": "C04",
   "status": "proved",
   "theorems": [
    "Verif.CsrSet.C04_registry_refines",
    "Verif.CsrSet.C04_no_ub"
   ],
   "note": "Refinement to a single collection, plus absence of the undefined erase."
  },
  {
   "property": "C05",
   "status": "proved",
   "theorems": [
    "Verif.XStatus.C05_views_agree",
    "Verif.XStatus.C05_getters",
    "Verif.XStatus.C05_write",
    "Verif.XStatus.C05_xl_constant"
   ],
   "note": "Both views, getters, CSR operations at bit level and the SXL/UXL history."
  },
  {
   "property": "C06",
   "status": "proved",
   "theorems": [
    "Verif.XStatus.C06_submit"
   ],
   "note": "All batches of field setters from every reachable state."
  },
  {
   "property": "C07",
   "status": "partial",
   "theorems": [
    "Verif.XStatus.C07_sstatus_read_violated",
    "Verif.XStatus.C07_sstatus_read_partial",
    "Verif.XStatus.C07_sstatus_write",
    "Verif.XStatus.C07_machine_fields_protected"
   ],
   "note": "Writes proved for all histories; reads expose machine fields (violated), the supervisor fields are right (partial)."
  },
  {
   "property": "C08",
   "status": "partial",
   "theorems": [
    "Verif.Xip.C08_seip_reads_or",
    "Verif.Xip.C08_seip_latched_violated",
    "Verif.Xip.C08_seip_latched_csr_violated",
    "Verif.Xip.C08_seip_partial"
   ],
   "note": "The code latches the external line on CSR writes (violated)."
  },
  {
   "property": "C09",
   "status": "partial",
   "theorems": [
    "Verif.Xip.C09_sip_write_exact",
    "Verif.Xip.C09_sie_write_exact",
    "Verif.Xip.C09_sip_clear_violated",
    "Verif.Xip.C09_sip_preserve_violated",
    "Verif.Xip.C09_sie_clear_violated",
    "Verif.Xip.C09_sie_machine_violated",
    "Verif.Xip.C09_sip_write_partial",
    "Verif.Xip.C09_sie_write_partial"
   ],
   "note": "sip/sie writes are wrong for non-delegated and cleared bits (violated); exact behaviour proved."
  },
  {
   "property": "C10",
   "status": "proved",
   "theorems": [
    "Verif.Hart.C10_check_spec",
    "Verif.Hart.C10_available_iff",
    "Verif.Hart.C10_priority"
   ],
   "note": "Refinement of the evaluation to a per-interrupt specification, for the three legal modes."
  },
  {
   "property": "C11",
   "status": "partial",
   "theorems": [
    "Verif.Hart.C11_stale_violated",
    "Verif.Hart.C11_spurious_trap_violated",
    "Verif.Hart.C11_fresh_partial"
   ],
   "note": "Violated: a report is never withdrawn. Partial: histories in which no event withdraws the reported interrupt."
  },
  {
   "property": "C12",
   "status": "proved",
   "theorems": [
    "Verif.Hart.C12_trap_machine",
    "Verif.Hart.C12_trap_supervisor"
   ],
   "note": "Every reachable state, both destination levels, exact mstatus fields and frame conditions."
  },
  {
   "property": "C13",
   "status": "partial",
   "theorems": [
    "Verif.Hart.C13_exception",
    "Verif.Hart.C13_interrupt_partial",
    "Verif.Hart.C13_interrupt_violated",
    "Verif.Hart.C13_reserved_mode_violated"
   ],
   "note": "Exceptions proved; interrupts proved for fresh reports; violated for stale reports."
  },
  {
   "property": "C14",
   "status": "proved",
   "theorems": [
    "Verif.Hart.C14_mret_roundtrip",
    "Verif.Hart.C14_sret_roundtrip"
   ],
   "note": "mret after any trap to M, sret after any trap to S from U or S."
  },
  {
   "property": "C15",
   "status": "partial",
   "theorems": [
    "Verif.Hart.C15_mret",
    "Verif.Hart.C15_sret_partial",
    "Verif.Hart.C15_sret_rv32_machine_violated",
    "Verif.Hart.C15_sret_tsr_machine_violated",
    "Verif.Hart.C15_sret_rv64_machine",
    "Verif.Hart.C15_sfence"
   ],
   "note": "mret and sfence.vma proved; sret violated in machine mode (RV32 always, RV64 with TSR)."
  },
  {
   "property": "C16",
   "status": "partial",
   "theorems": [
    "Verif.Hart.C16_exception_vectored_violated",
    "Verif.Hart.C16_entry_partial"
   ],
   "note": "Violated: exceptions are vectored too. Interrupts and non-vectored modes proved."
  },
  {
   "property": "C17",
   "status": "partial",
   "theorems": [
    "Verif.Zicsr.C17_privilege_partial",
    "Verif.Zicsr.C17_readonly_violated",
    "Verif.Zicsr.C17_nonexistent_violated"
   ],
   "note": "Privilege and satp/TVM refusals proved with no side effects; writes to read-only CSRs and nonexistent CSRs do not trap in the code (violated)."
  },
  {
   "property": "C18",
   "status": "proved",
   "theorems": [
    "Verif.Zicsr.C18_rmw"
   ],
   "note": "Plain CSRs, all six instructions, bit level."
  },
  {
   "property": "C19",
   "status": "partial",
   "theorems": [
    "Verif.Counter.C19_retirement",
    "Verif.Counter.C19_written_plus_elapsed",
    "Verif.Counter.C19_event",
    "Verif.Counter.C19_pair_partial",
    "Verif.Counter.C19_low_then_high"
   ],
   "note": "Single-CSR counters for every history; RV32 pairs for histories without the carry defect of C20."
  },
  {
   "property": "C20",
   "status": "partial",
   "theorems": [
    "Verif.Counter.C20_high_write",
    "Verif.Counter.C20_low_write_partial",
    "Verif.Counter.C20_low_write_violated",
    "Verif.Counter.C20_exception_violated"
   ],
   "note": "High-half writes are exact; low-half writes and exceptions disturb the high half (violated)."
  },
  {
   "property": "C21",
   "status": "partial",
   "theorems": [
    "Verif.Clint.C21_software",
    "Verif.Clint.C21_timer_partial",
    "Verif.Clint.C21_refresh_partial",
    "Verif.Clint.C21_rate",
    "Verif.Clint.C21_stale_violated"
   ],
   "note": "Software line and rate for every history; timer line exact after each clock update or mtimecmp access that refreshes it (partial), stale after mtime writes or reset (violated witness)."
  },
  {
   "property": "C22",
   "status": "partial",
   "theorems": [
    "Verif.Clint.C22_roundtrip_partial",
    "Verif.Clint.C22_other_registers",
    "Verif.Clint.C22_outside",
    "Verif.Clint.C22_load8",
    "Verif.Clint.C22_store8_violated"
   ],
   "note": "1/2/4-byte accesses and 8-byte loads; 8-byte stores drop the high word (violated)."
  },
  {
   "property": "C23",
   "status": "partial",
   "theorems": [
    "Verif.Plic.C23_claim_partial",
    "Verif.Plic.C23_config_violated"
   ],
   "note": "Every history of good operations (no pending-register writes, enabling configuration only), any number of sources and contexts. Configuration with enable 0 makes a disabled source claimable (violated)."
  },
  {
   "property": "C24",
   "status": "partial",
   "theorems": [
    "Verif.Plic.C24_threshold_partial",
    "Verif.Plic.C24_priority_violated",
    "Verif.Plic.C24_enable_violated",
    "Verif.Plic.C24_bounds_violated"
   ],
   "note": "Thresholds round-trip. Priority registers of every source >= 1 and every enable register but the first do not read back what was stored, and some accesses are out of bounds (violated, general theorems)."
  },
  {
   "property": "C25",
   "status": "partial",
   "theorems": [
    "Verif.Plic.C25_once_partial",
    "Verif.Plic.C25_level",
    "Verif.Plic.C25_complete_partial",
    "Verif.Plic.C25_priority_violated",
    "Verif.Plic.C25_nested_violated"
   ],
   "note": "For every covered history: no second request between claim and completion; completion re-arms a level source exactly if still asserted. Violated by priority writes on a waiting level source and by nested claims."
  },
  {
   "property": "C26",
   "status": "partial",
   "theorems": [
    "Verif.Atomic.C26_atomic_violated",
    "Verif.Mem.C26_load",
    "Verif.Mem.C26_store",
    "Verif.Mem.C26_loadV_partial",
    "Verif.Mem.C26_storeV_partial",
    "Verif.Mem.C26_limit",
    "Verif.Mem.C26_limit_bound",
    "Verif.Mem.C26_masked_violated",
    "Verif.Mem.C26_straddle_violated"
   ],
   "note": "Scalar accesses and the limit setter are proved in full (C26_load, C26_store, C26_limit, C26_limit_bound). Vector accesses are proved for the faults the code raises (C26_loadV_partial, C26_storeV_partial). Violations with witnesses: masked-off elements above the limit still fault (C26_masked_violated), an access that starts below the limit and ends above it is not stopped (C26_straddle_violated), atomics are not checked at all (C26_atomic_violated)."
  },
  {
   "property": "C27",
   "status": "partial",
   "theorems": [
    "Verif.Alu.C27_op32",
    "Verif.Alu.C27_op64",
    "Verif.Alu.C27_w_partial",
    "Verif.Alu.C27_w_defined",
    "Verif.Alu.C27_w_violated",
    "Verif.Alu.C27_lui",
    "Verif.Alu.C27_auipc",
    "Verif.Alu.C27_exec32",
    "Verif.Alu.C27_exec64"
   ],
   "note": "Every RV32 and RV64 integer operation, LUI, AUIPC and the register write are proved equal to the ISA result for all operands. The RV64 word forms (ADDW, SUBW, SLLW, ...) are computed in C++ on signed 32-bit values: proved correct exactly where the C++ is defined, with a witness that overflow is undefined behaviour (C27_w_violated)."
  },
  {
   "property": "C28",
   "status": "partial",
   "theorems": [
    "Verif.MulDiv.C28_op32",
    "Verif.MulDiv.C28_op64",
    "Verif.MulDiv.C28_w_partial",
    "Verif.MulDiv.C28_w_defined",
    "Verif.MulDiv.C28_mulw_violated"
   ],
   "note": "Every RV32 and RV64 M-extension operation is proved for all operands, including division by zero and overflow. MULW multiplies signed 32-bit values, so overflow is undefined behaviour in C++: proved where defined, with a witness (C28_mulw_violated)."
  },
  {
   "property": "C29",
   "status": "partial",
   "theorems": [
    "Verif.Bitmanip.C29_un32",
    "Verif.Bitmanip.C29_un64",
    "Verif.Bitmanip.C29_bin64",
    "Verif.Bitmanip.C29_bin32_partial",
    "Verif.Bitmanip.C29_clmulr32_partial",
    "Verif.Bitmanip.C29_clmulr32_violated",
    "Verif.Bitmanip.C29_binW",
    "Verif.Bitmanip.C29_unW_partial",
    "Verif.Bitmanip.C29_cpopw_value",
    "Verif.Bitmanip.C29_cpopw_partial",
    "Verif.Bitmanip.C29_cpopw_violated",
    "Verif.Bitmanip.C29_exec",
    "Verif.Bitmanip.C29_execUn"
   ],
   "note": "All RV64 forms and all RV32 forms except two proved against bit-level definitions. clmulr on RV32 is proved exactly when it is right (C29_clmulr32_partial, an iff) with a witness of the wrong case. cpopw returns the count of the 64-bit register in one implementation (C29_cpopw_violated)."
  },
  {
   "property": "C30",
   "status": "partial",
   "theorems": [
    "Verif.Bitmanip.C30_un",
    "Verif.Bitmanip.C30_bin",
    "Verif.Bitmanip.C30_binW",
    "Verif.Bitmanip.C30_unW_b64",
    "Verif.Bitmanip.C30_unW_partial",
    "Verif.Bitmanip.C30_cpopw_violated"
   ],
   "note": "Every pair of implementations proved equal except cpopw, where they differ (C30_cpopw_violated); C30_unW_partial covers the remaining unary word operations."
  },
  {
   "property": "C31",
   "status": "partial",
   "theorems": [
    "Verif.Control.C31_jal",
    "Verif.Control.C31_jalr",
    "Verif.Control.C31_branch_partial",
    "Verif.Control.C31_branch_tval_violated"
   ],
   "note": "jal and jalr proved in full. Branches: everything but the reported trap value (C31_branch_partial); for a misaligned target the code reports the pc of the branch rather than the target (C31_branch_tval_violated)."
  },
  {
   "property": "C32",
   "status": "proved",
   "theorems": [
    "Verif.Mem.C32_load",
    "Verif.Mem.C32_store",
    "Verif.Mem.C32_roundtrip",
    "Verif.Mem.C32_disjoint"
   ],
   "note": "Proved for all sizes, both extensions, all addresses including wrap-around, with the frame condition."
  },
  {
   "property": "C33",
   "status": "proved",
   "theorems": [
    "Verif.Atomic.C33_unsupported",
    "Verif.Atomic.C33_amo",
    "Verif.Atomic.C33_amo_memory",
    "Verif.Atomic.C33_lr",
    "Verif.Atomic.C33_sc"
   ],
   "note": "Proved for every atomic instruction, both sizes and both register widths. The memory side is mpact-sim's and enters as the hypothesis Spec.Contract, shown satisfiable by simpleDev_ok. The unsupported case needs no assumption."
  },
  {
   "property": "C34",
   "status": "partial",
   "theorems": [
    "Verif.FpState.C34_views_partial",
    "Verif.FpState.C34_hosts",
    "Verif.FpState.C34_spec_sanity",
    "Verif.FpState.C34_fcsr_set_violated",
    "Verif.FpState.C34_fcsr_set_partial"
   ],
   "note": "View equations proved for every history of writes and FP operations, on any host interface meeting HostOk (both shipped ones do). Violated: CSR set/clear-bits on fcsr itself works on the stored word, not on the accrued host flags, so flags raised by arithmetic are dropped (C34_fcsr_set_violated); C34_fcsr_set_partial says exactly when it is right."
  },
  {
   "property": "C35",
   "status": "partial",
   "theorems": [
    "Verif.FpState.C35_valid_partial",
    "Verif.FpState.C35_invalid_partial",
    "Verif.FpState.C35_violated"
   ],
   "note": "If the mode is reported valid then frm holds 0..4 and is the mode used, after any history (C35_valid_partial). The converse fails: writing a reserved mode and then the previous mode leaves it invalid (C35_violated); C35_invalid_partial shows that this is the only way it fails."
  },
  {
   "property": "C36",
   "status": "proved",
   "theorems": [
    "Verif.FpHost.C36_x86_get",
    "Verif.FpHost.C36_x86_set",
    "Verif.FpHost.C36_x86_roundtrip",
    "Verif.FpHost.C36_x86_accrue",
    "Verif.FpHost.C36_arm_get",
    "Verif.FpHost.C36_arm_set",
    "Verif.FpHost.C36_arm_roundtrip",
    "Verif.FpHost.C36_arm_accrue"
   ],
   "note": "Proved for x86 and ARM hosts, for all host words and all flag sets, including accrual through the scoped status."
  },
  {
   "property": "C37",
   "status": "partial",
   "theorems": [
    "Verif.NaNBox.C37_read",
    "Verif.NaNBox.C37_spec_unique",
    "Verif.NaNBox.C37_write_partial",
    "Verif.NaNBox.C37_write_shift",
    "Verif.NaNBox.C37_roundtrip",
    "Verif.NaNBox.C37_operand_partial",
    "Verif.NaNBox.C37_operand_violated",
    "Verif.NaNBox.C37_result_partial",
    "Verif.NaNBox.C37_half_result_violated"
   ],
   "note": "Reading and writing NaN-boxed values is proved for the generic helpers (read, write, round trip) and for the instructions that use them. Violated in general for fused multiply-add, fclass, float-to-int, fcvt.d.s and RV32 single compares, which use the low bits unchecked, and for half precision arithmetic results, which are never boxed."
  },
  {
   "property": "C38",
   "status": "partial",
   "theorems": [
    "Verif.FpConvert.C38_rounded_unique",
    "Verif.FpConvert.C38_convert_partial",
    "Verif.FpConvert.C38_ub_violated",
    "Verif.FpConvert.C38_rmm_violated",
    "Verif.FpConvert.C38_write_back"
   ],
   "note": "Value and flags proved for every format, operand, rounding mode and integer type whenever the conversion completes. Missing because the code violates it: ties in round-to-nearest-ties-to-max lose the inexact flag, and the exact set of operands that execute undefined behaviour (signed negation overflow) is proved in C38_ub_violated. Rounding modes 5 and 6 (reserved) are outside the statement."
  },
  {
   "property": "C39",
   "status": "proved",
   "theorems": [
    "Verif.HalfFp.C39_pattern_unique",
    "Verif.HalfFp.C39_widen"
   ],
   "note": "Every half pattern widened to single or double keeps its value and sign exactly; NaNs become canonical and signalling NaNs raise NV. Patterns are proved to be unique per value (C39_pattern_unique)."
  },
  {
   "property": "C40",
   "status": "partial",
   "theorems": [
    "Verif.FpClass.C40_fclass",
    "Verif.FpClass.C40_fclass_total",
    "Verif.FpClass.C40_fclass_write",
    "Verif.FpClass.C40_fclass_rv64_violated",
    "Verif.FpClass.C40_sgnj",
    "Verif.FpClass.C40_half_sgnj_violated",
    "Verif.FpClass.C40_half_sgnj_partial",
    "Verif.FpClass.C40_fmin",
    "Verif.FpClass.C40_fmax",
    "Verif.FpClass.C40_dmax",
    "Verif.FpClass.C40_compare"
   ],
   "note": "Classification, sign injection, min/max and compares proved against the standard's definitions for every bit pattern. Violated: RV64 fclass.s leaves the upper half of rd unchanged; half precision sign injection canonicalises NaNs. fmin.h/fmax.h are not modelled (host library call)."
  },
  {
   "property": "C41",
   "status": "partial",
   "theorems": [
    "Verif.Zcmp.C41_push_partial",
    "Verif.Zcmp.C41_pop_partial",
    "Verif.Zcmp.C41_roundtrip_partial",
    "Verif.Zcmp.C41_wrap_violated",
    "Verif.Zcmp.C41_operands_violated"
   ],
   "note": "Push, pop and push-then-pop proved for every register list, adjustment and register/memory content, RV32 and RV64, with the operand order of the RV64 description and of the unit tests. Missing because the code violates it: RV32 frames that wrap around address zero fault (C41_wrap_violated), and the RV32 instruction description passes the destinations in another order than the semantic function expects (C41_operands_violated)."
  },
  {
   "property": "C42",
   "status": "partial",
   "theorems": [
    "Verif.Zcmp.C42_push_violated",
    "Verif.Zcmp.C42_push_partial",
    "Verif.Zcmp.C42_pop_violated",
    "Verif.Zcmp.C42_pop_partial"
   ],
   "note": "Violated by every faulting push and pop (C42_push_violated, C42_pop_violated). Proved: the fault is raised, memory and all registers outside the list except sp keep their values."
  },
  {
   "property": "C43",
   "status": "partial",
   "theorems": [
    "Verif.VecState.C43_vsetvl_partial",
    "Verif.VecState.C43_bound",
    "Verif.VecState.C43_keep_violated",
    "Verif.VecState.C43_avl_violated",
    "Verif.VecState.C43_reserved_violated",
    "Verif.VecState.C43_vill_violated"
   ],
   "note": "C43_vsetvl_partial gives vl, vtype, VLMAX and rd for every legal vtype with AVL < 2^32 and not rd = rs1 = x0; C43_bound: vl <= VLMAX after every sequence. Violations, proved in general: rd = rs1 = x0 raises vl to VLMAX; AVL is truncated to 32 bits; reserved SEW divides by zero; reserved LMUL sets no vill."
  },
  {
   "property": "C44",
   "status": "proved",
   "theorems": [
    "Verif.VecLoop.C44_binary",
    "Verif.VecLoop.C44_mask_binary",
    "Verif.VecLoop.C44_unary",
    "Verif.VecLoop.C44_ternary",
    "Verif.VecLoop.C44_refused"
   ],
   "note": "Unary, binary, ternary and mask-reading element loops of riscv_vector_instruction_helpers.h, for every element operation, register group, vl, vstart and mask: active body elements get the operation's value on the original source elements, every other destination byte is kept, vstart becomes 0, and an instruction whose effective LMUL is out of range raises the vector exception and changes nothing. Hypotheses are the ISA's register-group legality and overlap rules (Spec.Ready, Spec.SourceOk)."
  },
  {
   "property": "C45",
   "status": "proved",
   "theorems": [
    "Verif.VecFixed.C45_vssr",
    "Verif.VecFixed.C45_vnclip",
    "Verif.VecFixed.C45_vsmul",
    "Verif.VecFixed.C45_vaadd",
    "Verif.VecFixed.C45_vasub"
   ],
   "note": "Element operations of vssrl/vssra, vnclipu/vnclip, vsmul, vaadd(u), vasub(u), for every power-of-two width, operand, shift and vxrm: the exact result rounded as vxrm demands (Spec.Rounds), clamped with vxsat exactly when out of range. vasub wraps modulo 2^SEW, as the ISA says."
  },
  {
   "property": "C46",
   "status": "proved",
   "theorems": [
    "Verif.VecFixed.C46_saturating",
    "Verif.VecFixed.C46_vsaddu",
    "Verif.VecFixed.C46_vssubu",
    "Verif.VecFixed.C46_vsadd",
    "Verif.VecFixed.C46_vssub"
   ],
   "note": "Element operations and the whole instructions (C46_saturating): clamped mathematical results in every active body element, vxsat set exactly when some active element is clamped."
  },
  {
   "property": "C47",
   "status": "partial",
   "theorems": [
    "Verif.VecFixed.C47_vadc",
    "Verif.VecFixed.C47_vsbc",
    "Verif.VecFixed.C47_vmadc",
    "Verif.VecFixed.C47_vmsbc",
    "Verif.VecFixed.C47_vmsbc64",
    "Verif.VecFixed.C47_vmadc64_partial",
    "Verif.VecFixed.C47_vmadc64_violated",
    "Verif.VecMask.C47_vmadc_partial",
    "Verif.VecMask.C47_vmsbc_elem"
   ],
   "note": "vmadc on 8/16/32-bit elements, vmsbc on all widths, vadc, vsbc, also as whole instructions. 64-bit vmadc is violated (operator precedence bug loses the carry of the low byte); C47_vmadc64_partial gives the operands for which it is right."
  },
  {
   "property": "C48",
   "status": "partial",
   "theorems": [
    "Verif.VecMask.C48_logical_partial",
    "Verif.VecMask.C48_same_byte_violated",
    "Verif.VecMask.C48_same_byte_witness_violated",
    "Verif.VecMask.C48_empty_violated",
    "Verif.VecMask.C48_empty_witness_violated",
    "Verif.VecMask.C48_compare"
   ],
   "note": "C48_logical_partial: body bits and prestart bits right for every nonempty body that does not start and end inside the same byte; violated for exactly those (general theorems with witnesses) and for vl = 0. C48_compare: the compares' mask loop, without restriction."
  },
  {
   "property": "C49",
   "status": "partial",
   "theorems": [
    "Verif.VecMem.C49_load_partial",
    "Verif.VecMem.C49_load_fault",
    "Verif.VecMem.C49_indexed_load_partial",
    "Verif.VecMem.C49_whole_register_load",
    "Verif.VecMem.C49_mask_load_partial",
    "Verif.VecMem.C49_masked_violated",
    "Verif.VecMem.C49_store_partial",
    "Verif.VecMem.C49_indexed_store_partial",
    "Verif.VecMem.C49_mask_store",
    "Verif.VecMem.C49_whole_register_store"
   ],
   "note": "Unit-stride, strided, indexed, mask and whole-register loads and stores, element by element, for any VLEN, vl, mask and addresses. Partial: hypotheses exclude inactive elements above the limit (they fault, C49_masked_violated), strides whose product overflows int64 and, for loads, a vstart inside a register (C51)."
  },
  {
   "property": "C50",
   "status": "partial",
   "theorems": [
    "Verif.VecMem.C50_segment_load_partial",
    "Verif.VecMem.C50_segment_strided_load_partial",
    "Verif.VecMem.C50_segment_indexed_load_partial",
    "Verif.VecMem.C50_alignment_violated",
    "Verif.VecMem.C50_empty_violated",
    "Verif.VecMem.C50_layout_violated"
   ],
   "note": "Segment loads (unit, strided, indexed) for vstart = 0 when EMUL<=1 or vl=VLMAX. Violated otherwise: C50_layout_violated (EMUL>1 and vl<VLMAX), C50_alignment_violated (odd vd), C50_empty_violated (vl=0 divides by zero)."
  },
  {
   "property": "C51",
   "status": "partial",
   "theorems": [
    "Verif.VecMem.C51_load_partial",
    "Verif.VecMem.C51_indexed_load_violated",
    "Verif.VecMem.C51_load_violated",
    "Verif.VecMem.C51_store_partial",
    "Verif.VecMem.C51_store_violated",
    "Verif.VecMem.C51_indexed_store_violated"
   ],
   "note": "Holds for loads when vstart is a multiple of the elements per register and for stores when the unused tail of the buffers happens to be inactive; violated otherwise (C51_load_violated, C51_store_violated, C51_indexed_load_violated for every vstart>0, C51_indexed_store_violated). Indexed and segment instructions are only proved for vstart = 0."
  },
  {
   "property": "C52",
   "status": "partial",
   "theorems": [
    "Verif.VecState.C52_writes_partial",
    "Verif.VecState.C52_setbits_violated"
   ],
   "note": "C52_writes_partial: after every history of writes the registers show the fields of the last write. Set and clear instructions violate it (C52_setbits_violated): they work from the base class's copy, always zero."
  },
  {
   "property": "C53",
   "status": "partial",
   "theorems": [
    "Verif.ActionPoint.C53_patching_partial",
    "Verif.ActionPoint.C53_restored_partial",
    "Verif.ActionPoint.C53_status",
    "Verif.ActionPoint.C53_overlap_violated",
    "Verif.ActionPoint.C53_stale_violated"
   ],
   "note": "Patching is exact for any sequence of sets, clears and ordinary stores when the instructions at breakpoint addresses do not overlap and are not stored to. Violated otherwise: overlapping breakpoints cleared in the order set leave breakpoint bytes behind; the remembered instruction is never forgotten, so a changed program gets its old instruction back."
  },
  {
   "property": "C54",
   "status": "partial",
   "theorems": [
    "Verif.RunLoop.C54_step_partial",
    "Verif.RunLoop.C54_step_past",
    "Verif.RunLoop.C54_resume_partial",
    "Verif.RunLoop.C54_stop_partial",
    "Verif.RunLoop.C54_action_violated",
    "Verif.RunLoop.C54_run_violated",
    "Verif.RunLoop.C54_cleared_violated",
    "Verif.RunLoop.C54_pc_write_violated",
    "Verif.RunLoop.C54_interrupt_violated"
   ],
   "note": "Violated: an action point's instruction is re-executed at every step (Run never leaves it), its branch target is dropped, an interrupt in the breakpoint's cycle skips the instruction, clearing the breakpoint one is stopped at or writing the pc there plants a breakpoint instruction. Proved for execution between action points and for stopping at and resuming from breakpoints, over an arbitrary machine. Not modelled: retried instructions, asynchronous halt requests."
  },
  {
   "property": "C55",
   "status": "partial",
   "theorems": [
    "Verif.BranchTrace.C55_trace_partial",
    "Verif.BranchTrace.C55_suffix",
    "Verif.BranchTrace.C55_resize",
    "Verif.BranchTrace.C55_wide_violated",
    "Verif.BranchTrace.C55_count_violated"
   ],
   "note": "Refinement to a capacity-bounded list of runs, for all histories of branches and resizes, when addresses fit 32 bits and there are fewer than 2^32 events. Violated for 64-bit addresses (truncated, never merged) and when a count reaches 2^32."
  },
  {
   "property": "C56",
   "status": "proved",
   "theorems": [
    "Verif.DebugMem.C56_read",
    "Verif.DebugMem.C56_write",
    "Verif.DebugMem.C56_reject",
    "Verif.DebugMem.C56_round_trip"
   ],
   "note": "Complete for flat memory and any limit that set_max_physical_address can produce."
  },
  {
   "property": "C57",
   "status": "proved",
   "theorems": [
    "Verif.Dispatch.C57_ebreak_accepted",
    "Verif.Dispatch.C57_ebreak_declined",
    "Verif.Dispatch.C57_ebreak_total",
    "Verif.Dispatch.C57_registration_order",
    "Verif.Dispatch.C57_ecall_accepted",
    "Verif.Dispatch.C57_ecall_declined",
    "Verif.Dispatch.C57_ecall_modes",
    "Verif.Dispatch.C57_ecall_reserved_mode",
    "Verif.Dispatch.C57_wfi",
    "Verif.Dispatch.C57_cease"
   ],
   "note": "Handlers are arbitrary state transformers. In the reserved privilege mode 2 a declined ecall does nothing (C57_ecall_reserved_mode). wfi and cease covered as well."
  },
  {
   "property": "C58",
   "status": "partial",
   "theorems": [
    "Verif.Encoding.C58_fields_cover_word",
    "Verif.Encoding.C58_field_round_trip",
    "Verif.Encoding.C58_operand_round_trip_partial",
    "Verif.Encoding.C58_upper_immediate",
    "Verif.Encoding.C58_frs2_violated",
    "Verif.Encoding.C58_frs2_always_violated",
    "Verif.Encoding.C58_rm_violated",
    "Verif.Encoding.C58_swsp_offset_violated",
    "Verif.Encoding.C58_sdsp_offset_violated",
    "Verif.Encoding.C58_negative_store_offset_violated",
    "Verif.Encoding.C58_high_jump_target_violated",
    "Verif.Encoding.C58_mnstatus_violated",
    "Verif.Encoding.C58_missing_csr_names_violated",
    "Verif.Encoding.C58_register_names_accepted",
    "Verif.Encoding.C58_numbers_accepted"
   ],
   "note": "Every field and overlay of every format round trips with a frame condition (C58_field_round_trip, all formats). Operand level: every operand of the RV64G assembler except the four placed in a wrong field; missing or wrong names and refused numbers are stated as violations. The external format compiler's Insert/Extract functions are modelled from the format files."
  },
  {
   "property": "C59",
   "status": "partial",
   "theorems": [
    "Verif.Decode.C59_same_instruction",
    "Verif.Decode.C59_unambiguous_partial",
    "Verif.Decode.C59_unambiguous",
    "Verif.Decode.C59_unambiguous_decoders",
    "Verif.Decode.C59_overlaps_violated",
    "Verif.Decode.C59_words_violated"
   ],
   "note": "For all 21 decoders and every 32-bit word: no two entries match the word unless their pair is in an explicit list (C59_unambiguous_partial); the compressed decoders of RV32G/RV64G and their variants, Zfh and Zvbb have an empty list, so the property holds in full there (C59_unambiguous, C59_unambiguous_decoders). For the others it is violated: every listed pair has a word matching both (C59_overlaps_violated). Which of the two the generated decoder then picks is decided by the mpact-sim generator and is not modelled. The pair checks run in the kernel over checkers proved sound for all words. C59_same_instruction: outside RVM23, entries sharing a word always stand for the same instruction."
  },
  {
   "property": "C60",
   "status": "partial",
   "theorems": [
    "Verif.Hart.C60_mret_missed_violated",
    "Verif.Hart.C60_ext_seip_missed_violated",
    "Verif.Hart.C60_reported_partial"
   ],
   "note": "Violated by mret with cleared low mstatus bits and by the external line; partial for mip, mie, mstatus stores."
  },
  {
   "property": "C61",
   "status": "partial",
   "theorems": [
    "Verif.Hart.C61_depth_violated",
    "Verif.Hart.C61_depth_partial"
   ],
   "note": "Violated by an exception and its return; exact accounting (depth_step) and interrupt-only histories proved."
  },
  {
   "property": "C62",
   "status": "partial",
   "theorems": [
    "Verif.Counter.C62_instret_partial",
    "Verif.Counter.C62_instret_violated"
   ],
   "note": "instret and minstret have separate offsets; equal only without exceptions and writes."
  },
  {
   "property": "C63",
   "status": "partial",
   "theorems": [
    "Verif.Plic.C63_raise_partial",
    "Verif.Plic.C63_source_partial",
    "Verif.Plic.C63_lost_violated",
    "Verif.Plic.C63_spurious_violated",
    "Verif.Plic.C63_lower_partial"
   ],
   "note": "Line raised by every accepted request, lowered by a claim with at most one candidate; with several candidates a claim can lower the line (violated), enable writes raise it spuriously (violated)."
  },
  {
   "property": "C64",
   "status": "partial",
   "theorems": [
    "Verif.FpHost.C64_x86_explicit_partial",
    "Verif.FpHost.C64_x86_dynamic_partial",
    "Verif.FpHost.C64_x86_keep_partial",
    "Verif.FpHost.C64_x86_violated",
    "Verif.FpHost.C64_arm_violated",
    "Verif.FpHost.C64_arm_explicit_partial",
    "Verif.FpHost.C64_arm_keep_partial"
   ],
   "note": "x86: explicit mode leaks into the saved host word and persists (C64_x86_violated); ARM: the mode written to fcsr is shifted twice and lost (C64_arm_violated). RMM is executed as round-to-nearest-even. Partial theorems cover modes 0..3."
  },
  {
   "property": "C65",
   "status": "partial",
   "theorems": [
    "Verif.FpState.C65_mode_partial",
    "Verif.FpState.C65_static_violated",
    "Verif.FpState.C65_dynamic_violated"
   ],
   "note": "Instructions with a usable mode use it (C65_mode_partial). Reserved static modes are executed, and an invalid dynamic mode makes the instruction a silent no-op instead of an illegal-instruction trap."
  },
  {
   "property": "C66",
   "status": "partial",
   "theorems": [
    "Verif.Operands.C66_in_range_partial",
    "Verif.Operands.C66_operands_made",
    "Verif.Operands.C66_half_violated",
    "Verif.Operands.C66_popret_violated",
    "Verif.Operands.C66_zcmp64"
   ],
   "note": "Whole tables of the descriptions and of the operand positions used in the text of the semantic functions (tools/gen_operands.py), all twelve instruction sets of the repository. Missing: the eight instructions proved to violate the property."
  },
  {
   "property": "C67",
   "status": "partial",
   "theorems": [
    "Verif.FpFma.C67_single",
    "Verif.FpFma.C67_vector_partial",
    "Verif.FpFma.C67_madd_double_partial",
    "Verif.FpFma.C67_msub_double_partial",
    "Verif.FpFma.C67_nmadd_double_partial",
    "Verif.FpFma.C67_nmsub_double_partial",
    "Verif.FpFma.C67_down_violated",
    "Verif.FpFma.C67_nmadd_cancel_violated",
    "Verif.FpFma.C67_nmsub_cancel_violated",
    "Verif.FpFma.C67_nmsub_zero_violated",
    "Verif.FpFma.C67_nmadd_directed_violated",
    "Verif.FpFma.C67_nmsub_directed_violated"
   ],
   "note": "The host's fma and multiplication enter as the hypothesis Ieee (satisfiable: ieee_exists), a bit-exact rendering of IEEE 754. Single precision proved in full (C67_single), vector fused multiply-adds except that a NaN result need not be the canonical one (C67_vector_partial). Double precision proved outside four cases, each violated in general: opposite zeros when rounding down (C67_down_violated), fnmadd/fnmsub whose exact sum is zero (C67_nmadd_cancel_violated, C67_nmsub_cancel_violated), fnmsub of a zero product and -0 (C67_nmsub_zero_violated), every inexact fnmadd/fnmsub rounding up or down (C67_*_directed_violated). Half precision is C81."
  },
  {
   "property": "C68",
   "status": "partial",
   "theorems": [
    "Verif.HalfFp.C68_narrow_partial",
    "Verif.HalfFp.C68_flags_partial",
    "Verif.HalfFp.C68_underflow_violated",
    "Verif.HalfFp.C68_rmm_violated"
   ],
   "note": "Value proved correctly rounded in RNE, RTZ, RDN, RUP for every finite operand of single and double, and special operands. Flags: OF and NX as prescribed; UF is raised on tininess before rounding where RISC-V prescribes after rounding (C68_underflow_violated). Ties-to-max mode is rounded to even (C68_rmm_violated). Assumes the host's own division by a power of two is correctly rounded."
  },
  {
   "property": "C69",
   "status": "partial",
   "theorems": [
    "Verif.Zcmp.C69_mvsa01",
    "Verif.Zcmp.C69_mva01s",
    "Verif.Zcmp.C69_popret_partial",
    "Verif.Zcmp.C69_popretz_partial",
    "Verif.Zcmp.C69_popret_violated",
    "Verif.Zcmp.C69_jt_partial",
    "Verif.Zcmp.C69_jt_violated"
   ],
   "note": "Moves proved in full. Returns and table jumps proved for even targets and accessible entries; odd targets are not masked (C69_popret_violated) and a faulting table load still jumps (C69_jt_violated)."
  },
  {
   "property": "C70",
   "status": "partial",
   "theorems": [
    "Verif.VecMem.C70_segment_store_partial",
    "Verif.VecMem.C70_segment_strided_store_partial",
    "Verif.VecMem.C70_segment_indexed_store_partial",
    "Verif.VecMem.C70_index_sign_violated"
   ],
   "note": "Segment stores for vstart = 0 and operands with enough registers. Violated for indexed segment stores with an index that has its top bit set (C70_index_sign_violated)."
  },
  {
   "property": "C71",
   "status": "partial",
   "theorems": [
    "Verif.Decode.C71_decoded_partial",
    "Verif.Decode.C71_decoded",
    "Verif.Decode.C71_decoded_decoders",
    "Verif.Decode.C71_implemented_partial",
    "Verif.Decode.C71_implemented",
    "Verif.Decode.C71_exact_partial",
    "Verif.Decode.C71_decoded_violated",
    "Verif.Decode.C71_implemented_violated",
    "Verif.Decode.C71_segment_ff_violated"
   ],
   "note": "For all 20 decoders and all words: an entry matches only words the listing (Isa.enc, written from the manuals) gives to its instruction, and every listed word of an instruction with an entry is matched, up to exact lists of deviating entries (Modules.unsound) and missed words (Modules.gaps). Each deviating entry is shown to decode a foreign word; representative missed words are shown undecoded by any entry. Missing for the full claim: the code itself deviates, so it is false; which of two overlapping entries wins is not modelled."
  },
  {
   "property": "C72",
   "status": "partial",
   "theorems": [
    "Verif.Encoding.C72_unrepresentable_immediate_violated",
    "Verif.Encoding.C72_never_refused_violated",
    "Verif.Encoding.C72_far_branch_violated",
    "Verif.Encoding.C72_odd_branch_violated",
    "Verif.Encoding.C72_registers_partial"
   ],
   "note": "Register operands proved; immediates and branch targets are never range checked (violated, general theorem)."
  },
  {
   "property": "C73",
   "status": "partial",
   "theorems": [
    "Verif.Encoding.C73_printed_names_partial",
    "Verif.Encoding.C73_double_registers_violated"
   ],
   "note": "Integer and single precision register operands proved; double precision names are never accepted (violated for every register). CSR operand names are covered by C58 violations only."
  },
  {
   "property": "C74",
   "status": "partial",
   "theorems": [
    "Verif.FpArith.C74_sqrt",
    "Verif.FpArith.C74_scope",
    "Verif.FpArith.C74_fma_single_partial",
    "Verif.FpArith.C74_fma_single_violated",
    "Verif.FpArith.C74_fma_double_partial",
    "Verif.FpArith.C74_fma_double_violated",
    "Verif.FpArith.C74_convert_violated",
    "Verif.FpArith.C74_vsqrt_violated",
    "Verif.FpArith.C74_vsqrt_partial"
   ],
   "note": "Square root proved. Fused multiply-adds proved except for infinity times zero plus a NaN (their submission of the flag is lost at the end of the scope of the host status, C74_scope), the double precision ones also except for signalling NaNs, where they raise nothing; conversions and vector square root violated. Assumes a host conforming to IEEE 754 (structure Ieee, proved satisfiable)."
  },
  {
   "property": "C75",
   "status": "partial",
   "theorems": [
    "Verif.FpArith.C75_binary",
    "Verif.FpArith.C75_sqrt",
    "Verif.FpArith.C75_vector_partial",
    "Verif.FpArith.C75_vector_violated"
   ],
   "note": "Scalar sum, difference, product, quotient and square root proved under the host contract Ieee (proved satisfiable). Vector results are right but NaNs are not canonicalised."
  },
  {
   "property": "C76",
   "status": "partial",
   "theorems": [
    "Verif.VecCvt.C76_ub_violated",
    "Verif.VecCvt.C76_rtz_value_partial",
    "Verif.VecCvt.C76_rtz_flags_partial",
    "Verif.VecCvt.C76_inexact_violated",
    "Verif.VecCvt.C76_mode_value_partial",
    "Verif.VecCvt.C76_mode_violated"
   ],
   "note": "Values of the truncating forms proved whenever defined; undefined exactly for 2^n (n = 31, 32, 63, 64 with a shorter significand). Inexact flag missing and rounding mode ignored: proved as general violations."
  },
  {
   "property": "C77",
   "status": "partial",
   "theorems": [
    "Verif.VecEst.C77_rsqrt_value_partial",
    "Verif.VecEst.C77_rsqrt_accuracy_partial",
    "Verif.VecEst.C77_rsqrt_table_violated",
    "Verif.VecEst.C77_rsqrt_flags_partial",
    "Verif.VecEst.C77_rsqrt_flags_violated",
    "Verif.VecEst.C77_rec_value_partial",
    "Verif.VecEst.C77_rec_accuracy_partial",
    "Verif.VecEst.C77_rec_subnormal_violated",
    "Verif.VecEst.C77_rec_flags_violated"
   ],
   "note": "Proved: values and error below 2^-7 outside table entry 88 (rsqrt) and outside subnormal results (rec); flags of vfrsqrt7 except +inf and quiet NaNs. Violated in general: entry 88, subnormal reciprocals, flags of vfrec7."
  },
  {
   "property": "C78",
   "status": "partial",
   "theorems": [
    "Verif.VecRed.C78_int_partial",
    "Verif.VecRed.C78_empty_violated",
    "Verif.VecRed.C78_vstart_violated",
    "Verif.VecRed.C78_wide_partial",
    "Verif.VecRed.C78_wide_scalar_violated",
    "Verif.VecRed.C78_wide_lmul_violated",
    "Verif.VecRed.C78_fsum_partial",
    "Verif.VecRed.C78_fwsum_partial",
    "Verif.VecRed.C78_minmax_partial",
    "Verif.VecRed.C78_snan_violated",
    "Verif.VecRed.C78_zero_violated"
   ],
   "note": "Proved for vstart = 0 and vl > 0: all eight integer reductions; widening sums whose scalar fits the narrow type with LMUL at most 4; ordered sums (under the IEEE assumption on the host's addition); minimum and maximum without signalling NaNs or zeros of different signs. The deviations are the violated theorems."
  },
  {
   "property": "C79",
   "status": "partial",
   "theorems": [
    "Verif.VecFp.C79_minmax",
    "Verif.VecFp.C79_sgnj",
    "Verif.VecFp.C79_merge_partial",
    "Verif.VecFp.C79_merge_violated",
    "Verif.VecFp.C79_compare_partial",
    "Verif.VecFp.C79_compare_flags_violated",
    "Verif.VecFp.C79_unboxed_violated",
    "Verif.VecFp.C79_boxed_partial"
   ],
   "note": "Minimum, maximum (values and flags) and sign injection in full for given operands; compares without flags; merge with the operand as described. Violated: vfmerge.vfm, the compares' flags, unboxed scalars."
  },
  {
   "property": "C84",
   "status": "partial",
   "theorems": [
    "Verif.Getters.C84_source_partial",
    "Verif.Getters.C84_dest_partial",
    "Verif.Getters.C84_scalar",
    "Verif.Getters.C84_compressed_load_violated",
    "Verif.Getters.C84_zimm_violated",
    "Verif.Getters.C84_zvbb_violated",
    "Verif.Getters.C84_zc_violated"
   ],
   "note": "Proved for all words of all encoding classes except the listed operands, for which the negation is proved."
  },
  {
   "property": "C86",
   "status": "partial",
   "theorems": [
    "Verif.Described.C86_described_partial",
    "Verif.Described.C86_complete",
    "Verif.Described.C86_groups",
    "Verif.Described.C86_isa_partial",
    "Verif.Described.C86_described_violated",
    "Verif.Described.C86_found_violated",
    "Verif.Described.C86_vfwredosum_violated"
   ],
   "note": "All groups of the description files listed in Spec.Group; the named exceptions are proved to violate the property."
  },
  {
   "property": "C87",
   "status": "partial",
   "theorems": [
    "Verif.FpMem.C87_load_partial",
    "Verif.FpMem.C87_store_partial",
    "Verif.FpMem.C87_compressed_double_partial",
    "Verif.FpMem.C87_wrap_violated",
    "Verif.FpMem.C87_cflw_violated",
    "Verif.FpMem.C87_cflw_low",
    "Verif.FpMem.C87_off_load_violated",
    "Verif.FpMem.C87_off_store_violated",
    "Verif.FpMem.C87_off_cfsw_violated"
   ],
   "note": "Proved for the plain instructions with the unit on and for the compressed ones under stated conditions; violated with FS Off, for c.flw on RV32, and for the compressed doubles of RV32 when the address wraps."
  },
  {
   "property": "C88",
   "status": "partial",
   "theorems": [
    "Verif.VecPerm.C88_gather_partial",
    "Verif.VecPerm.C88_gatherei16_partial",
    "Verif.VecPerm.C88_slideup_partial",
    "Verif.VecPerm.C88_slidedown_partial",
    "Verif.VecPerm.C88_slide1up_partial",
    "Verif.VecPerm.C88_slide1up_violated",
    "Verif.VecPerm.C88_slide1down_partial",
    "Verif.VecPerm.C88_slide1down_violated",
    "Verif.VecPerm.C88_compress_partial",
    "Verif.VecPerm.C88_slideup_vstart_violated",
    "Verif.VecPerm.C88_slide_offset_violated",
    "Verif.VecPerm.C88_slidedown_negative_violated",
    "Verif.VecPerm.C88_mask_violated",
    "Verif.VecPerm.C88_gather_range_violated",
    "Verif.VecPerm.C88_gather_index_violated",
    "Verif.VecPerm.C88_compress_vstart_violated"
   ],
   "note": "Proved for unmasked forms and for groups of one register, with moderate indices and offsets; the deviations are separate theorems."
  },
  {
   "property": "C83",
   "status": "partial",
   "theorems": [
    "Verif.VecMove.C83_vmv_x_s_partial",
    "Verif.VecMove.C83_vmv_x_s_skipped_violated",
    "Verif.VecMove.C83_vmv_x_s_upper_violated",
    "Verif.VecMove.C83_vmv_s_x_partial",
    "Verif.VecMove.C83_vfmv_s_f_partial",
    "Verif.VecMove.C83_vfmv_v_f_partial",
    "Verif.VecMove.C83_vfmv_v_f_overrun_violated",
    "Verif.VecMove.C83_vstart_violated",
    "Verif.VecMove.C83_box_violated",
    "Verif.VecMove.C83_vfmv_f_s",
    "Verif.VecMove.C83_vmvr_partial",
    "Verif.VecMove.C83_vmvr_refused",
    "Verif.VecMove.C83_vmvr_prestart_violated"
   ],
   "note": "Proved in full for vfmv.f.s; for the others with vstart 0 (whole-register moves: at the start of a register), on RV32 for vmv.x.s, with boxed operands and one register for vfmv.v.f. The deviations are separate theorems."
  },
  {
   "property": "C89",
   "status": "partial",
   "theorems": [
    "Verif.VecScan.C89_vcpop",
    "Verif.VecScan.C89_vfirst",
    "Verif.VecScan.C89_scalar_refused",
    "Verif.VecScan.C89_set_first",
    "Verif.VecScan.C89_vmsbf_partial",
    "Verif.VecScan.C89_vmsbf_unmasked",
    "Verif.VecScan.C89_vmsbf_inactive_violated",
    "Verif.VecScan.C89_set_refused",
    "Verif.VecScan.C89_viota_partial",
    "Verif.VecScan.C89_vid_partial",
    "Verif.VecScan.C89_vid_vstart_violated",
    "Verif.VecScan.C89_viota_vstart_violated",
    "Verif.VecScan.C89_vmsbf_inactive_witness_violated"
   ],
   "note": "Proved in full for vcpop, vfirst, vmsif, vmsof and the unmasked vmsbf; viota and vid with vstart 0."
  },
  {
   "property": "C85",
   "status": "partial",
   "theorems": [
    "Verif.VecInt.C85_same_partial",
    "Verif.VecInt.C85_rem_violated",
    "Verif.VecInt.C85_scalar_violated",
    "Verif.VecInt.C85_shift_imm_partial",
    "Verif.VecInt.C85_shift_imm_violated",
    "Verif.VecInt.C85_narrow",
    "Verif.VecInt.C85_wide",
    "Verif.VecInt.C85_wide_exact",
    "Verif.VecInt.C85_wideW",
    "Verif.VecInt.C85_mac",
    "Verif.VecInt.C85_wmac",
    "Verif.VecInt.C85_ext",
    "Verif.VecInt.C85_ext_refused",
    "Verif.VecInt.C85_too_wide_refused",
    "Verif.VecInt.C85_merge"
   ],
   "note": "Proved in full for narrowing, widening, widening multiply-add and extension. The operations of one width without the overflowing remainder, and with a scalar as wide as the elements or read with its sign; the exceptions are separate theorems. Shift immediates for elements up to 32 bits or amounts up to 15."
  },
  {
   "property": "C90",
   "status": "partial",
   "theorems": [
    "Verif.VecBits.C90_un",
    "Verif.VecBits.C90_bin_partial",
    "Verif.VecBits.C90_andn_violated",
    "Verif.VecBits.C90_wsll",
    "Verif.VecBits.C90_wsll_refused"
   ],
   "note": "Proved in full for all but vandn, which needs a scalar as wide as the elements; that exception is a separate theorem."
  },
  {
   "property": "C91",
   "status": "partial",
   "theorems": [
    "Verif.CsrFile.C91_constructed",
    "Verif.CsrFile.C91_numbers_partial",
    "Verif.CsrFile.C91_instreth_violated",
    "Verif.CsrFile.C91_unprivileged_partial",
    "Verif.CsrFile.C91_required_partial",
    "Verif.CsrFile.C91_absent_violated",
    "Verif.CsrFile.C91_mode_hidden",
    "Verif.CsrFile.C91_halves_partial",
    "Verif.CsrFile.C91_halves_violated"
   ],
   "note": "Construction never aborts and lookups by name and number return exactly the created registers (proved for all numbers and names). All numbers agree with the ISA except instreth; a list of required registers is missing; mhpmcounterNh hold out-of-range pointers."
  },
  {
   "property": "C92",
   "status": "partial",
   "theorems": [
    "Verif.CsrFile.C92_misa_constant",
    "Verif.CsrFile.C92_misa_letters",
    "Verif.CsrFile.C92_misa_user_violated",
    "Verif.CsrFile.C92_supervisor",
    "Verif.CsrFile.C92_xlen_partial",
    "Verif.CsrFile.C92_xlen_violated",
    "Verif.CsrFile.C92_misa_set",
    "Verif.CsrFile.C92_misa_set32_violated",
    "Verif.CsrFile.C92_misa_reset_violated",
    "Verif.CsrFile.C92_jvt_mode",
    "Verif.CsrFile.C92_jvt_base",
    "Verif.CsrFile.C92_epc_violated",
    "Verif.CsrFile.C92_pmp_violated",
    "Verif.CsrFile.C92_medeleg",
    "Verif.CsrFile.C92_mhartid"
   ],
   "note": "misa constant under software writes, letters, supervisor view, set of 64-bit values, jvt, medeleg and mhartid proved for all values. Xlen(), letter U, 32-bit Set, Reset, epc bit 0 and PMP locking disagree."
  },
  {
   "property": "C93",
   "status": "partial",
   "theorems": [
    "Verif.Semihost.C93_seek_partial",
    "Verif.Semihost.C93_seek_violated",
    "Verif.Semihost.C93_flen",
    "Verif.Semihost.C93_isTty",
    "Verif.Semihost.C93_errno",
    "Verif.Semihost.C93_exit",
    "Verif.Semihost.C93_cmdline_partial",
    "Verif.Semihost.C93_cmdline_result_violated",
    "Verif.Semihost.C93_heapinfo_violated",
    "Verif.Semihost.C93_recognised",
    "Verif.Semihost.C93_unimplemented",
    "Verif.Semihost.C93_unknown_violated",
    "Verif.Semihost.C93_bad_handle",
    "Verif.Semihost.C93_handles_stable",
    "Verif.Semihost.C93_memory_stable",
    "Verif.Semihost.C93_write",
    "Verif.Semihost.C93_write_result_violated",
    "Verif.Semihost.C93_read_partial",
    "Verif.Semihost.C93_short_read_violated",
    "Verif.Semihost.C93_read_result_violated",
    "Verif.Semihost.C93_open_partial",
    "Verif.Semihost.C93_open_mode_violated",
    "Verif.Semihost.C93_open_read_partial",
    "Verif.Semihost.C93_console_violated",
    "Verif.Semihost.C93_open_errno_violated",
    "Verif.Semihost.C93_close_violated",
    "Verif.Semihost.C93_close_partial",
    "Verif.Semihost.C93_stale_handle_violated"
   ],
   "note": "Proved: marker recognition, unsupported operations, unknown handles, frame conditions, write, flen, isatty, errno, exit, seek below 2^31, open in mode 0, command line contents, full reads. Violated parts as in the disagreements list."
  },
  {
   "property": "C94",
   "status": "partial",
   "theorems": [
    "Verif.Htif.C94_ignored",
    "Verif.Htif.C94_halt",
    "Verif.Htif.C94_write",
    "Verif.Htif.C94_pwrite",
    "Verif.Htif.C94_lseek",
    "Verif.Htif.C94_read",
    "Verif.Htif.C94_pread",
    "Verif.Htif.C94_exit",
    "Verif.Htif.C94_open_partial",
    "Verif.Htif.C94_opened_unusable_violated",
    "Verif.Htif.C94_close_violated",
    "Verif.Htif.C94_close_bad",
    "Verif.Htif.C94_errno_violated",
    "Verif.Htif.C94_unhandled_violated"
   ],
   "note": "Recognition, end of run, write, pwrite, read, pread, lseek, exit proved for all parameters with lengths below 2^31; open proved up to the use of its descriptor. Violations as general theorems, the unusable descriptors by an invariant over all histories."
  },
  {
   "property": "C95",
   "status": "partial",
   "theorems": [
    "Verif.DebugReg.C95_names",
    "Verif.DebugReg.C95_round_trip",
    "Verif.DebugReg.C95_instructions_partial",
    "Verif.DebugReg.C95_x0_violated",
    "Verif.DebugReg.C95_csr_round_trip",
    "Verif.DebugReg.C95_refused",
    "Verif.DebugReg.C95_branch_trace_size",
    "Verif.DebugReg.C95_numbers_partial",
    "Verif.DebugReg.C95_vector_numbers_violated",
    "Verif.DebugReg.C95_gdb_numbers_partial",
    "Verif.DebugReg.C95_gdb_numbers_violated",
    "Verif.DebugReg.C95_gdb_vector_violated",
    "Verif.DebugReg.C95_gdb_size_violated",
    "Verif.DebugReg.C95_gdb_size_partial",
    "Verif.DebugReg.C95_gdb_instance_partial",
    "Verif.DebugReg.C95_gdb_instance_violated",
    "Verif.DebugReg.C95_escape",
    "Verif.DebugReg.C95_escape_clean"
   ],
   "note": "Round trip, frame, refusals, branch trace size, names and escaping proved in full; numbers and sizes for the registers that have right ones; cache for vectors up to 128 bits. Control and status registers with side effects are not covered by the round trip; sizes of the branch trace above 2^31 and the halt reason are not modelled."
  },
  {
   "property": "C80",
   "status": "partial",
   "theorems": [
    "Verif.VecWiden.C80_binary_partial",
    "Verif.VecWiden.C80_fma_partial",
    "Verif.VecWiden.C80_product",
    "Verif.VecWiden.C80_nan_violated"
   ],
   "note": "All nine instructions, all operands and directions, assuming an IEEE 754 host; NaN results are not canonical (violated) and therefore the rest is partial. Element loop and masking: C44."
  },
  {
   "property": "C81",
   "status": "partial",
   "theorems": [
    "Verif.HalfArith.C81_binary_partial",
    "Verif.HalfArith.C81_sqrt_partial",
    "Verif.HalfArith.C81_fma_partial",
    "Verif.HalfArith.C81_int_partial",
    "Verif.HalfArith.C81_fma_violated",
    "Verif.HalfArith.C81_rmm_violated"
   ],
   "note": "Sums, differences, products, quotients, square roots and integer conversions are correct for all operands in the four modes the host has; fused multiply-adds in the three directed modes, and to nearest if the exact result has at most 24 significant bits (violated otherwise). The mode 'ties away' is violated. Assumes an IEEE 754 host whose fma is the single precision one. The flags of these instructions are not covered."
  },
  {
   "property": "C82",
   "status": "partial",
   "theorems": [
    "Verif.FpCvt.C82_narrow",
    "Verif.FpCvt.C82_widen",
    "Verif.FpCvt.C82_int",
    "Verif.FpCvt.C82_int_exact",
    "Verif.FpCvt.C82_vector_partial",
    "Verif.FpCvt.C82_nan_violated",
    "Verif.FpCvt.C82_rod_partial",
    "Verif.FpCvt.C82_rod_violated",
    "Verif.FpCvt.C82_rod_overflow_violated",
    "Verif.FpCvt.C82_rod_special",
    "Verif.FpCvt.C82_rod_tiny_violated"
   ],
   "note": "Scalar conversions and integers are covered fully, assuming a host whose casts are as IEEE 754 says. vfncvt.rod is right for NaN, infinity, zero and, in the normal range, where the lower neighbour is even or nearest (violated otherwise, and for large and small numbers). Its flags, and those of the other conversions, are not covered; see C36."
  },
  {
   "property": "C96",
   "status": "partial",
   "theorems": [
    "Verif.Fetch.C96_fetch_partial",
    "Verif.Fetch.C96_exception",
    "Verif.Fetch.C96_exception_wide",
    "Verif.Fetch.C96_fencei_violated",
    "Verif.Fetch.C96_patch_violated",
    "Verif.Fetch.C96_limit_violated",
    "Verif.Fetch.C96_lowered_violated"
   ],
   "note": "Proved for every history whose stores touch no instruction fetched before (breakpoints may replace the instruction at their own address), and the exceptions for addresses not in the cache, taken in machine mode. Violated in general: fence.i, breakpoints inside an instruction, instructions across the limit, a lowered limit. The decode cache of mpact-sim is assumed to keep an instruction until it is invalidated or evicted."
  },
  {
   "property": "C97",
   "status": "partial",
   "theorems": [
    "Verif.Setup.C97_stack_partial",
    "Verif.Setup.C97_no_location_partial",
    "Verif.Setup.C97_segment_violated",
    "Verif.Setup.C97_segment_witness_violated",
    "Verif.Setup.C97_symbols_violated"
   ],
   "note": "Proved for executables without a GNU_STACK segment (in the 32-bit simulators: with both flags given). With a segment, and in the 32-bit simulators without flags, the code violates the property (C97_segment_violated, C97_segment_witness_violated, C97_symbols_violated)."
  },
  {
   "property": "C98",
   "status": "partial",
   "theorems": [
    "Verif.Setup.C98_constant_partial",
    "Verif.Setup.C98_longest_partial",
    "Verif.Setup.C98_zero_violated",
    "Verif.Setup.C98_accepted_violated"
   ],
   "note": "Proved for every integer constant but 0 (value if below 2^64, refused otherwise) and, for texts starting with 1 to 9, that the longest number at the front is what is read. 0 is refused and texts that are no numbers are accepted (C98_zero_violated, C98_accepted_violated)."
  },
  {
   "property": "C99",
   "status": "partial",
   "theorems": [
    "Verif.Setup.C99_exit_partial",
    "Verif.Setup.C99_only_partial",
    "Verif.Setup.C99_vector_violated",
    "Verif.Setup.C99_renode_atomic_violated",
    "Verif.Setup.C99_any_value_violated",
    "Verif.Setup.C99_other_byte_violated",
    "Verif.Setup.C99_released_violated"
   ],
   "note": "Proved: an exit code stored over the first byte of tohost ends the run with its code after any history of unrelated stores (rv32gv_sim: atomics only; Renode: not atomics), and in Renode nothing else does. The rest is violated (C99_vector_violated, C99_renode_atomic_violated, C99_any_value_violated, C99_other_byte_violated, C99_released_violated)."
  },
  {
   "property": "C100",
   "status": "proved",
   "theorems": [
    "Verif.Setup.C100_irq"
   ],
   "note": "Proved in full."
  },
  {
   "property": "C101",
   "status": "partial",
   "theorems": [
    "Verif.Reloc.C101_relocation_partial",
    "Verif.Reloc.C101_refused_partial",
    "Verif.Reloc.C101_number",
    "Verif.Reloc.C101_one_letter_violated",
    "Verif.Reloc.C101_loads_stores_branches_violated",
    "Verif.Reloc.C101_wrong_function_violated",
    "Verif.Reloc.C101_space_violated"
   ],
   "note": "Proved for symbols of two or more characters and the pairs of instruction and function the code handles, refusals of addi and sd, and numbers. The rest is violated (C101_one_letter_violated, C101_loads_stores_branches_violated, C101_wrong_function_violated, C101_space_violated)."
  },
  {
   "property": "C102",
   "status": "partial",
   "theorems": [
    "Verif.Setup.C102_registers_partial",
    "Verif.Setup.C102_width_violated"
   ],
   "note": "Numbers, kinds and read-only marks proved for the whole table; widths are wrong for every register of a 64-bit hart and for the floating-point registers (C102_width_violated)."
  },
  {
   "property": "C103",
   "status": "proved",
   "theorems": [
    "Verif.Halt.C103_step"
   ],
   "note": "Proved for every machine and number of steps, with and without a breakpoint to step over."
  },
  {
   "property": "C104",
   "status": "partial",
   "theorems": [
    "Verif.Halt.C104_run_partial",
    "Verif.Halt.C104_resume_partial",
    "Verif.Halt.C104_lost_violated"
   ],
   "note": "Proved when execution does not resume at a breakpoint, and when it does but the instruction there makes no request. The request of that instruction is lost (C104_lost_violated)."
  },
  {
   "property": "C105",
   "status": "proved",
   "theorems": [
    "Verif.Watch.C105_watchpoints",
    "Verif.Watch.C105_refused"
   ],
   "note": "Proved for every history of such calls, results included, and that refused calls change nothing."
  },
  {
   "property": "C106",
   "status": "partial",
   "theorems": [
    "Verif.Watch.C106_clear_partial",
    "Verif.Watch.C106_clear_violated",
    "Verif.Watch.C106_empty_violated",
    "Verif.Watch.C106_atomic_violated",
    "Verif.Watch.C106_debugger_violated"
   ],
   "note": "Proved: removing both kinds where both are set. The rest is violated (C106_clear_violated, C106_empty_violated, C106_atomic_violated, C106_debugger_violated)."
  },
  {
   "property": "C107",
   "status": "partial",
   "theorems": [
    "Verif.Halt.C107_trace_partial",
    "Verif.Halt.C107_breakpoint_violated"
   ],
   "note": "Proved when execution does not resume at a breakpoint. The transfer made by the instruction there is recorded with a wrong target (C107_breakpoint_violated)."
  },
  {
   "property": "C108",
   "status": "proved",
   "theorems": [
    "Verif.HalfCmp.C108_compare",
    "Verif.HalfCmp.C108_holds"
   ],
   "note": "Proved for all register contents."
  },
  {
   "property": "C109",
   "status": "partial",
   "theorems": [
    "Verif.Shell.C109_commands_partial",
    "Verif.Shell.C109_core_violated",
    "Verif.Shell.C109_number_violated",
    "Verif.Shell.C109_break_set_violated",
    "Verif.Shell.C109_watch_set_rw_violated",
    "Verif.Shell.C109_watch_tab_violated",
    "Verif.Shell.C109_action_violated",
    "Verif.Shell.C109_action_star_partial",
    "Verif.Shell.C109_mem_set_violated",
    "Verif.Shell.C109_vreg_set_violated",
    "Verif.Shell.C109_exec_violated"
   ],
   "note": "Proved for all lines except the rows listed in Spec.Deviates. Each of those is violated, by a general theorem or a witness."
  },
  {
   "property": "C110",
   "status": "proved",
   "theorems": [
    "Verif.ShellMem.C110_number",
    "Verif.ShellMem.C110_symbol",
    "Verif.ShellMem.C110_identifier",
    "Verif.ShellMem.C110_denotes"
   ],
   "note": "All texts without sign; a text that starts with a number of more than 64 bits is refused even if it is a symbol (hypothesis of C110_symbol; cannot happen for names unless the base is 16)."
  },
  {
   "property": "C111",
   "status": "partial",
   "theorems": [
    "Verif.ShellMem.C111_get_partial",
    "Verif.ShellMem.C111_refused",
    "Verif.ShellMem.C111_end_violated"
   ],
   "note": "Partial: objects that lie in the memory as a whole; f and i formats are not covered (the result only says what is to be printed)."
  },
  {
   "property": "C112",
   "status": "partial",
   "theorems": [
    "Verif.ShellMem.C112_set_partial",
    "Verif.ShellMem.C112_refused",
    "Verif.ShellMem.C112_truncated_violated",
    "Verif.ShellMem.C112_end_violated",
    "Verif.ShellMem.C112_round_trip_partial"
   ],
   "note": "Partial: values that fit the width, objects that lie in the memory as a whole."
  },
  {
   "property": "C113",
   "status": "partial",
   "theorems": [
    "Verif.ShellVec.C113_element_partial",
    "Verif.ShellVec.C113_refused",
    "Verif.ShellVec.C113_all_partial",
    "Verif.ShellVec.C113_signed_violated"
   ],
   "note": "Partial: with d, elements that are not negative."
  },
  {
   "property": "C114",
   "status": "partial",
   "theorems": [
    "Verif.ShellVec.C114_set_partial",
    "Verif.ShellVec.C114_refused",
    "Verif.ShellVec.C114_octal_violated",
    "Verif.ShellVec.C114_truncated_violated"
   ],
   "note": "Partial: formats d, u, x, X and values that fit the width."
  },
  {
   "property": "C115",
   "status": "partial",
   "theorems": [
    "Verif.ShellWatch.C115_list_partial",
    "Verif.ShellWatch.C115_clear_violated"
   ],
   "note": "Partial: histories without the empty stretch at address 0 and without `watch clear VALUE` that finds an inactive entry first while the address is watched."
  },
  {
   "property": "C116",
   "status": "partial",
   "theorems": [
    "Verif.ShellAction.C116_list_partial",
    "Verif.ShellAction.C116_clear_all_violated",
    "Verif.ShellAction.C116_number_violated"
   ],
   "note": "Partial: histories without clear-all, indices below 2^31. Assumes that mpact-sim's ActionPointManager never hands out an id in use at the address."
  },
  {
   "property": "C117",
   "status": "partial",
   "theorems": [
    "Verif.ShellInput.C117_session_partial",
    "Verif.ShellInput.C117_last_line_violated",
    "Verif.ShellInput.C117_long_line_violated",
    "Verif.ShellInput.C117_end_of_input_violated"
   ],
   "note": "Partial: files all of whose lines end with a newline, lines of at most 511 characters; commands added with AddCommand are left out."
  },
  {
   "property": "C118",
   "status": "partial",
   "theorems": [
    "Verif.TraceList.C118_listing_partial",
    "Verif.TraceList.C118_last_partial"
   ],
   "note": "Partial as C55: addresses of at most 32 bits and fewer than 2^32 events (C55_wide_violated, C55_count_violated)."
  },
  {
   "property": "C119",
   "status": "proved",
   "theorems": [
    "Verif.Exec.C119_step",
    "Verif.Exec.C119_turn",
    "Verif.Exec.C119_run"
   ],
   "note": "No interrupt is available and no trap callback is installed during the turn; the word is read from memory in each turn (the decode cache is not modelled here, so a program that overwrites instructions already executed is outside). mpact-sim's operand objects and instruction dispatch are assumed to do what they document."
  },
  {
   "property": "C120",
   "status": "proved",
   "theorems": [
    "Verif.Exec.C120_step",
    "Verif.Exec.C120_run"
   ],
   "note": "As C119; compressed floating-point loads and stores, c.ebreak and the Zcb/Zcmp forms are not included."
  },
  {
   "property": "C121",
   "status": "partial",
   "theorems": [
    "Verif.Exec.C121_absent_violated",
    "Verif.Exec.C121_step_partial",
    "Verif.Exec.C121_run_partial"
   ],
   "note": "Proved for all other instructions of the extensions, except the operands for which clmulr (RV32) and cpopw give wrong results (C29)."
  },
  {
   "property": "C122",
   "status": "partial",
   "theorems": [
    "Verif.PlicBus.C122_configure_partial",
    "Verif.PlicBus.C122_separator_violated",
    "Verif.PlicBus.C122_enable_violated",
    "Verif.PlicBus.C122_refused_violated"
   ],
   "note": "Proved for all lists in which every context has its semicolon and the enables are 0 or 1; the rest is violated."
  },
  {
   "property": "C123",
   "status": "partial",
   "theorems": [
    "Verif.PlicBus.C123_load_partial",
    "Verif.PlicBus.C123_load8",
    "Verif.PlicBus.C123_store8_violated",
    "Verif.PlicBus.C123_window_violated"
   ],
   "note": "Loads proved for all contexts below 3584 and all sources; eight byte loads proved; eight byte stores violated. Sizes other than 1, 2, 4 and 8 are not modelled."
  },
  {
   "property": "C124",
   "status": "partial",
   "theorems": [
    "Verif.Exec.C124_step_partial",
    "Verif.Exec.C124_mprv_violated",
    "Verif.Exec.C124_refused_violated",
    "Verif.Exec.C124_run_partial"
   ],
   "note": "Proved for every other case: left out are returns that should clear MPRV, sret in machine mode, misaligned and out-of-range atomics (each with its own theorem here or in C15) and fences with reserved fields set. The run theorem supposes that every program counter on the way is even."
  },
  {
   "property": "C125",
   "status": "partial",
   "theorems": [
    "Verif.Exec.C125_msip_violated",
    "Verif.Exec.C125_step_partial",
    "Verif.Exec.C125_missing_violated",
    "Verif.Exec.C125_readonly_violated",
    "Verif.Exec.C125_run_partial"
   ],
   "note": "Proved for every access to the machine and supervisor trap registers, mstatus, mie, the delegation registers, reads of mip, sstatus (reads say what the supervisor's fields are, not that the others are 0), and all registers with masks. sie and sip are covered when all bits set are delegated and none is cleared, and sip when only SSIP is written (C09); writes to mip and sip while the external line is low (C08), and without MSIP. Left out: counters and fcsr and the other registers with their own classes, values of mepc, sepc, mtvec and stvec the register must not hold (C92), and the two violated cases."
  },
  {
   "property": "C126",
   "status": "partial",
   "theorems": [
    "Verif.Exec.C126_unassigned_partial",
    "Verif.Exec.C126_unassigned32",
    "Verif.Exec.C126_unassigned16",
    "Verif.Exec.C126_unimp",
    "Verif.Exec.C126_zero",
    "Verif.Exec.C126_missed_violated",
    "Verif.Exec.C126_run_partial"
   ],
   "note": "C126_unassigned32 (RV32G, RV32GZB, RV64G) and C126_unassigned16 (all RV64 cores) are complete; for the other decoders the words matched by the entries C71 lists as too wide are left out. C126_missed_violated shows that words of implemented instructions can raise the exception."
  },
  {
   "property": "C127",
   "status": "partial",
   "theorems": [
    "Verif.Exec.C127_step_partial",
    "Verif.Exec.C127_off_violated",
    "Verif.Exec.C127_dirty_violated",
    "Verif.Exec.C127_compare_violated",
    "Verif.Exec.C127_fclass_violated",
    "Verif.Exec.C127_run_partial"
   ],
   "note": "C127_step_partial and C127_run_partial assume that the unit is on and leave out fclass.s of a register that is not boxed (on RV64 also into a register with a nonzero upper half) and on RV32 single-precision comparisons of registers that are not boxed, where the code deviates (the violated theorems say what it does). FS becoming Dirty is not part of the effect, as the code never does it. Compressed loads and stores are not covered here (C87)."
  },
  {
   "property": "C128",
   "status": "partial",
   "theorems": [
    "Verif.FpFlags.C128_binary",
    "Verif.FpFlags.C128_sqrt",
    "Verif.FpFlags.C128_fma_single_partial",
    "Verif.FpFlags.C128_fma_double_partial",
    "Verif.FpFlags.C128_directed_violated",
    "Verif.FpFlags.C128_signalling_violated"
   ],
   "note": "C128_binary and C128_sqrt hold without restriction. C128_fma_single_partial leaves out infinity times zero plus a NaN, where the flag is submitted and then lost (C74); C128_fma_double_partial also leaves out signalling operands and, for fnmadd.d and fnmsub.d, rounding up and down, where the code deviates."
  },
  {
   "property": "C129",
   "status": "partial",
   "theorems": [
    "Verif.Exec.C129_step_partial",
    "Verif.Exec.C129_off_violated",
    "Verif.Exec.C129_static_violated",
    "Verif.Exec.C129_dynamic_violated",
    "Verif.Exec.C129_unboxed_violated",
    "Verif.Exec.C129_run_partial"
   ],
   "note": "C129_step_partial and C129_run_partial leave out the unit being off, ties away from zero, the dynamic rounding mode after a reserved mode was written to frm, and the cases of fused multiply-adds in which C67, C74 and C128 show the code to deviate. The host's own arithmetic is assumed to follow IEEE 754 (Ieee); that such a host exists is arith_exists."
  },
  {
   "property": "C130",
   "status": "partial",
   "theorems": [
    "Verif.Exec.C130_step_partial",
    "Verif.Exec.C130_off_violated",
    "Verif.Exec.C130_static_violated",
    "Verif.Exec.C130_reserved_violated",
    "Verif.Exec.C130_dynamic_violated",
    "Verif.Exec.C130_unboxed_violated",
    "Verif.Exec.C130_signalling_violated",
    "Verif.Exec.C130_undefined_violated",
    "Verif.Exec.C130_run_partial"
   ],
   "note": "C130_step_partial and C130_run_partial leave out the unit being off and the cases of WrongV, each of which is shown to go wrong: the dynamic rounding mode after a reserved mode was written to frm, unboxed operands, ties away from zero, undefined negations and signalling NaNs between the precisions. The host's own conversions are assumed to follow IEEE 754 (IeeeV); that such a host exists is cvt_exists."
  },
  {
   "property": "C131",
   "status": "partial",
   "theorems": [
    "Verif.Exec.C131_step_partial",
    "Verif.Exec.C131_valid_partial",
    "Verif.Exec.C131_off_violated",
    "Verif.Exec.C131_fcsr_violated",
    "Verif.Exec.C131_again_violated",
    "Verif.Exec.C131_run_partial"
   ],
   "note": "C131_step_partial and C131_run_partial leave out the unit being off and setting or clearing bits of fcsr, both of which are shown to go wrong; C131_valid_partial needs the dynamic mode to be valid before, and C131_again_violated shows why."
  },
  {
   "property": "C132",
   "status": "partial",
   "theorems": [
    "Verif.Exec.C132_step_partial",
    "Verif.Exec.C132_run_partial",
    "Verif.Exec.C132_mret_violated",
    "Verif.Exec.C132_mideleg_violated",
    "Verif.Exec.C132_stale_violated"
   ],
   "note": "Partial because the code misses interrupts after some returns and delegation changes and takes withdrawn ones; not covered are the external supervisor line (C11, C60) and the instructions outside C131."
  },
  {
   "property": "C133",
   "status": "partial",
   "theorems": [
    "Verif.Exec.C133_step_partial",
    "Verif.Exec.C133_run_partial",
    "Verif.Exec.C133_odd_violated"
   ],
   "note": "Partial because mepc and sepc keep odd numbers (C133_odd_violated); the instructions outside C131 are not covered."
  },
  {
   "property": "C134",
   "status": "partial",
   "theorems": [
    "Verif.Exec.C134_step_partial",
    "Verif.Exec.C134_off_violated",
    "Verif.Exec.C134_off_store_violated",
    "Verif.Exec.C134_integer_violated",
    "Verif.Exec.C134_beyond_violated",
    "Verif.Exec.C134_upper_violated",
    "Verif.Exec.C134_wrap_violated",
    "Verif.Exec.C134_run_partial"
   ],
   "note": "Partial because of the violated cases: integer destinations in rv64g, rv64gv and rv32gv, upper halves kept by c.flw and c.flwsp, addresses of RV32 that do not wrap, and the unit being off."
  },
  {
   "property": "C135",
   "status": "partial",
   "theorems": [
    "Verif.Stats.C135_read",
    "Verif.Stats.C135_session",
    "Verif.Stats.C135_start",
    "Verif.Stats.C135_transparent_partial",
    "Verif.Stats.C135_frozen_violated",
    "Verif.Stats.C135_plan_violated",
    "Verif.Stats.C135_profile_violated"
   ],
   "note": "Reading of lines and switching are proved for all sessions. Partial because disabling the counters is visible to the program, planned addresses count twice and the instruction profile records nothing."
  },
  {
   "property": "C136",
   "status": "partial",
   "theorems": [
    "Verif.Renode.C136_cache_violated",
    "Verif.Renode.C136_reaches_partial",
    "Verif.Renode.C136_twice_violated",
    "Verif.Renode.C136_settings",
    "Verif.Renode.C136_configured",
    "Verif.Renode.C136_map_partial",
    "Verif.Renode.C136_accepts",
    "Verif.Renode.C136_map_violated",
    "Verif.Renode.C136_again_violated",
    "Verif.Renode.C136_refused_partial",
    "Verif.Renode.C136_refused_violated",
    "Verif.Renode.C136_cli_partial",
    "Verif.Renode.C136_cli_violated",
    "Verif.Renode.C136_profile_partial",
    "Verif.Renode.C136_profile_violated",
    "Verif.Renode.C136_stack_violated",
    "Verif.Renode.C136_memory_partial",
    "Verif.Renode.C136_beyond_violated"
   ],
   "note": "Settings, memory map, acceptance, profile switch and memory contents are proved for all settings and histories. Partial because of the deviations listed under Disagreements; where an access goes that lies partly in a target of the router is left open."
  },
  {
   "property": "C137",
   "status": "partial",
   "theorems": [
    "Verif.Exec.C137_program_partial",
    "Verif.Exec.C137_rising_partial"
   ],
   "note": "Combines C131 to C134 into one statement from the constructed state. Missing: the instructions outside these claims (vector, Zfh, Zcmp), the exceptions of each claim, and the run-time conditions MeantQ, Overlooks, NoOdd and Withdraws, which are assumed at every step of the run rather than derived from the program."
  },
  {
   "property": "C138",
   "status": "partial",
   "theorems": [
    "Verif.Inspect.C138_shows_partial",
    "Verif.Inspect.C138_same_partial",
    "Verif.Inspect.C138_list_partial",
    "Verif.Inspect.C138_quiet_partial",
    "Verif.Inspect.C138_watch_violated",
    "Verif.Inspect.C138_overwritten_violated"
   ],
   "note": "Partial: breakpoints that do not overlap and are not stored to (C53), none inside the instruction looked at, cache up to date (C96), no store watchpoint on a breakpoint's instruction. The instruction is the word decoded; its text, addresses that cannot be decoded and evictions are left out. Violated otherwise."
  },
  {
   "property": "C139",
   "status": "partial",
   "theorems": [
    "Verif.Exec.C139_vset_partial",
    "Verif.Exec.C139_vstart_violated",
    "Verif.Exec.C139_base",
    "Verif.Exec.C139_strip_partial",
    "Verif.Exec.C139_keep_violated"
   ],
   "note": "Partial: legal types with the bits above 7 clear, application vector lengths below 2^32, registers of less than 2^25 bytes, not rd = rs1 = x0; the loop is vsetvli, sub, bne with nothing between. Violated: vstart is not cleared; rd = rs1 = x0 does not keep vl."
  },
  {
   "property": "C140",
   "status": "partial",
   "theorems": [
    "Verif.Exec.C140_same_partial",
    "Verif.Exec.C140_shift_violated",
    "Verif.Exec.C140_vset_partial",
    "Verif.Exec.C140_base"
   ],
   "note": "Partial: element widths and groups for which the instruction is legal; not 64-bit elements with an integer register in the unsigned operations on RV32, not vrem of the least 32- or 64-bit integer by -1 (C85). Violated: shifts of 64-bit elements by immediates of 16 and above."
  },
  {
   "property": "C141",
   "status": "partial",
   "theorems": [
    "Verif.Exec.C141_wide_partial",
    "Verif.Exec.C141_others"
   ],
   "note": "Partial: element widths and groups for which the instruction is legal; not vmacc and its like with 64-bit elements and an integer register on RV32 (C85). vwmaccus with a vector operand, which the decoder accepts, is not an instruction of the manual and is left out."
  },
  {
   "property": "C142",
   "status": "partial",
   "theorems": [
    "Verif.Exec.C142_load_partial",
    "Verif.Exec.C142_store_partial",
    "Verif.Exec.C142_fault_partial",
    "Verif.Exec.C142_ff_violated",
    "Verif.Exec.C142_wrap_violated",
    "Verif.Exec.C142_others"
   ],
   "note": "Partial: vstart at a register boundary for loads and 0 for stores (C51), no address (also of inactive elements) above the limit (C49), products within 64 bits; no vle64 and its like on RV32 (not in the decoder). Violated: fault-only-first, wrapping on RV32."
  },
  {
   "property": "C143",
   "status": "proved",
   "theorems": [
    "Verif.Exec.C143_sum"
   ],
   "note": "All executions of four turns of the model of C142. The conditions are in the statement; the program is fixed (straight-line code of four instructions)."
  },
  {
   "property": "C144",
   "status": "partial",
   "theorems": [
    "Verif.Exec.C144_int_partial",
    "Verif.Exec.C144_wide_partial",
    "Verif.Exec.C144_empty_violated",
    "Verif.Exec.C144_vstart_violated",
    "Verif.Exec.C144_scalar_violated",
    "Verif.Exec.C144_others"
   ],
   "note": "Partial: vl > 0, vstart 0; for the widening sums a scalar that fits the narrow width and LMUL up to 4 (C78). Violated: vl = 0, vstart other than 0, wide scalars."
  },
  {
   "property": "C145",
   "status": "partial",
   "theorems": [
    "Verif.Exec.C145_logical_partial",
    "Verif.Exec.C145_same_byte_violated",
    "Verif.Exec.C145_empty_violated",
    "Verif.Exec.C145_others"
   ],
   "note": "Partial: at least one bit to write, and vstart not inside of the byte that holds the last bit (C48). Violated in these two cases."
  }
 ]
}