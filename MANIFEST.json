{
 "claims": [
  {
   "property": "C01",
   "status": "proved",
   "theorems": [
    "RME.C01_read_after_write",
    "RME.C01_read_pure"
   ],
   "note": "Width 8/16/32, arbitrary memory map (blocks may alias), only hypothesis: the bytes are mapped and allocated."
  },
  {
   "property": "C02",
   "status": "proved",
   "theorems": [
    "RME.C02_translation",
    "RME.C02_aliases"
   ],
   "note": "Every seg:ofs pair; aliases in every state, also for unmapped memory."
  },
  {
   "property": "C03",
   "status": "proved",
   "theorems": [
    "RME.C03_isolation",
    "RME.C03_isolation_run",
    "RME.C03_isolation_call",
    "RME.C03_straddle",
    "RME.C03_allocated",
    "RME.C03_allocated_callint"
   ],
   "note": "Every environment (callbacks assumed to be isolated themselves), one instruction, any run, RME_Call; that the 3 bytes are really reachable is shown by C03_straddle; C03_allocated(_callint): only allocated host bytes are ever written."
  },
  {
   "property": "C04",
   "status": "partial",
   "theorems": [
    "RME.C04_checked_build_partial",
    "RME.C04_shipped_build_null_deref",
    "RME.C04_fetch",
    "RME.C04_shipped_build_witness"
   ],
   "note": "Violated by the shipped build: RME_DO_NULL_CHECK is defined after the header that tests it, so every access to an unmapped block is a null dereference (C04_shipped_build_*). Proved for a build with the check active."
  },
  {
   "property": "C05",
   "status": "proved",
   "theorems": [
    "RME.C05_return_codes",
    "RME.C05_fcnret_iff"
   ],
   "note": "Every state, every environment of callbacks/ports."
  },
  {
   "property": "C06",
   "status": "proved",
   "theorems": [
    "RME.C06_returns_zero",
    "RME.C06_returns_error",
    "RME.C06_undefined",
    "RME.C06_diverges",
    "RME.C06_codes"
   ],
   "note": "Iteration specified inductively in Spec/Run.lean (Iter), RME_Call as existence of sufficient fuel; divergence is characterised too."
  },
  {
   "property": "C07",
   "status": "proved",
   "theorems": [
    "RME.C07_magic_return",
    "RME.C07_call_at_magic"
   ],
   "note": "Every state at FFFF:FFFF."
  },
  {
   "property": "C08",
   "status": "proved",
   "theorems": [
    "RME.C08_callint_inval",
    "RME.C08_callint_accepts"
   ],
   "note": "All int arguments."
  },
  {
   "property": "C09",
   "status": "proved",
   "theorems": [
    "RME.C09_callint",
    "RME.C09_callint_hle",
    "RME.C09_callint_range"
   ],
   "note": "For every state with room on the stack and a vector pointing at an IRET (C09_callint), or at the HLE trampoline B800:n (C09_callint_hle: the flags the callback sets are replaced by the pushed ones), and any number out of range."
  },
  {
   "property": "C10",
   "status": "proved",
   "theorems": [
    "RME.C10_int",
    "RME.C10_into_clear",
    "RME.C10_null_vector",
    "RME.C10_iret",
    "RME.C10_int_iret"
   ],
   "note": "INT n, INT3 and INTO, with arbitrary prefixes accepted by the decoder; null vector gives the host error; IRET separately and the round trip with any stack-preserving handler in between."
  },
  {
   "property": "C11",
   "status": "proved",
   "theorems": [
    "RME.C11_int_hle",
    "RME.C11_int_hle_none"
   ],
   "note": "Registered and unregistered callbacks."
  },
  {
   "property": "C12",
   "status": "proved",
   "theorems": [
    "RME.C12_trampoline",
    "RME.C12_never_fails"
   ],
   "note": "Registered and unregistered callbacks; IRET from an unmapped stack is ignored, RunOne still returns OK (C12_never_fails)."
  },
  {
   "property": "C13",
   "status": "partial",
   "theorems": [
    "RME.C13_aam_zero",
    "RME.C13_delivery",
    "RME.C13_frame"
   ],
   "note": "Proved for AAM 0, DIV (all widths; zero divisor or quotient too large) and 8/16-bit IDIV together with the C21 fault theorems; missing: 16-bit IDIV of 80000000h by -1 is host UB (C21_violated_idiv_ub) and 32-bit IDIV faults although it should not (C21_violated_idiv32)."
  },
  {
   "property": "C14",
   "status": "proved",
   "theorems": [
    "RME.C14_add",
    "RME.C14_adc"
   ],
   "note": "All encodings (r/m,r; r,r/m; acc,imm; r/m,imm), widths 8/16/32, register and memory operands with 16-bit and 32-bit addressing (Plain operands: where the emulator's address is the manual's; the others are described by C38/C63)."
  },
  {
   "property": "C15",
   "status": "proved",
   "theorems": [
    "RME.C15_sub",
    "RME.C15_cmp"
   ],
   "note": "As C14."
  },
  {
   "property": "C16",
   "status": "partial",
   "theorems": [
    "RME.C16_sbb_partial",
    "RME.C16_sbb_nocarry",
    "RME.C16_violated_cf",
    "RME.C16_violated_of",
    "RME.C16_violated_af",
    "RME.C16_sbb_exact"
   ],
   "note": "Result, ZF, SF, PF right; CF, OF, AF are the processor's or, exactly in one situation each, its complement (C16_sbb_exact; witnesses C16_violated_*); without borrow in SBB is proved equal to SUB."
  },
  {
   "property": "C17",
   "status": "proved",
   "theorems": [
    "RME.C17_and",
    "RME.C17_or",
    "RME.C17_xor",
    "RME.C17_test"
   ],
   "note": "As C14."
  },
  {
   "property": "C18",
   "status": "proved",
   "theorems": [
    "RME.C18_inc",
    "RME.C18_dec"
   ],
   "note": "Register short forms and FE/FF /0 /1."
  },
  {
   "property": "C19",
   "status": "partial",
   "theorems": [
    "RME.C19_neg_partial",
    "RME.C19_violated_af",
    "RME.C19_not",
    "RME.C19_neg_involution",
    "RME.C19_not_involution"
   ],
   "note": "AF of NEG is not updated (C19_violated_af); everything else proved, NOT completely."
  },
  {
   "property": "C20",
   "status": "partial",
   "theorems": [
    "RME.C20_violated_imul_ub_exact",
    "RME.C20_violated_imul32",
    "RME.C20_mul",
    "RME.C20_imul",
    "RME.C20_imul_multi_partial",
    "RME.C20_violated_imul_flags",
    "RME.C20_violated_imul_ub"
   ],
   "note": "One-operand MUL/IMUL proved in full; multi-operand IMUL: value proved below 2^31, CF/OF wrong (C20_violated_imul_flags), signed overflow UB exactly from 2^31 on (C20_violated_imul_ub_exact), 32-bit forms refused (C20_violated_imul32)."
  },
  {
   "property": "C21",
   "status": "partial",
   "theorems": [
    "RME.C21_div",
    "RME.C21_div_fault",
    "RME.C21_idiv_partial",
    "RME.C21_idiv_fault_partial",
    "RME.C21_violated_idiv32",
    "RME.C21_violated_idiv32_exact",
    "RME.C21_violated_idiv16_exact",
    "RME.C21_violated_idiv_ub",
    "RME.C21_violated_idiv32_witness"
   ],
   "note": "DIV in full, IDIV 8/16 bit; 32-bit IDIV never produces a quotient: it is host UB for 8000000000000000h / -1 and faults otherwise (C21_violated_idiv32_exact); 16-bit IDIV of 80000000h by -1 is host UB (C21_violated_idiv16_exact)"
  },
  {
   "property": "C22",
   "status": "partial",
   "theorems": [
    "RME.C22_shl_partial",
    "RME.C22_shr",
    "RME.C22_sar",
    "RME.C22_count_zero",
    "RME.C22_violated_shl",
    "RME.C22_violated_shl_witness"
   ],
   "note": "SHL proved for every count except count = width, where the CF computation shifts by -1 (undefined, exactly there: C22_violated_shl and C51). SHR, SAR and count 0 proved for all counts, widths, operands."
  },
  {
   "property": "C23",
   "status": "partial",
   "theorems": [
    "RME.C23_rol_partial",
    "RME.C23_ror_partial",
    "RME.C23_rol_ror_multiple_partial",
    "RME.C23_violated_cf",
    "RME.C23_rcl",
    "RME.C23_rcr",
    "RME.C23_inverse"
   ],
   "note": "RCL/RCR and the inverse laws proved for all counts; ROL/ROR proved except that CF is not updated when the masked count is a nonzero multiple of the width (C23_violated_cf)."
  },
  {
   "property": "C24",
   "status": "proved",
   "theorems": [
    "RME.C24_jcc",
    "RME.C24_conditions",
    "RME.C24_cmp_jcc"
   ],
   "note": "All 16 conditions, short and near; CMP+Jcc as two RunOne calls decides the operand order for every width, operand form and prefix."
  },
  {
   "property": "C25",
   "status": "partial",
   "theorems": [
    "RME.C25_jcxz_exact",
    "RME.C25_violated_loop32",
    "RME.C25_loop",
    "RME.C25_jcxz_partial",
    "RME.C25_violated_jcxz",
    "RME.C25_loop_self"
   ],
   "note": "LOOPx and LOOP-to-self (induction on CX) proved; JCXZ characterised for every prefix combination (C25_jcxz_exact): with 66 it tests ECX instead of CX (C25_violated_jcxz); LOOP with 67 counts in CX, not ECX (C25_violated_loop32)."
  },
  {
   "property": "C26",
   "status": "proved",
   "theorems": [
    "RME.C26_push",
    "RME.C26_pop",
    "RME.C26_lifo",
    "RME.C26_lifo_flat"
   ],
   "note": "C26_push/C26_pop: exact effect of every 16-bit push and pop form; C26_lifo/C26_lifo_flat: LIFO over push sequences of any length (C26_lifo_flat discharges the room hypothesis on a fully mapped machine)."
  },
  {
   "property": "C27",
   "status": "proved",
   "theorems": [
    "RME.C27_pusha",
    "RME.C27_popa",
    "RME.C27_pusha_popa"
   ],
   "note": "PUSHA/POPA exact result and PUSHA;POPA restores all registers."
  },
  {
   "property": "C28",
   "status": "partial",
   "theorems": [
    "RME.C28_call_near_partial",
    "RME.C28_call_far",
    "RME.C28_jmp_near",
    "RME.C28_jmp_far",
    "RME.C28_ret_near",
    "RME.C28_ret_far",
    "RME.C28_call_ret",
    "RME.C28_callf_retf",
    "RME.C28_violated_call_mem",
    "RME.C28_violated_call_sp",
    "RME.C28_violated_call32",
    "RME.C28_violated_call32_exact",
    "RME.C28_violated_jmp32_exact",
    "RME.C28_violated_callf32_exact",
    "RME.C28_violated_jmpf32_exact",
    "RME.C28_call_rm_exact",
    "RME.C28_violated_call_sp_exact",
    "RME.C28_violated_indirect32"
   ],
   "note": "Proved for near/far direct and indirect CALL/JMP and RET/RETF (n). Violated by FF /2 whose operand is SP or the word the call pushes (C28_violated_call_sp, C28_violated_call_mem; exact behaviour for every operand: C28_call_rm_exact, C28_violated_call_sp_exact) and by the operand-size prefix: for every state 66 E8/E9/9A/EA behave as their 16-bit forms (C28_violated_*32_exact), 66 FF /2../5 are refused (C28_violated_indirect32)."
  },
  {
   "property": "C29",
   "status": "partial",
   "theorems": [
    "RME.C29_enter_partial",
    "RME.C29_leave",
    "RME.C29_enter_leave",
    "RME.C29_violated_enter1",
    "RME.C29_violated_leave32",
    "RME.C29_violated_enter1_exact",
    "RME.C29_violated_leave32_exact"
   ],
   "note": "ENTER with level 1 does not push the frame pointer (for every state: C29_violated_enter1_exact), LEAVE with prefix 66 leaves BP (for every state: C29_violated_leave32_exact). Everything else proved: ENTER size,level for level 0 and 2..31, LEAVE, round trip."
  },
  {
   "property": "C30",
   "status": "proved",
   "theorems": [
    "RME.C30_popf",
    "RME.C30_popf_canon",
    "RME.C30_pushf_popf"
   ],
   "note": "PUSHF/POPF exact result, flag canonicalisation, PUSHF;POPF identity."
  },
  {
   "property": "C31",
   "status": "proved",
   "theorems": [
    "RME.C31_flag",
    "RME.C31_sahf",
    "RME.C31_lahf",
    "RME.C31_lahf_sahf"
   ],
   "note": "Flag instructions CLC/STC/CMC/CLI/STI/CLD/STD change exactly their flag; SAHF/LAHF exact; LAHF;SAHF identity on FLAGS."
  },
  {
   "property": "C32",
   "status": "proved",
   "theorems": [
    "RME.C32_movs",
    "RME.C32_movs_block"
   ],
   "note": "Byte, word and dword forms, with and without repeat prefix, both directions, overlap allowed (Copied is the element-by-element order); C32_movs_block for non-overlapping ranges. All prefixes including 67 (then ESI/EDI advance, see C80); the elements are mapped (else C81); NotZeroed excludes a copy that overwrites the instruction itself with 00 00."
  },
  {
   "property": "C33",
   "status": "proved",
   "theorems": [
    "RME.C33_stos",
    "RME.C33_rep_stosb"
   ],
   "note": "All widths; C33_rep_stosb gives the exact byte-level effect. All prefixes including 67 (C80); elements mapped."
  },
  {
   "property": "C34",
   "status": "proved",
   "theorems": [
    "RME.C34_scas",
    "RME.C34_cmps",
    "RME.C34_repne_scas_found",
    "RME.C34_repne_scas_notfound",
    "RME.C34_repe_cmps_diff",
    "RME.C34_repe_cmps_equal"
   ],
   "note": "SCAS and CMPS, all widths and repeat prefixes, directions; found / not found / first difference / equal. All prefixes including 67 (C80); examined elements mapped."
  },
  {
   "property": "C35",
   "status": "proved",
   "theorems": [
    "RME.C35_cx_zero",
    "RME.C35_outs",
    "RME.C35_ins"
   ],
   "note": "CX = 0 for all 14 string opcodes and all prefixes; OUTS and INS with arbitrary (history-dependent) devices."
  },
  {
   "property": "C36",
   "status": "proved",
   "theorems": [
    "RME.C36_prefixes",
    "RME.C36_repeated_prefix",
    "RME.C36_terminates"
   ],
   "note": "Prefix acceptance as a predicate on byte lists; termination as absence of the model's fuel outcome for every state."
  },
  {
   "property": "C37",
   "status": "proved",
   "theorems": [
    "RME.C37_undefined_opcode",
    "RME.C37_undefined_opcode_0F",
    "RME.C37_breakpoint",
    "RME.C37_undefined_group",
    "RME.C37_enter_fails_after_push"
   ],
   "note": "All opcodes/groups without implementation; witness: ENTER with level>=2 and a 66 prefix fails after pushing BP."
  },
  {
   "property": "C38",
   "status": "partial",
   "theorems": [
    "RME.C38_load8_exact",
    "RME.C38_store8_exact",
    "RME.C38_outside",
    "RME.C38_load_exact",
    "RME.C38_violated",
    "RME.C38_violated_always",
    "RME.C38_address_partial",
    "RME.C38_load_partial"
   ],
   "note": "Exact characterisation for every operand encoding (C38_load8_exact, C38_store8_exact, C38_load_exact, C38_outside); agreement with segment*16+offset mod 2^20 under the stated conditions; violated for negative effective addresses with displacement sign extension past 64K (C38_violated, C38_violated_always)."
  },
  {
   "property": "C39",
   "status": "partial",
   "theorems": [
    "RME.C39_prefix",
    "RME.C39_prefix_bytes",
    "RME.C39_load_prefix",
    "RME.C39_default_partial",
    "RME.C39_agrees_iff",
    "RME.C39_load_partial",
    "RME.C39_violated"
   ],
   "note": "Override prefixes proved for all operands; default segment proved for the encodings where the code agrees with the architecture (C39_agrees_iff says exactly which); violated for the others (C39_violated)."
  },
  {
   "property": "C40",
   "status": "proved",
   "theorems": [
    "RME.C40_mov",
    "RME.C40_xchg",
    "RME.C40_swapped",
    "RME.C40_xchg_twice",
    "RME.C40_store_load",
    "RME.C40_mov_to_sreg",
    "RME.C40_mov_from_sreg"
   ],
   "note": "MOV (all register/memory/immediate/moffs encodings, MovEnc) and XCHG (86, 87, 90+r) for every machine state, operand and prefix combination in which the ModR/M operand is computed as in the manual (Plain: findings 2, 3 and 11 are excluded); MOV to and from segment registers (without prefix 66, which the code rejects); store-then-load; XCHG twice."
  },
  {
   "property": "C41",
   "status": "proved",
   "theorems": [
    "RME.C41_daa",
    "RME.C41_das",
    "RME.C41_aaa",
    "RME.C41_aas",
    "RME.C41_aam",
    "RME.C41_aad",
    "RME.C41_add_daa",
    "RME.C41_sub_das",
    "RME.C41_aam_aad"
   ],
   "note": "DAA/DAS after any (with or without carry) addition/subtraction of packed BCD in AL, whole sequences ADD;DAA and SUB;DAS, AAA, AAS, AAM n (n nonzero), AAD n, AAM;AAD. DAS after SBB needs a correct AF from SBB, which the code gives only in the cases of C16 (finding)."
  },
  {
   "property": "C42",
   "status": "partial",
   "theorems": [
    "RME.C42_cbw",
    "RME.C42_violated_cwde",
    "RME.C42_cwde_partial",
    "RME.C42_cwd"
   ],
   "note": "CBW and CWD/CDQ proved. CWDE violated: the code sign-extends AL (not AX) into EAX - C42_violated_cwde; C42_cwde_partial states what is computed."
  },
  {
   "property": "C43",
   "status": "partial",
   "theorems": [
    "RME.C43_breakpoint_why",
    "RME.C43_armed_why",
    "RME.C43_history_partial",
    "RME.C43_null",
    "RME.C43_two_nulls",
    "RME.C43_violated_fault",
    "RME.C43_violated_selfmod"
   ],
   "note": "Proved: two consecutive 00 00 give OK then BREAKPOINT (C43_two_nulls); in every history BREAKPOINT means F1 or two 00 00 with only DIV/IDIV/AAM or HLE-trampoline steps in between (C43_history_partial). Violated: a divide fault in between does not reset the detector (C43_violated_fault) and the bytes are looked at after execution (C43_violated_selfmod)."
  },
  {
   "property": "C44",
   "status": "partial",
   "theorems": [
    "RME.C44_length_unique",
    "RME.C44_length_exists",
    "RME.C44_advances_partial",
    "RME.C44_failure_partial",
    "RME.C44_violated_push_imm32",
    "RME.C44_violated_iret",
    "RME.C44_violated_detector",
    "RME.C44_violated_dump"
   ],
   "note": "Spec/Length.lean gives an independent table of instruction lengths. C44_advances_partial: every non-transfer instruction (all opcodes, prefixes, addressing forms) that succeeds leaves CS and advances IP by exactly that length, or is a divide that delivered its fault to vector 0 with its own address pushed. C44_failure_partial: on any error CS:IP is unchanged. Excluded, each with a witness: 66 68 (consumes only imm16), IRET failing between its pops, the runaway detector's BREAKPOINT (returned after execution), BADMEM from the instruction dump."
  },
  {
   "property": "C45",
   "status": "partial",
   "theorems": [
    "RME.C45_upper_halves_partial",
    "RME.C45_violated_shxd"
   ],
   "note": "Violated by SHLD/SHRD with register 4-7 as r/m (C45_violated_shxd); proved for every other instruction without 66/67."
  },
  {
   "property": "C46",
   "status": "proved",
   "theorems": [
    "RME.C46_only_io_instructions",
    "RME.C46_log_grows",
    "RME.C46_out",
    "RME.C46_in"
   ],
   "note": "Only IN/OUT/INS/OUTS access ports and the log only grows; the exact accesses of each instruction are separate theorems where present."
  },
  {
   "property": "C47",
   "status": "proved",
   "theorems": [
    "RME.Debug.C47_debug_buffer",
    "RME.Debug.C47_debug_text",
    "RME.Debug.C47_debug_shown"
   ],
   "note": "All sequences of prints of any length."
  },
  {
   "property": "C48",
   "status": "partial",
   "theorems": [
    "RME.C48_same_class_partial",
    "RME.C48_all_mapped_partial",
    "RME.C48_calls_partial",
    "RME.C48_violated_dump",
    "RME.C48_violated"
   ],
   "note": "Two-run theorem for one instruction and for whole RME_Call/RME_CallInt runs: any two debug levels on a fully mapped machine; any two levels that agree on printing the dump for every layout. Violated in general: the instruction dump printed at level >= 1 re-reads the instruction bytes one by one and fails with BADMEM where a straddling fetch succeeded (C48_violated_dump)."
  },
  {
   "property": "C49",
   "status": "proved",
   "theorems": [
    "RME.C49_counts_one",
    "RME.C49_counts_none",
    "RME.C49_run"
   ],
   "note": "Every instruction, every way of ending."
  },
  {
   "property": "C50",
   "status": "partial",
   "theorems": [
    "RME.C50_lea",
    "RME.C50_lea32_exact",
    "RME.C50_lea32_partial",
    "RME.C50_lea_addr32_partial",
    "RME.C50_lea_reg",
    "RME.C50_violated_lea32",
    "RME.C50_xlat",
    "RME.C50_xlat_addr32",
    "RME.C50_lxs_exact",
    "RME.C50_lxs_partial",
    "RME.C50_movzx8",
    "RME.C50_movzx16",
    "RME.C50_bsf_partial",
    "RME.C50_violated_bsf32"
   ],
   "note": "LEA, XLAT, LES/LDS, MOVZX proved; BSF proved for 16 bits and for 32-bit values with a bit in the low half; 32-bit LEA and BSF violated with witnesses."
  },
  {
   "property": "C51",
   "status": "partial",
   "theorems": [
    "RME.C51_ub_partial",
    "RME.C51_violated_kinds",
    "RME.C51_violated"
   ],
   "note": "On a flat map, undefined behaviour happens only in the listed instruction classes (C51_ub_partial); each kind occurs (C51_violated_kinds)."
  },
  {
   "property": "C52",
   "status": "partial",
   "theorems": [
    "RME.C52_exact",
    "RME.C52_shxd_partial",
    "RME.C52_count_zero",
    "RME.C52_violated_count",
    "RME.C52_violated_overflow",
    "RME.C52_violated_registers",
    "RME.C52_violated"
   ],
   "note": "Agrees with the manual for memory operands and registers 0-3, counts 1..width below 32; violated for registers 4-7, counts >= 32 and 16-bit SHLD by 16 of 8000h or more. C52_exact gives the result for every operand (all eight registers, memory) and every count."
  },
  {
   "property": "C53",
   "status": "proved",
   "theorems": [
    "RME.C53_system_flags"
   ],
   "note": "Every instruction, every way of ending; callbacks are not invoked by other instructions."
  },
  {
   "property": "C54",
   "status": "proved",
   "theorems": [
    "RME.C54_segment_registers"
   ],
   "note": "Every instruction, every way of ending."
  },
  {
   "property": "C55",
   "status": "proved",
   "theorems": [
    "RME.C55_hlt",
    "RME.C55_again"
   ],
   "note": "HLT returns HALT, keeps CS:IP, and again on re-run."
  },
  {
   "property": "C56",
   "status": "partial",
   "theorems": [
    "RME.Testkern.C56_calloc",
    "RME.Testkern.C56_calloc_overflow_witness",
    "RME.Testkern.C56_malloc_sequence"
   ],
   "note": "Disjointness, size, order and alignment for all malloc sequences; calloc multiplies without overflow check (witness)."
  },
  {
   "property": "C57",
   "status": "partial",
   "theorems": [
    "RME.Testkern.C57_divmod_partial",
    "RME.Testkern.C57_exact_multiple_wrong",
    "RME.Testkern.C57_witness"
   ],
   "note": "Proved (C57_divmod_partial) for every dividend and divisor except an exact non-zero multiple that reaches the subtraction loop; there quotient and remainder are wrong for every such input (C57_exact_multiple_wrong, C57_witness)."
  },
  {
   "property": "C58",
   "status": "proved",
   "theorems": [
    "RME.Native.C58_teletype",
    "RME.Native.C58_text_appears",
    "RME.Native.C58_setCursor_witness"
   ],
   "note": "All character sequences; the set-cursor call does not validate its arguments (witness), so the hypothesis cursor on screen is needed."
  },
  {
   "property": "C59",
   "status": "partial",
   "theorems": [
    "RME.Native.C59_chs_partial",
    "RME.Native.C59_other_disks",
    "RME.Native.C59_surjective",
    "RME.Native.C59_sector0_witness"
   ],
   "note": "Injective for sector >= 1; sector 0 is accepted and aliases/goes negative (witness)."
  },
  {
   "property": "C60",
   "status": "partial",
   "theorems": [
    "RME.Testkern.C60_numeral_partial",
    "RME.Testkern.C60_itoa_partial",
    "RME.Testkern.C60_witness"
   ],
   "note": "itoa proved exact (digits, order, padding: C60_itoa_partial, C60_numeral_partial) for values below 2^32 or bases 2, 4, 8, 16; larger values in other bases inherit the wrong division of C57 (C60_witness)."
  },
  {
   "property": "C61",
   "status": "partial",
   "theorems": [
    "RME.C61_push32_partial",
    "RME.C61_pop32_partial",
    "RME.C61_violated_push_dword",
    "RME.C61_violated_push_imm32",
    "RME.C61_push_imm8",
    "RME.C61_violated_push_seg",
    "RME.C61_violated_pop_seg",
    "RME.C61_violated_push_esp",
    "RME.C61_violated_refused"
   ],
   "note": "66 50+r / 66 58+r (other than ESP) and 66 6A proved. Violated (each for every state): segment registers push/pop 2 bytes, PUSH ESP stores SP-4, PUSHA/POPA/PUSHF/POPF/POP r/m are refused with 66, 66 FF /6 pushes one word, 66 68 reads only imm16 (witnesses)."
  },
  {
   "property": "C62",
   "status": "proved",
   "theorems": [
    "RME.C62_lods"
   ],
   "note": "All widths; All prefixes including 67 (C80); elements mapped."
  },
  {
   "property": "C63",
   "status": "partial",
   "theorems": [
    "RME.C63_load_partial",
    "RME.C63_load_wide_partial",
    "RME.C63_violated_negative",
    "RME.C63_violated_sib_disp",
    "RME.C63_violated_sib_nobase",
    "RME.C63_violated_ebp",
    "RME.C63_violated_esi",
    "RME.C63_violated_disp32",
    "RME.C63_load8_exact",
    "RME.C63_store8_exact",
    "RME.C63_load_exact",
    "RME.C63_outside"
   ],
   "note": "Proved for the encodings where the code agrees with the architecture; six concrete violations; C63_load8_exact/load_exact/store8_exact/outside say exactly which address is used in every case (displacement before SIB, truncated to 16 bits, 16-bit-mode segment defaults)."
  },
  {
   "property": "C64",
   "status": "proved",
   "theorems": [
    "RME.C64_relocation",
    "RME.C64_relocation_calls"
   ],
   "note": "Relational proof over the whole interpreter (Lemmas/Rl, RlOps)."
  },
  {
   "property": "C65",
   "status": "proved",
   "theorems": [
    "RME.C65_secrets",
    "RME.C65_secrets_calls",
    "RME.C65_straddle"
   ],
   "note": "Non-interference, same relational logic; C65_straddle shows the three-byte slack is real."
  },
  {
   "property": "C67",
   "status": "proved",
   "theorems": [
    "RME.Native.C67_frame",
    "RME.Native.C67_int",
    "RME.Native.C67_int_none"
   ],
   "note": "All registered services (INT 03h, 10h, 12h, 13h, 16h, 18h, 19h) modelled as functions on the machine state and the tester's variables; frame theorem for every service that returns, and the INT n instruction of the CPU model composed with the service."
  },
  {
   "property": "C68",
   "status": "partial",
   "theorems": [
    "RME.Native.C68_floppy_iff",
    "RME.Native.C68_floppy",
    "RME.Native.C68_bios",
    "RME.Native.C68_bios_refused",
    "RME.Native.C68_violated_too_large",
    "RME.Native.C68_no_media",
    "RME.Native.C68_status",
    "RME.Native.C68_floppy_memory",
    "RME.Native.C68_floppy_int"
   ],
   "note": "Floppy and BIOS image: exact conditions and resulting machine proved. Violated: a BIOS image above 64 KiB (or empty) is not loaded but the machine is started on F1 bytes and the tester reports success (status 0). The DOS executable case is C73; opening files, SDL and printing are not modelled."
  },
  {
   "property": "C69",
   "status": "partial",
   "theorems": [
    "RME.Native.C69_read",
    "RME.Native.C69_bad_address",
    "RME.Native.C69_short",
    "RME.Native.C69_read_ub_iff",
    "RME.Native.C69_violated_buffer",
    "RME.Native.C69_violated_no_image",
    "RME.Native.C69_violated_count",
    "RME.Native.C69_violated_sector_zero",
    "RME.Native.C69_violated_first_sector_zero",
    "RME.Native.C69_reset",
    "RME.Native.C69_params",
    "RME.Native.C69_params_other",
    "RME.Native.C69_type",
    "RME.Native.C69_type_other",
    "RME.Native.C69_violated_param_block"
   ],
   "note": "All AH=02h requests are covered by exact theorems. Violated: a buffer reaching beyond 10FFFF writes outside the array; without an image a null FILE* is used; AL = 40h, 80h, C0h are rejected without a status; sector number 0 is accepted (aliases the previous track / clears the buffer); the table at F100:0000 does not hold the geometry. fread/fseek are modelled on a file that does not change."
  },
  {
   "property": "C70",
   "status": "partial",
   "theorems": [
    "RME.Native.C70_read",
    "RME.Native.C70_past_end",
    "RME.Native.C70_in_bounds",
    "RME.Native.C70_violated_no_drive",
    "RME.Native.C70_violated_short",
    "RME.Native.C70_violated_overflow",
    "RME.Native.C70_violated_truncated"
   ],
   "note": "Exact results for all packets; memory bounds hold for every packet. Violated: success reported for an unknown drive and for short reads; the byte offset overflows int for LBA >= 2^22; only the low 32 bits of the LBA are used."
  },
  {
   "property": "C71",
   "status": "partial",
   "theorems": [
    "RME.Native.C71_order",
    "RME.Native.C71_complete",
    "RME.Native.C71_get",
    "RME.Native.C71_get_waits",
    "RME.Native.C71_violated_no_window",
    "RME.Native.C71_peek",
    "RME.Native.C71_shift",
    "RME.Native.C71_violated_scancode"
   ],
   "note": "FIFO order and completeness for all histories, exact effects of AH=00h, 01h, 02h, 11h. Violated: the build without a window ends the process on an empty queue instead of waiting; the scan code in AH is the character code."
  },
  {
   "property": "C72",
   "status": "partial",
   "theorems": [
    "RME.Native.C72_memory_size",
    "RME.Native.C72_set_cursor",
    "RME.Native.C72_read_char",
    "RME.Native.C72_get_mode",
    "RME.Native.C72_set_mode",
    "RME.Native.C72_teletype",
    "RME.Native.C72_teletype_control",
    "RME.Native.C72_violated_scroll",
    "RME.Native.C72_clear",
    "RME.Native.C72_violated_clear_attr",
    "RME.Native.C72_violated_no_scroll",
    "RME.Native.C72_write_char_partial",
    "RME.Native.C72_violated_width",
    "RME.Native.C72_violated_runaway",
    "RME.Native.C72_violated_three_calls"
   ],
   "note": "Exact effects of AH=00h,02h,06h,08h,09h,0Eh,0Fh and INT 12h. Violated: AH=09h takes lines to be 25 columns wide, moves the cursor, and from column 25 on runs beyond row, screen and finally the memory array (three calls suffice); line feed in the last row wraps to the top instead of scrolling; AH=06h ignores attribute and window and does not scroll."
  },
  {
   "property": "C73",
   "status": "partial",
   "theorems": [
    "RME.Native.C73_load_partial",
    "RME.Native.C73_vectors",
    "RME.Native.C73_untouched",
    "RME.Native.C73_relocated_word",
    "RME.Native.C73_refused",
    "RME.Native.C73_truncated",
    "RME.Native.C73_truncated_table",
    "RME.Native.C73_violated_sp",
    "RME.Native.C73_violated_word",
    "RME.Native.C73_violated_too_large",
    "RME.Native.C73_violated_entry_zero",
    "RME.Native.C73_violated_reloc_ub",
    "RME.Native.C73_violated_reloc"
   ],
   "note": "Exact load image, registers and memory for every well-formed file of up to 271 blocks whose entry is not FF00:0000; relocation pointwise; refused files. Violated: SP of the header is lost (always FFFEh), word 9FFFEh overwritten, relocation sites outside the image and images above 271 blocks are undefined behaviour, entry FF00:0000 reported as load error (witnesses)."
  },
  {
   "property": "C74",
   "status": "partial",
   "theorems": [
    "RME.Native.C74_report_partial",
    "RME.Native.C74_exact",
    "RME.Native.C74_violated_adjacent",
    "RME.Native.C74_violated_last",
    "RME.Native.C74_no_ub",
    "RME.Native.C74_exact_runs",
    "RME.Native.C74_violated_last_exact",
    "RME.Native.C74_run_partial",
    "RME.Native.C74_violated_first",
    "RME.Native.C74_violated_dump"
   ],
   "note": "Report: every printed item is a real change with its true values, register part exact, memory part exact for every change (C74_exact_runs: of a run of consecutive changed words the 1st, 3rd, 5th ... appear), undefined behaviour exactly when an odd run ends at the last word (C74_violated_last_exact); run: first non-zero result ends it, status 0 iff HLT or breakpoint, dump = first MiB of guest memory. Violated: every second of several neighbouring changed words is not printed, first report compares with 0, memory above 1 MiB is not dumped. Text formatting not modelled."
  },
  {
   "property": "C75",
   "status": "partial",
   "theorems": [
    "RME.Native.C75_options",
    "RME.Native.C75_five_images",
    "RME.Native.C75_refused",
    "RME.Native.C75_all_free",
    "RME.Native.C75_violated_missing_value",
    "RME.Native.C75_missing_long",
    "RME.Native.C75_medium",
    "RME.Native.C75_cpu",
    "RME.Native.C75_machine",
    "RME.Native.C75_violated_cpu_status",
    "RME.Native.C75_debug_level"
   ],
   "note": "Accepting, values, drive order, --, refusals, help, precedence, number reading, CPU names and the resulting machine proved for all command lines. Violated: -b/-d/-O without a value accepted; an unknown CPU name ends with status 0; --cpu/--debug-level without a value abort instead of exiting."
  },
  {
   "property": "C76",
   "status": "proved",
   "theorems": [
    "RME.C76_step",
    "RME.C76_run",
    "RME.C76_call",
    "RME.C76_call_int"
   ],
   "note": "For hooks (INT callbacks, IO) that leave the configuration alone."
  },
  {
   "property": "C66",
   "status": "proved",
   "theorems": [
    "RME.C66_step",
    "RME.C66_call",
    "RME.C66_popf",
    "RME.C66_popf_differs"
   ],
   "note": "For callbacks that respect the relation. C66_popf_differs shows the exception is real."
  },
  {
   "property": "C77",
   "status": "partial",
   "theorems": [
    "RME.Cmp.C77_bin_partial",
    "RME.Cmp.C77_violated_short_bin",
    "RME.Cmp.C77_hex_partial",
    "RME.Cmp.C77_violated_hex",
    "RME.Cmp.C77_header_partial",
    "RME.Cmp.C77_violated_header",
    "RME.Cmp.C77_violated_signed",
    "RME.Cmp.C77_violated_0x",
    "RME.Cmp.C77_usage"
   ],
   "note": "Exact decision of each tool proved for all well-formed templates and all dumps; full property for dumps at least as long as the template. Violated (theorems C77_violated_*): a dump that breaks off early (even empty) is accepted by cmpmem/cmpmembin, cmpmemhex reads FF behind the end, ignores the address in the header, reads unspaced digits as one number, ignores columns beyond 16."
  },
  {
   "property": "C78",
   "status": "partial",
   "theorems": [
    "RME.Testkern.C78_memset_exact",
    "RME.Testkern.C78_memset_partial",
    "RME.Testkern.C78_violated_memset",
    "RME.Testkern.C78_memcpy",
    "RME.Testkern.C78_memcpy_sharp"
   ],
   "note": "memcpy proved in full (C78_memcpy). memset: exact effect of every call (C78_memset_exact); the contract holds iff the block is shorter than 4 bytes or the four bytes of the int argument are equal (C78_memset_partial); it is violated for every fill value 1..255 and every block of 4 or more bytes (C78_violated_memset)."
  },
  {
   "property": "C79",
   "status": "partial",
   "theorems": [
    "RME.Testkern.C79_printf_partial",
    "RME.Testkern.C79_formats",
    "RME.Testkern.C79_violated_truncated",
    "RME.Testkern.C79_violated_width",
    "RME.Testkern.C79_violated_iso",
    "RME.Testkern.C79_puts"
   ],
   "note": "printf described exactly for every format, argument list and memory (C79_printf_partial with C79_formats: every format is covered or ends inside a conversion). Violations: format ending in % is read beyond its end, width above 64 overruns the buffer, %i is unsigned, %% %d %u %c print nothing, %s ignores the width."
  },
  {
   "property": "C80",
   "status": "partial",
   "theorems": [
    "RME.C80_reading_partial",
    "RME.C80_movs_partial",
    "RME.C80_stos_partial",
    "RME.C80_violated_count",
    "RME.C80_violated_index"
   ],
   "note": "Exact behaviour for every prefix: C32-C35, C62 (no restriction on prefix 67 any more). C80_reading_partial/movs/stos: agrees with the architecture while ECX < 65536 and the indices stay inside the segment. Violated: the count is CX (C80_violated_count, every string instruction), offsets are truncated to 16 bits instead of refused (C80_violated_index)."
  },
  {
   "property": "C81",
   "status": "partial",
   "theorems": [
    "RME.C81_movs",
    "RME.C81_stos",
    "RME.C81_lods",
    "RME.C81_scas",
    "RME.C81_cmps",
    "RME.C81_outs",
    "RME.C81_ins",
    "RME.C81_violated_registers"
   ],
   "note": "The elements before the failing one are done exactly (C81_movs/stos/lods/scas/cmps/outs/ins, all prefixes). Violated: CX is decremented for the failing element too and SI/DI are not advanced at all (C81_violated_registers, for every failing element), and INS loses the value it has read (C81_ins)."
  },
  {
   "property": "C82",
   "status": "partial",
   "theorems": [
    "RME.Native.C82_options",
    "RME.Native.C82_refused",
    "RME.Native.C82_all_free",
    "RME.Native.C82_violated_missing_value",
    "RME.Native.C82_machine",
    "RME.Native.C82_bios",
    "RME.Native.C82_no_image",
    "RME.Native.C82_bios_refused",
    "RME.Native.C82_violated_missing_file",
    "RME.Native.C82_violated_cpu_status",
    "RME.Native.C82_run",
    "RME.Native.C82_violated_nothing_loaded",
    "RME.Native.C82_first_instruction"
   ],
   "note": "Options, refusals, --, CPU and debug level, loading, start, run, report, dump and status proved for all command lines, files and runs. Violated: missing file is undefined behaviour; unknown CPU and nothing loaded end with status 0; -O without value accepted."
  },
  {
   "property": "C83",
   "status": "partial",
   "theorems": [
    "RME.Testkern.C83_view",
    "RME.Testkern.C83_start",
    "RME.Testkern.C83_isolation",
    "RME.Testkern.C83_violated_hma",
    "RME.Testkern.C83_violated_cross",
    "RME.Testkern.C83_message"
   ],
   "note": "View, entry state, isolation and message proved for all physical memories and services. Violated: addresses from 100000h on dereference NULL (check compiled out); a word across the end of page 0 is read from behind the copy."
  },
  {
   "property": "C84",
   "status": "proved",
   "theorems": [
    "RME.C84_created",
    "RME.C84_reset_vector",
    "RME.C84_no_history"
   ],
   "note": "Creation, first instruction, and independence of decoder history for all states (the magic and HLE addresses are C07, C12)."
  },
  {
   "property": "C85",
   "status": "partial",
   "theorems": [
    "RME.C85_registers_partial",
    "RME.C85_memory",
    "RME.C85_flags",
    "RME.C85_violated_shxd"
   ],
   "note": "Registers, memory and FLAGS outside the destinations of the instruction are unchanged, for every opcode, prefix and ModR/M byte, on success and on error. Partial: SHLD/SHRD with a register operand 4-7 write a wrong register (C85_violated_shxd)."
  },
  {
   "property": "C86",
   "status": "partial",
   "theorems": [
    "RME.C86_notrace_partial",
    "RME.C86_violated_push",
    "RME.C86_violated_call",
    "RME.C86_violated_popa",
    "RME.C86_violated_retf",
    "RME.C86_violated_pop32",
    "RME.C86_violated_leave",
    "RME.C86_violated_les",
    "RME.C86_violated_rep",
    "RME.C86_violated_ins",
    "RME.C86_violated_imm",
    "RME.C86_violated_div"
   ],
   "note": "Proved for every instruction outside the list TearsAt (state completely unchanged); for each class of the list a witness shows that the code really leaves a trace. Errors found after the completed instruction are excluded (C44_violated_detector, C44_violated_dump)."
  },
  {
   "property": "C87",
   "status": "partial",
   "theorems": [
    "RME.C87_step_partial",
    "RME.C87_call_partial",
    "RME.C87_violated_shxd",
    "RME.C87_violated"
   ],
   "note": "proved for all states, instructions without size prefix and runs, except SHLD/SHRD with a register operand numbered 4-7, where it is false (witness C87_violated_shxd, C87_violated)"
  },
  {
   "property": "C88",
   "status": "partial",
   "theorems": [
    "RME.C88_sources_partial",
    "RME.C88_violated_shxd",
    "RME.C88_violated"
   ],
   "note": "proved for all states, instructions and hidden registers, segment registers (not CS) and flag bits, except SHLD/SHRD with a register operand numbered 4-7, where it is false (C88_violated_shxd, C88_violated); with a SIB byte every register counts as a source"
  },
  {
   "property": "C89",
   "status": "partial",
   "theorems": [
    "RME.C89_dump_regs",
    "RME.C89_dump_complete_partial",
    "RME.C89_violated_fs_gs",
    "RME.C89_text_of_step",
    "RME.C89_trace_line_partial",
    "RME.C89_trace_bytes_partial",
    "RME.C89_violated_self_modifying"
   ],
   "note": "Dump text exact and complete except FS/GS (C89_violated_fs_gs); trace line: number, address and bytes proved for every instruction that is not a control transfer; the bytes are those in memory after the instruction (C89_violated_self_modifying). The disassembly text is not modelled."
  },
  {
   "property": "C90",
   "status": "partial",
   "theorems": [
    "RME.C90_redraw",
    "RME.C90_page_only",
    "RME.C90_palette_partial",
    "RME.C90_violated_cyan",
    "RME.C90_redraw_pending"
   ],
   "note": "redraw is exact for every memory content (C90_redraw, C90_page_only) and no redraw is lost (C90_redraw_pending); the palette is wrong for cyan and bright cyan (C90_violated_cyan)"
  },
  {
   "property": "C91",
   "status": "proved",
   "theorems": [
    "RME.C91_memory_operand",
    "RME.C91_operands8",
    "RME.C91_operands"
   ],
   "note": "all addressing forms; the text goes into the 64-byte buffer of C47 (longer texts are cut off there); mnemonics, immediates and the operands of string instructions are not modelled"
  },
  {
   "property": "C92",
   "status": "partial",
   "theorems": [
    "RME.Trace.C92_text_of_step",
    "RME.Trace.C92_names_partial",
    "RME.Trace.C92_visible_partial",
    "RME.Trace.C92_violated_movzx",
    "RME.Trace.C92_violated_cut"
   ],
   "note": "Prefix names, mnemonic, warning and truncation proved for all opcodes except 0F B6, 0F B7 (MOVZX shown as MOV, C92_violated_movzx) and 0F BA (always ends with an undefined opcode error); with four prefixes the mnemonic can be cut off (C92_violated_cut), with at most two it never is (C92_visible_partial). Immediate operand texts are a parameter."
  },
  {
   "property": "C93",
   "status": "partial",
   "theorems": [
    "RME.Trace.C93_text_of_step",
    "RME.Trace.C93_shown_partial",
    "RME.Trace.C93_visible",
    "RME.Trace.C93_jcc",
    "RME.Trace.C93_loop",
    "RME.Trace.C93_jmp_short",
    "RME.Trace.C93_jmp_near",
    "RME.Trace.C93_jmp_far",
    "RME.Trace.C93_mov",
    "RME.Trace.C93_violated_ret",
    "RME.Trace.C93_violated_in",
    "RME.Trace.C93_violated_push32",
    "RME.Trace.C93_xlat"
   ],
   "note": "Proved for every prefix sequence, operand value and state: the line has the operands as the specification says (C93_shown_partial: cut after 62 characters if the 64-byte buffer is full; C93_visible: never cut with at most one prefix), and the distance or address shown is the one jumped by or to, the number shown the one moved (C93_jcc, C93_loop, C93_jmp_short, C93_jmp_near, C93_jmp_far, C93_mov), the byte at the place XLAT shows the one loaded (C93_xlat). Violated: RET/RETF imm16, AAM and AAD do not show their number, the blank in IN AX,DX, and PUSH imm with prefix 66 shows two of four bytes."
  },
  {
   "property": "C94",
   "status": "partial",
   "theorems": [
    "RME.Trace.C94_shown_partial",
    "RME.Trace.C94_visible",
    "RME.Trace.C94_repne_scas",
    "RME.Trace.C94_repe_cmps",
    "RME.Trace.C94_stosb",
    "RME.Trace.C94_violated_scasb",
    "RME.Trace.C94_violated_cut"
   ],
   "note": "Proved for every string opcode, prefix sequence and state: the line has the operands and the repetition as the specification says (C94_shown_partial: cut after 62 characters if the 64-byte buffer is full; C94_visible: never cut without a repeat prefix and at most one prefix); for REPNE SCAS that finds and REPE CMPS that differs in element j, maximum minus skipped is j+1 (C94_repne_scas, C94_repe_cmps); the place STOSB shows holds AL afterwards (C94_stosb). Violated: SCASB does not show AL (C94_violated_scasb), and the line of REP MOVS/CMPS never fits the buffer (C94_violated_cut)."
  },
  {
   "property": "C95",
   "status": "partial",
   "theorems": [
    "RME.Trace.C95_shown_partial",
    "RME.Trace.C95_mov_store",
    "RME.Trace.C95_mov_load",
    "RME.Trace.C95_violated_cut",
    "RME.Trace.C95_lea",
    "RME.Trace.C95_violated_lxs",
    "RME.Trace.C95_ext_partial",
    "RME.Trace.C95_violated_names"
   ],
   "note": "Proved for every modelled opcode, ModR/M byte, prefix sequence and state in which the instruction completes: the line has after the mnemonic the operands as the specification says, in the order of the manual (C95_shown_partial: one-byte opcodes incl. group FF, POP r/m, LEA, moves of segment registers; C95_ext_partial: IMUL and BSF behind 0F; both cut after 62 characters if the 64-byte buffer is full); for MOV the place shown first afterwards has the value of the operand shown second (C95_mov_store, C95_mov_load); LEA's register has the offset of the place shown (C95_lea). Violated: lines of more than 63 characters (C95_violated_cut, a reachable instruction), LES and LDS for every operand (C95_violated_lxs: place before register), SHLD (byte registers) and MOVZX with 66 (C95_violated_names). Missing: memory operands outside Plain (there C91 alone applies)."
  }
 ]
}