{
 "C01": {
  "status": "proved",
  "note": "Width 8/16/32, arbitrary memory map (blocks may alias), only hypothesis: the bytes are mapped and allocated."
 },
 "C02": {
  "status": "proved",
  "note": "Every seg:ofs pair; aliases in every state, also for unmapped memory."
 },
 "C04": {
  "status": "partial",
  "note": "Violated by the shipped build: RME_DO_NULL_CHECK is defined after the header that tests it, so every access to an unmapped block is a null dereference (C04_shipped_build_*). Proved for a build with the check active."
 },
 "C47": {
  "status": "proved",
  "note": "All sequences of prints of any length."
 },
 "C56": {
  "status": "partial",
  "note": "Disjointness, size, order and alignment for all malloc sequences; calloc multiplies without overflow check (witness)."
 },
 "C57": {
  "status": "partial",
  "note": "Proved (C57_divmod_partial) for every dividend and divisor except an exact non-zero multiple that reaches the subtraction loop; there quotient and remainder are wrong for every such input (C57_exact_multiple_wrong, C57_witness)."
 },
 "C58": {
  "status": "proved",
  "note": "All character sequences; the set-cursor call does not validate its arguments (witness), so the hypothesis cursor on screen is needed."
 },
 "C59": {
  "status": "partial",
  "note": "Injective for sector >= 1; sector 0 is accepted and aliases/goes negative (witness)."
 },
 "C60": {
  "status": "partial",
  "note": "itoa proved exact (digits, order, padding: C60_itoa_partial, C60_numeral_partial) for values below 2^32 or bases 2, 4, 8, 16; larger values in other bases inherit the wrong division of C57 (C60_witness)."
 },
 "C14": {
  "status": "proved",
  "note": "All encodings (r/m,r; r,r/m; acc,imm; r/m,imm), widths 8/16/32, register and memory operands with 16-bit and 32-bit addressing (Plain operands: where the emulator's address is the manual's; the others are described by C38/C63)."
 },
 "C15": {
  "status": "proved",
  "note": "As C14."
 },
 "C16": {
  "status": "partial",
  "note": "Result, ZF, SF, PF right; CF, OF, AF are the processor's or, exactly in one situation each, its complement (C16_sbb_exact; witnesses C16_violated_*); without borrow in SBB is proved equal to SUB."
 },
 "C17": {
  "status": "proved",
  "note": "As C14."
 },
 "C18": {
  "status": "proved",
  "note": "Register short forms and FE/FF /0 /1."
 },
 "C19": {
  "status": "partial",
  "note": "AF of NEG is not updated (C19_violated_af); everything else proved, NOT completely."
 },
 "C05": {
  "status": "proved",
  "note": "Every state, every environment of callbacks/ports."
 },
 "C06": {
  "status": "proved",
  "note": "Iteration specified inductively in Spec/Run.lean (Iter), RME_Call as existence of sufficient fuel; divergence is characterised too."
 },
 "C07": {
  "status": "proved",
  "note": "Every state at FFFF:FFFF."
 },
 "C08": {
  "status": "proved",
  "note": "All int arguments."
 },
 "C36": {
  "status": "proved",
  "note": "Prefix acceptance as a predicate on byte lists; termination as absence of the model's fuel outcome for every state."
 },
 "C37": {
  "status": "proved",
  "note": "All opcodes/groups without implementation; witness: ENTER with level>=2 and a 66 prefix fails after pushing BP."
 },
 "C03": {
  "status": "proved",
  "note": "Every environment (callbacks assumed to be isolated themselves), one instruction, any run, RME_Call; that the 3 bytes are really reachable is shown by C03_straddle; C03_allocated(_callint): only allocated host bytes are ever written."
 },
 "C46": {
  "status": "proved",
  "note": "Only IN/OUT/INS/OUTS access ports and the log only grows; the exact accesses of each instruction are separate theorems where present."
 },
 "C49": {
  "status": "proved",
  "note": "Every instruction, every way of ending."
 },
 "C53": {
  "status": "proved",
  "note": "Every instruction, every way of ending; callbacks are not invoked by other instructions."
 },
 "C54": {
  "status": "proved",
  "note": "Every instruction, every way of ending."
 },
 "C45": {
  "status": "partial",
  "note": "Violated by SHLD/SHRD with register 4-7 as r/m (C45_violated_shxd); proved for every other instruction without 66/67."
 },
 "C13": {
  "status": "partial",
  "note": "Proved for AAM 0, DIV (all widths; zero divisor or quotient too large) and 8/16-bit IDIV together with the C21 fault theorems; missing: 16-bit IDIV of 80000000h by -1 is host UB (C21_violated_idiv_ub) and 32-bit IDIV faults although it should not (C21_violated_idiv32)."
 },
 "C20": {
  "status": "partial",
  "note": "One-operand MUL/IMUL proved in full; multi-operand IMUL: value proved below 2^31, CF/OF wrong (C20_violated_imul_flags), signed overflow UB exactly from 2^31 on (C20_violated_imul_ub_exact), 32-bit forms refused (C20_violated_imul32)."
 },
 "C21": {
  "status": "partial",
  "note": "DIV in full, IDIV 8/16 bit; 32-bit IDIV never produces a quotient: it is host UB for 8000000000000000h / -1 and faults otherwise (C21_violated_idiv32_exact); 16-bit IDIV of 80000000h by -1 is host UB (C21_violated_idiv16_exact)"
 },
 "C22": {
  "status": "partial",
  "note": "SHL proved for every count except count = width, where the CF computation shifts by -1 (undefined, exactly there: C22_violated_shl and C51). SHR, SAR and count 0 proved for all counts, widths, operands."
 },
 "C23": {
  "status": "partial",
  "note": "RCL/RCR and the inverse laws proved for all counts; ROL/ROR proved except that CF is not updated when the masked count is a nonzero multiple of the width (C23_violated_cf)."
 },
 "C24": {
  "status": "proved",
  "note": "All 16 conditions, short and near; CMP+Jcc as two RunOne calls decides the operand order for every width, operand form and prefix."
 },
 "C25": {
  "status": "partial",
  "note": "LOOPx and LOOP-to-self (induction on CX) proved; JCXZ characterised for every prefix combination (C25_jcxz_exact): with 66 it tests ECX instead of CX (C25_violated_jcxz); LOOP with 67 counts in CX, not ECX (C25_violated_loop32)."
 },
 "C40": {
  "status": "proved",
  "note": "MOV (all register/memory/immediate/moffs encodings, MovEnc) and XCHG (86, 87, 90+r) for every machine state, operand and prefix combination in which the ModR/M operand is computed as in the manual (Plain: findings 2, 3 and 11 are excluded); MOV to and from segment registers (without prefix 66, which the code rejects); store-then-load; XCHG twice."
 },
 "C31": {
  "status": "proved",
  "note": "Flag instructions CLC/STC/CMC/CLI/STI/CLD/STD change exactly their flag; SAHF/LAHF exact; LAHF;SAHF identity on FLAGS."
 },
 "C42": {
  "status": "partial",
  "note": "CBW and CWD/CDQ proved. CWDE violated: the code sign-extends AL (not AX) into EAX - C42_violated_cwde; C42_cwde_partial states what is computed."
 },
 "C55": {
  "status": "proved",
  "note": "HLT returns HALT, keeps CS:IP, and again on re-run."
 },
 "C26": {
  "status": "proved",
  "note": "C26_push/C26_pop: exact effect of every 16-bit push and pop form; C26_lifo/C26_lifo_flat: LIFO over push sequences of any length (C26_lifo_flat discharges the room hypothesis on a fully mapped machine)."
 },
 "C27": {
  "status": "proved",
  "note": "PUSHA/POPA exact result and PUSHA;POPA restores all registers."
 },
 "C30": {
  "status": "proved",
  "note": "PUSHF/POPF exact result, flag canonicalisation, PUSHF;POPF identity."
 },
 "C61": {
  "status": "partial",
  "note": "66 50+r / 66 58+r (other than ESP) and 66 6A proved. Violated (each for every state): segment registers push/pop 2 bytes, PUSH ESP stores SP-4, PUSHA/POPA/PUSHF/POPF/POP r/m are refused with 66, 66 FF /6 pushes one word, 66 68 reads only imm16 (witnesses)."
 },
 "C09": {
  "status": "proved",
  "note": "For every state with room on the stack and a vector pointing at an IRET (C09_callint), or at the HLE trampoline B800:n (C09_callint_hle: the flags the callback sets are replaced by the pushed ones), and any number out of range."
 },
 "C10": {
  "status": "proved",
  "note": "INT n, INT3 and INTO, with arbitrary prefixes accepted by the decoder; null vector gives the host error; IRET separately and the round trip with any stack-preserving handler in between."
 },
 "C11": {
  "status": "proved",
  "note": "Registered and unregistered callbacks."
 },
 "C12": {
  "status": "proved",
  "note": "Registered and unregistered callbacks; IRET from an unmapped stack is ignored, RunOne still returns OK (C12_never_fails)."
 },
 "C28": {
  "status": "partial",
  "note": "Proved for near/far direct and indirect CALL/JMP and RET/RETF (n). Violated by FF /2 whose operand is SP or the word the call pushes (C28_violated_call_sp, C28_violated_call_mem; exact behaviour for every operand: C28_call_rm_exact, C28_violated_call_sp_exact) and by the operand-size prefix: for every state 66 E8/E9/9A/EA behave as their 16-bit forms (C28_violated_*32_exact), 66 FF /2../5 are refused (C28_violated_indirect32)."
 },
 "C29": {
  "status": "partial",
  "note": "ENTER with level 1 does not push the frame pointer (for every state: C29_violated_enter1_exact), LEAVE with prefix 66 leaves BP (for every state: C29_violated_leave32_exact). Everything else proved: ENTER size,level for level 0 and 2..31, LEAVE, round trip."
 },
 "C43": {
  "status": "partial",
  "note": "Proved: two consecutive 00 00 give OK then BREAKPOINT (C43_two_nulls); in every history BREAKPOINT means F1 or two 00 00 with only DIV/IDIV/AAM or HLE-trampoline steps in between (C43_history_partial). Violated: a divide fault in between does not reset the detector (C43_violated_fault) and the bytes are looked at after execution (C43_violated_selfmod)."
 },
 "C41": {
  "status": "proved",
  "note": "DAA/DAS after any (with or without carry) addition/subtraction of packed BCD in AL, whole sequences ADD;DAA and SUB;DAS, AAA, AAS, AAM n (n nonzero), AAD n, AAM;AAD. DAS after SBB needs a correct AF from SBB, which the code gives only in the cases of C16 (finding)."
 },
 "C32": {
  "status": "proved",
  "note": "Byte, word and dword forms, with and without repeat prefix, both directions, overlap allowed (Copied is the element-by-element order); C32_movs_block for non-overlapping ranges. All prefixes including 67 (then ESI/EDI advance, see C80); the elements are mapped (else C81); NotZeroed excludes a copy that overwrites the instruction itself with 00 00."
 },
 "C33": {
  "status": "proved",
  "note": "All widths; C33_rep_stosb gives the exact byte-level effect. All prefixes including 67 (C80); elements mapped."
 },
 "C34": {
  "status": "proved",
  "note": "SCAS and CMPS, all widths and repeat prefixes, directions; found / not found / first difference / equal. All prefixes including 67 (C80); examined elements mapped."
 },
 "C35": {
  "status": "proved",
  "note": "CX = 0 for all 14 string opcodes and all prefixes; OUTS and INS with arbitrary (history-dependent) devices."
 },
 "C62": {
  "status": "proved",
  "note": "All widths; All prefixes including 67 (C80); elements mapped."
 },
 "C38": {
  "status": "partial",
  "note": "Exact characterisation for every operand encoding (C38_load8_exact, C38_store8_exact, C38_load_exact, C38_outside); agreement with segment*16+offset mod 2^20 under the stated conditions; violated for negative effective addresses with displacement sign extension past 64K (C38_violated, C38_violated_always)."
 },
 "C39": {
  "status": "partial",
  "note": "Override prefixes proved for all operands; default segment proved for the encodings where the code agrees with the architecture (C39_agrees_iff says exactly which); violated for the others (C39_violated)."
 },
 "C50": {
  "status": "partial",
  "note": "LEA, XLAT, LES/LDS, MOVZX proved; BSF proved for 16 bits and for 32-bit values with a bit in the low half; 32-bit LEA and BSF violated with witnesses."
 },
 "C63": {
  "status": "partial",
  "note": "Proved for the encodings where the code agrees with the architecture; six concrete violations; C63_load8_exact/load_exact/store8_exact/outside say exactly which address is used in every case (displacement before SIB, truncated to 16 bits, 16-bit-mode segment defaults)."
 },
 "C52": {
  "status": "partial",
  "note": "Agrees with the manual for memory operands and registers 0-3, counts 1..width below 32; violated for registers 4-7, counts >= 32 and 16-bit SHLD by 16 of 8000h or more. C52_exact gives the result for every operand (all eight registers, memory) and every count."
 },
 "C51": {
  "status": "partial",
  "note": "On a flat map, undefined behaviour happens only in the listed instruction classes (C51_ub_partial); each kind occurs (C51_violated_kinds)."
 },
 "C48": {
  "status": "partial",
  "note": "Two-run theorem for one instruction and for whole RME_Call/RME_CallInt runs: any two debug levels on a fully mapped machine; any two levels that agree on printing the dump for every layout. Violated in general: the instruction dump printed at level >= 1 re-reads the instruction bytes one by one and fails with BADMEM where a straddling fetch succeeded (C48_violated_dump)."
 },
 "C64": {
  "status": "proved",
  "note": "Relational proof over the whole interpreter (Lemmas/Rl, RlOps)."
 },
 "C65": {
  "status": "proved",
  "note": "Non-interference, same relational logic; C65_straddle shows the three-byte slack is real."
 },
 "C44": {
  "status": "partial",
  "note": "Spec/Length.lean gives an independent table of instruction lengths. C44_advances_partial: every non-transfer instruction (all opcodes, prefixes, addressing forms) that succeeds leaves CS and advances IP by exactly that length, or is a divide that delivered its fault to vector 0 with its own address pushed. C44_failure_partial: on any error CS:IP is unchanged. Excluded, each with a witness: 66 68 (consumes only imm16), IRET failing between its pops, the runaway detector's BREAKPOINT (returned after execution), BADMEM from the instruction dump."
 },
 "C67": {
  "status": "proved",
  "note": "All registered services (INT 03h, 10h, 12h, 13h, 16h, 18h, 19h) modelled as functions on the machine state and the tester's variables; frame theorem for every service that returns, and the INT n instruction of the CPU model composed with the service."
 },
 "C68": {
  "status": "partial",
  "note": "Floppy and BIOS image: exact conditions and resulting machine proved. Violated: a BIOS image above 64 KiB (or empty) is not loaded but the machine is started on F1 bytes and the tester reports success (status 0). The DOS executable case is C73; opening files, SDL and printing are not modelled."
 },
 "C69": {
  "status": "partial",
  "note": "All AH=02h requests are covered by exact theorems. Violated: a buffer reaching beyond 10FFFF writes outside the array; without an image a null FILE* is used; AL = 40h, 80h, C0h are rejected without a status; sector number 0 is accepted (aliases the previous track / clears the buffer); the table at F100:0000 does not hold the geometry. fread/fseek are modelled on a file that does not change."
 },
 "C70": {
  "status": "partial",
  "note": "Exact results for all packets; memory bounds hold for every packet. Violated: success reported for an unknown drive and for short reads; the byte offset overflows int for LBA >= 2^22; only the low 32 bits of the LBA are used."
 },
 "C71": {
  "status": "partial",
  "note": "FIFO order and completeness for all histories, exact effects of AH=00h, 01h, 02h, 11h. Violated: the build without a window ends the process on an empty queue instead of waiting; the scan code in AH is the character code."
 },
 "C72": {
  "status": "partial",
  "note": "Exact effects of AH=00h,02h,06h,08h,09h,0Eh,0Fh and INT 12h. Violated: AH=09h takes lines to be 25 columns wide, moves the cursor, and from column 25 on runs beyond row, screen and finally the memory array (three calls suffice); line feed in the last row wraps to the top instead of scrolling; AH=06h ignores attribute and window and does not scroll."
 },
 "C73": {
  "status": "partial",
  "note": "Exact load image, registers and memory for every well-formed file of up to 271 blocks whose entry is not FF00:0000; relocation pointwise; refused files. Violated: SP of the header is lost (always FFFEh), word 9FFFEh overwritten, relocation sites outside the image and images above 271 blocks are undefined behaviour, entry FF00:0000 reported as load error (witnesses)."
 },
 "C74": {
  "status": "partial",
  "note": "Report: every printed item is a real change with its true values, register part exact, memory part exact for every change (C74_exact_runs: of a run of consecutive changed words the 1st, 3rd, 5th ... appear), undefined behaviour exactly when an odd run ends at the last word (C74_violated_last_exact); run: first non-zero result ends it, status 0 iff HLT or breakpoint, dump = first MiB of guest memory. Violated: every second of several neighbouring changed words is not printed, first report compares with 0, memory above 1 MiB is not dumped. Text formatting not modelled."
 },
 "C75": {
  "status": "partial",
  "note": "Accepting, values, drive order, --, refusals, help, precedence, number reading, CPU names and the resulting machine proved for all command lines. Violated: -b/-d/-O without a value accepted; an unknown CPU name ends with status 0; --cpu/--debug-level without a value abort instead of exiting."
 },
 "C76": {
  "status": "proved",
  "note": "For hooks (INT callbacks, IO) that leave the configuration alone."
 },
 "C66": {
  "status": "proved",
  "note": "For callbacks that respect the relation. C66_popf_differs shows the exception is real."
 },
 "C77": {
  "status": "partial",
  "note": "Exact decision of each tool proved for all well-formed templates and all dumps; full property for dumps at least as long as the template. Violated (theorems C77_violated_*): a dump that breaks off early (even empty) is accepted by cmpmem/cmpmembin, cmpmemhex reads FF behind the end, ignores the address in the header, reads unspaced digits as one number, ignores columns beyond 16."
 },
 "C78": {
  "status": "partial",
  "note": "memcpy proved in full (C78_memcpy). memset: exact effect of every call (C78_memset_exact); the contract holds iff the block is shorter than 4 bytes or the four bytes of the int argument are equal (C78_memset_partial); it is violated for every fill value 1..255 and every block of 4 or more bytes (C78_violated_memset)."
 },
 "C79": {
  "status": "partial",
  "note": "printf described exactly for every format, argument list and memory (C79_printf_partial with C79_formats: every format is covered or ends inside a conversion). Violations: format ending in % is read beyond its end, width above 64 overruns the buffer, %i is unsigned, %% %d %u %c print nothing, %s ignores the width."
 },
 "C80": {
  "status": "partial",
  "note": "Exact behaviour for every prefix: C32-C35, C62 (no restriction on prefix 67 any more). C80_reading_partial/movs/stos: agrees with the architecture while ECX < 65536 and the indices stay inside the segment. Violated: the count is CX (C80_violated_count, every string instruction), offsets are truncated to 16 bits instead of refused (C80_violated_index)."
 },
 "C81": {
  "status": "partial",
  "note": "The elements before the failing one are done exactly (C81_movs/stos/lods/scas/cmps/outs/ins, all prefixes). Violated: CX is decremented for the failing element too and SI/DI are not advanced at all (C81_violated_registers, for every failing element), and INS loses the value it has read (C81_ins)."
 },
 "C82": {
  "status": "partial",
  "note": "Options, refusals, --, CPU and debug level, loading, start, run, report, dump and status proved for all command lines, files and runs. Violated: missing file is undefined behaviour; unknown CPU and nothing loaded end with status 0; -O without value accepted."
 },
 "C83": {
  "status": "partial",
  "note": "View, entry state, isolation and message proved for all physical memories and services. Violated: addresses from 100000h on dereference NULL (check compiled out); a word across the end of page 0 is read from behind the copy."
 },
 "C84": {
  "status": "proved",
  "note": "Creation, first instruction, and independence of decoder history for all states (the magic and HLE addresses are C07, C12)."
 },
 "C85": {
  "status": "partial",
  "note": "Registers, memory and FLAGS outside the destinations of the instruction are unchanged, for every opcode, prefix and ModR/M byte, on success and on error. Partial: SHLD/SHRD with a register operand 4-7 write a wrong register (C85_violated_shxd)."
 },
 "C86": {
  "status": "partial",
  "note": "Proved for every instruction outside the list TearsAt (state completely unchanged); for each class of the list a witness shows that the code really leaves a trace. Errors found after the completed instruction are excluded (C44_violated_detector, C44_violated_dump)."
 },
 "C87": {
  "status": "partial",
  "note": "proved for all states, instructions without size prefix and runs, except SHLD/SHRD with a register operand numbered 4-7, where it is false (witness C87_violated_shxd, C87_violated)"
 },
 "C88": {
  "status": "partial",
  "note": "proved for all states, instructions and hidden registers, segment registers (not CS) and flag bits, except SHLD/SHRD with a register operand numbered 4-7, where it is false (C88_violated_shxd, C88_violated); with a SIB byte every register counts as a source"
 },
 "C89": {
  "status": "partial",
  "note": "Dump text exact and complete except FS/GS (C89_violated_fs_gs); trace line: number, address and bytes proved for every instruction that is not a control transfer; the bytes are those in memory after the instruction (C89_violated_self_modifying). The disassembly text is not modelled."
 },
 "C90": {
  "status": "partial",
  "note": "redraw is exact for every memory content (C90_redraw, C90_page_only) and no redraw is lost (C90_redraw_pending); the palette is wrong for cyan and bright cyan (C90_violated_cyan)"
 },
 "C91": {
  "status": "proved",
  "note": "all addressing forms; the text goes into the 64-byte buffer of C47 (longer texts are cut off there); mnemonics, immediates and the operands of string instructions are not modelled"
 },
 "C92": {
  "status": "partial",
  "note": "Prefix names, mnemonic, warning and truncation proved for all opcodes except 0F B6, 0F B7 (MOVZX shown as MOV, C92_violated_movzx) and 0F BA (always ends with an undefined opcode error); with four prefixes the mnemonic can be cut off (C92_violated_cut), with at most two it never is (C92_visible_partial). Immediate operand texts are a parameter."
 },
 "C93": {
  "status": "partial",
  "note": "Proved for every prefix sequence, operand value and state: the line has the operands as the specification says (C93_shown_partial: cut after 62 characters if the 64-byte buffer is full; C93_visible: never cut with at most one prefix), and the distance or address shown is the one jumped by or to, the number shown the one moved (C93_jcc, C93_loop, C93_jmp_short, C93_jmp_near, C93_jmp_far, C93_mov), the byte at the place XLAT shows the one loaded (C93_xlat). Violated: RET/RETF imm16, AAM and AAD do not show their number, the blank in IN AX,DX, and PUSH imm with prefix 66 shows two of four bytes."
 },
 "C94": {
  "status": "partial",
  "note": "Proved for every string opcode, prefix sequence and state: the line has the operands and the repetition as the specification says (C94_shown_partial: cut after 62 characters if the 64-byte buffer is full; C94_visible: never cut without a repeat prefix and at most one prefix); for REPNE SCAS that finds and REPE CMPS that differs in element j, maximum minus skipped is j+1 (C94_repne_scas, C94_repe_cmps); the place STOSB shows holds AL afterwards (C94_stosb). Violated: SCASB does not show AL (C94_violated_scasb), and the line of REP MOVS/CMPS never fits the buffer (C94_violated_cut)."
 },
 "C95": {
  "status": "partial",
  "note": "Proved for every modelled opcode, ModR/M byte, prefix sequence and state in which the instruction completes: the line has after the mnemonic the operands as the specification says, in the order of the manual (C95_shown_partial: one-byte opcodes incl. group FF, POP r/m, LEA, moves of segment registers; C95_ext_partial: IMUL and BSF behind 0F; both cut after 62 characters if the 64-byte buffer is full); for MOV the place shown first afterwards has the value of the operand shown second (C95_mov_store, C95_mov_load); LEA's register has the offset of the place shown (C95_lea). Violated: lines of more than 63 characters (C95_violated_cut, a reachable instruction), LES and LDS for every operand (C95_violated_lxs: place before register), SHLD (byte registers) and MOVZX with 66 (C95_violated_names). Missing: memory operands outside Plain (there C91 alone applies)."
 }
}