{"id": "C01", "title": "Guest memory: read after write", "statement": "Storing an 8/16/32-bit value through the emulator at segment:offset and then loading the same width from the same segment:offset gives the stored value (little endian), and changes no other host byte than the 1/2/4 written ones.", "quantifier": "every state, memory map (including aliased and non-contiguous blocks), segment, offset and value", "why_tests_cant": "2^32 seg:ofs pairs times arbitrary host memory layouts; aliasing of blocks is chosen by the host", "anchors": ["src/rme_internal.h:RME_Int_GetPtr", "src/rme_internal.h:RME_Int_Read8/16/32", "src/rme_internal.h:RME_Int_Write8/16/32"]}
{"id": "C02", "title": "Real-mode address translation", "statement": "A byte accessed at segment:offset is the byte at linear address segment*16+offset: offset (linear mod 4096) of the host block registered for linear div 4096; two seg:ofs pairs with the same linear address always denote the same host byte.", "quantifier": "all 2^32 segment:offset pairs and all block maps", "why_tests_cant": "needs all pairs of addresses", "anchors": ["src/rme_internal.h:RME_Int_GetPtr", "src/rme.h:Memory"]}
{"id": "C03", "title": "Host memory isolation", "statement": "Running guest code never modifies a host byte outside the 4 KiB blocks the host registered (plus at most three bytes directly behind the end of a registered block, which the code does not check), and never changes the block table itself.", "quantifier": "every state, every guest program, every number of steps, every I/O environment", "why_tests_cant": "arbitrary hostile guest programs and unbounded runs", "anchors": ["src/rme.c:RME_RunOne", "src/rme.c:RME_Call", "src/rme_internal.h:RME_Int_GetPtr"]}
{"id": "C04", "title": "Access to an unmapped block is reported", "statement": "Guest access to a block whose Memory[] entry is NULL makes the call return RME_ERR_BADMEM and leaves memory unchanged, instead of dereferencing a null pointer.", "quantifier": "every state with an unmapped block, every access width and direction", "why_tests_cant": "the compiled-out check is invisible unless the exact configuration and address are hit; quantifies over all maps and addresses", "anchors": ["src/rme_internal.h:RME_Int_GetPtr", "src/rme.c:RME_DO_NULL_CHECK", "src/rme.h:Memory"]}
{"id": "C05", "title": "RME_RunOne return codes", "statement": "RME_RunOne only ever returns OK, BADMEM, UNDEFOPCODE, BUG, BREAKPOINT, HALT or FCNRET: the internal codes CONTINUE, DIVERR and INVAL never escape; FCNRET is returned exactly at FFFF:FFFF.", "quantifier": "every state and environment", "why_tests_cant": "2^hundreds of states and all instruction encodings", "anchors": ["src/rme.c:RME_RunOne", "src/rme.h:eRME_Errors"]}
{"id": "C06", "title": "RME_Call is iteration of RME_RunOne", "statement": "RME_Call returns 0 exactly when iterating RME_RunOne reaches FFFF:FFFF with every earlier step OK; otherwise it returns the first code of RME_RunOne other than OK; it never returns FCNRET, CONTINUE, DIVERR or INVAL; final state = state of the iteration.", "quantifier": "every start state, every program, any number of steps", "why_tests_cant": "unbounded executions", "anchors": ["src/rme.c:RME_Call"]}
{"id": "C07", "title": "Magic return address", "statement": "At CS:IP = FFFF:FFFF RME_RunOne returns FCNRET and changes nothing at all, however often it is called.", "quantifier": "every state with CS:IP = FFFF:FFFF", "why_tests_cant": "all register/memory contents", "anchors": ["src/rme.c:RME_RunOne", "src/rme.h:RME_MAGIC_CS"]}
{"id": "C08", "title": "RME_CallInt validates the interrupt number", "statement": "RME_CallInt with a number outside 0..255 returns RME_ERR_INVAL without executing anything, and leaves memory, general registers, flags and stack unchanged (CS:IP is clobbered with FFFF:FFFF).", "quantifier": "every int and every state", "why_tests_cant": "2^32 integers x all states", "anchors": ["src/rme.c:RME_CallInt", "src/rme.c:RME_int_CallInt"]}
{"id": "C09", "title": "RME_CallInt round trip", "statement": "If the vector of n points at an IRET instruction, RME_CallInt(n) returns 0 and every general register, segment register other than CS, SP and FLAGS has its original value; CS:IP is FFFF:FFFF and only the six stack bytes changed.", "quantifier": "every n in 0..255, every register/flag/memory content, every handler address", "why_tests_cant": "all vectors, stack positions and flags", "anchors": ["src/rme.c:RME_CallInt", "src/ops_call.c:RME_Op_IRET_z"]}
{"id": "C10", "title": "INT n / IRET", "statement": "INT n pushes FLAGS, CS and the address of the next instruction, clears IF and TF only, and continues at the vector; a following IRET restores FLAGS, CS, SP and continues behind the INT.", "quantifier": "every n, flags, stack pointer (including wrap), vector", "why_tests_cant": "all stack positions and vectors", "anchors": ["src/ops_call.c:_CallInterrupt", "src/ops_call.c:RME_Op_IRET_z"]}
{"id": "C11", "title": "High level emulation of INT n", "statement": "INT n whose vector is B800:n runs the host callback n exactly once (if registered) on the state, touches neither stack nor flags itself, and continues at the next instruction.", "quantifier": "every n, every callback, every state", "why_tests_cant": "arbitrary callbacks", "anchors": ["src/ops_call.c:_CallInterrupt", "src/rme.h:HLECallbacks"]}
{"id": "C12", "title": "HLE trampoline", "statement": "When CS:IP = B800:n with n<256, RME_RunOne runs callback n once (if registered) and then performs an IRET, returning OK.", "quantifier": "every n, callback, state", "why_tests_cant": "arbitrary callbacks and stacks", "anchors": ["src/rme.c:RME_RunOne"]}
{"id": "C13", "title": "Divide errors are delivered as INT 0", "statement": "When DIV/IDIV/AAM faults, general registers are unchanged by the instruction, FLAGS, CS and the address of the faulting instruction are pushed, IF and TF cleared, and execution continues at vector 0; RME_RunOne returns OK.", "quantifier": "every faulting operand pair, width and state", "why_tests_cant": "all operand values", "anchors": ["src/rme.c:RME_RunOne", "src/ops_alu.h:ALU_OPCODE_DIV_CODE", "src/ops_misc.c:RME_Op_AAM_z"]}
{"id": "C14", "title": "ADD and ADC", "statement": "ADD/ADC give the sum modulo 2^w, CF = unsigned carry out, OF = signed overflow, AF = carry out of bit 3, ZF/SF/PF of the result, and no other flag changes.", "quantifier": "all operands, carry-in and flag words at widths 8, 16 and 32", "why_tests_cant": "2^64 operand pairs", "anchors": ["src/ops_alu.h:ALU_OPCODE_ADD_CODE", "src/ops_alu.h:ALU_OPCODE_ADC_CODE", "src/rme_internal.h:SET_COMM_FLAGS"]}
{"id": "C15", "title": "SUB and CMP", "statement": "SUB/CMP compute the difference modulo 2^w, CF = unsigned borrow, OF = signed overflow, AF = borrow from bit 4, ZF/SF/PF of the difference; CMP writes no operand.", "quantifier": "all operands and flag words at widths 8, 16 and 32", "why_tests_cant": "2^64 operand pairs", "anchors": ["src/ops_alu.h:ALU_OPCODE_SUB_CODE", "src/ops_alu.h:ALU_OPCODE_CMP_CODE"]}
{"id": "C16", "title": "SBB", "statement": "SBB computes dest - src - CF with CF/OF/AF/ZF/SF/PF as on the processor.", "quantifier": "all operands, borrow-in and flag words at widths 8, 16 and 32", "why_tests_cant": "2^64 operand pairs; the defects are at single values", "anchors": ["src/ops_alu.h:ALU_OPCODE_SBB_CODE"]}
{"id": "C17", "title": "AND, OR, XOR, TEST", "statement": "The logic operations compute the bitwise result, clear CF and OF, set ZF/SF/PF from the result and keep every other flag; TEST writes no operand.", "quantifier": "all operands at widths 8, 16, 32", "why_tests_cant": "2^64 operand pairs", "anchors": ["src/ops_alu.h:ALU_OPCODE_AND_CODE", "src/ops_alu.h:ALU_OPCODE_TEST_CODE"]}
{"id": "C18", "title": "INC and DEC", "statement": "INC/DEC add/subtract one modulo 2^w, set OF/AF/ZF/SF/PF as ADD/SUB 1 would, and preserve CF.", "quantifier": "all operands and flags at widths 8, 16, 32", "why_tests_cant": "2^32 operands x flags", "anchors": ["src/ops_alu.h:ALU_OPCODE_INC_CODE", "src/ops_alu.h:ALU_OPCODE_DEC_CODE"]}
{"id": "C19", "title": "NEG and NOT", "statement": "NEG gives the two's complement with CF = (operand != 0), OF = (operand = minimum), AF = borrow of the low nibble, ZF/SF/PF of the result; NOT complements every bit and changes no flag; both are involutions on the operand.", "quantifier": "all operands at widths 8, 16, 32", "why_tests_cant": "2^32 operands", "anchors": ["src/ops_alu.h:ALU_OPCODE_NEG_CODE", "src/ops_alu.h:ALU_OPCODE_NOT_CODE"]}
{"id": "C20", "title": "MUL and IMUL", "statement": "One-operand MUL/IMUL leave the full double-width product in AX / DX:AX / EDX:EAX and set CF=OF exactly when the high half is not the (zero/sign) extension of the low half; multi-operand IMUL gives the low 16 bits and CF=OF = product does not fit.", "quantifier": "all operand pairs at widths 8, 16, 32", "why_tests_cant": "2^64 operand pairs", "anchors": ["src/ops_alu.h:ALU_OPCODE_MUL_CODE", "src/ops_alu.h:ALU_OPCODE_IMUL_CODE", "src/ops_alu.c:RME_Op_IMUL_MIX"]}
{"id": "C21", "title": "DIV and IDIV", "statement": "DIV/IDIV leave quotient and remainder with dividend = quotient*divisor + remainder, |remainder|<|divisor|, and fault exactly when the divisor is 0 or the quotient does not fit.", "quantifier": "all dividends and divisors at widths 8, 16, 32", "why_tests_cant": "2^96 pairs", "anchors": ["src/ops_alu.h:ALU_OPCODE_DIV_CODE", "src/ops_alu.h:ALU_OPCODE_IDIV_CODE"]}
{"id": "C22", "title": "SHL, SHR, SAR", "statement": "Shifts by count&31 give the mathematically shifted value, CF = last bit shifted out, documented OF for a count of 1, ZF/SF/PF of the result, and a count of 0 changes nothing.", "quantifier": "all operands, counts and flags, widths 8, 16, 32", "why_tests_cant": "all values x 256 counts, including the count equal to the width", "anchors": ["src/ops_alu.h:ALU_OPCODE_SHL_CODE", "src/ops_alu.h:ALU_OPCODE_SHR_CODE", "src/ops_alu.h:ALU_OPCODE_SAR_CODE"]}
{"id": "C23", "title": "ROL, ROR, RCL, RCR", "statement": "ROL/ROR rotate w bits, RCL/RCR rotate the w+1-bit quantity CF:operand; left and right rotation by the same count are inverse; CF is the bit moved around; only CF and OF change.", "quantifier": "all operands, counts, carry, widths 8, 16, 32", "why_tests_cant": "all values x 256 counts", "anchors": ["src/ops_alu.h:ALU_OPCODE_ROL_CODE", "src/ops_alu.h:ALU_OPCODE_RCL_CODE", "src/ops_alu.h:ALU_OPCODE_RCR_CODE"]}
{"id": "C24", "title": "Conditional jumps decide comparisons", "statement": "After CMP a,b: JB/JAE/JBE/JA branch exactly on the unsigned order and JL/JGE/JLE/JG exactly on the signed order, JZ/JNZ on equality; a taken jump goes to next-IP + displacement modulo 2^16, an untaken one to next-IP; no state other than IP changes.", "quantifier": "all operand pairs, all displacements, short and near forms, all 16 conditions", "why_tests_cant": "2^64 operand pairs x displacements", "anchors": ["src/ops_jump.c:MAKE_COND_JUMP_S", "src/ops_jump.c:CONDITION_L"]}
{"id": "C25", "title": "LOOP, LOOPZ, LOOPNZ, JCXZ", "statement": "LOOPx decrements CX modulo 2^16 and jumps exactly when CX is then non-zero (and ZF as required); LOOP to itself runs exactly CX (or 65536) times.", "quantifier": "every CX, flag word and displacement", "why_tests_cant": "long loops", "anchors": ["src/ops_jump.c:RME_Op_LOOP_S", "src/ops_jump.c:RME_Op_JCXZ_S"]}
{"id": "C26", "title": "The stack is LIFO", "statement": "Any sequence of 16-bit pushes (of registers, segment registers, immediates, memory words) followed by the same number of 16-bit pops returns the values in reverse order and restores SP, at every SP including wrap-around.", "quantifier": "all value sequences up to 32767 words, all SS:SP", "why_tests_cant": "unbounded sequences", "anchors": ["src/rme_internal.h:PUSH", "src/rme_internal.h:POP", "src/ops_stack.c"]}
{"id": "C27", "title": "PUSHA / POPA", "statement": "PUSHA stores AX,CX,DX,BX,original SP,BP,SI,DI; POPA after PUSHA restores all eight registers.", "quantifier": "all register contents and SS:SP", "why_tests_cant": "2^128 register contents, stack wrap", "anchors": ["src/ops_stack.c:RME_Op_PUSH_A", "src/ops_stack.c:RME_Op_POP_A"]}
{"id": "C28", "title": "CALL / RET", "statement": "CALL pushes the address of the following instruction (with CS for far calls) and jumps; RET/RETF returns there and restores SP; RET n additionally discards n bytes.", "quantifier": "all addresses, displacements, stack positions", "why_tests_cant": "all IP/SP wrap positions", "anchors": ["src/ops_call.c:RME_Op_CALL_N", "src/ops_call.c:RME_Op_RET_N", "src/rme.c:RME_Op_Unary_MX"]}
{"id": "C29", "title": "ENTER / LEAVE", "statement": "LEAVE after ENTER size,level restores SP and BP; ENTER builds the documented frame (BP pushed, level-1 frame pointers and the new frame pointer, size bytes reserved).", "quantifier": "all sizes, levels, SS:SP, BP", "why_tests_cant": "32 levels x 2^16 sizes x stack positions", "anchors": ["src/ops_call.c:RME_Op_ENTER_z", "src/ops_call.c:RME_Op_LEAVE_z"]}
{"id": "C30", "title": "PUSHF / POPF", "statement": "POPF loads FLAGS with the CPU-specific reserved bits forced; PUSHF;POPF is the identity on flags whose reserved bits are already canonical; POPF is idempotent in its forced bits.", "quantifier": "all flag words and CPU types", "why_tests_cant": "2^16 words x stack positions", "anchors": ["src/ops_stack.c:RME_Op_PUSH_F", "src/ops_stack.c:RME_Op_POP_F"]}
{"id": "C31", "title": "Flag instructions", "statement": "CLC/STC/CMC/CLI/STI/CLD/STD change exactly their flag; SAHF loads exactly SF,ZF,AF,PF,CF from AH; LAHF;SAHF is the identity on FLAGS.", "quantifier": "all flag words and AH", "why_tests_cant": "2^24 combinations; frame over the whole state", "anchors": ["src/ops_flags.c"]}
{"id": "C32", "title": "REP MOVS copies", "statement": "REP MOVSB/W with DF=0 (resp. 1) performs CX element copies in ascending (descending) order, ends with CX=0 and SI/DI advanced modulo 2^16; for non-overlapping ranges the destination equals the source and all other memory is unchanged.", "quantifier": "every CX up to 65535, every memory content, direction, overlap", "why_tests_cant": "unbounded loop counts and overlaps", "anchors": ["src/ops_string.c:RME_Op_MOV_SB", "src/ops_string.c:STRING_HEAD"]}
{"id": "C33", "title": "REP STOS fills", "statement": "REP STOSB stores AL to CX consecutive bytes at ES:DI and nothing else, ends with CX=0 and DI advanced.", "quantifier": "every CX, ES:DI, AL, memory", "why_tests_cant": "unbounded loop counts", "anchors": ["src/ops_string.c:RME_Op_STO_SB"]}
{"id": "C34", "title": "REPNE SCAS / REPE CMPS search", "statement": "REPNE SCASB stops at the first byte equal to AL (ZF=1, CX = remaining count) or runs CX to 0 with ZF=0; REPE CMPSB stops at the first difference.", "quantifier": "every CX, memory content, start offset", "why_tests_cant": "unbounded scans", "anchors": ["src/ops_string.c:RME_Op_SCA_SB", "src/ops_string.c:RME_Op_CMP_SB"]}
{"id": "C35", "title": "REP with CX=0, REP INS/OUTS", "statement": "A REP string instruction with CX=0 changes nothing but IP; REP OUTSB sends exactly the CX bytes at DS:SI, in order, to port DX; REP INSB stores CX port values.", "quantifier": "every CX, port, memory, device behaviour", "why_tests_cant": "unbounded loop counts and arbitrary devices", "anchors": ["src/ops_string.c:RME_Op_OUT_SB", "src/ops_string.c:RME_Op_IN_SB"]}
{"id": "C36", "title": "Instruction decoding terminates", "statement": "Decoding never loops: at most four prefixes (one segment, one operand-size, one address-size, one repeat prefix) are accepted in any order, any repeated prefix kind gives UNDEFOPCODE, and every REP/ENTER/BSF loop terminates.", "quantifier": "every byte stream", "why_tests_cant": "infinite prefix streams, all orders", "anchors": ["src/rme.c:RME_Int_DoOpcode", "src/prefixes.c"]}
{"id": "C37", "title": "Undefined opcodes", "statement": "Every opcode without implementation returns UNDEFOPCODE and changes no register, flag or memory (0xF1: BREAKPOINT).", "quantifier": "all opcode bytes incl. two-byte opcodes, all states", "why_tests_cant": "all states", "anchors": ["src/opcode_table.h:caOperations", "src/rme.c:RME_Op_Ext_0F"]}
{"id": "C38", "title": "16-bit effective addresses", "statement": "For every ModR/M byte with mod<3 the memory operand offset is base + index + sign-extended displacement modulo 2^16 as in the 8086 table.", "quantifier": "all ModR/M bytes, register contents and displacements", "why_tests_cant": "2^48 register/displacement contents; wrap only near 64K", "anchors": ["src/rme.c:DoFunc", "src/rme.c:RME_Int_GetMMM"]}
{"id": "C39", "title": "Default and overridden segments", "statement": "Memory operands use SS when BP is a base and DS otherwise, unless a segment prefix is present, in which case that segment is used.", "quantifier": "all ModR/M bytes, all prefixes", "why_tests_cant": "all encodings", "anchors": ["src/rme.c:DoFunc", "src/prefixes.c:RME_Op_Ovr_Seg"]}
{"id": "C40", "title": "MOV and XCHG", "statement": "MOV copies the operand exactly and changes no flag; storing then loading gives the value back; XCHG swaps and applied twice is the identity.", "quantifier": "all registers, memory operands, values, widths", "why_tests_cant": "all states", "anchors": ["src/ops_mov.c"]}
{"id": "C41", "title": "Decimal arithmetic", "statement": "ADD;DAA and SUB;DAS on packed BCD operands give the packed BCD sum/difference with CF the decimal carry/borrow; AAA/AAS/AAM/AAD likewise for unpacked digits.", "quantifier": "all valid BCD operand pairs", "why_tests_cant": "needs all pairs and flag combinations", "anchors": ["src/ops_misc.c:RME_Op_DAA_z", "src/ops_misc.c:RME_Op_AAM_z"]}
{"id": "C42", "title": "CBW/CWDE and CWD/CDQ", "statement": "CBW/CWDE sign-extend AL to AX (AX to EAX), CWD/CDQ sign-extend AX to DX:AX (EAX to EDX:EAX); no flags change.", "quantifier": "all register contents", "why_tests_cant": "2^32 values", "anchors": ["src/ops_misc.c:RME_Op_CBW_z", "src/ops_misc.c:RME_Op_CWD_z"]}
{"id": "C43", "title": "Runaway detection", "statement": "Executing two consecutive 00 00 instructions returns BREAKPOINT on the second and not before; any other instruction in between resets the detector.", "quantifier": "every instruction history", "why_tests_cant": "unbounded histories", "anchors": ["src/rme.c:RME_Int_DoOpcode", "src/rme.h:bWasLastOperationNull"]}
{"id": "C44", "title": "Sequential execution", "statement": "An instruction that is not a control transfer advances IP by its encoded length modulo 2^16 and leaves CS; a failing instruction leaves IP (CS:IP still designates it).", "quantifier": "all encodings and states", "why_tests_cant": "all encodings", "anchors": ["src/rme.c:RME_Int_DoOpcode"]}
{"id": "C45", "title": "Upper register halves", "statement": "Without operand/address-size prefixes no instruction changes bits 16..31 of any general register.", "quantifier": "all states and encodings", "why_tests_cant": "all encodings; a single wrong pointer cast breaks it", "anchors": ["src/rme_internal.h:RegW", "src/ops_alu.c:RME_Op_SHRD_I8"]}
{"id": "C46", "title": "Port I/O confinement", "statement": "Only IN/OUT/INS/OUTS call the host port functions; each performs accesses with the right port, width, direction and value, in program order.", "quantifier": "all states, encodings, devices", "why_tests_cant": "all encodings and arbitrary devices", "anchors": ["src/ops_io.c", "src/ops_io.h"]}
{"id": "C47", "title": "Debug text buffer safety", "statement": "Whatever is printed, the 64-byte debug text buffer is never overrun, stays NUL terminated, and its length field stays within 0..64.", "quantifier": "every sequence of printed strings", "why_tests_cant": "unbounded print sequences", "anchors": ["src/rme_internal.h:RME_Int_DebugPrint"]}
{"id": "C48", "title": "Debug level does not influence emulation", "statement": "Running the same guest with different DebugLevel gives the same registers, memory, I/O and return codes.", "quantifier": "every state, program and pair of levels", "why_tests_cant": "two-run property over all programs", "anchors": ["src/rme.c:RME_Int_DoOpcode", "src/rme.c:RME_RunOne"]}
{"id": "C49", "title": "Instruction counter", "statement": "InstrNum increases by exactly one per RME_RunOne that fetches an instruction and is otherwise never touched.", "quantifier": "every state and history", "why_tests_cant": "all instructions", "anchors": ["src/rme.c:RME_Int_DoOpcode"]}
{"id": "C50", "title": "LEA, XLAT, LDS/LES/LSS/LFS/LGS, MOVZX, BSF", "statement": "LEA loads the offset without touching memory; XLAT loads AL from segment:(BX+AL); LxS load offset and segment from memory; MOVZX zero-extends; BSF returns the index of the lowest set bit.", "quantifier": "all operands", "why_tests_cant": "all states", "anchors": ["src/ops_misc.c:RME_Op_LEA_z", "src/ops_misc.c:_LDS_LES_internal", "src/ops_misc.c:RME_Op_XLAT_z", "src/ops_misc.c:RME_Op_BSF_z", "src/ops_mov.c:RME_Op_MOV_Z"]}
{"id": "C51", "title": "No guest program causes host undefined behaviour", "statement": "With all 272 blocks mapped contiguously, no guest instruction makes the emulator perform undefined behaviour (out of bounds, null dereference, bad shift, overflowing division).", "quantifier": "every state and instruction", "why_tests_cant": "the triggers are single encodings/operands", "anchors": ["src/rme.c:RME_RunOne", "src/rme_internal.h:Seg", "src/ops_alu.h"]}
{"id": "C52", "title": "SHLD / SHRD", "statement": "Double-precision shifts shift the destination and fill from the source register named by the ModR/M byte.", "quantifier": "all operands and counts", "why_tests_cant": "all encodings", "anchors": ["src/ops_alu.c:RME_Op_SHLD_I8", "src/ops_alu.h:ALU_OPCODE_SHRD_CODE"]}
{"id": "C53", "title": "System flags", "statement": "IF, TF, DF and the reserved flag bits change only by POPF, IRET, INT/INTO/faults, CLI/STI, CLD/STD (and host callbacks).", "quantifier": "all states and instructions", "why_tests_cant": "all instructions", "anchors": ["src/rme.c:RME_RunOne"]}
{"id": "C54", "title": "Segment registers", "statement": "A segment register changes only by an instruction that names it (MOV Sreg, POP Sreg, LxS) or, for CS, by a far control transfer or interrupt.", "quantifier": "all states and instructions", "why_tests_cant": "all instructions", "anchors": ["src/rme.c:RME_RunOne"]}
{"id": "C55", "title": "HLT", "statement": "HLT returns RME_ERR_HALT and leaves CS:IP at the HLT, so re-running reports HALT again; no other state than the instruction counter and decoder scratch changes.", "quantifier": "every state", "why_tests_cant": "all states", "anchors": ["src/ops_misc.c:RME_Op_HLT_z"]}
{"id": "C56", "title": "testkern heap", "statement": "Blocks returned by malloc/calloc are pairwise disjoint, at least as large as requested, ascending, and 8-aligned if the heap start is.", "quantifier": "every allocation sequence (without address-space wrap)", "why_tests_cant": "unbounded sequences", "anchors": ["testkern/heap.c"]}
{"id": "C57", "title": "testkern 64-bit division helpers", "statement": "__udivdi3/__umoddi3 return the quotient/remainder of their arguments for every non-zero divisor.", "quantifier": "all 2^128 argument pairs", "why_tests_cant": "2^128 pairs; the defect is at exact multiples", "anchors": ["testkern/lib.c:__udivdi3", "testkern/lib.c:__umoddi3"]}
{"id": "C58", "title": "nativetest teletype output stays on screen", "statement": "Starting with the cursor on the screen, any character sequence written through teletype output keeps the cursor inside 80x25 and only writes the 4000 bytes of text memory.", "quantifier": "every character sequence", "why_tests_cant": "unbounded sequences", "anchors": ["nativetest/src/main.c:PutChar"]}
{"id": "C59", "title": "nativetest disk geometry", "statement": "CHS addresses accepted for disk 0 map injectively to LBA sectors 0..2879, and out-of-range addresses are rejected.", "quantifier": "all cylinder/head/sector triples", "why_tests_cant": "all triples", "anchors": ["nativetest/src/main.c:ReadDiskCHS"]}
{"id": "C60", "title": "testkern itoa", "statement": "itoa writes the base-b digits of the value (most significant first), padded to the minimum length, NUL terminated; evaluating the digits gives the value back.", "quantifier": "all 64-bit values, bases 2..16, minimum lengths", "why_tests_cant": "2^64 values", "anchors": ["testkern/debug.c:itoa"]}
{"id": "C61", "title": "32-bit stack operations", "statement": "With an operand-size prefix, a push stores four bytes and subtracts 4 from SP and a pop loads four bytes and adds 4, for every operand form of PUSH and POP.", "quantifier": "all registers, values, SS:SP and operand forms with prefix 66", "why_tests_cant": "2^32 values x stack positions x operand encodings", "anchors": ["src/ops_stack.c:RME_Op_PUSH_Reg", "src/ops_stack.c:RME_Op_POP_Reg", "src/ops_stack.c:RME_Op_PUSH_I", "src/ops_arith.c:RME_Op_Arith_FF"]}
{"id": "C62", "title": "LODS loads the last element", "statement": "LODSB/W/D (with or without repeat prefix) loads the source elements one after the other into AL/AX/EAX, so it ends with the last one, advances SI by the number of elements modulo 2^16, counts CX down to 0 with a repeat prefix, and changes nothing else.", "quantifier": "every CX, DS:SI, direction, memory content", "why_tests_cant": "unbounded loop counts", "anchors": ["src/ops_string.c:RME_Op_LOD_SB", "src/ops_string.c:STRING_FOOTER"]}
{"id": "C63", "title": "32-bit addressing", "statement": "With the address-size prefix (67) a ModR/M memory operand designates base + index*scale + displacement modulo 2^32, the displacement being sign-extended, in the segment chosen by the override or (with no override) SS when the base is EBP or ESP and DS otherwise, and the instruction length counts the ModR/M byte, the SIB byte and the displacement.", "quantifier": "every ModR/M and SIB byte, every displacement, every register content, every segment override", "why_tests_cant": "2^32 register values x 2^16 encodings x displacements", "anchors": ["src/rme.c:DoFunc32", "src/rme.c:RME_Int_GetMMM"]}
{"id": "C64", "title": "Guest memory may lie anywhere in host memory", "statement": "Moving the host buffers behind the guest's memory blocks to other host addresses (keeping their contents, and without merging blocks that were distinct) changes nothing about the emulation: RME_RunOne, RME_Call and RME_CallInt return the same codes after the same number of instructions and leave the same registers, flags, I/O history and guest memory contents.", "quantifier": "every machine state, every pair of memory layouts related by an injective relocation, every guest program", "why_tests_cant": "two-run property over all programs and all host memory layouts", "anchors": ["src/rme.c:RME_Int_Read8", "src/rme.c:RME_Int_Write8", "src/rme.c:RME_Call", "src/rme.h:tRME_State"]}
{"id": "C65", "title": "Host memory outside the registered blocks is never read", "statement": "No guest program can learn anything about host memory outside the 4096-byte blocks registered in the state (and the at most three bytes behind a block that a word or doubleword access at its end touches): changing those host bytes changes neither the return codes nor any register, flag, I/O write or registered byte.", "quantifier": "every machine state, every guest program, every content of the other host memory", "why_tests_cant": "non-interference: two-run property over all programs and secrets", "anchors": ["src/rme.c:RME_Int_Read8", "src/rme.c:RME_Int_Read16", "src/rme.c:RME_Int_Read32", "src/rme.c:RME_Call"]}
{"id": "C67", "title": "BIOS services called by INT n return to the program with only their result registers changed", "statement": "In the native tester, a guest INT n whose vector still points to the trampoline set up by main runs the service for n exactly once on the current machine state and continues behind the INT; nothing is pushed on the stack, the flags the service sets reach the program, and the service changes nothing but AX, BX, CX, DX, DI (lower halves), ES, CF, ZF and guest memory; an INT without a registered service does nothing.", "quantifier": "every service, every machine state and register content, every state of the tester (cursor, key queue, disk image), every prefix sequence before INT", "why_tests_cant": "frame property over all register contents, memory contents and services", "anchors": ["nativetest/src/main.c:HLECall10", "nativetest/src/main.c:HLECall13", "nativetest/src/main.c:HLECall", "src/rme.c:RME_Int_DoOpcode"]}
{"id": "C68", "title": "The tester starts a machine from its boot medium", "statement": "For every floppy image of at least 512 bytes with the signature 55 AA at offset 510, and no other, the tester starts a machine that executes the boot sector at 07C0:0000 with DL = 0, all interrupt vectors on their services and all registers but SP zero; for every BIOS image (-b) whose length is a multiple of 16 and at most 64 KiB it starts at F000:FFF0 with the image ending at FFFFF; other images are refused. The exit status is 0 only if the guest ended with HLT or a breakpoint.", "quantifier": "every image content and length, every debug level and CPU type, every content of the other host memory", "why_tests_cant": "quantifies over all image files", "anchors": ["nativetest/src/main.c:main", "src/rme.c:RME_CreateState"]}
{"id": "C69", "title": "INT 13h reads exactly the requested floppy sectors", "statement": "INT 13h AH=02h for existing sectors of drive 0 copies exactly the bytes of these sectors of the image to ES:BX, sets CF=0, AH=0 and changes nothing else; a request for a drive, cylinder, head or sector that does not exist sets CF=1, AH=1 and changes nothing else; at the end of a short image CF=1 and AL = number of complete sectors read; the drive parameters (AH=08h, 15h) are those of a 1.44 MB floppy. No request makes the tester access memory outside its memory array.", "quantifier": "every CHS address, sector count, buffer address, image content and length", "why_tests_cant": "quantifies over all requests and images, including all boundary cases", "anchors": ["nativetest/src/main.c:HLECall13", "nativetest/src/main.c:ReadDiskCHS", "nativetest/src/main.c:ReadDiskLBA", "nativetest/src/main.c:GetDiskParams"]}
{"id": "C70", "title": "INT 13h AH=42h extended read is safe and honest", "statement": "An extended read of existing sectors of drive 0 copies exactly these sectors to the buffer named in the packet and reports success; a buffer not inside guest memory is refused with CF=1, AH=BBh; a read that does not deliver all requested sectors reports an error; no packet makes the tester access memory outside its array or overflow.", "quantifier": "every packet content (count, buffer, 64-bit LBA), packet address, drive number and image", "why_tests_cant": "quantifies over all packets and images", "anchors": ["nativetest/src/main.c:HLECall13", "nativetest/src/main.c:ReadDiskLBA"]}
{"id": "C71", "title": "The keyboard queue delivers every key once and in order", "statement": "For every interleaving of key presses and reads (INT 16h AH=00h), the keys the guest gets followed by the keys still waiting are the keys pressed, in order, none repeated or invented; none is lost unless 16 keys are already waiting; AH=01h/11h shows the oldest waiting key without taking it and ZF says whether there is one; an AH=00h read with an empty queue waits for the next key.", "quantifier": "every history of key presses and reads of any length", "why_tests_cant": "quantifies over all interleavings", "anchors": ["nativetest/src/main.c:HandleEvent", "nativetest/src/main.c:HLECall"]}
{"id": "C72", "title": "INT 10h / INT 12h text screen services do what the PC BIOS defines", "statement": "Teletype output puts the character at the cursor, advances the cursor and scrolls at the end of the screen; AH=09h writes CX copies of the character without moving the cursor; AH=08h reads back character and attribute at the cursor; AH=06h clears or scrolls the given window with the given attribute; AH=02h sets the cursor; AH=0Fh reports mode 3 with 80 columns; INT 12h reports 639 KiB. No call or sequence of calls makes the tester write outside its memory array.", "quantifier": "every register content, cursor position, screen content and call sequence", "why_tests_cant": "quantifies over all calls and sequences; out-of-bounds writes may stay invisible in a test", "anchors": ["nativetest/src/main.c:HLECall10", "nativetest/src/main.c:HLECall12", "nativetest/src/main.c:PutChar"]}
{"id": "C73", "title": "DOS executables are loaded and relocated as their header says", "statement": "For every well-formed DOS executable (-d) the tester starts a machine with the load image at 0100:0000, 0100h added to the word at every relocation site and nothing else changed, CS:IP and SS:SP as in the header with 0100h added to the segments, and the rest of memory as set up by the tester; a file that is missing, shorter than its header, without the MZ signature, cut inside the image or the relocation table is refused; no file makes the loader access memory outside its buffer or guest memory.", "quantifier": "every file content and length, every relocation table, every debug level and CPU type", "why_tests_cant": "quantifies over all executable files, including malformed ones", "anchors": ["nativetest/src/dosexe.c:LoadDosExe", "nativetest/src/main.c:main"]}
{"id": "C74", "title": "The tester's report, memory dump and exit status describe the run", "statement": "At debug level 1 and above the native tester prints after every instruction exactly the registers and memory words that instruction changed, with old and new values, and nothing below that level; the run ends with the first non-zero result; with -O the dump file then holds guest memory as it is at the end of the run; the exit status is 0 exactly when the run ended by HLT or a breakpoint.", "quantifier": "every machine state, every program, every number of instructions executed, every sequence of callback behaviours", "why_tests_cant": "quantifies over all executions and over all memory contents before and after each instruction", "anchors": ["nativetest/src/main.c:main"]}
{"id": "C75", "title": "The command line means what the usage text says", "statement": "Every sequence of the documented options is accepted, each option takes the value given last (or its default), up to four disk images fill the drives in order, words after -- are images; a fifth image, an unknown option, a lone - or an option without its value is refused with a non-zero status, --help ends with 0; -d takes precedence over -b over images; an unknown CPU name is an error.", "quantifier": "every list of command-line words", "why_tests_cant": "quantifies over all command lines", "anchors": ["nativetest/src/main.c:ParseArgs", "nativetest/src/main.c:main"]}
{"id": "C76", "title": "The guest cannot change the emulator's configuration", "statement": "No instruction, no run of any length and no RME_Call/RME_CallInt changes which host memory is mapped where, the CPU type or the debug level the host chose.", "quantifier": "every machine state, every program, any number of instructions, every hook behaviour that leaves the configuration alone", "why_tests_cant": "quantifies over all guest programs and states", "anchors": ["src/rme.c:RME_RunOne", "src/rme.c:RME_Call", "src/rme.c:RME_CallInt"]}
{"id": "C66", "title": "The CPU type is observable through POPF only", "statement": "Choosing another CPU type changes nothing about any instruction other than POPF (same return code, registers, flags, memory), hence nothing about a run of RME_Call in which no POPF is executed; POPF on two CPU types can differ only in bits 12-15 of FLAGS.", "quantifier": "every machine state, memory layout, instruction, program and run length; every pair of CPU types; callbacks that do not look at the CPU type", "why_tests_cant": "a two-run property over all programs and states", "anchors": ["src/ops_stack.c:RME_Op_POP_F", "src/rme.c:RME_RunOne", "src/rme.h:eRME_CPUType"]}
{"id": "C77", "title": "The dump comparison tools accept exactly the dumps that meet the template", "statement": "cmpmembin, cmpmem and cmpmemhex exit with status 0 if every byte the template asks for is in the dump, and with another status otherwise.", "quantifier": "every template (binary, hexadecimal text with XX, header lines with arbitrary white space) and every dump of any length", "why_tests_cant": "the test suite's verdicts rest on these tools; a false pass hides failures and can only be excluded for all templates and dumps", "anchors": ["nativetest/cmpmembin.c:main", "nativetest/cmpmem.c:main", "nativetest/cmpmemhex.c:main"]}
{"id": "C78", "title": "The test kernel's memset and memcpy fill and copy exactly the block", "statement": "memset(dest, c, n) sets the n bytes from dest on to the low byte of c, memcpy(dest, src, n) copies n bytes; both change nothing else and return dest.", "quantifier": "every memory contents, every address, every length (also with wrap-around at 4 GiB), every fill value; for memcpy every pair of blocks where the destination does not start inside the source", "why_tests_cant": "word-then-byte loops fail only for particular lengths and fill values", "anchors": ["testkern/lib.c:memset", "testkern/lib.c:memcpy"]}
{"id": "C79", "title": "The test kernel's printf prints what the format says", "statement": "printf prints the literal characters of the format in order and, for each conversion, its argument as a numeral in the base of the code padded to the width (o, i, x), as *0x and 8 digits (p), or as the string it points to (s), and returns the number of characters printed; puts prints its string and a newline.", "quantifier": "every format string, every argument list, every contents of memory", "why_tests_cant": "formats and arguments are unbounded", "anchors": ["testkern/debug.c:printf", "testkern/debug.c:puts", "testkern/debug.c:itoa"]}
{"id": "C80", "title": "String instructions with the address-size prefix use ESI, EDI and ECX", "statement": "A string instruction (MOVS, STOS, LODS, CMPS, SCAS, INS, OUTS) executed with prefix 67h addresses its elements with the 32-bit index registers, advances ESI/EDI as 32-bit registers and, with a repeat prefix, takes its count from ECX and counts ECX down; an element offset beyond the 64 KiB segment is refused.", "quantifier": "all string opcodes, all combinations of segment, repeat, operand-size and address-size prefixes, all register values, directions, memory layouts", "why_tests_cant": "counts and indices above 16 bits, wrap-around and the interplay of prefixes cannot be enumerated", "anchors": ["src/ops_string.c STRING_HEAD/STRING_FOOTER", "src/ops_string.c RME_Op_MOV_SB.. RME_Op_OUT_SW"]}
{"id": "C81", "title": "A string instruction that reaches unmapped memory stops exactly there and can be resumed", "statement": "When element number k of a string instruction lies in an unmapped block (check compiled in), RME_RunOne returns RME_ERR_BADMEM, exactly the elements before k have been processed (copied, stored, compared, sent), and CX, SI, DI describe the elements still to do, so that mapping the block and calling again completes the instruction.", "quantifier": "all string instructions, prefixes, counts, element positions k, memory layouts with holes", "why_tests_cant": "the failing element can be any of up to 65535, in either direction, with any memory layout", "anchors": ["src/ops_string.c STRING_HEAD/STRING_FOOTER", "src/rme_internal.h RME_Int_GetPtr"]}
{"id": "C82", "title": "The small BIOS tester runs the image it was given and its exit status is the guest's doing", "statement": "mini_test accepts any sequence of its documented options with at most one image, each option taking the value given last; a second image, an unknown option or a lone - ends with a non-zero status and --help with 0. An image whose length is a positive multiple of 16 up to 64 KiB is loaded so that it ends at FFFFF, the machine (of the CPU type named, 8086 by default) starts at F000:FFF0 in it; other lengths are refused. The run ends with the first non-zero result, status 0 exactly for HLT and breakpoint, the change report at debug level 1 and above names exactly what each instruction changed, and -O writes guest memory as it is at the end. A missing file, an unknown CPU name or an option without value is an error.", "quantifier": "all command lines, file contents, file sizes, port behaviours, run lengths", "why_tests_cant": "command lines, images and runs are unbounded", "anchors": ["mini_test.c main", "mini_test.c ParseArgs"]}
{"id": "C83", "title": "The test kernel shows the guest physical memory below 1 MiB and is protected from it", "statement": "The machine the test kernel builds shows the guest every byte of physical memory below 1 MiB as it was, page 0 as a private copy; RME_CallInt(10h) enters the service of the physical interrupt table with AX=0011h, the other registers 0 and a return frame on a stack at 0000:FFFA; whatever that service does, the physical interrupt table and all of memory above 1 MiB other than the copy are unchanged, and the message printed is \"success\" exactly when the call returned 0. Guest accesses outside that memory are reported as errors.", "quantifier": "all contents of physical memory, all services and run lengths, all port values", "why_tests_cant": "the service is arbitrary BIOS code run on arbitrary memory", "anchors": ["testkern/main.c main", "testkern/heap.c", "testkern/lib.c memcpy"]}
{"id": "C84", "title": "A new machine starts like a processor out of reset", "statement": "A machine from RME_CreateState has all registers 0 except CS:IP = F000:FFF0 and FLAGS = 2, no memory and no executed instruction; once a block is registered for FF000-FFFFF its first instruction is the one at FFFF0 in that block. What an instruction does never depends on decoder data left over from creation or earlier instructions.", "quantifier": "all host memories, block registrations, instructions and previous decoder contents", "why_tests_cant": "the memory layouts, instructions and histories are unbounded", "anchors": ["src/rme.c RME_CreateState", "src/rme.c RME_Int_DoOpcode"]}
{"id": "C85", "title": "An instruction changes nothing but its destinations", "statement": "When RME_RunOne has executed an instruction, with or without an error, a general register, a byte of guest memory or FLAGS can be different from before only if the Intel manual lists it as a destination of that instruction (operand named by ModR/M, implicit register, stack, string destination, repeat counter, divide-error frame). The whole opcode map is listed in a table that does not depend on the emulator's dispatch.", "quantifier": "all machine states, memory contents, opcodes with all prefixes and ModR/M bytes, host environments", "why_tests_cant": "a stray write shows only for particular register fields, prefixes and operand values; there are millions of encodings times all states", "anchors": ["src/opcode_table.h", "src/ops_alu.c", "src/ops_mov.c", "src/ops_stack.c", "src/ops_string.c", "src/ops_misc.c", "src/ops_call.c", "src/rme.c RME_Int_DoOpcode"]}
{"id": "C86", "title": "An instruction that fails leaves no trace", "statement": "When RME_RunOne returns an error code for an instruction (unmapped operand, undefined opcode, HLT, breakpoint, ...), every general and segment register, IP, FLAGS, all of guest memory and the sequence of port accesses are exactly as before the call, so the host can repair the cause and run the instruction again.", "quantifier": "all machine states, memory maps, instructions with all prefixes and operands, host environments, every point of the instruction at which it can fail", "why_tests_cant": "the failure can come at any access of any instruction, depending on the memory map; a test fixes the map and the instruction", "anchors": ["src/rme.c RME_RunOne RME_Int_DoOpcode", "src/rme_internal.h RME_Int_GetPtr PUSH POP READ_INSTR16", "src/ops_stack.c", "src/ops_string.c", "src/ops_misc.c _LDS_LES_internal", "src/ops_alu.c Arith_MIX"]}
{"id": "C87", "title": "16-bit code never sees the upper halves of the registers", "statement": "Two machines that differ only in bits 16-31 of the general registers behave identically under RME_RunOne and RME_Call as long as the program uses no size prefix (66, 67): same return codes, same 16-bit registers, segment registers, FLAGS, IP, memory and port accesses, so whatever the host or earlier 32-bit code left in the upper halves cannot influence a BIOS written for the 8086.", "quantifier": "all machine states, all values of the upper halves, all instructions without size prefix, all run lengths, callbacks that respect the relation", "why_tests_cant": "it is a statement about pairs of runs (non-interference): a test would have to try all 2^128 upper halves for every program", "anchors": ["src/rme_internal.h RME_Int_GetSegOfs", "src/ops_alu.c", "src/ops_mov.c", "src/ops_string.c", "src/ops_misc.c SHLD SHRD", "src/rme.c RME_RunOne"]}
{"id": "C88", "title": "An instruction depends only on its sources", "statement": "What RME_RunOne does for the instruction at CS:IP (return code, every register, flag, memory byte and port access it produces) depends only on the registers, segment registers and flag bits which the Intel manual lists as sources of that instruction: machines that differ in any other registers or flag bits do the same and afterwards differ at most there.", "quantifier": "all pairs of machine states, all sets of hidden registers, segment registers and flag bits disjoint from the sources, all opcodes, prefixes, ModR/M bytes, host environments", "why_tests_cant": "it quantifies over pairs of states; a stray read shows only for particular operand encodings and values", "anchors": ["src/opcode_table.h", "src/ops_alu.c", "src/ops_mov.c", "src/ops_stack.c", "src/ops_string.c", "src/ops_misc.c", "src/ops_call.c", "src/rme_internal.h"]}
{"id": "C89", "title": "The register dump and the instruction trace describe the machine", "statement": "RME_DumpRegs prints every register with its value (fixed-width hexadecimal) and the names of exactly the flags that are set, so that the text determines the registers; at debug level >= 1 every completed instruction prints one line with its running number, its linear address, CS:IP and the bytes that were executed; printing does not change the outcome.", "quantifier": "all register contents, all instructions, all memory contents and debug levels", "why_tests_cant": "tests compare a few sample traces; the claim is about every register value, every flag combination and every instruction, including ones that overwrite themselves", "anchors": ["src/rme.c:RME_DumpRegs", "src/rme.c:RME_Int_DoOpcode", "src/rme.c:RME_RunOne"]}
{"id": "C90", "title": "The window shows the text page", "statement": "After a redraw every pixel of the 640x400 window shows the glyph of the character of its cell of the text page at B8000h, in the foreground and background colour of the cell's attribute, and nothing else in guest memory influences the picture; the colours are those of a PC; redraw requests neither pile up nor get lost.", "quantifier": "all contents of guest memory, all fonts, all previous window contents, all histories of timer ticks and handled events", "why_tests_cant": "tests look at a few screens; the claim covers every memory content, every pixel and every interleaving of timer and event loop", "anchors": ["nativetest/src/main.c:DrawChar", "nativetest/src/main.c:Video_Redraw", "nativetest/src/main.c:Video_RedrawTimerCb", "nativetest/src/main.c:HandleEvent"]}
{"id": "C91", "title": "The operands shown in the trace are the operands used", "statement": "For every instruction with a ModR/M byte, the operand text in the instruction trace (register names, or segment and address expression with registers, scale and displacement), evaluated with the register contents, is exactly the register or the segment:offset the instruction accesses; printing it does not change the outcome.", "quantifier": "all ModR/M and SIB bytes, displacements, segment overrides, address and operand sizes, register and memory contents", "why_tests_cant": "tests look at a few operands; the claim covers every encoding and every register value, including negative displacements", "anchors": ["src/rme.c:DoFunc", "src/rme.c:DoFunc32", "src/rme.c:RME_Int_GetMMM", "src/rme.c:RME_Int_ParseModRM", "src/rme.c:RME_Int_ParseModRMX", "src/rme_internal.h:Seg", "src/rme_internal.h:RegB", "src/rme_internal.h:RegW"]}
{"id": "C92", "title": "The trace names the instruction executed", "statement": "With tracing on, the line of every instruction that runs to its end names, after its number and address, every prefix in the order of the code and the mnemonic the processor manual gives for the opcode (and register field); a repeat prefix in front of an instruction that is no string instruction, and only that, is warned about; printing does not change the outcome.", "quantifier": "all opcodes, register fields, prefix sequences, operand texts, machine states and environments", "why_tests_cant": "tests look at a few instructions; the claim covers every opcode with every sequence of prefixes in every state, including texts longer than the buffer", "anchors": ["src/rme.c:RME_Int_DoOpcode", "src/rme.c:RME_Op_Ext_0F", "src/prefixes.c", "src/opcode_table.h:caOperations", "src/opcode_table.h:caOperations0F", "src/rme_internal.h:RME_Int_DebugPrint"]}
{"id": "C93", "title": "Operands in the code as shown in the trace", "statement": "With tracing on, the line of an instruction whose operands are in the code itself (jump distance, far address, interrupt number, number to push, to move to a register or to combine with the accumulator, port number, address of a MOV with the accumulator, XLAT, ENTER) shows after the mnemonic those operands in the order of the instruction: the register by the name the manual gives it at the operand size, the number in hexadecimal with the value (and, where padded, the width) it is used with, the address in a form that reads as the place used; the distance or address shown for a jump is the one it jumps by or to; printing does not change the outcome.", "quantifier": "all such opcodes, all values of the operand bytes, prefix sequences, machine states and environments", "why_tests_cant": "tests look at a few lines; the claim covers every operand value under every sequence of prefixes in every state, including lines longer than the buffer", "anchors": ["src/ops_jump.c", "src/ops_call.c:JMP,CALL,INT,ENTER", "src/ops_io.c:IN,OUT", "src/ops_stack.c:PUSH", "src/ops_mov.c:MOV (Reg, RegB, AMo, MoA)", "src/ops_alu.c:AI,AIX", "src/rme_internal.h:RME_Int_DebugPrint"]}
{"id": "C94", "title": "String instructions in the trace", "statement": "With tracing on, the line of a string instruction (INS, OUTS, MOVS, CMPS, STOS, LODS, SCAS) shows after the mnemonic its operands in the order of the instruction: the destination as ES with DI, the source as SI in DS or the segment of the prefix (ESI and EDI with an address-size prefix), the accumulator at the operand size or the port register; with a repeat prefix then CX before the instruction as the greatest number of repetitions, and CX after it as the number left over.", "quantifier": "all string opcodes, all prefix sequences, machine states (any CX, any memory) and environments; any number of repetitions", "why_tests_cant": "tests look at a few lines; the claim covers every repetition count, every way the repetition can end and every sequence of prefixes, including lines longer than the buffer", "anchors": ["src/ops_strings.h:STRING_HEAD,STRING_FOOTER", "src/ops_strings.c", "src/rme_internal.h:RME_Int_DebugPrint"]}
{"id": "C95", "title": "Operands of ModR/M instructions as shown in the trace", "statement": "With tracing on, the line of an instruction with a ModR/M byte (ADD … CMP, TEST, MOV, XCHG with a register; ADD … CMP and MOV with a number; shifts and rotations; NOT, NEG, MUL, IMUL, DIV, IDIV, INC, DEC; IMUL; BSF; group FF; POP; LEA; moves of segment registers) shows after the mnemonic its operands in the order of the manual: a register by its name at the operand width, a memory operand in a form that, read with the registers, is the segment and offset the manual gives for the bytes in the code, then the number in hexadecimal (sign-extended where the instruction extends it), 1 or CL; for MOV the place shown first afterwards has the value of the operand shown second.", "quantifier": "all such opcodes and ModR/M bytes (16- and 32-bit addressing, SIB, displacements, registers), all numbers, prefix sequences, machine states and environments", "why_tests_cant": "tests look at a few lines; the claim covers every addressing form with every register value under every sequence of prefixes, including lines longer than the buffer", "anchors": ["src/rme.c:RME_Int_ParseModRM,RME_Int_ParseModRMX,RME_Int_DecodeModM,RME_Int_DecodeModMX,RME_Int_GetMMM", "src/ops_alu.c", "src/ops_mov.c", "src/rme_internal.h:RegB,RegW,RME_Int_DebugPrint"]}
