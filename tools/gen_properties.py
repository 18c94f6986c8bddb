#!/usr/bin/env python3
"""Generates /verif/properties.jsonl (one JSON object per line)."""
import json
P=[]
def p(id,title,statement,quantifier,why,anchors):
    P.append(dict(id=id,title=title,statement=statement,quantifier=quantifier,why_tests_cant=why,anchors=anchors))

p("C01","Guest memory: read after write",
"Storing an 8/16/32-bit value through the emulator at segment:offset and then loading the same width from the same segment:offset gives the stored value (little endian), and changes no other host byte than the 1/2/4 written ones.",
"every state, memory map (including aliased and non-contiguous blocks), segment, offset and value",
"2^32 seg:ofs pairs times arbitrary host memory layouts; aliasing of blocks is chosen by the host",
["src/rme_internal.h:RME_Int_GetPtr","src/rme_internal.h:RME_Int_Read8/16/32","src/rme_internal.h:RME_Int_Write8/16/32"])
p("C02","Real-mode address translation",
"A byte accessed at segment:offset is the byte at linear address segment*16+offset: offset (linear mod 4096) of the host block registered for linear div 4096; two seg:ofs pairs with the same linear address always denote the same host byte.",
"all 2^32 segment:offset pairs and all block maps",
"needs all pairs of addresses",
["src/rme_internal.h:RME_Int_GetPtr","src/rme.h:Memory"])
p("C03","Host memory isolation",
"Running guest code never modifies a host byte outside the 4 KiB blocks the host registered (plus at most three bytes directly behind the end of a registered block, which the code does not check), and never changes the block table itself.",
"every state, every guest program, every number of steps, every I/O environment",
"arbitrary hostile guest programs and unbounded runs",
["src/rme.c:RME_RunOne","src/rme.c:RME_Call","src/rme_internal.h:RME_Int_GetPtr"])
p("C04","Access to an unmapped block is reported",
"Guest access to a block whose Memory[] entry is NULL makes the call return RME_ERR_BADMEM and leaves memory unchanged, instead of dereferencing a null pointer.",
"every state with an unmapped block, every access width and direction",
"the compiled-out check is invisible unless the exact configuration and address are hit; quantifies over all maps and addresses",
["src/rme_internal.h:RME_Int_GetPtr","src/rme.c:RME_DO_NULL_CHECK","src/rme.h:Memory"])
p("C05","RME_RunOne return codes",
"RME_RunOne only ever returns OK, BADMEM, UNDEFOPCODE, BUG, BREAKPOINT, HALT or FCNRET: the internal codes CONTINUE, DIVERR and INVAL never escape; FCNRET is returned exactly at FFFF:FFFF.",
"every state and environment",
"2^hundreds of states and all instruction encodings",
["src/rme.c:RME_RunOne","src/rme.h:eRME_Errors"])
p("C06","RME_Call is iteration of RME_RunOne",
"RME_Call returns 0 exactly when iterating RME_RunOne reaches FFFF:FFFF with every earlier step OK; otherwise it returns the first code of RME_RunOne other than OK; it never returns FCNRET, CONTINUE, DIVERR or INVAL; final state = state of the iteration.",
"every start state, every program, any number of steps",
"unbounded executions",
["src/rme.c:RME_Call"])
p("C07","Magic return address",
"At CS:IP = FFFF:FFFF RME_RunOne returns FCNRET and changes nothing at all, however often it is called.",
"every state with CS:IP = FFFF:FFFF",
"all register/memory contents",
["src/rme.c:RME_RunOne","src/rme.h:RME_MAGIC_CS"])
p("C08","RME_CallInt validates the interrupt number",
"RME_CallInt with a number outside 0..255 returns RME_ERR_INVAL without executing anything, and leaves memory, general registers, flags and stack unchanged (CS:IP is clobbered with FFFF:FFFF).",
"every int and every state",
"2^32 integers x all states",
["src/rme.c:RME_CallInt","src/rme.c:RME_int_CallInt"])
p("C09","RME_CallInt round trip",
"If the vector of n points at an IRET instruction, RME_CallInt(n) returns 0 and every general register, segment register other than CS, SP and FLAGS has its original value; CS:IP is FFFF:FFFF and only the six stack bytes changed.",
"every n in 0..255, every register/flag/memory content, every handler address",
"all vectors, stack positions and flags",
["src/rme.c:RME_CallInt","src/ops_call.c:RME_Op_IRET_z"])
p("C10","INT n / IRET",
"INT n pushes FLAGS, CS and the address of the next instruction, clears IF and TF only, and continues at the vector; a following IRET restores FLAGS, CS, SP and continues behind the INT.",
"every n, flags, stack pointer (including wrap), vector",
"all stack positions and vectors",
["src/ops_call.c:_CallInterrupt","src/ops_call.c:RME_Op_IRET_z"])
p("C11","High level emulation of INT n",
"INT n whose vector is B800:n runs the host callback n exactly once (if registered) on the state, touches neither stack nor flags itself, and continues at the next instruction.",
"every n, every callback, every state",
"arbitrary callbacks",
["src/ops_call.c:_CallInterrupt","src/rme.h:HLECallbacks"])
p("C12","HLE trampoline",
"When CS:IP = B800:n with n<256, RME_RunOne runs callback n once (if registered) and then performs an IRET, returning OK.",
"every n, callback, state",
"arbitrary callbacks and stacks",
["src/rme.c:RME_RunOne"])
p("C13","Divide errors are delivered as INT 0",
"When DIV/IDIV/AAM faults, general registers are unchanged by the instruction, FLAGS, CS and the address of the faulting instruction are pushed, IF and TF cleared, and execution continues at vector 0; RME_RunOne returns OK.",
"every faulting operand pair, width and state",
"all operand values",
["src/rme.c:RME_RunOne","src/ops_alu.h:ALU_OPCODE_DIV_CODE","src/ops_misc.c:RME_Op_AAM_z"])
p("C14","ADD and ADC",
"ADD/ADC give the sum modulo 2^w, CF = unsigned carry out, OF = signed overflow, AF = carry out of bit 3, ZF/SF/PF of the result, and no other flag changes.",
"all operands, carry-in and flag words at widths 8, 16 and 32",
"2^64 operand pairs",
["src/ops_alu.h:ALU_OPCODE_ADD_CODE","src/ops_alu.h:ALU_OPCODE_ADC_CODE","src/rme_internal.h:SET_COMM_FLAGS"])
p("C15","SUB and CMP",
"SUB/CMP compute the difference modulo 2^w, CF = unsigned borrow, OF = signed overflow, AF = borrow from bit 4, ZF/SF/PF of the difference; CMP writes no operand.",
"all operands and flag words at widths 8, 16 and 32",
"2^64 operand pairs",
["src/ops_alu.h:ALU_OPCODE_SUB_CODE","src/ops_alu.h:ALU_OPCODE_CMP_CODE"])
p("C16","SBB",
"SBB computes dest - src - CF with CF/OF/AF/ZF/SF/PF as on the processor.",
"all operands, borrow-in and flag words at widths 8, 16 and 32",
"2^64 operand pairs; the defects are at single values",
["src/ops_alu.h:ALU_OPCODE_SBB_CODE"])
p("C17","AND, OR, XOR, TEST",
"The logic operations compute the bitwise result, clear CF and OF, set ZF/SF/PF from the result and keep every other flag; TEST writes no operand.",
"all operands at widths 8, 16, 32",
"2^64 operand pairs",
["src/ops_alu.h:ALU_OPCODE_AND_CODE","src/ops_alu.h:ALU_OPCODE_TEST_CODE"])
p("C18","INC and DEC",
"INC/DEC add/subtract one modulo 2^w, set OF/AF/ZF/SF/PF as ADD/SUB 1 would, and preserve CF.",
"all operands and flags at widths 8, 16, 32",
"2^32 operands x flags",
["src/ops_alu.h:ALU_OPCODE_INC_CODE","src/ops_alu.h:ALU_OPCODE_DEC_CODE"])
p("C19","NEG and NOT",
"NEG gives the two's complement with CF = (operand != 0), OF = (operand = minimum), AF = borrow of the low nibble, ZF/SF/PF of the result; NOT complements every bit and changes no flag; both are involutions on the operand.",
"all operands at widths 8, 16, 32",
"2^32 operands",
["src/ops_alu.h:ALU_OPCODE_NEG_CODE","src/ops_alu.h:ALU_OPCODE_NOT_CODE"])
p("C20","MUL and IMUL",
"One-operand MUL/IMUL leave the full double-width product in AX / DX:AX / EDX:EAX and set CF=OF exactly when the high half is not the (zero/sign) extension of the low half; multi-operand IMUL gives the low 16 bits and CF=OF = product does not fit.",
"all operand pairs at widths 8, 16, 32",
"2^64 operand pairs",
["src/ops_alu.h:ALU_OPCODE_MUL_CODE","src/ops_alu.h:ALU_OPCODE_IMUL_CODE","src/ops_alu.c:RME_Op_IMUL_MIX"])
p("C21","DIV and IDIV",
"DIV/IDIV leave quotient and remainder with dividend = quotient*divisor + remainder, |remainder|<|divisor|, and fault exactly when the divisor is 0 or the quotient does not fit.",
"all dividends and divisors at widths 8, 16, 32",
"2^96 pairs",
["src/ops_alu.h:ALU_OPCODE_DIV_CODE","src/ops_alu.h:ALU_OPCODE_IDIV_CODE"])
p("C22","SHL, SHR, SAR",
"Shifts by count&31 give the mathematically shifted value, CF = last bit shifted out, documented OF for a count of 1, ZF/SF/PF of the result, and a count of 0 changes nothing.",
"all operands, counts and flags, widths 8, 16, 32",
"all values x 256 counts, including the count equal to the width",
["src/ops_alu.h:ALU_OPCODE_SHL_CODE","src/ops_alu.h:ALU_OPCODE_SHR_CODE","src/ops_alu.h:ALU_OPCODE_SAR_CODE"])
p("C23","ROL, ROR, RCL, RCR",
"ROL/ROR rotate w bits, RCL/RCR rotate the w+1-bit quantity CF:operand; left and right rotation by the same count are inverse; CF is the bit moved around; only CF and OF change.",
"all operands, counts, carry, widths 8, 16, 32",
"all values x 256 counts",
["src/ops_alu.h:ALU_OPCODE_ROL_CODE","src/ops_alu.h:ALU_OPCODE_RCL_CODE","src/ops_alu.h:ALU_OPCODE_RCR_CODE"])
p("C24","Conditional jumps decide comparisons",
"After CMP a,b: JB/JAE/JBE/JA branch exactly on the unsigned order and JL/JGE/JLE/JG exactly on the signed order, JZ/JNZ on equality; a taken jump goes to next-IP + displacement modulo 2^16, an untaken one to next-IP; no state other than IP changes.",
"all operand pairs, all displacements, short and near forms, all 16 conditions",
"2^64 operand pairs x displacements",
["src/ops_jump.c:MAKE_COND_JUMP_S","src/ops_jump.c:CONDITION_L"])
p("C25","LOOP, LOOPZ, LOOPNZ, JCXZ",
"LOOPx decrements CX modulo 2^16 and jumps exactly when CX is then non-zero (and ZF as required); LOOP to itself runs exactly CX (or 65536) times.",
"every CX, flag word and displacement",
"long loops",
["src/ops_jump.c:RME_Op_LOOP_S","src/ops_jump.c:RME_Op_JCXZ_S"])
p("C26","The stack is LIFO",
"Any sequence of pushes followed by the same number of pops returns the values in reverse order and restores SP, at every SP including wrap-around.",
"all value sequences up to 32767 words, all SS:SP",
"unbounded sequences",
["src/rme_internal.h:PUSH","src/rme_internal.h:POP","src/ops_stack.c"])
p("C27","PUSHA / POPA",
"PUSHA stores AX,CX,DX,BX,original SP,BP,SI,DI; POPA after PUSHA restores all eight registers.",
"all register contents and SS:SP",
"2^128 register contents, stack wrap",
["src/ops_stack.c:RME_Op_PUSH_A","src/ops_stack.c:RME_Op_POP_A"])
p("C28","CALL / RET",
"CALL pushes the address of the following instruction (with CS for far calls) and jumps; RET/RETF returns there and restores SP; RET n additionally discards n bytes.",
"all addresses, displacements, stack positions",
"all IP/SP wrap positions",
["src/ops_call.c:RME_Op_CALL_N","src/ops_call.c:RME_Op_RET_N","src/rme.c:RME_Op_Unary_MX"])
p("C29","ENTER / LEAVE",
"LEAVE after ENTER size,level restores SP and BP; ENTER builds the documented frame (BP pushed, level-1 frame pointers and the new frame pointer, size bytes reserved).",
"all sizes, levels, SS:SP, BP",
"32 levels x 2^16 sizes x stack positions",
["src/ops_call.c:RME_Op_ENTER_z","src/ops_call.c:RME_Op_LEAVE_z"])
p("C30","PUSHF / POPF",
"POPF loads FLAGS with the CPU-specific reserved bits forced; PUSHF;POPF is the identity on flags whose reserved bits are already canonical; POPF is idempotent in its forced bits.",
"all flag words and CPU types",
"2^16 words x stack positions",
["src/ops_stack.c:RME_Op_PUSH_F","src/ops_stack.c:RME_Op_POP_F"])
p("C31","Flag instructions",
"CLC/STC/CMC/CLI/STI/CLD/STD change exactly their flag; SAHF loads exactly SF,ZF,AF,PF,CF from AH; LAHF;SAHF is the identity on FLAGS.",
"all flag words and AH",
"2^24 combinations; frame over the whole state",
["src/ops_flags.c"])
p("C32","REP MOVS copies",
"REP MOVSB/W with DF=0 (resp. 1) performs CX element copies in ascending (descending) order, ends with CX=0 and SI/DI advanced modulo 2^16; for non-overlapping ranges the destination equals the source and all other memory is unchanged.",
"every CX up to 65535, every memory content, direction, overlap",
"unbounded loop counts and overlaps",
["src/ops_string.c:RME_Op_MOV_SB","src/ops_string.c:STRING_HEAD"])
p("C33","REP STOS fills",
"REP STOSB stores AL to CX consecutive bytes at ES:DI and nothing else, ends with CX=0 and DI advanced.",
"every CX, ES:DI, AL, memory",
"unbounded loop counts",
["src/ops_string.c:RME_Op_STO_SB"])
p("C34","REPNE SCAS / REPE CMPS search",
"REPNE SCASB stops at the first byte equal to AL (ZF=1, CX = remaining count) or runs CX to 0 with ZF=0; REPE CMPSB stops at the first difference.",
"every CX, memory content, start offset",
"unbounded scans",
["src/ops_string.c:RME_Op_SCA_SB","src/ops_string.c:RME_Op_CMP_SB"])
p("C35","REP with CX=0, REP INS/OUTS",
"A REP string instruction with CX=0 changes nothing but IP; REP OUTSB sends exactly the CX bytes at DS:SI, in order, to port DX; REP INSB stores CX port values.",
"every CX, port, memory, device behaviour",
"unbounded loop counts and arbitrary devices",
["src/ops_string.c:RME_Op_OUT_SB","src/ops_string.c:RME_Op_IN_SB"])
p("C36","Instruction decoding terminates",
"Decoding never loops: at most four prefixes (one segment, one operand-size, one address-size, one repeat prefix) are accepted in any order, any repeated prefix kind gives UNDEFOPCODE, and every REP/ENTER/BSF loop terminates.",
"every byte stream",
"infinite prefix streams, all orders",
["src/rme.c:RME_Int_DoOpcode","src/prefixes.c"])
p("C37","Undefined opcodes",
"Every opcode without implementation returns UNDEFOPCODE and changes no register, flag or memory (0xF1: BREAKPOINT).",
"all opcode bytes incl. two-byte opcodes, all states",
"all states",
["src/opcode_table.h:caOperations","src/rme.c:RME_Op_Ext_0F"])
p("C38","16-bit effective addresses",
"For every ModR/M byte with mod<3 the memory operand offset is base + index + sign-extended displacement modulo 2^16 as in the 8086 table.",
"all ModR/M bytes, register contents and displacements",
"2^48 register/displacement contents; wrap only near 64K",
["src/rme.c:DoFunc","src/rme.c:RME_Int_GetMMM"])
p("C39","Default and overridden segments",
"Memory operands use SS when BP is a base and DS otherwise, unless a segment prefix is present, in which case that segment is used.",
"all ModR/M bytes, all prefixes",
"all encodings",
["src/rme.c:DoFunc","src/prefixes.c:RME_Op_Ovr_Seg"])
p("C40","MOV and XCHG",
"MOV copies the operand exactly and changes no flag; storing then loading gives the value back; XCHG swaps and applied twice is the identity.",
"all registers, memory operands, values, widths",
"all states",
["src/ops_mov.c"])
p("C41","Decimal arithmetic",
"ADD;DAA and SUB;DAS on packed BCD operands give the packed BCD sum/difference with CF the decimal carry/borrow; AAA/AAS/AAM/AAD likewise for unpacked digits.",
"all valid BCD operand pairs",
"needs all pairs and flag combinations",
["src/ops_misc.c:RME_Op_DAA_z","src/ops_misc.c:RME_Op_AAM_z"])
p("C42","CBW/CWDE and CWD/CDQ",
"CBW/CWDE sign-extend AL to AX (AX to EAX), CWD/CDQ sign-extend AX to DX:AX (EAX to EDX:EAX); no flags change.",
"all register contents",
"2^32 values",
["src/ops_misc.c:RME_Op_CBW_z","src/ops_misc.c:RME_Op_CWD_z"])
p("C43","Runaway detection",
"Executing two consecutive 00 00 instructions returns BREAKPOINT on the second and not before; any other instruction in between resets the detector.",
"every instruction history",
"unbounded histories",
["src/rme.c:RME_Int_DoOpcode","src/rme.h:bWasLastOperationNull"])
p("C44","Sequential execution",
"An instruction that is not a control transfer advances IP by its encoded length modulo 2^16 and leaves CS; a failing instruction leaves IP (CS:IP still designates it).",
"all encodings and states",
"all encodings",
["src/rme.c:RME_Int_DoOpcode"])
p("C45","Upper register halves",
"Without operand/address-size prefixes no instruction changes bits 16..31 of any general register.",
"all states and encodings",
"all encodings; a single wrong pointer cast breaks it",
["src/rme_internal.h:RegW","src/ops_alu.c:RME_Op_SHRD_I8"])
p("C46","Port I/O confinement",
"Only IN/OUT/INS/OUTS call the host port functions; each performs accesses with the right port, width, direction and value, in program order.",
"all states, encodings, devices",
"all encodings and arbitrary devices",
["src/ops_io.c","src/ops_io.h"])
p("C47","Debug text buffer safety",
"Whatever is printed, the 64-byte debug text buffer is never overrun, stays NUL terminated, and its length field stays within 0..64.",
"every sequence of printed strings",
"unbounded print sequences",
["src/rme_internal.h:RME_Int_DebugPrint"])
p("C48","Debug level does not influence emulation",
"Running the same guest with different DebugLevel gives the same registers, memory, I/O and return codes.",
"every state, program and pair of levels",
"two-run property over all programs",
["src/rme.c:RME_Int_DoOpcode","src/rme.c:RME_RunOne"])
p("C49","Instruction counter",
"InstrNum increases by exactly one per RME_RunOne that fetches an instruction and is otherwise never touched.",
"every state and history",
"all instructions",
["src/rme.c:RME_Int_DoOpcode"])
p("C50","LEA, XLAT, LDS/LES/LSS/LFS/LGS, MOVZX, BSF",
"LEA loads the offset without touching memory; XLAT loads AL from segment:(BX+AL); LxS load offset and segment from memory; MOVZX zero-extends; BSF returns the index of the lowest set bit.",
"all operands",
"all states",
["src/ops_misc.c:RME_Op_LEA_z","src/ops_misc.c:_LDS_LES_internal","src/ops_misc.c:RME_Op_XLAT_z","src/ops_misc.c:RME_Op_BSF_z","src/ops_mov.c:RME_Op_MOV_Z"])
p("C51","No guest program causes host undefined behaviour",
"With all 272 blocks mapped contiguously, no guest instruction makes the emulator perform undefined behaviour (out of bounds, null dereference, bad shift, overflowing division).",
"every state and instruction",
"the triggers are single encodings/operands",
["src/rme.c:RME_RunOne","src/rme_internal.h:Seg","src/ops_alu.h"])
p("C52","SHLD / SHRD",
"Double-precision shifts shift the destination and fill from the source register named by the ModR/M byte.",
"all operands and counts",
"all encodings",
["src/ops_alu.c:RME_Op_SHLD_I8","src/ops_alu.h:ALU_OPCODE_SHRD_CODE"])
p("C53","System flags",
"IF, TF, DF and the reserved flag bits change only by POPF, IRET, INT/INTO/faults, CLI/STI, CLD/STD (and host callbacks).",
"all states and instructions",
"all instructions",
["src/rme.c:RME_RunOne"])
p("C54","Segment registers",
"A segment register changes only by an instruction that names it (MOV Sreg, POP Sreg, LxS) or, for CS, by a far control transfer or interrupt.",
"all states and instructions",
"all instructions",
["src/rme.c:RME_RunOne"])
p("C55","HLT",
"HLT returns RME_ERR_HALT and leaves CS:IP at the HLT, so re-running reports HALT again; no other state than the instruction counter and decoder scratch changes.",
"every state",
"all states",
["src/ops_misc.c:RME_Op_HLT_z"])
p("C56","testkern heap",
"Blocks returned by malloc/calloc are pairwise disjoint, at least as large as requested, ascending, and 8-aligned if the heap start is.",
"every allocation sequence (without address-space wrap)",
"unbounded sequences",
["testkern/heap.c"])
p("C57","testkern 64-bit division helpers",
"__udivdi3/__umoddi3 return the quotient/remainder of their arguments for every non-zero divisor.",
"all 2^128 argument pairs",
"2^128 pairs; the defect is at exact multiples",
["testkern/lib.c:__udivdi3","testkern/lib.c:__umoddi3"])
p("C58","nativetest teletype output stays on screen",
"Starting with the cursor on the screen, any character sequence written through teletype output keeps the cursor inside 80x25 and only writes the 4000 bytes of text memory.",
"every character sequence",
"unbounded sequences",
["nativetest/src/main.c:PutChar"])
p("C59","nativetest disk geometry",
"CHS addresses accepted for disk 0 map injectively to LBA sectors 0..2879, and out-of-range addresses are rejected.",
"all cylinder/head/sector triples",
"all triples",
["nativetest/src/main.c:ReadDiskCHS"])
p("C60","testkern itoa",
"itoa writes the base-b digits of the value (most significant first), padded to the minimum length, NUL terminated; evaluating the digits gives the value back.",
"all 64-bit values, bases 2..16, minimum lengths",
"2^64 values",
["testkern/debug.c:itoa"])
open("/verif/properties.jsonl","w").write("".join(json.dumps(x)+"\n" for x in P))
print(len(P))
