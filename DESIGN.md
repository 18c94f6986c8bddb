# Formal model of thepowersgang/rme2 in Lean 4

Source: `/repo` (pinned, read as text only).  Lean project: `/verif/lean`.

## 1. Layout

| path | content |
|---|---|
| `Verif/Model/*.lean` | the model, function by function; every definition cites `/repo` file:lines |
| `Verif/Spec/*.lean`  | small independent specifications (guest bytes, code at CS:IP, processor arithmetic, encodings) |
| `Verif/Lemmas/*.lean`| helper lemmas |
| `Verif/Props/*.lean` | the property theorems (named `C01_…`), each followed by `example`s showing its hypotheses are met by concrete states |
| `MANIFEST.json` | property → theorem names and status |
| `seeded/LOG.jsonl` | mutation experiments on the model (wrong programs the theorems must reject) |

## 2. The model

`State` is `tRME_State` without the debug text (modelled separately, C47): eight 32-bit
registers, six segment registers, IP, FLAGS, CPU type, debug level, the block table
`Memory[]` (`map : Nat → Option Nat`, block number → host address), host memory
(`host : Nat → BitVec 8`, `valid : Nat → Bool` = allocated bytes), instruction counter,
`bWasLastOperationNull`, the decoder scratch, and the trace of port accesses.

`M α = Env → State → Res α` with `Res = ok a s | err e s | ub u`:
* `err e s`: the C function returned the non-zero code `e`; `s` keeps all partial updates.
* `ub u`: the C code has undefined behaviour at this point (null block pointer, `Memory[]`
  index out of range, access outside allocated host memory, NULL/garbage segment pointer, bad
  shift count, signed overflow, read of an uninitialised variable).  It is a distinct outcome.

`Env` holds what the emulator is linked against: the port functions (`inb/inw/inl` may depend on
the whole history of port accesses), the HLE callbacks (arbitrary functions on the state; the code
ignores their return value) and the build setting `RME_DO_NULL_CHECK` (`nullCheck`).  The shipped
build has `nullCheck = false`, because `rme.c` defines the macro *after* including
`rme_internal.h` (finding 1); theorems quantify over both settings unless they say otherwise.

Pointers handed around by the decoder (`uint8_t*`, `uint16_t*`, cast to `uint32_t*`) are modelled as
locations `Loc` (low part of a register, byte 1 of a register, host address), so that aliasing
(`ADD AX,AX`, `XCHG`, memory operands hit by the stack) is as in C.

Loops: the prefix loop and string loops run on explicit fuel with the distinct outcome
`ub .modelFuel`; it is proved that this outcome never occurs (C36).  `RME_Call`, which may run
for ever, takes a fuel argument and is related to the iteration of `RME_RunOne` for every fuel.

## 3. Trusted base

* Lean 4.33 kernel; axioms at most `propext`, `Classical.choice`, `Quot.sound`.  No `axiom`, no
  `native_decide`, no `bv_decide`, no unfinished proofs.
* The reading of the C code: little-endian x86 host, 32-bit `int`, two's complement conversions,
  GCC's treatment of `1<<31` (defined), no trouble from unaligned or type-punned accesses.
* Host blocks do not overlap the `tRME_State` object or the callbacks' private data.  Pointer
  arithmetic on host addresses is on unbounded naturals (no wrap of the host address space).
* The uninitialised `srcOfs`/`destOfs` that `ops_string.c` increments without using are harmless
  (C indeterminate values that never reach an observable effect).
* `printf`/`ERROR_S` output is not modelled (only the debug text buffer, C47, and the register dump and trace line, C89, C91–C95).
* HLE callbacks are total functions on the state (a callback which does not return or crashes is
  outside the model); the callback table is constant.

Not modelled: of the disassembly text of the trace only that of BTx (which fails before it prints; memory and register operands: C91, names: C92,
operands in the code: C93, string instructions: C94, instructions with a ModR/M byte: C95), of `nativetest/main.c` SDL itself and the wording of messages,
`testkern/start.asm`, the assembler tests, the Makefiles.

## 4. Properties: what is modelled and how it is proved

### 4.1 Specifications (independent of the model's helpers)

| file | says |
|---|---|
| `Spec/Machine` | linear addresses, host address of seg:ofs, `Mapped`/`Holds`, code bytes at CS:IP, prefix meaning (`Pfx.parse`), `StepsTo` (a `RME_RunOne` that returns 0) |
| `Spec/Operand` | 8086 registers, ModR/M and SIB operands (`RM`), `Plain` (where the emulator follows the manual), `At`, `Falls`, `Jumps`, `NotZeroed` |
| `Spec/EA`, `Spec/EA32` | the addresses the emulator really uses, for every 16-bit and 32-bit encoding |
| `Spec/Arith`, `Spec/Decimal` | results and flags of ALU, shift, multiply, divide and BCD instructions over `BitVec n`/`Int` |
| `Spec/Encode`, `Spec/Move`, `Spec/Jump`, `Spec/Flags`, `Spec/PushPop`, `Spec/Call`, `Spec/Stack`, `Spec/Strings` | encodings and effects of the instruction groups |
| `Spec/Run` | iteration of `RME_RunOne` (`Iter`) |
| `Spec/Length` | instruction lengths for every opcode, prefix and addressing form |
| `Spec/Relocate` | two states that differ only in where guest memory lies in the host |

A step theorem has the shape "`At s h0 p code len` (this instruction, with these prefixes, is at CS:IP) and
the operands are mapped ⟹ `Falls env s len t`", i.e. `RME_RunOne` returns 0 and the resulting state is *equal* to `t`
with IP advanced; nothing else may change.  Two side conditions occur often:
`Plain` excludes the memory operands on which the effective address is not the manual's (findings 2, 3, 11, 14);
`NotZeroed` excludes that the instruction overwrites itself with `00 00` (then the runaway detector is armed).

### 4.2 Logics over the whole interpreter

* `Lemmas/Kp`, `KpOps`, `KpAll`: an invariant logic.  A triple "capability `c` holds before ⟹ a relation between the
  states before and after holds, for ok/err outcomes, and only UB kinds in a set" is proved once for every primitive
  and every opcode function; C03, C05, C37, C45, C46, C49, C51, C53, C54 are instances.
* `Lemmas/Rl`, `RlOps`: a relational (two-run) logic, same structure; C48, C64, C65 are instances.
* `Lemmas/Len`, `LenOps`, `Seq`, `Seq2`: every opcode function either advances the decoder by the bytes `Spec/Length`
  says, or fails without touching CS:IP; C44.
* `Lemmas/Conc`: execution of concrete states by kernel reduction, used for the witnesses (`…_violated_…`) and examples.

### 4.3 Per property

* C01–C02: `RME_Int_GetPtr/Read/Write` over arbitrary maps; induction on the number of bytes.
* C03: relation "host changes only inside (block + 3 bytes)", invariant logic, lifted to `RunOne` and any number of steps.
* C04: false of the shipped build (finding 1): negation with a witness; for `nullCheck = true` the
  positive statement for every access.
* C05–C08: case analysis of `RunOne`, closure of "set of error codes" over all opcode functions,
  induction over iterations.
* C09–C13: symbolic execution of `RunOne` on states with given code bytes.
* C14–C23: pure arithmetic over `BitVec n`, all widths, by reduction to naturals; then lifted to full
  `RunOne` steps for the encodings.  C16, C19, C20, C21, C22, C23 are violated at corner cases
  (findings 4–8): exact characterisation + witness.
* C24–C31, C40–C42, C50, C52, C61: step theorems on `RunOne` (all operands), round trips by composing
  steps; C26 by induction on the list of values.
* C32–C35, C62: induction on CX.
* C36: fuel never exhausted; prefix automaton.
* C37: whole opcode table, lifted to all states.
* C38, C39, C63: `DoFunc`/`DoFunc32`/`GetMMM` against independent address tables; violated (findings 2, 3, 14):
  `_partial` + witnesses, and `_exact` theorems which say which address is used in every case.
* C43: history theorem over `RunOne`.
* C44: length logic.
* C45, C46, C48, C49, C53, C54, C64, C65: closure of a relation over all opcode functions.
* C47: buffer model of `RME_Int_DebugPrint`, invariant over all print sequences.
* C51: violated (findings 2, 6, 7, 8, 9); theorem: with a complete map the only undefined behaviours
  left are the listed ones, and for the listed instructions.
* C55: step theorem.
* C56, C57, C60: models of `testkern/heap.c`, `lib.c`, `debug.c:itoa`.
* C77: `Model/Cmpmem.lean`: the three comparison tools on lists of bytes/characters; `Spec/Cmpmem` has the template grammars as
  inductive relations; induction over the grammar.  Outcomes: exit status, failed assertion, undefined behaviour.
* C78: `Model/Testkern.lean`: `rep stos`/`rep movs` with 32-bit wrapping addresses, induction over the count.
* C79: `Model/KernPrint.lean`: `printf` on character lists; `Spec/Printf` has numerals, format items and their text; induction over
  the items; `C79_formats` shows that the grammar covers every format string.
* C80: `stringOp` with prefix 67: the loop lemma covers both address sizes (`idxAt`); `Spec/Strings` has the 32-bit reading
  (`Copied32`, `Filled32`, `reps32`); the emulator's count CX and 16-bit truncation give the violations.
* C81: the loop up to a failing element (`stringOp_fail`), one theorem per instruction.
* C82: Model/Mini.lean (`ParseArgs`, set-up, main loop shared with C74); induction over the option list, the loop theorems of C74, the boot facts of C68.
* C83: Model/KernMain.lean: the heap of C56 and memcpy of C78 build the machine; the call by the interrupt-entry lemmas of C09; isolation by the invariant
  "only allocated host bytes are written" (C03_allocated, proved for every instruction with the `Kp` calculus).
* C84: `createState` field by field; the reset vector by address arithmetic; independence of the decoder because `RME_Int_DoOpcode` resets it.
* C85: `Spec/Effects.lean` lists the destinations of all 256 one-byte and the two-byte opcodes; a frame logic (`Lemmas/Frame.lean`, `FrameOps.lean`) shows that every opcode function changes only registers, memory and FLAGS among its destinations; a kernel computation over the whole opcode table connects the functions with the specification. Registers: except SHLD/SHRD on registers 4-7 (`C85_violated_shxd`, same cause as finding on C45).
* C86: `Spec/Tear.lean` lists the instructions that rme2 can leave half-done and says what "no trace" means (`Untouched`: the whole state but decoder scratch data and instruction counter). A small logic (`Lemmas/Atomic.lean`: clean / never fails / clean on failure) proves all other opcode functions all-or-nothing; a kernel computation over the opcode table connects them with the list. Each class of the list has a witness (`C86_violated_*`); errors found after completion (runaway detector, instruction dump) are excluded by hypothesis (`C44_violated_*`).
* C87: an instance of the two-run logic of C88 in which the upper 16 bits of every register are hidden; one step (ordinary instruction, host service, magic address) and, by induction, whole runs of `RME_Call`. Violated by SHLD/SHRD with register operands 4-7 (`C87_violated_shxd`, same cause as the finding on C45).
* C88: `Spec/Sources.lean` lists the sources of all one- and two-byte opcodes (operand, address registers, implicit registers, flags, repeat counter, divide-error frame); a two-run logic (`Lemmas/Dep*.lean`) with an arbitrary hidden part of the state shows that every opcode function preserves "equal except in the hidden part" if its sources are visible; `Lemmas/Pair.lean` shows that both machines decode the same instruction; a kernel computation over the opcode table connects functions and specification. Simplifications: with a SIB byte every register counts as source; the segment of a ModR/M operand is the one the emulator uses (`usedSeg`, `Spec/EA`, which C50/C63 compare with the manual); an INT instruction may call a host service and counts as reading everything. Violated by SHLD/SHRD with register operands 4-7 (`C88_violated_shxd`).
* C89: `Model/Trace.lean` (text of `RME_DumpRegs` and of the trace line; the disassembly text between head and byte column is a parameter); fields of digits are read
  back by `Spec/Trace.lean`; the traced instruction is proved to erase to `doOpcode`, the number of bytes comes from the length theorem of C44.
* C90: `Model/Video.lean` (`DrawChar`, `Video_Redraw`, redraw timer and event; one pixel per `SDL_FillRect`); the picture is specified pixel by pixel from the text
  page; the timer is proved over all histories of ticks and handled events. The palette is compared with the PC's (violated for cyan).
* C91: `Model/OperandText.lean` is the ModR/M decoder with its `RME_Int_DebugPrint` calls; `Spec/OperandText.lean` reads an operand text back (split at `+` and `*`,
  register names, hexadecimal numbers); decoding with text is proved to erase to decoding, and the text to read as the operand used, for all addressing forms.
* C92: `Model/Mnemonic.lean` holds the name tables of `opcode_table.h` and the decode loop with its prints; `Spec/Mnemonic.lean` lists the mnemonics of the processor
  manual and how a name in the trace is read; tables compared by kernel evaluation over all 256 opcodes and 8 register fields, the prefix loop by induction, the
  repeat-prefix warning by a frame logic over all opcode functions (`Lemmas/RepKeep.lean`); truncation to the 64-byte buffer from C47.
* C93: `Model/ImmText.lean` repeats the opcode functions without a ModR/M byte with their prints and the decode loop that collects them (`doOpcodeAll`; what the other functions print is a
  parameter); `C93_text_of_step` proves by erasure that the printing changes no outcome. `Spec/ImmText.lean` says which instructions have their operands in the code (`ImmCode`) and what
  their text must be (`ImmText`: numbers read back by `valueOf`, registers by `regByName`, addresses by `readMemText`). Proved with the fetch lemmas per function, then through the decode
  loop and C92's line; the jump theorems combine the line with C24, C25, C28, C40.
* C94: the string functions of `Model/ImmText.lean` print as STRING_HEAD/STRING_FOOTER do (`stringOpT`); the text is a function of the states before and after, the loop itself keeps the decoder
  state by a frame logic (`Nr`). `Spec/StringText.lean` says what the line must show (`StrText`, `RepeatText`: CX before and after, read back by `valueOf`).
* C95: `opRMT` in `Model/ImmText.lean` repeats the opcode functions with a ModR/M byte (arithmetic, TEST, MOV, XCHG, shifts, F6/F7, FE, IMUL 69/6B) with their prints, on top of the operand decoder with
  text of C91; erasure (`opRMT_erase`) as for C93. `Spec/RmText.lean` gives the operands of an opcode (`rmForm`), how an operand is shown (`OpndShown`) and the whole text (`RmText`), using the manual's
  reading of the ModR/M bytes (`RM`, `Plain`) of C14–C17. Table of opcodes checked by `decide` for all 256 × 8 opcode/register fields; the texts by case analysis on the opcode functions.
  Also with their prints: group FF (`unaryMXT`, far pointers `farT`), POP r/m, LEA, LES …, moves of segment registers, MOVZX, BSF, IMUL 0F AF, SHLD/SHRD (`Props/RmText2.lean`:
  LEA's register has the offset of the place shown, LES/LDS show their operands in the wrong order for every operand, IMUL and BSF behind 0F).
* C58, C59: models of `nativetest/src/main.c` cursor and CHS arithmetic.
* C67–C72: `Model/Bios.lean`: the HLE callbacks of `nativetest/src/main.c` as functions `World → State → HOut`
  (`World` = the tester's global variables; outcomes: returns, `exit(code)`, waits for ever, undefined behaviour), and
  the machine set-up in `main`.  Exact result theorems per function and request; C67 composes them with the INT
  instruction of the CPU model; C71 by induction over histories of key events.
* C73: `Model/DosExe.lean`: `LoadDosExe` on an arbitrary byte list; `Spec/DosExe` says what a well-formed executable is (`ExeOf`);
  induction over the relocation table and over the blocks copied.
* C74: `Model/Main.lean`: the main loop with the change report (`memScan` keeps the `memcpy` of 4 bytes), dump and exit status;
  induction over the words of memory and over the rounds.  `envs i` is an arbitrary environment per instruction (over-approximates
  the tester's variables changing between callbacks).
* C75: `Model/Main.lean`: `ParseArgs` on lists of words (`argAct` classifies one word, `parseArgs` is the loop); `Spec/Main` has the option
  grammar; induction over the option list.
* C66: relational logic (`Lemmas/Rl*`) without the hypothesis that the CPU types agree, plus an invariant of the prefix loop that the opcode
  byte is not 9D.
* C76: invariant over all handlers (`SameConfig`), induction over runs and over the loops of RME_Call/RME_CallInt.

## 5. Findings: where the code violates the listed property

1. `RME_DO_NULL_CHECK` is defined in `rme.c` after `rme_internal.h` is included (and in no other
   translation unit): the null-block check is compiled out everywhere (C04).
2. `DoFunc`: `disp` is `int16_t`, added to a 32-bit `addr` that is never reduced modulo 2^16 on the
   `ParseModRM(X)` path: `[disp16]` ≥ 0x8000, negative and overflowing offsets address the wrong
   linear address or index `Memory[]` out of range (C38, C51).  `LEA`, far pointers and `LxS` truncate.
3. `mod=0` with `[BP+SI]`/`[BP+DI]`: the segment switch sees `mmm|8` and picks DS instead of SS;
   `DoFunc32` uses the 16-bit table (2,3,6→SS) for 32-bit addressing (C39); 32-bit displacements pass
   through a `uint16_t` (C38).
4. SBB: AF wrong when CF=1 and the low nibbles are equal (and ≠ 15); OF wrong when CF=1 and src is
   the largest positive value; 32-bit with src=FFFFFFFF and CF=1 loses the borrow (C16).
5. NEG: AF is computed with mask 7 instead of 15 (C19).
6. SHL by exactly the operand width (8, 16) shifts by −1: UB (C22, C51); SHLD/SHRD do not mask the
   count and decode 8-bit registers for 16/32-bit operands (C52, C45).
7. IDIV: 16-bit 80000000h/−1 overflows `int`: UB; 32-bit compares with unsigned `-0x80000000` and
   therefore always faults (C21, C51).
8. Multi-operand IMUL: flags are computed from the truncated result; `uint16*uint16` overflows `int`
   (C20, C51).
9. `MOV r/m,Sreg` / `MOV Sreg,r/m` with register field 6 or 7: out-of-range table, null pointer (C51).
10. CWDE sign-extends AL instead of AX (C42).  BTx is unreachable (always UNDEFOPCODE).  JCXZ looks at
    the operand-size prefix (C25).  BSF ignores the operand-size prefix.  LEAVE with 66h does not pop BP;
    ENTER level 1 does not push the frame pointer (C29).  ROL/ROR by a non-zero multiple of the width
    leave CF alone (C23).  `PUSH imm` with 66h pushes 16 bits of immediate and a zero (sign) word.
11. 16/32-bit accesses at the end of a block run up to 3 bytes past it (C03; `DecodeModMX` only rejects
    offset 0xFFF).
12. testkern `__udivdi3/__umoddi3`: `while(Num > Den)` is wrong on exact multiples (C57).
    nativetest: sector 0 accepted by the CHS check (C59).
13. Runaway detector (C43, C44): it looks at memory *after* the instruction executed; a divide fault or an HLE
    trampoline step between two `00 00` does not reset it; BREAKPOINT is returned after IP was advanced.
14. 32-bit addressing (C63): disp8 is sign-extended to 16 bits only, disp32 is truncated to 16 bits, the
    displacement is read before the SIB byte, SIB base 5 with mod 0 skips its displacement, default segment SS for
    EDX/EBX/ESI with displacement and DS for EBP/ESP.
15. Operand-size prefix: `66 FF /6` and `66 push Sreg` push one word, `66 68` reads an imm16 (C61), `66 E8` reads a rel16
    (C28), `8C`/`8E` are refused with 66.  32-bit LEA is not reduced modulo 2^16, 32-bit BSF sees the low half only (C50).
16. `FF /2` reads its operand after pushing the return address (C28).
17. ENTER level ≥ 2 with 66 pushes BP and then returns UNDEFOPCODE (C37); an IRET failing after its first pop has
    changed IP (C44).
18. SHLD/SHRD with registers 4–7 write bits 16–23 of another register (C45, C52).
19. `RME_CallInt` on an HLE vector: the flags set by the callback are replaced by the pushed ones (C09).
20. From debug level 1 (the default) on, the instruction dump reads the instruction again byte by byte; an imm16
    whose second byte lies in an unmapped block is fetched as a word from the first block but fails in the dump (BADMEM
    in the checked build, null dereference in the shipped one): the debug level is not neutral (C48).
21. nativetest disk services (C69, C70): AH=02h does not check the buffer (writes outside `gaMemory`), uses a null
    `FILE*` without an image, rejects AL = 40h/80h/C0h, accepts sector 0; AH=42h reports success for unknown drives and short
    reads, overflows `int` for LBA ≥ 2^22 and truncates the LBA to 32 bits; the disk information block has its
    geometry in the wrong array entry.
22. nativetest console (C71, C72): AH=09h compares the column with `VIDEO_ROWS` and runs out of the array from column 25 on;
    no scrolling; AH=06h computes `BH << 8` as a byte (0); AH=00h of INT 16h exits in the build without a window; the scan
    code is the character code.
23. nativetest start (C68): a BIOS image above 64 KiB is not loaded but run; exit status 0.
24. nativetest `-d` (C73): SP of the executable's header is overwritten by FFFEh; relocation sites and the image size are not checked
    (writes outside the buffer / past `Memory[]`); an entry of 0000:0000 after relocation is taken for a load error.
25. nativetest main loop and command line (C74, C75): the report copies 4 bytes per changed word, so a change in the following word is
    not printed (and forgotten), and a change of the last word (10FFFEh) writes behind `gaMemory_prev`; the first report compares the registers with 0 instead of the
    start values; the dump has only the first MiB; `-b`, `-d`, `-O` without a value are accepted (and cancel an earlier value); an
    unknown CPU name ends with status 0.
26. nativetest comparison tools (C77): a dump that breaks off is accepted (cmpmem, cmpmembin); cmpmemhex reads FF behind the end of the
    dump, ignores the address in the header lines, reads digits without white space as one number and ignores columns beyond the 16th.
27. testkern `memset` (C78): `rep stosl` stores the `int` as it is, so filling with 1..255 leaves three zero bytes per word.
28. testkern `printf` (C79): a format ending in `%` is read beyond its end; widths above 64 overrun `buf[65]`; `%i` is unsigned; `%%`,
    `%d`, `%u`, `%c` print nothing but take an argument; `%s` ignores the width.
29. String instructions with prefix 67 count with CX, not ECX (ECX = 10000h: nothing happens), and truncate the 32-bit index to
    16 bits (C80).
30. A string instruction that hits an unmapped block has already decremented CX for that element and does not write back SI/DI, so it
    cannot be resumed; INS has read (and lost) a port value (C81).
31. mini_test: a file name that cannot be opened is passed to fseek as NULL (undefined); an unknown CPU name and an empty or too large (not loaded) image end
    with status 0; `-O` as last word is accepted without its value (C82).
32. testkern: guest addresses from 100000h have no block and the NULL check is compiled out, so a service there crashes the kernel; a word that straddles
    the end of page 0 is read from behind the copy (C83).
33. Not restartable (C86): PUSH/CALL/ENTER/PUSHA lower SP before the store can fail; POPA, RET far, IRET, POP r32 and LEAVE change SP or registers before a later
    pop fails; LDS/LES/LSS/LFS/LGS load the register before the segment word is read; opcodes 81 and 83 clear OF, ZF, SF and PF before the immediate is fetched;
    a divide error that cannot be delivered has already lowered SP.
34. LOOPx with prefix 67 counts in CX, not ECX (C25); `66 E8/E9/9A/EA` read 16-bit operands and behave as the unprefixed forms, `66 FF /2../5` are refused (C28,
    for every state: `Props/Exact2.lean`).
35. The trace line reads the instruction bytes again after the instruction has run (self-modifying code is shown with its new bytes); FS and GS are missing from
    `RME_DumpRegs` (C89).
36. The window shows cyan (3) and bright cyan (11) as yellow (C90); `DrawChar` also increments an uninitialised pointer (`buf`, main.c:557), strictly undefined, which
    the model leaves out.
37. In the trace MOVZX is shown as `Ext (0F) MOV` for both widths, and with four prefixes the 64-byte text buffer is full before the mnemonic, so that REP MOVSB and
    REP STOSB are shown alike (C92).
38. In the trace RET and RETF with a number of bytes to discard, AAM and AAD do not show their number; between `IN AX,DX` and its operands the blank is missing; JMP, CALL and PUSH of a
    number with an operand-size prefix show, as they take, 16 bits of the 32 (C93).
39. In the trace SCASB does not show AL (SCASW shows AX); the line of a REP MOVS or REP CMPS that runs never fits the 64-byte buffer, so the number left over is cut off (C94).
40. In the trace LES and LDS show the place before the register, SHLD and SHRD show byte registers, MOVZX of a word with prefix 66
    shows the 32-bit source register (C95); the number of an instruction with prefixes, a SIB byte and a displacement is lost: two instructions that differ in the number have the same line up to the bytes (C95).
