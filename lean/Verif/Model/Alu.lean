import Verif.Model.Base
set_option autoImplicit false
/-
Model of the ALU macros of src/ops_alu.h and SET_COMM_FLAGS (src/rme_internal.h:217-223) as pure
functions on `n`-bit words (`n` = 8, 16, 32 at every use) and the FLAGS word.
-/
namespace RME

/-- `PAIRITY8(v)`, src/rme_internal.h:217. -/
def parity8 {n : Nat} (v : BitVec n) : BitVec n :=
  ((v >>> 7) ^^^ (v >>> 6) ^^^ (v >>> 5) ^^^ (v >>> 4) ^^^ (v >>> 3) ^^^ (v >>> 2) ^^^ (v >>> 1)
    ^^^ v) &&& 1

/-- `SET_COMM_FLAGS(State, v, w)`, src/rme_internal.h:218-223. -/
def setCommFlags {n : Nat} (f : BitVec 16) (v : BitVec n) : BitVec 16 :=
  let f := clr f (FLAG_ZF ||| FLAG_SF ||| FLAG_PF)
  let f := orIf f (v == 0) FLAG_ZF
  let f := orIf f (v >>> (n - 1) != 0) FLAG_SF
  orIf f (parity8 v == 0) FLAG_PF

/-- `_ALU_SMASK`, src/ops_alu.h:9. -/
def smask (n : Nat) : BitVec n := (1 : BitVec n) <<< (n - 1)

/-- The six arithmetic flags. -/
abbrev ARITH_MASK : BitVec 16 :=
  FLAG_PF ||| FLAG_ZF ||| FLAG_SF ||| FLAG_OF ||| FLAG_CF ||| FLAG_AF

/-- `_ALU_ADD_SETFLAGS`, src/ops_alu.h:12-21. -/
def addSetFlags {n : Nat} (f : BitVec 16) (d s v : BitVec n) : BitVec 16 :=
  let f := orIf f ((d &&& smask n) == (s &&& smask n) && (v &&& smask n) != (d &&& smask n)) FLAG_OF
  let f := if d != 0 then orIf f (v.toNat ≤ s.toNat) FLAG_CF else orIf f (v.toNat < s.toNat) FLAG_CF
  if (d &&& 15) != 0 then orIf f ((v &&& 15).toNat ≤ (s &&& 15).toNat) FLAG_AF
  else orIf f ((v &&& 15).toNat < (s &&& 15).toNat) FLAG_AF

/-- The eight operations selected by opcode bits 3-5, in table order (src/ops_alu.c:140-149,
src/opcode_table.h:32). -/
inductive AluOp where
  | add | or | adc | sbb | and | sub | xor | cmp
  deriving DecidableEq, Repr

/-- `ALU_OPCODE_ADD_CODE`, src/ops_alu.h:28-31. -/
def aluAdd {n : Nat} (d s : BitVec n) (f : BitVec 16) : BitVec n × BitVec 16 :=
  let v := d + s
  (v, addSetFlags (clr f ARITH_MASK) d s v)

/-- `ALU_OPCODE_ADC_CODE`, src/ops_alu.h:37-41. -/
def aluAdc {n : Nat} (d s : BitVec n) (f : BitVec 16) : BitVec n × BitVec 16 :=
  let v := d + s + (if tst f FLAG_CF then 1 else 0)
  let f := addSetFlags (clr f ARITH_MASK) d s v
  (v, orIf f (d != 0 && v == s) FLAG_CF)

/-- `ALU_OPCODE_SUB_CODE` / `ALU_OPCODE_CMP_CODE` with `__SUB_FLAGS` for `c = 0`,
src/ops_alu.h:22-26,54-59,68-74. -/
def aluSub {n : Nat} (d s : BitVec n) (f : BitVec 16) : BitVec n × BitVec 16 :=
  let v := d - s
  let f := clr f ARITH_MASK
  let f := orIf f (d.toNat < s.toNat) FLAG_CF
  let f := orIf f ((d &&& 15).toNat < (s &&& 15).toNat) FLAG_AF
  (v, orIf f ((((d ^^^ s) &&& (d ^^^ v)) &&& smask n) != 0) FLAG_OF)

/-- `uint64_t r = (*src + c)` of SBB: for 8/16-bit operands the sum is formed in `int`, for 32-bit
operands in `uint32_t` (wraps), src/ops_alu.h:45. -/
def sbbR {n : Nat} (s : BitVec n) (c : Bool) : BitVec 64 :=
  if n < 32 then s.setWidth 64 + (if c then 1 else 0)
  else (s + (if c then 1 else 0)).setWidth 64

/-- `ALU_OPCODE_SBB_CODE` with `__SUB_FLAGS` on the 64-bit `r`, src/ops_alu.h:22-26,43-48. -/
def aluSbb {n : Nat} (d s : BitVec n) (f : BitVec 16) : BitVec n × BitVec 16 :=
  let c := tst f FLAG_CF
  let r := sbbR s c
  let v : BitVec n := (d.setWidth 64 - r).setWidth n
  let f := clr f (FLAG_OF ||| FLAG_CF ||| FLAG_AF)
  let f := orIf f ((d.setWidth 64).toNat < r.toNat) FLAG_CF
  let f := orIf f ((d.setWidth 64 &&& 15).toNat < ((r &&& 15) - (if c then 1 else 0)).toNat) FLAG_AF
  let tmp : BitVec n := (((d.setWidth 64 ^^^ r) &&& (d.setWidth 64 ^^^ v.setWidth 64)) &&&
    (1#64 <<< (n - 1))).setWidth n
  (v, orIf f (tmp != 0) FLAG_OF)

/-- `ALU_OPCODE_{OR,AND,XOR}_CODE`, src/ops_alu.h:33-35,50-52,61-63. -/
def aluLogic {n : Nat} (v : BitVec n) (f : BitVec 16) : BitVec n × BitVec 16 :=
  (v, clr f (FLAG_PF ||| FLAG_ZF ||| FLAG_SF ||| FLAG_OF ||| FLAG_CF))

/-- `ALU_SELECT_OPERATION` / the bodies of `CREATE_ALU_OPCODE_FCN`: value `v` and flags before
SET_COMM_FLAGS, src/ops_alu.c:126-133,140-150. -/
def aluCode {n : Nat} (k : AluOp) (d s : BitVec n) (f : BitVec 16) : BitVec n × BitVec 16 :=
  match k with
  | .add => aluAdd d s f
  | .or => aluLogic (d ||| s) f
  | .adc => aluAdc d s f
  | .sbb => aluSbb d s f
  | .and => aluLogic (d &&& s) f
  | .sub => aluSub d s f
  | .xor => aluLogic (d ^^^ s) f
  | .cmp => aluSub d s f

/-- Value and final flags of an ALU operation (macro body followed by SET_COMM_FLAGS),
src/ops_alu.c:21-115. -/
def aluExec {n : Nat} (k : AluOp) (d s : BitVec n) (f : BitVec 16) : BitVec n × BitVec 16 :=
  let r := aluCode k d s f
  (r.1, setCommFlags r.2 r.1)

/-- `dest` is set to NULL by CMP: nothing is written back, src/ops_alu.h:74. -/
def AluOp.writes : AluOp → Bool
  | .cmp => false
  | _ => true

/-- `ALU_OPCODE_TEST_CODE` + SET_COMM_FLAGS, src/ops_alu.h:77-80. -/
def aluTest {n : Nat} (d s : BitVec n) (f : BitVec 16) : BitVec 16 :=
  setCommFlags (clr f (FLAG_OF ||| FLAG_CF)) (d &&& s)

/-- `ALU_OPCODE_NEG_CODE`, src/ops_alu.h:86-97. -/
def aluNeg {n : Nat} (s : BitVec n) (f : BitVec 16) : BitVec n × BitVec 16 :=
  let f := clr f (FLAG_CF ||| FLAG_AF ||| FLAG_OF)
  if s == 0 then (0, setCommFlags f (0 : BitVec n))
  else
    let f := f ||| FLAG_CF
    let f := orIf f (s == smask n) FLAG_OF
    let f := orIf f ((s &&& 7) != 0) FLAG_AF
    let v := ~~~s + 1
    (v, setCommFlags f v)

/-- `ALU_OPCODE_INC_CODE`, src/ops_alu.h:100-105. -/
def aluInc {n : Nat} (d : BitVec n) (f : BitVec 16) : BitVec n × BitVec 16 :=
  let v := d + 1
  let f := clr f (FLAG_OF ||| FLAG_ZF ||| FLAG_SF ||| FLAG_PF ||| FLAG_AF)
  let f := orIf f (v == smask n) FLAG_OF
  let f := orIf f ((v &&& 15) == 0) FLAG_AF
  (v, setCommFlags f v)

/-- `ALU_OPCODE_DEC_CODE`, src/ops_alu.h:107-112.  (`*dest + 1` is formed in `int`/`uint32_t`; it
equals 2^(w-1) exactly when `*dest` is 2^(w-1) - 1.) -/
def aluDec {n : Nat} (d : BitVec n) (f : BitVec 16) : BitVec n × BitVec 16 :=
  let v := d - 1
  let f := clr f (FLAG_OF ||| FLAG_AF)
  let f := orIf f (v.toNat + 1 == 2 ^ (n - 1)) FLAG_OF
  let f := orIf f ((v &&& 15).toNat + 1 == 16) FLAG_AF
  (v, setCommFlags f v)

/-! ### Shifts and rotates (src/ops_alu.h:114-213); `src` is the 8-bit count operand -/

/-- Order of `SHIFT_SELECT_OPERATION`, src/ops_alu.c:151-161; `sal` (6) is the same code as `shl`. -/
inductive ShiftOp where
  | rol | ror | rcl | rcr | shl | shr | sal | sar
  deriving DecidableEq, Repr

/-- The local `amt` of each macro. -/
def shiftAmt (k : ShiftOp) (n : Nat) (src : BitVec 8) : Nat :=
  match k with
  | .rol | .ror => (src &&& 31).toNat % n
  | .rcl | .rcr => (src &&& 31).toNat % (n + 1)
  | _ => (src &&& 31).toNat

/-- `ALU_OPCODE_ROL_CODE` for `amt > 0`, src/ops_alu.h:117-122. -/
def shRol {n : Nat} (d : BitVec n) (amt : Nat) (f : BitVec 16) : BitVec n × BitVec 16 :=
  let v := (d <<< amt) ||| (d >>> (n - amt))
  let f := clr f (FLAG_OF ||| FLAG_CF)
  let f := orIf f ((v &&& 1) != 0) FLAG_CF
  (v, orIf f ((v >>> (n - 1)) ^^^ (v &&& 1) != 0) FLAG_OF)

/-- `ALU_OPCODE_ROR_CODE` for `amt > 0`, src/ops_alu.h:126-131. -/
def shRor {n : Nat} (d : BitVec n) (amt : Nat) (f : BitVec 16) : BitVec n × BitVec 16 :=
  let v := (d >>> amt) ||| (d <<< (n - amt))
  let f := clr f (FLAG_OF ||| FLAG_CF)
  let f := orIf f (v >>> (n - 1) != 0) FLAG_CF
  (v, orIf f ((((v >>> (n - 1)) ^^^ (v >>> (n - 2))) &&& 1) != 0) FLAG_OF)

/-- The `while(amt--)` loop of RCL, src/ops_alu.h:139-143. -/
def rclLoop {n : Nat} : Nat → BitVec n → Bool → BitVec n × Bool
  | 0, v, c => (v, c)
  | k + 1, v, c => rclLoop k ((v <<< 1) ||| (if c then 1 else 0)) (v >>> (n - 1) != 0)

/-- `ALU_OPCODE_RCL_CODE` for `amt > 0`, src/ops_alu.h:136-148. -/
def shRcl {n : Nat} (d : BitVec n) (amt : Nat) (f : BitVec 16) : BitVec n × BitVec 16 :=
  let r := rclLoop amt d (tst f FLAG_CF)
  let f := clr f (FLAG_OF ||| FLAG_CF)
  let f := orIf f r.2 FLAG_CF
  (r.1, orIf f (r.2 ^^ (r.1 >>> (n - 1) != 0)) FLAG_OF)

/-- The `while(amt--)` loop of RCR, src/ops_alu.h:157-161. -/
def rcrLoop {n : Nat} : Nat → BitVec n → Bool → BitVec n × Bool
  | 0, v, c => (v, c)
  | k + 1, v, c => rcrLoop k ((v >>> 1) ||| ((if c then (1 : BitVec n) else 0) <<< (n - 1))) ((v &&& 1) != 0)

/-- `ALU_OPCODE_RCR_CODE` for `amt > 0`, src/ops_alu.h:152-164. -/
def shRcr {n : Nat} (d : BitVec n) (amt : Nat) (f : BitVec 16) : BitVec n × BitVec 16 :=
  let c := tst f FLAG_CF
  let f := clr f (FLAG_OF ||| FLAG_CF)
  let f := orIf f (((d >>> (n - 1)) &&& 1 != 0) ^^ c) FLAG_OF
  let r := rcrLoop amt d c
  (r.1, orIf f r.2 FLAG_CF)

/-- `ALU_OPCODE_SHL_CODE` for `amt > 0`, src/ops_alu.h:168-178.  For `amt = width` the OF line
shifts by -1: undefined behaviour. -/
def shShl {n : Nat} (d : BitVec n) (amt : Nat) (f : BitVec 16) : Except UB (BitVec n × BitVec 16) :=
  let f := clr f (FLAG_OF ||| FLAG_CF)
  if amt > n then .ok (0, setCommFlags f (0 : BitVec n))
  else if amt = n then .error .shiftRange
  else
    let f := orIf f (((d >>> (n - amt)) &&& 1) != 0) FLAG_CF
    let f := orIf f ((((d >>> (n - amt)) ^^^ (d >>> (n - amt - 1))) &&& 1) != 0) FLAG_OF
    let v := d <<< amt
    .ok (v, setCommFlags f v)

/-- OF of SHR/SAR from the two top bits of the result, src/ops_alu.h:190-191,210-211. -/
def highOF {n : Nat} (v : BitVec n) (f : BitVec 16) : BitVec 16 :=
  let high := v >>> (n - 2)
  orIf f (((high &&& 1) ^^^ (high >>> 1)) != 0) FLAG_OF

/-- `ALU_OPCODE_SHR_CODE` for `amt > 0`, src/ops_alu.h:182-193. -/
def shShr {n : Nat} (d : BitVec n) (amt : Nat) (f : BitVec 16) : BitVec n × BitVec 16 :=
  let f := clr f (FLAG_OF ||| FLAG_CF)
  let r : BitVec n × BitVec 16 :=
    if amt > n then (0, f)
    else (d >>> amt, orIf f (((d >>> (amt - 1)) &&& 1) != 0) FLAG_CF)
  (r.1, setCommFlags (highOF r.1 r.2) r.1)

/-- `ALU_OPCODE_SAR_CODE` for `amt > 0`, src/ops_alu.h:199-213.  (`0xFFFFFFFF << (width-amt)` is
truncated to the operand width.) -/
def shSar {n : Nat} (d : BitVec n) (amt : Nat) (f : BitVec 16) : BitVec n × BitVec 16 :=
  let sgn := d >>> (n - 1) != 0
  let f := clr f (FLAG_OF ||| FLAG_CF)
  let r : BitVec n × BitVec 16 :=
    if amt ≥ n then (if sgn then BitVec.allOnes n else 0, orIf f sgn FLAG_CF)
    else
      ((d >>> amt) ||| (if sgn then ((0xFFFFFFFF#32) <<< (n - amt)).setWidth n else 0),
        orIf f (((d >>> (amt - 1)) &&& 1) != 0) FLAG_CF)
  (r.1, setCommFlags (highOF r.1 r.2) r.1)

/-- `SHIFT_SELECT_OPERATION` for `amt > 0`, src/ops_alu.c:151-161. -/
def shiftCode {n : Nat} (k : ShiftOp) (d : BitVec n) (amt : Nat) (f : BitVec 16) :
    Except UB (BitVec n × BitVec 16) :=
  match k with
  | .rol => .ok (shRol d amt f)
  | .ror => .ok (shRor d amt f)
  | .rcl => .ok (shRcl d amt f)
  | .rcr => .ok (shRcr d amt f)
  | .shl => shShl d amt f
  | .shr => .ok (shShr d amt f)
  | .sal => shShl d amt f
  | .sar => .ok (shSar d amt f)

/-- `ALU_OPCODE_SHRD_CODE` for `amt > 0`, src/ops_alu.h:341-350.  8/16-bit operands are promoted to
`int` (32 bits): `>> (amt-1)` and `>>= amt` need `amt < 32`, `<< (width - amt)` needs
`amt ≤ width`. -/
def shShrd {n : Nat} (d s : BitVec n) (amt : Nat) (f : BitVec 16) :
    Except UB (BitVec n × BitVec 16) :=
  if amt ≥ 32 ∨ amt > n then .error .shiftRange
  else
    let f := clr f (FLAG_CF ||| FLAG_OF ||| FLAG_AF)
    let f := orIf f (((d >>> (amt - 1)) &&& 1) != 0) FLAG_CF
    let v := (d >>> amt) ||| (s <<< (n - amt))
    let f := if amt = 1 then orIf f ((((v >>> (n - 1)) ^^^ (v >>> (n - 2))) &&& 1) != 0) FLAG_OF else f
    .ok (v, setCommFlags f v)

/-- `ALU_OPCODE_SHLD_CODE` for `amt > 0`, src/ops_alu.h:352-361.  `*dest <<= amt` on a promoted 16-bit operand
is a shift of an `int`: a product of 2^31 or more is undefined (a count of 16 and a destination of 8000h or more). -/
def shShld {n : Nat} (d s : BitVec n) (amt : Nat) (f : BitVec 16) :
    Except UB (BitVec n × BitVec 16) :=
  if amt ≥ 32 ∨ amt > n ∨ (n < 32 ∧ d.toNat * 2 ^ amt ≥ 2 ^ 31) then .error .shiftRange
  else
    let f := clr f (FLAG_CF ||| FLAG_OF ||| FLAG_AF)
    let f := orIf f (((d >>> (n - amt)) &&& 1) != 0) FLAG_CF
    let v := (d <<< amt) ||| (s >>> (n - amt))
    let f := if amt = 1 then
        orIf f ((((v >>> (n - 1)) ^^^ (if tst f FLAG_CF then 1 else 0)) &&& 1) != 0) FLAG_OF
      else f
    .ok (v, setCommFlags f v)

/-! ### Multiplication and division (src/ops_alu.h:215-338) -/

/-- CF/OF of MUL, src/ops_alu.h:238-241, and of `_IMUL_FLAGS`, src/ops_alu.h:243-247. -/
def setCFOF (f : BitVec 16) (c : Bool) : BitVec 16 :=
  if c then f ||| (FLAG_CF ||| FLAG_OF) else clr f (FLAG_CF ||| FLAG_OF)

/-- The condition of `_IMUL_FLAGS` on the (mathematical) value of `result`. -/
def imulOvf (n : Nat) (result : Int) : Bool :=
  result < -(2 ^ (n - 1) : Int) || result > 2 ^ (n - 1) - 1

/-- Result of a one-operand multiplication: low half, high half, flags.  Unsigned:
`ALU_OPCODE_MUL_CODE`, src/ops_alu.h:217-241. -/
def mulCode {n : Nat} (a s : BitVec n) (f : BitVec 16) : BitVec n × BitVec n × BitVec 16 :=
  let result := a.toNat * s.toNat
  let lo := BitVec.ofNat n result
  (lo, BitVec.ofNat n (result / 2 ^ n), setCFOF (setCommFlags f lo) (result / 2 ^ n != 0))

/-- Signed: `ALU_OPCODE_IMUL_CODE`, src/ops_alu.h:251-272 (`result >> 16` is an arithmetic shift). -/
def imulCode {n : Nat} (a s : BitVec n) (f : BitVec 16) : BitVec n × BitVec n × BitVec 16 :=
  let result := a.toInt * s.toInt
  let lo := BitVec.ofInt n result
  (lo, BitVec.ofInt n (result / 2 ^ n), setCFOF (setCommFlags f lo) (imulOvf n result))

/-- `ALU_OPCODE_DIV_CODE` after the zero test: quotient and remainder of the double-width dividend,
`none` = `return RME_ERR_DIVERR`, src/ops_alu.h:278-305. -/
def divCode {n : Nat} (num : BitVec (n + n)) (s : BitVec n) : Option (BitVec n × BitVec n) :=
  if num.toNat / s.toNat > 2 ^ n - 1 then none
  else some (BitVec.ofNat n (num.toNat / s.toNat), BitVec.ofNat n (num.toNat % s.toNat))

/-- Result of `ALU_OPCODE_IDIV_CODE` after the zero test, src/ops_alu.h:312-338.
* 8 bit: the quotient is stored in an `int16_t` before the range test (`-32768 / -1` wraps to
  `-32768`, which the test rejects).
* 16 bit: `INT_MIN / -1` is undefined.
* 32 bit: the range test compares with the *unsigned* constant `-0x80000000` = 2147483648, so
  every result is rejected; `INT64_MIN / -1` is undefined. -/
def idivCode (n : Nat) (num : Int) (s : Int) : Except UB (Option (BitVec n × BitVec n)) :=
  if n = 8 then
    let quot := (BitVec.ofInt 16 (num.tdiv s)).toInt
    let rem := num - quot * s
    if quot < -0x80 ∨ quot > 0x7F then .ok none
    else .ok (some (BitVec.ofInt n quot, BitVec.ofInt n rem))
  else if n = 16 then
    if num = -(2 ^ 31 : Int) ∧ s = -1 then .error .signedOverflow
    else
      let result := num.tdiv s
      if result > 0x7FFF ∨ result < -0x8000 then .ok none
      else .ok (some (BitVec.ofInt n result, BitVec.ofInt n (num.tmod s)))
  else
    if num = -(2 ^ 63 : Int) ∧ s = -1 then .error .signedOverflow
    else
      let result := num.tdiv s
      if result > 0x7FFFFFFF ∨ result < 0x80000000 then .ok none
      else .ok (some (BitVec.ofInt n result, BitVec.ofInt n (num.tmod s)))

end RME
