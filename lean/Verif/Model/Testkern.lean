set_option autoImplicit false
/-
Model of the test kernel's run time support: testkern/heap.c, testkern/lib.c (memset, memcpy, 64-bit
division helpers), testkern/debug.c (itoa).  The kernel is 32-bit: pointers and `size_t` are 32 bits.
-/
namespace RME.Testkern

/-! ### heap.c -/

/-- `malloc`, testkern/heap.c:19-26: result and new `gHeapPtr`. -/
def malloc (heap : BitVec 32) (bytes : BitVec 32) : BitVec 32 × BitVec 32 :=
  (heap, heap + ((bytes + 7) &&& ~~~7))

/-- One `stos`/`movs` store of `w` bytes at `a` (80386 string instructions used by
testkern/lib.c:17-20,30-33; flat 32-bit addresses, wrapping at 2^32). -/
def putBytes (w : Nat) (mem : BitVec 32 → BitVec 8) (a : BitVec 32) (v : Nat → BitVec 8) :
    BitVec 32 → BitVec 8 :=
  fun x => if (x - a).toNat < w then v (x - a).toNat else mem x

/-- `rep stosb` (`w = 1`) / `rep stosl` (`w = 4`) with count `n` and EAX = `eax`, testkern/lib.c:18,20:
new memory and EDI. -/
def repStos (w : Nat) : Nat → (BitVec 32 → BitVec 8) → BitVec 32 → BitVec 32 →
    (BitVec 32 → BitVec 8) × BitVec 32
  | 0, mem, edi, _ => (mem, edi)
  | n + 1, mem, edi, eax =>
    repStos w n (putBytes w mem edi (fun i => eax.extractLsb' (8 * i) 8)) (edi + BitVec.ofNat 32 w) eax

/-- `rep movsb`/`rep movsl`, testkern/lib.c:31,33: new memory, EDI and ESI. -/
def repMovs (w : Nat) : Nat → (BitVec 32 → BitVec 8) → BitVec 32 → BitVec 32 →
    (BitVec 32 → BitVec 8) × BitVec 32 × BitVec 32
  | 0, mem, edi, esi => (mem, edi, esi)
  | n + 1, mem, edi, esi =>
    repMovs w n (putBytes w mem edi (fun i => mem (esi + BitVec.ofNat 32 i)))
      (edi + BitVec.ofNat 32 w) (esi + BitVec.ofNat 32 w)

/-- `memset`, testkern/lib.c:15-23: returned pointer and new memory.  Simplifications: the direction
flag is clear, and the compiler keeps `Num&3` in a register of its own (the asm statement does not
declare the registers it changes). -/
def memset (mem : BitVec 32 → BitVec 8) (dest val num : BitVec 32) :
    BitVec 32 × (BitVec 32 → BitVec 8) :=
  let r := repStos 4 (num / 4).toNat mem dest val
  (dest, (repStos 1 (num &&& 3).toNat r.1 r.2 val).1)

/-- `memcpy`, testkern/lib.c:28-36 (same simplifications). -/
def memcpy (mem : BitVec 32 → BitVec 8) (dest src num : BitVec 32) :
    BitVec 32 × (BitVec 32 → BitVec 8) :=
  let r := repMovs 4 (num / 4).toNat mem dest src
  (dest, (repMovs 1 (num &&& 3).toNat r.1 r.2.1 r.2.2).1)

/-- `calloc`, testkern/heap.c:28-33: pointer, new heap pointer, new memory. -/
def calloc (heap : BitVec 32) (mem : BitVec 32 → BitVec 8) (nmemb size : BitVec 32) :
    BitVec 32 × BitVec 32 × (BitVec 32 → BitVec 8) :=
  let r := malloc heap (nmemb * size)
  (r.1, r.2, (memset mem r.1 0 (nmemb * size)).2)

/-- A sequence of `malloc` calls: the returned pointers, in order. -/
def mallocs (heap : BitVec 32) : List (BitVec 32) → List (BitVec 32)
  | [] => []
  | b :: bs => (malloc heap b).1 :: mallocs (malloc heap b).2 bs

/-! ### lib.c -/

/-- `while(Num > Den) { ret++; Num -= Den; }`, testkern/lib.c:68-71 and 99-100: final `(ret, Num)`.
(`ret` cannot wrap because it counts at most Num/Den rounds.) -/
def subLoop (num den ret : Nat) : Nat × Nat :=
  if num > den ∧ den > 0 then subLoop (num - den) den (ret + 1) else (ret, num)
termination_by num
decreasing_by omega

/-- The divisors with a shortcut and their shift counts, testkern/lib.c:47-59,82-94. -/
def speedHack (den : Nat) : Option Nat :=
  if den = 1 then some 0 else if den = 2 then some 1 else if den = 4 then some 2
  else if den = 8 then some 3 else if den = 16 then some 4 else if den = 32 then some 5
  else if den = 1024 then some 10 else if den = 2048 then some 11 else if den = 4096 then some 12
  else if den = 0x2000 then some 13 else if den = 0x4000 then some 14
  else if den = 0x8000 then some 15 else if den = 0x10000 then some 16
  else none

/-- `__udivdi3` for `Den ≠ 0`, testkern/lib.c:42-73. -/
def udivdi3 (num den : BitVec 64) : BitVec 64 :=
  match speedHack den.toNat with
  | some k => num >>> k
  | none =>
    if num >>> 32 = 0 ∧ den >>> 32 = 0 then
      ((num.setWidth 32 : BitVec 32) / den.setWidth 32).setWidth 64
    else BitVec.ofNat 64 (subLoop num.toNat den.toNat 0).1

/-- `__umoddi3` for `Den ≠ 0`, testkern/lib.c:79-102 (`Num & (Den-1)` in the shortcuts). -/
def umoddi3 (num den : BitVec 64) : BitVec 64 :=
  match speedHack den.toNat with
  | some k => num &&& (((1 : BitVec 64) <<< k) - 1)
  | none =>
    if num >>> 32 = 0 ∧ den >>> 32 = 0 then
      ((num.setWidth 32 : BitVec 32) % den.setWidth 32).setWidth 64
    else BitVec.ofNat 64 (subLoop num.toNat den.toNat 0).2

/-! ### debug.c -/

/-- `cHEXCHARS[i]`, testkern/debug.c:40 (index 16 is the terminating NUL; beyond is undefined). -/
def hexChar (i : Nat) : Option Char :=
  ['0','1','2','3','4','5','6','7','8','9','A','B','C','D','E','F','\x00'][i]?

/-- The digit loop of `itoa`, testkern/debug.c:50-54: `tmp` (oldest character first) or `none` for
undefined behaviour (index beyond `cHEXCHARS` or `tmp[65]`).  64-bit `%` and `/` are the helpers of
lib.c.  Fuel 65: `tmp` has room for 65 characters. -/
def itoaDigits : Nat → BitVec 64 → BitVec 64 → List Char → Option (List Char)
  | 0, _, _, _ => none
  | fuel + 1, val, base, acc =>
    match hexChar (umoddi3 val base).toNat with
    | none => none
    | some c =>
      let v := udivdi3 val base
      if v = 0 then some (acc ++ [c]) else itoaDigits fuel v base (acc ++ [c])

/-- `itoa`, testkern/debug.c:45-63: the characters written to `buf` (without the final NUL), `none` =
undefined behaviour (`tmp` overflow by padding, bad digit index). -/
def itoa (val base : BitVec 64) (minLength : Nat) (pad : Char) : Option (List Char) :=
  match itoaDigits 65 val base [] with
  | none => none
  | some tmp =>
    if tmp.length < minLength ∧ minLength > 65 then none
    else some ((tmp ++ List.replicate (minLength - tmp.length) pad).reverse)

end RME.Testkern
