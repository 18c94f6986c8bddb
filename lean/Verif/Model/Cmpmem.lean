set_option autoImplicit false
/-
Model of the dump comparison tools of the native test suite: nativetest/cmpmembin.c, cmpmem.c,
cmpmemhex.c.  Files are lists (of bytes, or of ASCII characters for text); messages are not modelled.
-/
namespace RME.Cmp

/-- How a run of a tool ends. -/
inductive Res where
  | exit (code : Nat)     -- returns from main
  | abort                 -- failed assertion
  | undef                 -- undefined behaviour (indeterminate value, read behind a string)
deriving DecidableEq

/-! ### cmpmembin.c -/

/-- The loop, cmpmembin.c:33-46, with `failed` so far: dump bytes and template bytes not yet read.
Reading the template's end breaks off the loop. -/
def binLoop : List (BitVec 8) → List (BitVec 8) → Nat → Nat
  | [], _, failed => failed
  | _ :: _, [], failed => failed
  | h :: hs, w :: ws, failed => binLoop hs ws (if w ≠ h then 1 else failed)

/-- `main` of cmpmembin.c:7-49: number of arguments (with the program name), the two files (`none`: cannot
be opened). -/
def cmpmembin (argc : Nat) (tpl dump : Option (List (BitVec 8))) : Res :=
  if argc ≠ 3 then .exit 1
  else match tpl, dump with
    | some t, some d => .exit (binLoop d t 0)
    | _, _ => .exit 1

/-! ### cmpmem.c -/

/-- `isspace` (C locale). -/
def isSpace (c : Char) : Bool := c = ' ' ∨ (9 ≤ c.toNat ∧ c.toNat ≤ 13)

/-- Value of a hexadecimal digit. -/
def hexVal (c : Char) : Option Nat :=
  if 48 ≤ c.toNat ∧ c.toNat ≤ 57 then some (c.toNat - 48)
  else if 65 ≤ c.toNat ∧ c.toNat ≤ 70 then some (c.toNat - 55)
  else if 97 ≤ c.toNat ∧ c.toNat ≤ 102 then some (c.toNat - 87)
  else none

/-- `fscanf(hexfile, "%2x", &tplbyte)`, cmpmem.c:49, at a character that is not white space: value and rest.
`none`: nothing is stored (not a hexadecimal digit); also, as a simplification, for the forms with a
sign or `0x` that do not occur in template files. -/
def scan2x : List Char → Option (Nat × List Char)
  | [] => none
  | [c] => (hexVal c).map fun a => (a, [])
  | c :: d :: r =>
    match hexVal c with
    | none => none
    | some a =>
      if c = '0' ∧ (d = 'x' ∨ d = 'X') then none
      else match hexVal d with
        | none => some (a, d :: r)
        | some b => some (16 * a + b, r)

/-- The loop, cmpmem.c:34-55, with `failed` so far: dump bytes and template text not yet read. -/
def hexLoop : List (BitVec 8) → List Char → Nat → Res
  | [], _, failed => .exit failed
  | h :: hs, t, failed =>
    match t.dropWhile isSpace with
    | [] => .exit failed
    | c :: r =>
      if c = 'X' then hexLoop hs (r.drop 1) failed
      else match scan2x (c :: r) with
        | none => .undef
        | some (v, r') => hexLoop hs r' (if v ≠ h.toNat then 1 else failed)

/-- `main` of cmpmem.c:7-58. -/
def cmpmem (argc : Nat) (tpl : Option (List Char)) (dump : Option (List (BitVec 8))) : Res :=
  if argc ≠ 3 then .exit 1
  else match tpl, dump with
    | some t, some d => hexLoop d t 0
    | _, _ => .exit 1

/-! ### cmpmemhex.c -/

/-- `isxdigit`. -/
def isXDigit (c : Char) : Bool := (hexVal c).isSome

/-- Value of a run of hexadecimal digits, clamped to LONG_MAX. -/
def runVal (cs : List Char) : Nat :=
  min (cs.foldl (fun acc c => acc * 16 + (hexVal c).getD 0) 0) (2 ^ 63 - 1)

/-- `0x` in front of a hexadecimal digit is skipped by `strtol(.., 16)`. -/
def skip0x : List Char → List Char
  | '0' :: x :: d :: r => if (x = 'x' ∨ x = 'X') ∧ isXDigit d then d :: r else '0' :: x :: d :: r
  | cs => cs

/-- `(uint8_t)strtol(s, NULL, 16)`, cmpmemhex.c:68, at a character that is not white space: ALL following
hexadecimal digits are taken; 0 if there are none.  (Negative numbers: clamping at LONG_MIN instead of
-LONG_MAX is not modelled.) -/
def strtolByte (s : List Char) : BitVec 8 :=
  match s with
  | '-' :: r => - BitVec.ofNat 8 (runVal ((skip0x r).takeWhile isXDigit))
  | '+' :: r => BitVec.ofNat 8 (runVal ((skip0x r).takeWhile isXDigit))
  | r => BitVec.ofNat 8 (runVal ((skip0x r).takeWhile isXDigit))

/-- `ofs += 2` at a character followed by `r` when `n` more columns will be read: stepping over the
terminating NUL makes the next read undefined. -/
def step2 (n : Nat) (r : List Char) : Option (List Char) :=
  match r with
  | [] => if n = 0 then some [] else none
  | _ :: r' => some r'

/-- The 16 columns of a line, cmpmemhex.c:56-71: `some b` = must be `b`, `none` = ignored.  Overall `none`:
undefined behaviour. -/
def columns : Nat → List Char → Option (List (Option (BitVec 8)))
  | 0, _ => some []
  | n + 1, t =>
    match t.dropWhile isSpace with
    | [] => (columns n []).map (none :: ·)
    | c :: r =>
      match step2 n r with
      | none => none
      | some r' =>
        if c = 'X' then (columns n r').map (none :: ·)
        else (columns n r').map (some (strtolByte (c :: r)) :: ·)

/-- `line[0] != ';' || line[1] == ' '`, cmpmemhex.c:41: the line is not an expectation. -/
def isOther : List Char → Bool
  | ';' :: ' ' :: _ => true
  | ';' :: _ => false
  | _ => true

/-- The asserted form `;hh[h]:`, cmpmemhex.c:44-49: the rest of the line, or `none` for a failed assertion. -/
def header : List Char → Option (List Char)
  | _ :: a :: b :: r =>
    if isXDigit a ∧ isXDigit b then
      match r with
      | 'h' :: ':' :: r' => some r'
      | ':' :: r' => some r'
      | _ => none
    else none
  | _ => none

/-- The 16 bytes of the dump for a line, cmpmemhex.c:75-79: `fgetc` gives EOF (0xFF) behind the end. -/
def haveBytes (dump : List (BitVec 8)) : List (BitVec 8) :=
  (List.range 16).map fun i => dump.getD i 0xFF

/-- `local_failed`, cmpmemhex.c:74-79. -/
def differs : List (Option (BitVec 8)) → List (BitVec 8) → Bool
  | e :: es, h :: hs => (match e with | some b => h != b | none => false) || differs es hs
  | _, _ => false

/-- The loop over the lines, cmpmemhex.c:38-123, with `failed` so far.  Simplification: `fgets` returns whole
lines (at most 510 characters, each with its newline except possibly the last). -/
def lineLoop : List (List Char) → List (BitVec 8) → Nat → Res
  | [], _, failed => .exit failed
  | l :: ls, dump, failed =>
    if isOther l then .exit failed
    else match header l with
      | none => .abort
      | some t =>
        match columns 16 t with
        | none => .undef
        | some es => lineLoop ls (dump.drop 16) (if differs es (haveBytes dump) then 1 else failed)

/-- `main` of cmpmemhex.c:9-126. -/
def cmpmemhex (argc : Nat) (tpl : Option (List (List Char))) (dump : Option (List (BitVec 8))) : Res :=
  if argc ≠ 3 then .exit 1
  else match tpl, dump with
    | some t, some d => lineLoop t d 0
    | _, _ => .exit 1

end RME.Cmp
