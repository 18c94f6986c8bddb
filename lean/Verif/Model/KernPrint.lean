import Verif.Model.Testkern
set_option autoImplicit false
/-
Model of the test kernel's text output: testkern/debug.c `putchar`, `puts`, `printf`, `__printf_chk`.
-/
namespace RME.Testkern

/-- What has been sent to the debug port (and, equally, to the serial port) and the counter `num` of
`puts`/`printf`. -/
structure Out where
  text : List Char
  num : Nat

/-- `putchar(ch); num++;`, testkern/debug.c:28-38.  Simplification: the serial port becomes ready, so
each character appears once on port E9h and once on 3F8h; both are the same stream.  `num` (an `int`)
counts characters; simplification: less than 2^31 of them. -/
def Out.put (o : Out) (c : Char) : Out := ⟨o.text ++ [c], o.num + 1⟩

/-- `while(*str) { putchar(*str++); num++; }`, testkern/debug.c:72-75,161-165; the list is the string
without its NUL. -/
def putsLoop : List Char → Out → Out
  | [], o => o
  | c :: cs, o => putsLoop cs (o.put c)

/-- `puts`, testkern/debug.c:68-78: text sent and returned value. -/
def puts (str : List Char) : List Char × Nat :=
  let o := putsLoop str ⟨[], 0⟩
  (o.text ++ ['\n'], o.num)

/-- The digit loop of the minimum length, testkern/debug.c:121-122 (`minLen` so far, rest of the
format): `none` = signed overflow. -/
def scanWidth : Nat → List Char → Option (Nat × List Char)
  | m, [] => some (m, [])
  | m, c :: cs =>
    if '0' ≤ c ∧ c ≤ '9' then
      if 2 ^ 31 ≤ m * 10 + c.toNat then none else scanWidth (m * 10 + c.toNat - '0'.toNat) cs
    else some (m, c :: cs)

/-- Padding, testkern/debug.c:109-114: `pad`, rest of the format. -/
def scanPad : List Char → Char × List Char
  | [] => (' ', [])
  | c :: cs => if c = '0' then ('0', cs) else (' ', c :: cs)

/-- Minimum length, testkern/debug.c:117-123: `minLen`, rest of the format. -/
def scanMin : List Char → Option (Nat × List Char)
  | [] => some (0, [])
  | c :: cs => if '1' ≤ c ∧ c ≤ '9' then scanWidth 0 (c :: cs) else some (0, c :: cs)

/-- `itoa(buf, val, base, minLen, pad)` into `char buf[65]`, testkern/debug.c:96,135-150: `none` when the
text or its NUL does not fit (undefined behaviour). -/
def itoaBuf (val : BitVec 32) (base : BitVec 64) (minLen : Nat) (pad : Char) : Option (List Char) :=
  match itoa (val.setWidth 64) base minLen pad with
  | none => none
  | some s => if s.length ≤ 64 then some s else none

/-- The switch on the format code, testkern/debug.c:131-167.  `strs a` is the NUL-terminated string at
address `a` (`none`: no such string, undefined behaviour). -/
def convert (strs : BitVec 32 → Option (List Char)) (code pad : Char) (minLen : Nat) (val : BitVec 32)
    (o : Out) : Option Out :=
  if code = 'o' then (itoaBuf val 8 minLen pad).map fun s => putsLoop s o
  else if code = 'i' then (itoaBuf val 10 minLen pad).map fun s => putsLoop s o
  else if code = 'x' then (itoaBuf val 16 minLen pad).map fun s => putsLoop s o
  else if code = 'p' then
    (itoaBuf val 16 8 '0').map fun s => putsLoop s (((o.put '*').put '0').put 'x')
  else if code = 's' then
    if val = 0 then some (putsLoop "(null)".toList o)
    else (strs val).map fun s => putsLoop s o
  else some o

theorem scanWidth_length : ∀ (f : List Char) (m : Nat) (r : Nat × List Char),
    scanWidth m f = some r → r.2.length ≤ f.length := by
  intro f
  induction f with
  | nil => intro m r h; simp only [scanWidth, Option.some.injEq] at h; rw [← h]; simp
  | cons c cs ih =>
    intro m r h
    simp only [scanWidth] at h
    split at h
    · split at h
      · cases h
      · exact Nat.le_succ_of_le (ih _ _ h)
    · simp only [Option.some.injEq] at h; rw [← h]; simp

theorem scanPad_length (f : List Char) : (scanPad f).2.length ≤ f.length := by
  cases f with
  | nil => simp [scanPad]
  | cons c cs => simp only [scanPad]; split <;> simp

theorem scanMin_length (f : List Char) (r : Nat × List Char) (h : scanMin f = some r) :
    r.2.length ≤ f.length := by
  cases f with
  | nil => simp only [scanMin, Option.some.injEq] at h; rw [← h]; simp
  | cons c cs =>
    simp only [scanMin] at h
    split at h
    · exact scanWidth_length _ _ _ h
    · simp only [Option.some.injEq] at h; rw [← h]; simp

/-- The loop of `printf`, testkern/debug.c:102-169: the list is the format without its NUL, `args` the
variable arguments.  `none` = undefined behaviour: no argument left, a string that is not there, a
number too long for the buffers, or a format that ends inside a conversion (the loop then steps over
the NUL and reads on behind the format). -/
def printfLoop (strs : BitVec 32 → Option (List Char)) (fmt : List Char) (args : List (BitVec 32)) (o : Out) :
    Option Out :=
  match fmt with
  | [] => some o
  | c :: cs =>
    if c ≠ '%' then printfLoop strs cs args (o.put c)
    else
      match hs : scanMin (scanPad cs).2 with
      | some (minLen, code :: rest) =>
        match args with
        | [] => none
        | v :: vs =>
          match convert strs code (scanPad cs).1 minLen v o with
          | none => none
          | some o' => printfLoop strs rest vs o'
      | _ => none
termination_by fmt.length
decreasing_by
  · simp
  · have h1 := scanMin_length _ _ hs
    have h2 := scanPad_length cs
    simp only [List.length_cons] at h1 ⊢
    omega

/-- `printf`, testkern/debug.c:91-173: text sent and returned value. -/
def printf (strs : BitVec 32 → Option (List Char)) (fmt : List Char) (args : List (BitVec 32)) :
    Option (List Char × Nat) :=
  (printfLoop strs fmt args ⟨[], 0⟩).map fun o => (o.text, o.num)

/-- `__printf_chk`, testkern/debug.c:83-86: prints nothing and returns 0. -/
def printfChk (_flag : BitVec 32) (_fmt : List Char) (_args : List (BitVec 32)) : List Char × Nat := ([], 0)

end RME.Testkern
