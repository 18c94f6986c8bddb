set_option autoImplicit false
/-
Model of the debug text buffer: `RME_Int_DebugPrint`, src/rme_internal.h:196-213, and the two
fields it works on (`Decoder.DebugStringLen`, `Decoder.DebugString[64]`, src/rme.h:197-198).
-/
namespace RME.Debug

/-- `DebugStringLen` and the memory starting at `DebugString` (index 64 and above is whatever lies
behind the buffer in `tRME_State` and the heap). -/
structure Buf where
  len : Nat
  mem : Nat → BitVec 8

/-- Size of `DebugString`, src/rme.h:198. -/
abbrev SIZE : Nat := 64

/-- Memory after `vsnprintf(&mem[ofs], space, …)` producing `text` (C standard: nothing for
`space = 0`, else at most `space - 1` characters followed by NUL). -/
def vsnprintfMem (mem : Nat → BitVec 8) (ofs space : Nat) (text : List (BitVec 8)) : Nat → BitVec 8 :=
  if space = 0 then mem
  else
    let t := text.take (space - 1)
    fun i =>
      if i < ofs then mem i
      else if i < ofs + t.length then t.getD (i - ofs) 0
      else if i = ofs + t.length then 0
      else mem i

/-- `RME_Int_DebugPrint` printing the formatted text `text` (its length is what vsnprintf returns),
src/rme_internal.h:196-213.  Simplification: no formatted text is longer than INT_MAX, vsnprintf
never fails. -/
def debugPrint (b : Buf) (text : List (BitVec 8)) : Buf :=
  let space := SIZE - b.len
  let mem := vsnprintfMem b.mem b.len space text
  if text.length < space then { len := b.len + text.length, mem := mem }
  else
    { len := SIZE
      mem := fun i => if i = SIZE - 2 then 0x24 else if i = SIZE - 1 then 0 else mem i }

/-- Reset at the start of an instruction, src/rme.c:216-217. -/
def reset (b : Buf) : Buf :=
  { len := 0, mem := fun i => if i = 0 then 0 else b.mem i }

/-- What `printf("%s", DebugString)` prints: the characters before the first NUL (within the 64 bytes), src/rme.c:299. -/
def shown (b : Buf) : List (BitVec 8) := ((List.range SIZE).map b.mem).takeWhile (· ≠ 0)

/-- The text that becomes of a printed text `l`: it itself if it fits, else its first 62 characters and `$` (`C47_debug_shown`). -/
def cutText {α : Type} (dollar : α) (l : List α) : List α :=
  if l.length < SIZE then l else l.take (SIZE - 2) ++ [dollar]

end RME.Debug
