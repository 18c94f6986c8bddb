set_option autoImplicit false
/-
What the dump comparison tools should decide.  A template is a list of expectations, one per byte of
the dump: `some b` (must be `b`) or `none` (anything).  Nothing here refers to the model.
-/
namespace RME.Cmp.Spec

/-- The dump meets the template: every byte the template asks for is there. -/
def Meets (tpl : List (Option (BitVec 8))) (dump : List (BitVec 8)) : Prop :=
  ∀ (i : Nat) (b : BitVec 8), tpl[i]? = some (some b) → dump[i]? = some b

/-- The dump does not contradict the template: bytes that are in both agree. -/
def NotContradicted (tpl : List (Option (BitVec 8))) (dump : List (BitVec 8)) : Prop :=
  ∀ (i : Nat) (b h : BitVec 8), tpl[i]? = some (some b) → dump[i]? = some h → h = b

/-- `c` is a hexadecimal digit of value `v`, either case. -/
def HexDigit (c : Char) (v : Nat) : Prop :=
  v < 16 ∧ ("0123456789abcdef".toList[v]? = some c ∨ "0123456789ABCDEF".toList[v]? = some c)

/-- A blank, tab or line break. -/
def Blank (c : Char) : Prop := c = ' ' ∨ c = '\t' ∨ c = '\n' ∨ c = '\r'

/-- `t` writes down the expectations `es`: two hexadecimal digits per byte or `XX`, white space anywhere
between them. -/
inductive HexText : List (Option (BitVec 8)) → List Char → Prop where
  | nil (ws : List Char) : (∀ c ∈ ws, Blank c) → HexText [] ws
  | any (ws : List Char) {es t} : (∀ c ∈ ws, Blank c) → HexText es t → HexText (none :: es) (ws ++ 'X' :: 'X' :: t)
  | byte (ws : List Char) (c d : Char) (a b : Nat) {es t} : (∀ c ∈ ws, Blank c) → HexDigit c a → HexDigit d b →
      HexText es t → HexText (some (BitVec.ofNat 8 (16 * a + b)) :: es) (ws ++ c :: d :: t)

/-- The same, with white space after every byte except possibly the last. -/
inductive RowText : List (Option (BitVec 8)) → List Char → Prop where
  | nil (ws : List Char) : (∀ c ∈ ws, Blank c) → RowText [] ws
  | any (ws : List Char) {es t} : (∀ c ∈ ws, Blank c) → RowText es t → RowText (none :: es) (ws ++ 'X' :: 'X' :: t)
  | byte (ws : List Char) (c d : Char) (a b : Nat) {es t} : (∀ c ∈ ws, Blank c) → HexDigit c a → HexDigit d b →
      (t = [] ∨ ∃ s t', t = s :: t' ∧ Blank s) → RowText es t →
      RowText (some (BitVec.ofNat 8 (16 * a + b)) :: es) (ws ++ c :: d :: t)

/-- `l` is a header line `;hh:` or `;hhh:` (the last `h` literally) with at most 16 expectations `es`. -/
def HeaderLine (es : List (Option (BitVec 8))) (l : List Char) : Prop :=
  es.length ≤ 16 ∧ ∃ a b va vb t, HexDigit a va ∧ HexDigit b vb ∧ RowText es t ∧
    (l = ';' :: a :: b :: ':' :: t ∨ l = ';' :: a :: b :: 'h' :: ':' :: t)

/-- `l` does not start with `;`, or starts with `; `. -/
def OtherLine (l : List Char) : Prop := (∃ t, l = ';' :: ' ' :: t) ∨ ∀ t, l ≠ ';' :: t

/-- The file consists of header lines with the given rows, followed by nothing or by an ordinary line
and anything. -/
inductive HeaderFile : List (List (Option (BitVec 8))) → List (List Char) → Prop where
  | nil : HeaderFile [] []
  | other (l : List Char) (ls : List (List Char)) : OtherLine l → HeaderFile [] (l :: ls)
  | row {es l rows ls} : HeaderLine es l → HeaderFile rows ls → HeaderFile (es :: rows) (l :: ls)

/-- Every byte the rows ask for (row `k`, column `i` is byte `16 k + i`) is in the dump. -/
def RowsMeet (rows : List (List (Option (BitVec 8)))) (dump : List (BitVec 8)) : Prop :=
  ∀ (k i : Nat) (es : List (Option (BitVec 8))) (b : BitVec 8), rows[k]? = some es → es[i]? = some (some b) →
    dump[16 * k + i]? = some b

end RME.Cmp.Spec
