import Verif.Model.Video
set_option autoImplicit false
/-
C90: the window shows the text page.
-/
namespace RME
open RME.Video

/-! ### Specification -/

/-- Character and attribute of the text cell (column, row) of the page at B8000h, 80 columns. -/
def cellChar (mem : Nat → BitVec 8) (col row : Nat) : BitVec 8 := mem (0xB8000 + 2 * (80 * row + col))
def cellAttr (mem : Nat → BitVec 8) (col row : Nat) : BitVec 8 := mem (0xB8000 + 2 * (80 * row + col) + 1)

/-- Is pixel (x, y) of a 8x16 glyph set (bit 7 of a line is its leftmost pixel)? -/
def glyph (font : Nat → BitVec 8) (ch : BitVec 8) (x y : Nat) : Bool := (font (16 * ch.toNat + y)).getLsbD (7 - x)

/-- The picture: every pixel of the 640x400 window shows the glyph of its cell, foreground colour in the low and background colour in the high half of the
attribute, colours taken from `pal`. -/
def Shows (font mem : Nat → BitVec 8) (pal : Nat → BitVec 32) (scr : Nat → Nat → BitVec 32) : Prop :=
  ∀ x y, x < 640 → y < 400 →
    scr x y = if glyph font (cellChar mem (x / 8) (y / 16)) (x % 8) (y % 16) then pal ((cellAttr mem (x / 8) (y / 16)).toNat % 16)
      else pal ((cellAttr mem (x / 8) (y / 16)).toNat / 16)

/-- The colour of `i` on a PC: bit 2 red, bit 1 green, bit 0 blue, bit 3 bright; a component is lit if it is stronger than the common base of the colour
(44h for the bright colours, 0 otherwise).  Brown (6) has a weaker green, which still counts as lit. -/
def pcColour (i : Nat) (c : BitVec 32) : Prop :=
  let base := if i < 8 then 0 else 0x44
  (base < c.toNat / 0x10000 ↔ i / 4 % 2 = 1) ∧ (base < c.toNat / 0x100 % 0x100 ↔ i / 2 % 2 = 1) ∧ (base < c.toNat % 0x100 ↔ i % 2 = 1)

instance (i : Nat) (c : BitVec 32) : Decidable (pcColour i c) := by unfold pcColour; infer_instance

/-- The palette of the window. -/
def palette (i : Nat) : BitVec 32 := colours.getD i 0

/-! ### Proofs -/

theorem drawLine_at (bits : BitVec 8) (bg fg : BitVec 32) : ∀ n rx ry scr x y, rx + n ≤ 640 → ry < 400 →
    drawLine bits bg fg n rx ry scr x y = if y = ry ∧ rx ≤ x ∧ x < rx + n then (if bits.getLsbD (n - 1 - (x - rx)) then fg else bg) else scr x y := by
  intro n
  induction n with
  | zero => intro rx ry scr x y _ _; rw [if_neg (by omega)]; rfl
  | succ n ih =>
    intro rx ry scr x y h1 h2
    rw [drawLine, ih _ _ _ _ _ (by omega) h2]
    rw [fillRect]
    by_cases h : y = ry ∧ rx + 1 ≤ x ∧ x < rx + 1 + n
    · rw [if_pos h, if_pos (show y = ry ∧ rx ≤ x ∧ x < rx + (n + 1) by omega), show n - 1 - (x - (rx + 1)) = n + 1 - 1 - (x - rx) by omega]
    · rw [if_neg h]
      by_cases h3 : x = rx ∧ y = ry ∧ rx < COLS * 8 ∧ ry < ROWS * 16
      · rw [if_pos h3, if_pos (show y = ry ∧ rx ≤ x ∧ x < rx + (n + 1) by omega), show n + 1 - 1 - (x - rx) = n by omega]
      · rw [if_neg h3, if_neg (show ¬ (y = ry ∧ rx ≤ x ∧ x < rx + (n + 1)) from fun h4 => h3 ⟨by omega, h4.1, by show rx < 640; omega, by show ry < 400; omega⟩)]

theorem drawLines_at (font : Nat → BitVec 8) (bg fg : BitVec 32) : ∀ n fp rx ry scr, fp + n ≤ 4096 → rx + 8 ≤ 640 → ry + n ≤ 400 →
    ∃ out, drawLines font bg fg n fp rx ry scr = some out ∧ ∀ x y, out x y = if ry ≤ y ∧ y < ry + n ∧ rx ≤ x ∧ x < rx + 8 then
      (if (font (fp + (y - ry))).getLsbD (7 - (x - rx)) then fg else bg) else scr x y := by
  intro n
  induction n with
  | zero => intro fp rx ry scr _ _ _; exact ⟨scr, rfl, fun x y => by rw [if_neg (by omega)]⟩
  | succ n ih =>
    intro fp rx ry scr h1 h2 h3
    obtain ⟨out, h4, h5⟩ := ih (fp + 1) rx (ry + 1) (drawLine (font fp) bg fg FONTW rx ry scr) (by omega) h2 (by omega)
    refine ⟨out, by rw [drawLines, fontAt, if_pos (by omega)]; exact h4, fun x y => ?_⟩
    rw [h5, drawLine_at _ _ _ _ _ _ _ _ _ (by omega) (by omega)]
    by_cases h6 : ry + 1 ≤ y ∧ y < ry + 1 + n ∧ rx ≤ x ∧ x < rx + 8
    · rw [if_pos h6, if_pos (show ry ≤ y ∧ y < ry + (n + 1) ∧ rx ≤ x ∧ x < rx + 8 by omega), show fp + 1 + (y - (ry + 1)) = fp + (y - ry) by omega]
    · rw [if_neg h6]
      by_cases h7 : y = ry ∧ rx ≤ x ∧ x < rx + FONTW
      · have h8 : x < rx + 8 := h7.2.2
        rw [if_pos h7, if_pos (show ry ≤ y ∧ y < ry + (n + 1) ∧ rx ≤ x ∧ x < rx + 8 by omega), show y - ry = 0 by omega]; rfl
      · rw [if_neg h7, if_neg (show ¬ (ry ≤ y ∧ y < ry + (n + 1) ∧ rx ≤ x ∧ x < rx + 8) from fun h8 => h7 ⟨by omega, h8.2.2.1, h8.2.2.2⟩)]

/-- The wanted colour of a pixel. -/
def want (font mem : Nat → BitVec 8) (pal : Nat → BitVec 32) (x y : Nat) : BitVec 32 :=
  if glyph font (cellChar mem (x / 8) (y / 16)) (x % 8) (y % 16) then pal ((cellAttr mem (x / 8) (y / 16)).toNat % 16)
  else pal ((cellAttr mem (x / 8) (y / 16)).toNat / 16)

theorem colours_at (i : Nat) (h : i < 16) : colours[i]? = some (palette i) := by
  have : ∀ j : Fin 16, colours[j.val]? = some (palette j.val) := by decide
  exact this ⟨i, h⟩

theorem redrawCols_at (font mem : Nat → BitVec 8) (row : Nat) (hrow : row < 25) : ∀ n col scr, col + n = 80 →
    ∃ out, redrawCols font mem row n col scr = some out ∧ ∀ x y, out x y =
      if 16 * row ≤ y ∧ y < 16 * row + 16 ∧ 8 * col ≤ x ∧ x < 640 then want font mem palette x y else scr x y := by
  intro n
  induction n with
  | zero => intro col scr hc; exact ⟨scr, rfl, fun x y => by rw [if_neg (by omega)]⟩
  | succ n ih =>
    intro col scr hc
    generalize hch : cellChar mem col row = ch
    generalize hat : cellAttr mem col row = att
    have hc1 : memAt mem (0xB8000 + ((row * COLS + col) * 2 + 0)) = some ch := by
      rw [memAt, if_pos (by simp only [COLS]; omega), ← hch, cellChar]; congr 2; simp only [COLS]; omega
    have hc2 : memAt mem (0xB8000 + ((row * COLS + col) * 2 + 1)) = some att := by
      rw [memAt, if_pos (by simp only [COLS]; omega), ← hat, cellAttr]; congr 2; simp only [COLS]; omega
    have e1 : (att >>> 4).toNat = att.toNat / 16 := by simp [Nat.shiftRight_eq_div_pow]
    have e2 : (att &&& 15).toNat = att.toNat % 16 := by simp [BitVec.toNat_and]; exact Nat.and_two_pow_sub_one_eq_mod _ 4
    have hlt := att.isLt
    have hch8 := ch.isLt
    obtain ⟨mid, h1, h2⟩ := drawLines_at font (palette (att.toNat / 16)) (palette (att.toNat % 16)) 16 (ch.toNat * 16) (col * 8) (row * 16) scr
      (by omega) (by omega) (by omega)
    obtain ⟨out, h3, h4⟩ := ih (col + 1) mid (by omega)
    refine ⟨out, ?_, fun x y => ?_⟩
    · rw [redrawCols, hc1, Option.bind_some, hc2, Option.bind_some, e1, e2, colours_at _ (by omega), Option.bind_some, colours_at _ (by omega), Option.bind_some,
        drawChar, h1, Option.bind_some, h3]
    · rw [h4, h2]
      by_cases hx : 16 * row ≤ y ∧ y < 16 * row + 16 ∧ 8 * (col + 1) ≤ x ∧ x < 640
      · rw [if_pos hx, if_pos (by omega)]
      · rw [if_neg hx]
        by_cases hx2 : row * 16 ≤ y ∧ y < row * 16 + 16 ∧ col * 8 ≤ x ∧ x < col * 8 + 8
        · rw [if_pos hx2, if_pos (show 16 * row ≤ y ∧ y < 16 * row + 16 ∧ 8 * col ≤ x ∧ x < 640 by omega), want, show x / 8 = col by omega, show y / 16 = row by omega, hch, hat, glyph,
            show x % 8 = x - col * 8 by omega, show y % 16 = y - row * 16 by omega, Nat.mul_comm 16 ch.toNat]
        · rw [if_neg hx2, if_neg (by omega)]

theorem redrawRows_at (font mem : Nat → BitVec 8) : ∀ n row scr, row + n = 25 →
    ∃ out, redrawRows font mem n row scr = some out ∧ ∀ x y, out x y =
      if 16 * row ≤ y ∧ y < 400 ∧ x < 640 then want font mem palette x y else scr x y := by
  intro n
  induction n with
  | zero => intro row scr hc; exact ⟨scr, rfl, fun x y => by rw [if_neg (by omega)]⟩
  | succ n ih =>
    intro row scr hc
    obtain ⟨mid, h1, h2⟩ := redrawCols_at font mem row (by omega) 80 0 scr (by omega)
    obtain ⟨out, h3, h4⟩ := ih (row + 1) mid (by omega)
    refine ⟨out, by rw [redrawRows, h1, Option.bind_some, h3], fun x y => ?_⟩
    rw [h4, h2]
    by_cases hx : 16 * (row + 1) ≤ y ∧ y < 400 ∧ x < 640
    · rw [if_pos hx, if_pos (by omega)]
    · rw [if_neg hx]
      by_cases hx2 : 16 * row ≤ y ∧ y < 16 * row + 16 ∧ 8 * 0 ≤ x ∧ x < 640
      · rw [if_pos hx2, if_pos (by omega)]
      · rw [if_neg hx2, if_neg (by omega)]

/-! ### C90 -/

/-- C90: whatever the guest wrote to its memory and whatever was in the window before, a redraw reads neither beyond the font nor beyond the memory, and
afterwards every pixel of the window shows the text page at B8000h. -/
theorem C90_redraw (font mem : Nat → BitVec 8) (scr : Nat → Nat → BitVec 32) : ∃ out, redraw font mem scr = some out ∧ Shows font mem palette out := by
  obtain ⟨out, h1, h2⟩ := redrawRows_at font mem 25 0 scr rfl
  refine ⟨out, h1, fun x y hx hy => ?_⟩
  rw [h2, if_pos (by omega)]; rfl

/-- C90: the picture depends on the 4000 bytes of the text page only. -/
theorem C90_page_only {font mem mem' : Nat → BitVec 8} {scr scr' out out' : Nat → Nat → BitVec 32} (hm : ∀ a, 0xB8000 ≤ a → a < 0xB8000 + 4000 → mem a = mem' a)
    (h : redraw font mem scr = some out) (h' : redraw font mem' scr' = some out') : ∀ x y, x < 640 → y < 400 → out x y = out' x y := by
  obtain ⟨o1, h1, s1⟩ := C90_redraw font mem scr
  obtain ⟨o2, h2, s2⟩ := C90_redraw font mem' scr'
  rw [h] at h1; rw [h'] at h2
  cases h1; cases h2
  intro x y hx hy
  have e1 : cellChar mem (x / 8) (y / 16) = cellChar mem' (x / 8) (y / 16) := hm _ (by omega) (by omega)
  have e2 : cellAttr mem (x / 8) (y / 16) = cellAttr mem' (x / 8) (y / 16) := hm _ (by omega) (by omega)
  rw [s1 x y hx hy, s2 x y hx hy, e1, e2]

/-- The letter A: a font with one set pixel line, on a page with one character. -/
example : ∃ out, redraw (fun i => if i = 16 * 0x41 + 2 then 0x81 else 0) (fun a => if a = 0xB8000 + 162 then 0x41 else 0x1F) (fun _ _ => 0) = some out ∧
    out 8 18 = 0xFFFFFF ∧ out 9 18 = 0x0000FF ∧ out 15 18 = 0xFFFFFF ∧ out 8 19 = 0x0000FF := by
  obtain ⟨out, h, s⟩ := C90_redraw (fun i => if i = 16 * 0x41 + 2 then 0x81 else 0) (fun a => if a = 0xB8000 + 162 then 0x41 else 0x1F) (fun _ _ => 0)
  refine ⟨out, h, ?_⟩
  rw [s 8 18 (by decide) (by decide), s 9 18 (by decide) (by decide), s 15 18 (by decide) (by decide), s 8 19 (by decide) (by decide)]
  decide

/-- C90: every colour except 3 and 11 is the PC's. -/
theorem C90_palette_partial : ∀ i, i < 16 → i ≠ 3 → i ≠ 11 → pcColour i (palette i) := by decide

/-- C90 is violated: cyan (3) and bright cyan (11) are shown as yellow. -/
theorem C90_violated_cyan : palette 3 = 0xFFFF00 ∧ ¬ pcColour 3 (palette 3) ∧ palette 11 = 0xFFFF44 ∧ ¬ pcColour 11 (palette 11) ∧
    pcColour 3 0x00FFFF ∧ pcColour 11 0x44FFFF := by decide

/-- A history of timer ticks (`true`) and of the main loop looking for an event (`false`). -/
def runTimer (t : Timer) : List Bool → Timer
  | [] => t
  | true :: r => runTimer t.tick r
  | false :: r => runTimer t.handle r

theorem timer_inv (t : Timer) (h : t.queued = if t.isRedrawing then 1 else 0) : ∀ l, (runTimer t l).queued = if (runTimer t l).isRedrawing then 1 else 0 := by
  intro l
  induction l generalizing t with
  | nil => exact h
  | cons b r ih =>
    cases b with
    | true =>
      refine ih t.tick ?_
      unfold Timer.tick
      cases h1 : t.isRedrawing <;> simp [h1] at h <;> simp [h, h1]
    | false =>
      refine ih t.handle ?_
      unfold Timer.handle
      split
      · exact h
      · cases h1 : t.isRedrawing <;> simp [h1] at h <;> simp [h]

/-- C90: for every history, at most one redraw is pending, and after a tick the next event drawn is a redraw: nothing is lost. -/
theorem C90_redraw_pending (l : List Bool) : ((runTimer {} l).queued ≤ 1) ∧
    ((runTimer {} (l ++ [true])).queued = 1) ∧ ((runTimer {} (l ++ [true, false])).drawn = (runTimer {} l).drawn + 1) := by
  have hr : ∀ (t : Timer) (a b : List Bool), runTimer t (a ++ b) = runTimer (runTimer t a) b := by
    intro t a b
    induction a generalizing t with
    | nil => rfl
    | cons x xs ih => cases x <;> exact ih _
  have h := timer_inv {} rfl l
  rw [hr, hr]
  generalize runTimer {} l = t at *
  refine ⟨by rw [h]; split <;> omega, ?_, ?_⟩
  · show t.tick.queued = 1
    unfold Timer.tick
    split
    · rename_i h1; simpa [h1] using h
    · rename_i h1; simp [h1] at h; simp [h]
  · show t.tick.handle.drawn = t.drawn + 1
    unfold Timer.tick
    split
    · rename_i h1; simp [h1] at h; simp [Timer.handle, h]
    · simp [Timer.handle]

end RME
