import Verif.Model.Base
set_option autoImplicit false
/-
Model of the window of nativetest (built with ENABLE_GUI): `DrawChar` (nativetest/src/main.c:530-561), `Video_Redraw` (main.c:568-589), the redraw timer
`Video_RedrawTimerCb` (main.c:513-523) and the redraw event of `HandleEvent` (main.c:506-509).

Simplifications: `SDL_FillRect` on a 1x1 rectangle sets one pixel of the 640x400 surface (main.c:112) and is clipped to it (SDL documentation); rectangle
coordinates are natural numbers (they stay far below the limits of `Sint16`); the local pointer `buf` of `DrawChar`, which is incremented uninitialised but
never used (main.c:533, 557), is left out.
-/
namespace RME.Video

/-- Pixel (x, y) of the surface. -/
abbrev Surface := Nat → Nat → BitVec 32

/-- `VIDEO_COLS`, `VIDEO_ROWS`, main.c:23-24; `FONT_WIDTH`, `FONT_HEIGHT`, font.h:5-6. -/
abbrev COLS : Nat := 80
abbrev ROWS : Nat := 25
abbrev FONTW : Nat := 8
abbrev FONTH : Nat := 16

/-- `SDL_FillRect(gScreen, &rc, c)` with `rc.w = rc.h = 1`. -/
def fillRect (scr : Surface) (x y : Nat) (c : BitVec 32) : Surface :=
  fun x' y' => if x' = x ∧ y' = y ∧ x < COLS * 8 ∧ y < ROWS * 16 then c else scr x' y'

/-- `for(int x = 0; x < FONT_WIDTH; x ++, rc.x++)`, main.c:549-555: `n` pixels are left, so `FONT_WIDTH-x-1` is `n - 1`. -/
def drawLine (bits : BitVec 8) (bg fg : BitVec 32) : Nat → Nat → Nat → Surface → Surface
  | 0, _, _, scr => scr
  | n + 1, rx, ry, scr => drawLine bits bg fg n (rx + 1) ry (fillRect scr rx ry (if bits.getLsbD n then fg else bg))

/-- `VTermFont[256*16]`, font.h:7: reading beyond it is undefined (`none`). -/
def fontAt (font : Nat → BitVec 8) (i : Nat) : Option (BitVec 8) := if i < 256 * 16 then some (font i) else none

/-- `for(int y = 0; y < FONT_HEIGHT; y ++, rc.y ++)`, main.c:547-560: `n` lines are left, `fp` is the index of `font`. -/
def drawLines (font : Nat → BitVec 8) (bg fg : BitVec 32) : Nat → Nat → Nat → Nat → Surface → Option Surface
  | 0, _, _, _, scr => some scr
  | n + 1, fp, rx, ry, scr => (fontAt font fp).bind fun bits =>
      drawLines font bg fg n (fp + 1) rx (ry + 1) (drawLine bits bg fg FONTW rx ry scr)

/-- `DrawChar` with the window enabled, main.c:530-561. -/
def drawChar (font : Nat → BitVec 8) (X Y : Nat) (ch : BitVec 8) (bg fg : BitVec 32) (scr : Surface) : Option Surface :=
  drawLines font bg fg FONTH (ch.toNat * FONTH) (X * FONTW) (Y * FONTH) scr

/-- `colours[]`, main.c:570-573. -/
def colours : List (BitVec 32) :=
  [0x000000, 0x0000FF, 0x00FF00, 0xFFFF00, 0xFF0000, 0xFF00FF, 0x884400, 0xCCCCCC,
   0x444444, 0x4444FF, 0x44FF44, 0xFFFF44, 0xFF4444, 0xFF44FF, 0xFF8800, 0xFFFFFF]

/-- `gaMemory[i]` (size 0x110000, main.c:63): reading beyond it is undefined. -/
def memAt (mem : Nat → BitVec 8) (i : Nat) : Option (BitVec 8) := if i < 0x110000 then some (mem i) else none

/-- `for( int col … )`, main.c:578-583: `n` columns are left. -/
def redrawCols (font mem : Nat → BitVec 8) (row : Nat) : Nat → Nat → Surface → Option Surface
  | 0, _, scr => some scr
  | n + 1, col, scr =>
    (memAt mem (0xB8000 + ((row * COLS + col) * 2 + 0))).bind fun ch =>
    (memAt mem (0xB8000 + ((row * COLS + col) * 2 + 1))).bind fun att =>
    colours[(att >>> 4).toNat]?.bind fun bg =>
    colours[(att &&& 15).toNat]?.bind fun fg =>
    (drawChar font col row ch bg fg scr).bind fun scr => redrawCols font mem row n (col + 1) scr

/-- `for( int row … )`, main.c:576-584. -/
def redrawRows (font mem : Nat → BitVec 8) : Nat → Nat → Surface → Option Surface
  | 0, _, scr => some scr
  | n + 1, row, scr => (redrawCols font mem row COLS 0 scr).bind fun scr => redrawRows font mem n (row + 1) scr

/-- `Video_Redraw`, main.c:568-589 (`none`: undefined behaviour). -/
def redraw (font mem : Nat → BitVec 8) (scr : Surface) : Option Surface := redrawRows font mem ROWS 0 scr

/-- `gbIsRedrawing` and the number of redraw events in the SDL queue. -/
structure Timer where
  isRedrawing : Bool := false
  queued : Nat := 0
  /-- redraws done -/
  drawn : Nat := 0

/-- `Video_RedrawTimerCb`, main.c:513-523 (`SDL_PushEvent` succeeds). -/
def Timer.tick (t : Timer) : Timer := if t.isRedrawing then t else { t with isRedrawing := true, queued := t.queued + 1 }

/-- `HandleEvent` for the next redraw event, if there is one, main.c:506-509. -/
def Timer.handle (t : Timer) : Timer := if t.queued = 0 then t else { isRedrawing := false, queued := t.queued - 1, drawn := t.drawn + 1 }

end RME.Video
