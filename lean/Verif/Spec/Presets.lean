/-
The palettes of common terminals, by formula.
-/
import Verif.Model.Presets
import Verif.Spec.Color

namespace Kolombos

/-- The levels of a channel in the 6x6x6 cube of the 256-colour palette. -/
def cubeLevel (i : Nat) : Nat := if i = 0 then 0 else 55 + 40 * i

/-- Value of the colour with index 16-255 in the 256-colour palette of xterm: a
colour cube and a ramp of greys. -/
def xtermColor (n : Nat) : Nat :=
  if n < 232 then
    65536 * cubeLevel ((n - 16) / 36) + 256 * cubeLevel ((n - 16) / 6 % 6) + cubeLevel ((n - 16) % 6)
  else 65793 * (8 + 10 * (n - 232))

/-- Value of the 8 dark (`128`) and 8 bright (`255`) colours of the 16-colour
palette: red, green and blue are the bits of the index.  Dark white and bright
black are two greys. -/
def vgaColor (bright : Bool) (i : Nat) : Nat :=
  if bright = false ∧ i = 7 then 0xc0c0c0
  else if bright = true ∧ i = 0 then 0x808080
  else
    let level := if bright then 255 else 128
    65536 * (i % 2 * level) + 256 * (i / 2 % 2 * level) + i / 4 * level

/-- What happens to the palette of 256 colours when the library is loaded. -/
def presetOps256 : List ColorOp := presets256.map (fun e => .create (ix256 e))

/-- What happens to the palette of 16 colours when the library is loaded; one
colour without a value is created first (pytermor/color.py:325). -/
def presetOps16 : List ColorOp := .create noopColor :: presets16.map (fun e => .create (ix16 e))

end Kolombos
