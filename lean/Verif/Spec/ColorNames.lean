import Verif.Spec.Names
import Verif.Spec.Presets
import Verif.Spec.Render
/-
What the names of colours are supposed to stand for.
-/
namespace Kolombos.Spec
open Kolombos

/-- A colour of the 16-colour palette, with the codes of a terminal for it. -/
def basicColor (bright : Bool) (i : Nat) : PColor :=
  let n := (if bright then 90 else 30) + i
  .ix16 ⟨some (vgaColor bright i), some n, some (n + 10)⟩

/-- A colour of the 256-colour palette. -/
def indexedColor (n : Nat) : PColor := .ix256 ⟨some (xtermColor n), some n, none⟩

/-- The colour that a terminal without restrictions shows. -/
def onTerminal : PColor → Color
  | .ix16 c => .basic (c.code.getD 0)
  | .ix256 c => .indexed (c.code.getD 0)
  | .rgb (some h) => .rgb (redOf h) (greenOf h) (blueOf h)
  | .rgb none => .dflt

/-- The same, as the background. -/
def behindText : PColor → Color
  | .ix16 c => .basic (c.codeBg.getD 0)
  | .ix256 c => .indexed (c.code.getD 0)
  | .rgb (some h) => .rgb (redOf h) (greenOf h) (blueOf h)
  | .rgb none => .dflt

/-- A grey of `n` percent: equal channels, and their value is off by at most 0.6 percent. -/
def IsGrey (n : Nat) (c : PColor) : Prop :=
  ∃ v, c.hex = some (65793 * v) ∧ v ≤ 255 ∧ 1000 * v ≤ 2550 * n + 1530 ∧ 2550 * n ≤ 1000 * v + 1530

/-- The text colours that spans know by name. -/
def textColours : List (String × (Style → Style)) :=
  basicNames.zipIdx.map (fun e => (e.1, fun st => { st with fg := .basic (30 + e.2) })) ++
  brightNames.zipIdx.map (fun e => (e.1, fun st => { st with fg := .basic (90 + e.2) }))

end Kolombos.Spec
