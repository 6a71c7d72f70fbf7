/-
pytermor/color.py: colour values and their channels, the nearest-colour search
with its cache.

Simplifications: colour values are natural numbers (python accepts negative
integers as well); the warning logged by `find_closest` is not modelled; HSV
channels are computed with exact rational numbers, python uses binary floats.
-/
import Verif.Model.Base
import Mathlib.Data.Rat.Defs
import Mathlib.Algebra.Order.Field.Rat

namespace Kolombos

/-- `Color.rgb_channels_to_hex_value` (pytermor/color.py:70-80). -/
def rgbToHex (r g b : Nat) : Nat := (r <<< 16) + (g <<< 8) + b

/-- `Color.hex_value_to_rgb_channels` (pytermor/color.py:82-99). -/
def hexToRgb (h : Nat) : Nat × Nat × Nat :=
  ((h &&& 0xff0000) >>> 16, (h &&& 0xff00) >>> 8, h &&& 0xff)

/-- `Color.hex_value_to_hsv_channels` (pytermor/color.py:28-67), in exact
arithmetic.  The last branch of the python code (`LogicError`) is `none`. -/
def hexToHsv (hex : Nat) : Option (Rat × Rat × Rat) :=
  let (r, g, b) := hexToRgb hex
  let rn : Rat := (r : Rat) / 255
  let gn : Rat := (g : Rat) / 255
  let bn : Rat := (b : Rat) / 255
  let vmax := max (max rn gn) bn
  let vmin := min (min rn gn) bn
  let c := vmax - vmin
  let v := vmax
  let h? : Option Rat :=
    if c = 0 then some 0
    else if v = rn then some (60 * (0 + (gn - bn) / c))
    else if v = gn then some (60 * (2 + (bn - rn) / c))
    else if v = bn then some (60 * (4 + (rn - gn) / c))
    else none
  match h? with
  | none => none
  | some h =>
    let s := if v = 0 then 0 else c / v
    let h := if h < 0 then h + 360 else h
    some (h, s, v)

/-- An indexed colour object (pytermor/color.py:119-197): its colour value, and
the code(s) it renders to: `_code` of a `ColorIndexed256`, `_code_fg` and
`_code_bg` of a `ColorIndexed16`.  Each can be left out. -/
structure IxColor where
  hex : Option Nat := none
  code : Option Nat := none
  codeBg : Option Nat := none
  deriving DecidableEq, Repr

/-- `NOOP_COLOR_INDEXED` (pytermor/color.py:325), the answer of a search
without registered colours. -/
def noopColor : IxColor := {}

/-- `dict.get` on a dictionary kept in insertion order. -/
def dictGet (d : List (Nat × IxColor)) (k : Nat) : Option IxColor :=
  (d.find? (fun e => e.1 == k)).map (·.2)

/-- `d[k] = c` on a dictionary kept in insertion order. -/
def dictSet (d : List (Nat × IxColor)) (k : Nat) (c : IxColor) : List (Nat × IxColor) :=
  if (dictGet d k).isSome then d.map (fun e => if e.1 == k then (k, c) else e)
  else d ++ [(k, c)]

/-- `Approximator` (pytermor/color.py:215-230): two dictionaries in insertion
order. -/
structure Approximator where
  table : List (Nat × IxColor) := []
  cache : List (Nat × IxColor) := []
  deriving DecidableEq, Repr

/-- `Approximator.add_to_map` (pytermor/color.py:231-245). -/
def Approximator.addToMap (a : Approximator) (c : IxColor) : Approximator :=
  match c.hex with
  | none => a
  | some h =>
    if (dictGet a.table h).isSome then a
    else { table := dictSet a.table h c, cache := [] }

/-- The squared distance computed in the loop of `approximate`
(pytermor/color.py:300-306). -/
def distanceSq (mapHex inputHex : Nat) : Int :=
  let (mr, mg, mb) := hexToRgb mapHex
  let (ir, ig, ib) := hexToRgb inputHex
  ((mr : Int) - ir) ^ 2 + ((mg : Int) - ig) ^ 2 + ((mb : Int) - ib) ^ 2

/-- Puts an element in front of the first one whose key is not smaller. -/
def insertBy {α : Type} (key : α → Int) (x : α) : List α → List α
  | [] => [x]
  | y :: ys => if key x ≤ key y then x :: y :: ys else y :: insertBy key x ys

/-- `sorted(l, key=key)`: python's sort is stable, so its result is the one of
insertion sort. -/
def sortedBy {α : Type} (key : α → Int) : List α → List α
  | [] => []
  | x :: xs => insertBy key x (sortedBy key xs)

/-- `Approximator.approximate` (pytermor/color.py:275-317): all registered
colours sorted by distance (python's `sorted` is stable), the first
`maxResults` of them.  The `LogicError` for an empty table is a `none`. -/
def Approximator.approximate (a : Approximator) (h : Nat) (maxResults : Nat) :
    Option (List IxColor) :=
  let result := a.table.map (fun e => (e.2, distanceSq e.1 h))
  if result.length = 0 then none
  else
    let sorted := sortedBy (fun r => r.2) result
    some ((sorted.take maxResults).map (·.1))

/-- `Approximator.find_closest` (pytermor/color.py:247-273): the returned
colour and the state afterwards.  `none` is an exception. -/
def Approximator.findClosest (a : Approximator) (h : Nat) :
    Option (IxColor × Approximator) :=
  match dictGet a.cache h with
  | some c => some (c, a)
  | none =>
    let a := if a.cache.length = 0 then { a with cache := a.table } else a
    if a.cache.length = 0 then some (noopColor, a)
    else
      match a.approximate h 1 with
      | some (closest :: _) => some (closest, { a with cache := dictSet a.cache h closest })
      | _ => none

end Kolombos
