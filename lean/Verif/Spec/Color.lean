/-
What a colour search is supposed to answer, stated with ordinary arithmetic and
without a cache.
-/
import Verif.Model.Color

namespace Kolombos

/-- Red, green and blue of a 24-bit colour `0xRRGGBB`. -/
def redOf (h : Nat) : Nat := h / 65536 % 256
def greenOf (h : Nat) : Nat := h / 256 % 256
def blueOf (h : Nat) : Nat := h % 256

/-- The squared distance of two colours in RGB space. -/
def rgbGap (a b : Nat) : Int :=
  ((redOf a : Int) - redOf b) * ((redOf a : Int) - redOf b)
    + ((greenOf a : Int) - greenOf b) * ((greenOf a : Int) - greenOf b)
    + ((blueOf a : Int) - blueOf b) * ((blueOf a : Int) - blueOf b)

/-- The usual conversion from HSV to one channel of RGB (`n` is 5 for red, 3 for
green and 1 for blue): `v - v * s * max(0, min(k, 4 - k, 1))` for
`k = (n + h / 60) mod 6`, where `h` is below 360. -/
def channelOfHsv (n h s v : Rat) : Rat :=
  let k := if n + h / 60 < 6 then n + h / 60 else n + h / 60 - 6
  v - v * s * max 0 (min (min k (4 - k)) 1)

/-- `e` is the nearest entry of `reg` to the colour `h`: no entry is nearer, and
every entry registered before `e` is farther. -/
def Nearest (reg : List (Nat × IxColor)) (h : Nat) (e : Nat × IxColor) : Prop :=
  ∃ before after, reg = before ++ e :: after
    ∧ (∀ d ∈ before, rgbGap e.1 h < rgbGap d.1 h)
    ∧ (∀ d ∈ after, rgbGap e.1 h ≤ rgbGap d.1 h)

/-- What a program does with a colour type: creates colours and searches. -/
inductive ColorOp where
  | create (c : IxColor)
  | search (h : Nat)
  deriving DecidableEq, Repr

/-- The colours created, in order, with their values.  Colours without a value
are not searched for. -/
def created : List ColorOp → List (Nat × IxColor)
  | [] => []
  | .create c :: ops =>
    match c.hex with
    | some h => (h, c) :: created ops
    | none => created ops
  | .search _ :: ops => created ops

/-- Executes the operations on the modelled code; `none` if one raises. -/
def colorRun (a : Approximator) : List ColorOp → Option Approximator
  | [] => some a
  | .create c :: ops => colorRun (a.addToMap c) ops
  | .search h :: ops =>
    match a.findClosest h with
    | some (_, a) => colorRun a ops
    | none => none

/-- All created colours of the history are 24-bit. -/
def Is24Bit (ops : List ColorOp) : Prop := ∀ e ∈ created ops, e.1 < 16777216

end Kolombos
