import Verif.Model.Base
/-
What a terminal does with the output: characters with the style in which they
appear (ECMA-48 SGR, xterm extensions for colours).
-/
namespace Kolombos.Spec
open Kolombos

/-- Terminal colours. -/
inductive Color where
  | dflt
  | basic (n : Nat)
  | indexed (n : Nat)
  | rgb (r g b : Nat)
  deriving DecidableEq

/-- Character attributes of a terminal. -/
structure Style where
  bold : Bool := false
  dim : Bool := false
  italic : Bool := false
  underline : Nat := 0
  blink : Nat := 0
  inverse : Bool := false
  hidden : Bool := false
  crossed : Bool := false
  overlined : Bool := false
  fg : Color := .dflt
  bg : Color := .dflt
  deriving DecidableEq

/-- The effect of a single SGR code (not the introducers 38 and 48). -/
def applyOne (c : Nat) (st : Style) : Style :=
  if c = 0 then {}
  else if c = 1 then { st with bold := true }
  else if c = 2 then { st with dim := true }
  else if c = 3 then { st with italic := true }
  else if c = 4 then { st with underline := 1 }
  else if c = 21 then { st with underline := 2 }
  else if c = 5 then { st with blink := 1 }
  else if c = 6 then { st with blink := 2 }
  else if c = 7 then { st with inverse := true }
  else if c = 8 then { st with hidden := true }
  else if c = 9 then { st with crossed := true }
  else if c = 53 then { st with overlined := true }
  else if c = 22 then { st with bold := false, dim := false }
  else if c = 23 then { st with italic := false }
  else if c = 24 then { st with underline := 0 }
  else if c = 25 then { st with blink := 0 }
  else if c = 27 then { st with inverse := false }
  else if c = 28 then { st with hidden := false }
  else if c = 29 then { st with crossed := false }
  else if c = 55 then { st with overlined := false }
  else if c = 39 then { st with fg := .dflt }
  else if c = 49 then { st with bg := .dflt }
  else if (30 ≤ c ∧ c ≤ 37) ∨ (90 ≤ c ∧ c ≤ 97) then { st with fg := .basic c }
  else if (40 ≤ c ∧ c ≤ 47) ∨ (100 ≤ c ∧ c ≤ 107) then { st with bg := .basic c }
  else st

/-- Setting an extended colour, introduced by 38 or 48. -/
def setColor (c : Nat) (x : Color) (st : Style) : Style :=
  if c = 38 then { st with fg := x } else { st with bg := x }

/-- The effect of the parameters of an SGR sequence; an incomplete extended
colour ends it. -/
def applySgr : List Nat → Style → Style
  | [], st => st
  | c :: r, st =>
    if c = 38 ∨ c = 48 then
      match r with
      | 5 :: n :: r => applySgr r (setColor c (.indexed n) st)
      | 2 :: x :: y :: z :: r => applySgr r (setColor c (.rgb x y z) st)
      | _ => st
    else applySgr r (applyOne c st)

/-- Reading state of the terminal: between sequences, after ESC, inside `ESC [`
with finished parameters and the current one. -/
inductive TermMode where
  | ground
  | esc
  | csi (ps : List Nat) (cur : Nat)
  deriving DecidableEq

structure Term where
  mode : TermMode := .ground
  style : Style := {}
  deriving DecidableEq

/-- One character: new state, and what appears. -/
def Term.step (t : Term) (c : Char) : Term × List (Char × Style) :=
  match t.mode with
  | .ground => if c = '\x1b' then (⟨.esc, t.style⟩, []) else (t, [(c, t.style)])
  | .esc => if c = '[' then (⟨.csi [] 0, t.style⟩, []) else (⟨.ground, t.style⟩, [])
  | .csi ps cur =>
    if '0' ≤ c ∧ c ≤ '9' then (⟨.csi ps (cur * 10 + (c.toNat - 48)), t.style⟩, [])
    else if c = ';' then (⟨.csi (ps ++ [cur]) 0, t.style⟩, [])
    else if c = 'm' then (⟨.ground, applySgr (ps ++ [cur]) t.style⟩, [])
    else (⟨.ground, t.style⟩, [])

/-- The terminal after a text, and the characters with their styles. -/
def Term.run (t : Term) : Str → Term × List (Char × Style)
  | [] => (t, [])
  | c :: s =>
    let r := t.step c
    let q := Term.run r.1 s
    (q.1, r.2 ++ q.2)

/-- What appears on a fresh terminal. -/
def appears (s : Str) : List (Char × Style) := (Term.run {} s).2

/-- The characters that appear on a fresh terminal. -/
def visible (s : Str) : Str := (appears s).map Prod.fst

/-- A part of a formatted text: characters, or an SGR sequence with a parameter string. -/
inductive Part where
  | text (s : Str)
  | sgr (params : Str)

/-- A part as it is written. -/
def Part.written : Part → Str
  | .text s => s
  | .sgr ps => '\x1b' :: '[' :: (ps ++ ['m'])

/-- A part as the reader sees it. -/
def Part.visible : Part → Str
  | .text s => s
  | .sgr _ => []

/-- Parts whose texts have no escape character and whose parameters are digits and semicolons. -/
structure Plain (ps : List Part) : Prop where
  texts : ∀ s, Part.text s ∈ ps → '\x1b' ∉ s
  params : ∀ s, Part.sgr s ∈ ps → ∀ c ∈ s, ('0' ≤ c ∧ c ≤ '9') ∨ c = ';'

/-- C0 controls, DEL and C1 controls. -/
def isControlChar (c : Char) : Bool := decide (c.toNat < 0x20) || (decide (0x7f ≤ c.toNat) && decide (c.toNat ≤ 0x9f))

end Kolombos.Spec
