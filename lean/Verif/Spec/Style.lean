/-
Styles with ancestors, and texts as values.
-/
import Verif.Model.Style

namespace Kolombos

/-- The last value that is set in a list. -/
def nearestSet {α : Type} (l : List (Option α)) : Option α := l.reverse.findSome? id

/-- Styles inherited one from another: the first list element is the oldest
ancestor. -/
def styleChain : List StyleArgs → PStyle → PStyle
  | [], s => s
  | a :: as, s => styleChain as (newStyle (some s) a)

/-- Two styles have the same attributes; one that is left out is one that is
off. -/
structure SameLook (a b : PStyle) : Prop where
  blink : a.blink = some true ↔ b.blink = some true
  bold : a.bold = some true ↔ b.bold = some true
  crosslined : a.crosslined = some true ↔ b.crosslined = some true
  dim : a.dim = some true ↔ b.dim = some true
  doubleUnderlined : a.doubleUnderlined = some true ↔ b.doubleUnderlined = some true
  inversed : a.inversed = some true ↔ b.inversed = some true
  italic : a.italic = some true ↔ b.italic = some true
  overlined : a.overlined = some true ↔ b.overlined = some true
  underlined : a.underlined = some true ↔ b.underlined = some true

/-- What a text is supposed to be: its runs, as values.  Nothing else is
affected by an operation. -/
def valueStep (v : List (List TextRun)) : TextOp → List (List TextRun)
  | .new s style => v ++ [[⟨s, style⟩]]
  | .appendStr t s => v.modify t (· ++ [⟨s, none⟩])
  | .appendText t u => v.modify t (· ++ v.getD u [])
  | .prependStr t s => v.modify t (⟨s, none⟩ :: ·)
  | .prependText t u => v.modify t (v.getD u [] ++ ·)
  | .format t f =>
    v.modify t (fun l => match l with
      | [r] => [{ r with string := f r.string }]
      | l => l)

/-- All operations of a history are about texts that exist. -/
def InUse : Nat → List TextOp → Prop
  | _, [] => True
  | n, .new _ _ :: ops => InUse (n + 1) ops
  | n, .appendStr t _ :: ops => t < n ∧ InUse n ops
  | n, .appendText t u :: ops => t < n ∧ u < n ∧ InUse n ops
  | n, .prependStr t _ :: ops => t < n ∧ InUse n ops
  | n, .prependText t u :: ops => t < n ∧ u < n ∧ InUse n ops
  | n, .format t _ :: ops => t < n ∧ InUse n ops

/-- Texts are formatted without a width or the like. -/
def PlainFormat (ops : List TextOp) : Prop := ∀ t f, TextOp.format t f ∈ ops → f = id

end Kolombos
