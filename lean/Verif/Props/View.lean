import Verif.Model.App
/-
What an observer sees of the parser: the pieces of a chunk and the template with
which each of them is displayed.  Compositions of model functions, nothing new.
-/
namespace Kolombos

/-- What `Parser._substitute` (/repo/kolombos/byteio/parser/parser.py:100-108) passes on
for one item of the scan: the raw bytes handed to the template, and the template
(or the exception raised instead).  A byte that is not matched ends up in the
"Parsing inconsistency" `RuntimeError`. -/
def shownItem (reg : Registry) : Item Byte → Bytes × Except Err Template
  | .copied b => ([b], .error .runtimeError)
  | .matched m =>
    match primaryMgroup m with
    | .error e => (m.text, .error e)
    | .ok i => ((m.group (i + 1)).getD [], resolveMatch reg m i)

/-- The pieces of a chunk, in order, with their templates. -/
def shown (reg : Registry) (raw : Bytes) : List (Bytes × Except Err Template) :=
  (fSeparator.scan raw).map (shownItem reg)

/-- The templates for given settings (before `read_mode` was read for the first time). -/
abbrev registryOf (s : Settings) : Registry := (Registry.create s).1

/-- The character class with which a piece is displayed. -/
def classOf : Except Err Template → Option CharClass
  | .ok t => some t.charClass
  | .error _ => none

/-- The marker of a template: its default label. -/
def markerOf : Except Err Template → Option Str
  | .ok t => some (t.labelStack.get [])
  | .error _ => none

end Kolombos
