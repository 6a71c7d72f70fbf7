import Verif.Spec.Names
import Verif.Spec.Filter
import Verif.Model.Ansi
/-
The template language, read part by part.
-/
namespace Kolombos.Spec
open Kolombos

/-- A letter, a digit or an underscore. -/
def IsWordChar (c : Char) : Prop := ('a' ≤ c ∧ c ≤ 'z') ∨ ('A' ≤ c ∧ c ≤ 'Z') ∨ ('0' ≤ c ∧ c ≤ '9') ∨ c = '_'

instance (c : Char) : Decidable (IsWordChar c) := inferInstanceAs (Decidable (_ ∨ _))

/-- A part of a template: plain text, a comment, a format (styles between blanks), a variable (a name
between blanks). -/
inductive TplPart where
  | text (s : Str)
  | comment (s : Str)
  | format (left : Str) (items : List Str) (right : Str)
  | variable (left : Str) (name : Str) (right : Str)
  deriving DecidableEq

/-- How a part is written. -/
def TplPart.written : TplPart → Str
  | .text s => s
  | .comment s => '#' :: '{' :: '}' :: s ++ ['{', '}', '#']
  | .format l items r => '^' :: '{' :: l ++ List.intercalate [';'] items ++ r ++ ['}']
  | .variable l name r => ':' :: '{' :: l ++ name ++ r ++ ['}']

/-- Text does not begin like another part (and not with the brace of one); a comment is on one line and does not contain its own end; formats
are words; variables have a name. -/
def TplPart.Fine : TplPart → Prop
  | .text s => s.head? ≠ some '{' ∧ ∀ x ∈ ['#', '^', ':'], ¬ [x, '{'] <:+: s
  | .comment s => '\n' ∉ s ∧ ¬ ['{', '}', '#'] <:+: s ++ ['{', '}']
  | .format l items r =>
    (∀ c ∈ l, IsWhitespace c) ∧ (∀ c ∈ r, IsWhitespace c) ∧ items ≠ [[]] ∧ (∀ w ∈ items, ∀ c ∈ w, IsWordChar c) ∧
      ∀ w ∈ items, ∀ k ∈ listNames, lower w ≠ k.toList
  | .variable l name r => (∀ c ∈ l, IsWhitespace c) ∧ (∀ c ∈ r, IsWhitespace c) ∧ name ≠ [] ∧ ∀ c ∈ name, IsWordChar c

instance (p : TplPart) : Decidable p.Fine := by
  cases p <;> unfold TplPart.Fine <;> infer_instance

/-- The number written with decimal digits. -/
def decimal (w : Str) : Nat := w.foldl (fun n c => n * 10 + (c.toNat - 48)) 0

/-- An item of a format is the number of a style if it has only digits, otherwise the name of one. -/
def itemArg (w : Str) : SgrArg := if w ≠ [] ∧ ∀ c ∈ w, '0' ≤ c ∧ c ≤ '9' then .code (decimal w) else .name w

/-- The sequence of a format: `SequenceSGR(...)` of its items; without items, a reset.  `none`: a name is not known. -/
def formatSequence (items : List Str) : Option Str :=
  if items = [] then some ['\x1b', '[', 'm'] else (mkSgr (items.map itemArg)).toOption.map Sgr.assemble

/-- What a part becomes. -/
def TplPart.shown (vars : List (Str × Str)) : TplPart → Str
  | .text s => s
  | .comment _ => []
  | .format l items r => (formatSequence items).getD (TplPart.format l items r).written
  | .variable l name r => (vars.lookup name).getD (TplPart.variable l name r).written

/-- Formats with an unknown name. -/
def TplPart.unknownFormats : TplPart → List Str
  | .format _ items _ => if formatSequence items = none then [List.intercalate [';'] items] else []
  | _ => []

/-- Variables without a value. -/
def TplPart.unknownVariables (vars : List (Str × Str)) : TplPart → List Str
  | .variable _ name _ => if vars.lookup name = none then [name] else []
  | _ => []

end Kolombos.Spec
