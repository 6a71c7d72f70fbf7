import Verif.Model.Base
/-
The part of python's `re` module the code uses: character classes, sequence,
ordered alternative, greedy and reluctant repetition, capture groups; `Pattern.sub` with a
callback.  The matcher computes all ways to match in the order in which a
backtracking matcher tries them, the first one is python's match.
-/
namespace Kolombos

/-- Regular expressions (python `re`, restricted to what /repo/kolombos/byteio/parser/parser.py:29-59,
/repo/pytermor/util/string_filter.py:27 and /repo/dev/es7s_tpl_processor.py:26-28 use). -/
inductive Re (α : Type) where
  /-- the empty pattern -/
  | eps
  /-- `[...]` or a literal: one character satisfying the predicate -/
  | cls (p : α → Bool)
  /-- concatenation -/
  | seq (a b : Re α)
  /-- `a|b`, `a` is tried first -/
  | alt (a b : Re α)
  /-- greedy `a*` -/
  | star (a : Re α)
  /-- reluctant `a*?` -/
  | lazy (a : Re α)
  /-- capture group with its number -/
  | grp (n : Nat) (a : Re α)

/-- Captured groups: number and matched text, latest first. -/
abbrev Caps (α : Type) := List (Nat × List α)

/-- Greedy repetition of a matcher: one more iteration is tried before none.  An
iteration that consumes nothing is not repeated (python stops there as well). -/
def starRun {α : Type} (f : List α → Caps α → List (List α × Caps α)) :
    Nat → List α → Caps α → List (List α × Caps α)
  | 0, s, c => [(s, c)]
  | n + 1, s, c =>
    ((f s c).flatMap fun r => if r.1.length < s.length then starRun f n r.1 r.2 else []) ++ [(s, c)]

/-- Reluctant repetition of a matcher: no further iteration is tried before one more. -/
def lazyRun {α : Type} (f : List α → Caps α → List (List α × Caps α)) :
    Nat → List α → Caps α → List (List α × Caps α)
  | 0, s, c => [(s, c)]
  | n + 1, s, c =>
    (s, c) :: (f s c).flatMap fun r => if r.1.length < s.length then lazyRun f n r.1 r.2 else []

/-- All matches at the beginning of `s`, in the order of preference: the rest of
the input after the match and the captures. -/
def Re.run {α : Type} : Re α → List α → Caps α → List (List α × Caps α)
  | .eps, s, c => [(s, c)]
  | .cls _, [], _ => []
  | .cls p, a :: s, c => if p a then [(s, c)] else []
  | .seq a b, s, c => (a.run s c).flatMap fun r => b.run r.1 r.2
  | .alt a b, s, c => a.run s c ++ b.run s c
  | .star a, s, c => starRun (fun s c => a.run s c) s.length s c
  | .lazy a, s, c => lazyRun (fun s c => a.run s c) s.length s c
  | .grp n a, s, c =>
    (a.run s c).map fun r => (r.1, (n, s.take (s.length - r.1.length)) :: r.2)

/-- `a+` is `aa*`. -/
def Re.plus {α : Type} (a : Re α) : Re α := .seq a (.star a)

/-- A python `Match` object at the current position. -/
structure Match (α : Type) where
  /-- the text of group 0 -/
  text : List α
  /-- captured groups -/
  caps : Caps α

/-- `m.group(n)`; `none` if the group did not take part in the match. -/
def Match.group {α : Type} (m : Match α) (n : Nat) : Option (List α) :=
  (m.caps.find? fun g => g.1 = n).map Prod.snd

/-- `pattern.match(s)`: the preferred match at the beginning of `s`, and the rest. -/
def Re.first {α : Type} (r : Re α) (s : List α) : Option (Match α × List α) :=
  (r.run s []).head?.map fun x => (⟨s.take (s.length - x.1.length), x.2⟩, x.1)

/-- The items `pattern.sub` walks over, left to right: characters copied because
no match starts there, and matches handed to the callback.  An empty match
cannot occur with the patterns used; it would be skipped here. -/
inductive Item (α : Type) where
  | copied (a : α)
  | matched (m : Match α)

/-- The scan of `pattern.sub` (fuel: at least the length of the input). -/
def Re.scanAux {α : Type} (r : Re α) : Nat → List α → List (Item α)
  | 0, _ => []
  | _ + 1, [] => []
  | n + 1, a :: s =>
    match r.first (a :: s) with
    | some (m, rest) =>
      if rest.length < (a :: s).length then .matched m :: r.scanAux n rest
      else .copied a :: r.scanAux n s
    | none => .copied a :: r.scanAux n s

/-- The scan of `pattern.sub(_, s)`. -/
def Re.scan {α : Type} (r : Re α) (s : List α) : List (Item α) := r.scanAux s.length s

/-- `pattern.sub(repl, s)` for a replacement without side effects. -/
def Re.sub {α : Type} (r : Re α) (repl : Match α → List α) (s : List α) : List α :=
  (r.scan s).flatMap fun
    | .copied a => [a]
    | .matched m => repl m

end Kolombos
