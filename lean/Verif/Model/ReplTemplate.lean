import Verif.Model.Filter
/-
The replacements of pytermor/util/string_filter.py as they are given: strings, which `Pattern.sub` of python parses
(`re/_parser.py` of Python 3.11, `Tokenizer` and `parse_template`).

Simplifications: `none` is an exception (`re.error`, or `IndexError` for an unknown name of a group); the warnings about
unusual numbers in `\g<…>` are omitted.  No pattern has named groups.  `int` is a parameter.
-/
namespace Kolombos

/-- One token of a replacement: a character, or a backslash with a character. -/
inductive TplTok where
  | chr (c : Char)
  | esc (c : Char)
  deriving DecidableEq

/-- `Tokenizer` (re/_parser.py): a backslash at the end is an error. -/
def tplTokens : Str → Option (List TplTok)
  | [] => some []
  | c :: s =>
    if c = '\\' then
      match s with
      | [] => none
      | d :: s => (tplTokens s).map (.esc d :: ·)
    else (tplTokens s).map (.chr c :: ·)

/-- `Tokenizer.getuntil('>')` (re/_parser.py); `none` if there is no `>`. -/
def tplUntil : List TplTok → Option (Str × List TplTok)
  | [] => none
  | .chr c :: r => if c = '>' then some ([], r) else (tplUntil r).map fun x => (c :: x.1, x.2)
  | .esc c :: r => (tplUntil r).map fun x => ('\\' :: c :: x.1, x.2)

/-- The value of a digit. -/
def tplDigit (c : Char) : Nat := c.toNat - 48

/-- `c in OCTDIGITS` (re/_parser.py). -/
def tplOct (c : Char) : Bool := 48 ≤ c.toNat && c.toNat ≤ 55

/-- `ESCAPES`, the part for replacements (re/_parser.py). -/
def tplEscape (c : Char) : Option Char :=
  if c = 'a' then some '\x07' else if c = 'b' then some '\x08' else if c = 'f' then some '\x0c' else if c = 'n' then some '\n'
  else if c = 'r' then some '\r' else if c = 't' then some '\t' else if c = 'v' then some '\x0b' else if c = '\\' then some '\\' else none

/-- `addgroup` (re/_parser.py). -/
def tplGroup (groups n : Nat) : Option (List TplItem) := if groups < n then none else some [.ref n]

/-- One turn of the loop of `parse_template` (re/_parser.py) for a backslash and `c`: what it stands for, and the rest. -/
def tplEsc (toInt : Str → Option Int) (groups : Nat) (c : Char) (r : List TplTok) : Option (List TplItem × List TplTok) :=
  if c = 'g' then
    match r with
    | .chr '<' :: r =>
      match tplUntil r with
      | none => none
      | some (name, r) =>
        if name = [] then none
        else
          match toInt name with
          | none => none
          | some i => if i < 0 then none else (tplGroup groups i.toNat).map (·, r)
    | _ => none
  else if c = '0' then
    match r with
    | .chr a :: r =>
      if tplOct a then
        match r with
        | .chr b :: r' =>
          if tplOct b then some ([.lit (Char.ofNat (8 * tplDigit a + tplDigit b))], r') else some ([.lit (Char.ofNat (tplDigit a))], r)
        | _ => some ([.lit (Char.ofNat (tplDigit a))], r)
      else some ([.lit '\x00'], .chr a :: r)
    | _ => some ([.lit '\x00'], r)
  else if c.isDigit then
    match r with
    | .chr d :: r =>
      if d.isDigit then
        match r with
        | .chr e :: r' =>
          if tplOct c && tplOct d && tplOct e then
            let v := 64 * tplDigit c + 8 * tplDigit d + tplDigit e
            if 255 < v then none else some ([.lit (Char.ofNat v)], r')
          else (tplGroup groups (10 * tplDigit c + tplDigit d)).map (·, r)
        | _ => (tplGroup groups (10 * tplDigit c + tplDigit d)).map (·, r)
      else (tplGroup groups (tplDigit c)).map (·, .chr d :: r)
    | _ => (tplGroup groups (tplDigit c)).map (·, r)
  else
    match tplEscape c with
    | some x => some ([.lit x], r)
    | none => if c.isAlpha then none else some ([.lit '\\', .lit c], r)

/-- The loop of `parse_template` (re/_parser.py); every turn takes one token or more. -/
def tplParse (toInt : Str → Option Int) (groups : Nat) : Nat → List TplTok → Option (List TplItem)
  | _, [] => some []
  | 0, _ => none
  | n + 1, .chr c :: r => (tplParse toInt groups n r).map (.lit c :: ·)
  | n + 1, .esc c :: r =>
    match tplEsc toInt groups c r with
    | none => none
    | some (l, r) => (tplParse toInt groups n r).map (l ++ ·)

/-- `parse_template(repl, pattern)` for a pattern with this number of groups. -/
def parseTemplate (toInt : Str → Option Int) (groups : Nat) (repl : Str) : Option (List TplItem) :=
  match tplTokens repl with
  | none => none
  | some ts => tplParse toInt groups ts.length ts

/-- `ReplaceSGR(repl).apply(s)` (pytermor/util/string_filter.py:89-98, 70-72): the replacement is parsed before anything is searched. -/
def ReplaceSGR (toInt : Str → Option Int) (repl s : Str) : Option Str := (parseTemplate toInt 5 repl).map (replaceSgr · s)

/-- `ReplaceCSI(repl).apply(s)` (pytermor/util/string_filter.py:101-111, 70-72). -/
def ReplaceCSI (toInt : Str → Option Int) (repl s : Str) : Option Str := (parseTemplate toInt 5 repl).map (replaceCsi · s)

/-- `VisualuzeWhitespace(repl).apply(s)` (pytermor/util/string_filter.py:75-86, 70-72). -/
def VisualuzeWhitespace (toInt : Str → Option Int) (repl s : Str) : Option Str :=
  (parseTemplate toInt 1 (repl ++ ['\\', '1'])).map fun t => whitespaceRegexp.sub (expandTpl t) s

/-- The replacement for a match of bytes: what `parse_template` made of the replacement decoded as Latin-1, encoded again. -/
def expandBytes (t : List TplItem) (m : Match Byte) : Bytes :=
  t.flatMap fun
    | .lit c => [UInt8.ofNat c.toNat]
    | .ref n => if n = 0 then m.text else (m.group n).getD []

/-- `ReplaceNonAsciiBytes(repl).apply(s)` (pytermor/util/string_filter.py:114-121, 70-72). -/
def ReplaceNonAsciiBytes (toInt : Str → Option Int) (repl s : Bytes) : Option Bytes :=
  (parseTemplate toInt 0 (repl.map fun b => Char.ofNat b.toNat)).map fun t =>
    (Re.cls fun b : Byte => 0x80 ≤ b.toNat && b.toNat ≤ 0xff : Re Byte).sub (expandBytes t) s

/-- `apply_filters` (pytermor/util/string_filter.py:30-49); classes are given as their instances. -/
def applyFilters {α : Type} (s : α) (filters : List (α → Option α)) : Option α := filters.foldl (fun s f => s.bind f) (some s)

end Kolombos
