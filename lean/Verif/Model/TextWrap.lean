import Verif.Model.PrefixedUnit
/-
`textwrap.wrap` of Python 3.11 with its default options, which `argparse` uses for the
explanations of the options.

Simplification: of the characters outside ASCII none counts as a letter, a digit or a
character of a word (`\w`); the explanations contain two such characters, `⢸` and `⡇`,
which are none of these.
-/
namespace Kolombos

/-- `\w` for ASCII. -/
def isWordChar (c : Char) : Bool := c.isAlphanum || c == '_'

/-- `letter = [^\d\W]` (textwrap.py:75). -/
def isWrapLetter (c : Char) : Bool := c.isAlpha || c == '_'

/-- `word_punct = [\w!"'&.,?]` (textwrap.py:74). -/
def isWordPunct (c : Char) : Bool :=
  isWordChar c || c == '!' || c == '"' || c == '\'' || c == '&' || c == '.' || c == ',' || c == '?'

/-- `-{2,}\w` matches here; the number of hyphens is given. -/
def emDash (s : Str) : Option Nat :=
  let k := (s.takeWhile (· == '-')).length
  if 2 ≤ k ∧ ((s.drop k).head?.any isWordChar) = true then some k else none

/-- `-(?:(?<=lt{2}-)|(?<=lt-lt-))(?=lt-?lt)` matches here (textwrap.py:86-87); `pre` are the
characters before, the last one first. -/
def hyphenHere (pre : Str) : Str → Bool
  | '-' :: rest =>
    (match pre with
      | a :: b :: r => isWrapLetter a && (isWrapLetter b || (b == '-' && r.head?.any isWrapLetter))
      | _ => false) &&
    (match rest with
      | a :: b :: r => isWrapLetter a && (isWrapLetter b || (b == '-' && r.head?.any isWrapLetter))
      | _ => false)
  | _ => false

/-- The third alternative of `wordsep_re` (textwrap.py:83-93): the shortest word that may be
followed by a break.  Called where a character other than a blank follows. -/
def wrapWord : Str → Str → Str
  | _, [] => []
  | pre, c :: rest =>
    if hyphenHere (c :: pre) rest then [c, '-']
    else if rest.head?.all (· == ' ') then [c]
    else if isWordPunct c && (emDash rest).isSome then [c]
    else c :: wrapWord (c :: pre) rest

/-- One match of `wordsep_re` (textwrap.py:78-96). -/
def nextChunk (pre : Str) : Str → Str
  | [] => []
  | c :: rest =>
    if c = ' ' then c :: rest.takeWhile (· == ' ')
    else if pre.head?.any isWordPunct then
      match emDash (c :: rest) with
      | some k => (c :: rest).take k
      | none => wrapWord pre (c :: rest)
    else wrapWord pre (c :: rest)

/-- `TextWrapper._split` (textwrap.py:157-180): the matches of `wordsep_re`, which follow each
other without gaps. -/
def splitChunks : Nat → Str → Str → List Str
  | 0, _, _ => []
  | _ + 1, _, [] => []
  | n + 1, pre, c :: rest =>
    let ch := nextChunk pre (c :: rest)
    ch :: splitChunks n (ch.reverse ++ pre) ((c :: rest).drop ch.length)

/-- `chunk.strip() == ''`. -/
def isBlankChunk (ch : Str) : Bool := ch.all isPySpace

/-- The inner loop of `_wrap_chunks` (textwrap.py:287-297): the chunks that still fit. -/
def fillLine (width : Nat) : Nat → List Str → List Str × List Str
  | _, [] => ([], [])
  | len, ch :: chs =>
    if len + ch.length ≤ width then
      let r := fillLine width (len + ch.length) chs
      (ch :: r.1, r.2)
    else ([], ch :: chs)

/-- `chunk.rfind('-', 0, n)`. -/
def rfindHyphen (n : Nat) (ch : Str) : Option Nat :=
  let k := ((ch.take n).reverse.takeWhile (· != '-')).length
  if k < (ch.take n).length then some ((ch.take n).length - 1 - k) else none

/-- How many characters of a chunk that is too long go into the line
(`_handle_long_word`, textwrap.py:197-224). -/
def longWordEnd (left : Nat) (ch : Str) : Nat :=
  if ch.length > left then
    match rfindHyphen left ch with
    | some h => if h > 0 ∧ (ch.take h).any (· != '-') then h + 1 else left
    | none => left
  else left

/-- The rest of a pass of the outer loop (textwrap.py:299-308): a part of a word that is too
long for any line, and the blanks at the end. -/
def finishLine (width : Nat) (line rest : List Str) : List Str × List Str :=
  let (line, rest) := match rest with
    | ch :: chs =>
      if ch.length > width then
        let left := if width < 1 then 1 else width - (line.map List.length).sum
        let e := longWordEnd left ch
        (line ++ [ch.take e], ch.drop e :: chs)
      else (line, rest)
    | [] => (line, rest)
  (if line.getLast?.any isBlankChunk then line.dropLast else line, rest)

/-- `TextWrapper._wrap_chunks` (textwrap.py:238-339) without indents; `begun` says whether
there are lines already. -/
def wrapChunks (width : Nat) : Nat → Bool → List Str → List Str
  | 0, _, _ => []
  | _ + 1, _, [] => []
  | n + 1, begun, ch :: chs =>
    let cs := if isBlankChunk ch && begun then chs else ch :: chs
    let f := fillLine width 0 cs
    let g := finishLine width f.1 f.2
    if g.1 = [] then wrapChunks width n begun g.2
    else g.1.flatten :: wrapChunks width n true g.2

/-- `textwrap.wrap(text, width)` for a text whose only blanks are spaces. -/
def textWrap (width : Nat) (text : Str) : List Str :=
  wrapChunks width (2 * text.length + 2) false (splitChunks text.length [] text)

end Kolombos
