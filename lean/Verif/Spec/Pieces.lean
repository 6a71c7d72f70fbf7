import Verif.Model.Base
/-
How input is divided into pieces, written as a maximal-munch lexer over the byte
classes of the documentation (README.md, ECMA-48, ISO 2022, Unicode table 3-7).
Independent of the regular expression of the code.
-/
namespace Kolombos.Spec

open Kolombos

/-- What a piece of input is. -/
inductive Kind where
  | utf8 | binary
  | reset | sgr | csi | nF | fp | fe | fs
  | ctrl | null | backspace | esc | delete
  | tab | newline | vertTab | formFeed | carrReturn | space
  | printable
  deriving DecidableEq, Repr

def between (lo hi : Nat) (b : Byte) : Bool := decide (lo ≤ b.toNat ∧ b.toNat ≤ hi)

/-- ECMA-48 parameter bytes. -/
def isParam (b : Byte) : Bool := between 0x30 0x3f b
/-- ECMA-48 intermediate bytes. -/
def isInter (b : Byte) : Bool := between 0x20 0x2f b
/-- ECMA-48 final bytes of control sequences. -/
def isFinal (b : Byte) : Bool := between 0x40 0x7e b
/-- ISO 2022 final bytes of escape sequences. -/
def isFinalNF (b : Byte) : Bool := between 0x30 0x7e b
/-- Bytes with the highest bit set. -/
def isHigh (b : Byte) : Bool := between 0x80 0xff b
/-- Control characters that are no whitespace, null, backspace, escape, delete. -/
def isCtrl (b : Byte) : Bool := between 0x01 0x07 b || between 0x0e 0x1a b || between 0x1c 0x1f b
/-- Visible ASCII characters. -/
def isPrintable (b : Byte) : Bool := between 0x21 0x7e b

def isCont (b : Byte) : Bool := between 0x80 0xbf b

/-- Length of the well-formed multi-byte UTF-8 sequence at the beginning
(Unicode, table 3-7), 0 if there is none. -/
def utf8Len : Bytes → Nat
  | b :: c :: s =>
    if between 0xc2 0xdf b then (if isCont c then 2 else 0)
    else if between 0xe0 0xef b then
      if (if b = 0xe0 then between 0xa0 0xbf c else if b = 0xed then between 0x80 0x9f c else isCont c) then
        match s with
        | d :: _ => if isCont d then 3 else 0
        | [] => 0
      else 0
    else if between 0xf0 0xf4 b then
      if (if b = 0xf0 then between 0x90 0xbf c else if b = 0xf4 then between 0x80 0x8f c else isCont c) then
        match s with
        | d :: e :: _ => if isCont d && isCont e then 4 else 0
        | _ => 0
      else 0
    else 0
  | _ => 0

/-- What follows `ESC [`: parameters, intermediates, final byte, rest. -/
def csiTail (s : Bytes) : Option (Bytes × Bytes × Byte × Bytes) :=
  let ps := s.takeWhile isParam
  let s1 := s.dropWhile isParam
  let is := s1.takeWhile isInter
  match s1.dropWhile isInter with
  | f :: r => if isFinal f then some (ps, is, f, r) else none
  | [] => none

/-- What follows `ESC` in an nF sequence: intermediates, final byte, rest. -/
def nfTail (s : Bytes) : Option (Bytes × Byte × Bytes) :=
  let is := s.takeWhile isInter
  match s.dropWhile isInter with
  | f :: r => if isFinalNF f && decide (is ≠ []) then some (is, f, r) else none
  | [] => none

/-- The kind of a control sequence. -/
def csiKind (params : Bytes) (final : Byte) : Kind :=
  if final = 0x6d then (if params = [] ∨ params = [0x30] then .reset else .sgr) else .csi

/-- The piece at the beginning of `ESC :: s`. -/
def escPiece (s : Bytes) : Kind × Bytes × Bytes :=
  match s with
  | [] => (.esc, [0x1b], [])
  | c :: t =>
    match (if c = 0x5b then csiTail t else none) with
    | some (ps, is, f, r) => (csiKind ps f, 0x1b :: 0x5b :: (ps ++ is ++ [f]), r)
    | none =>
      match nfTail s with
      | some (is, f, r) => (.nF, 0x1b :: (is ++ [f]), r)
      | none =>
        if between 0x30 0x3f c then (.fp, [0x1b, c], t)
        else if between 0x40 0x5f c then (.fe, [0x1b, c], t)
        else if between 0x60 0x7e c then (.fs, [0x1b, c], t)
        else (.esc, [0x1b], s)

/-- The longest run of bytes `p` at the beginning of `b :: s` where `b` is one. -/
def run (k : Kind) (p : Byte → Bool) (b : Byte) (s : Bytes) : Kind × Bytes × Bytes :=
  (k, b :: s.takeWhile p, s.dropWhile p)

/-- The first piece of `b :: s`: kind, bytes, rest. -/
def piece (b : Byte) (s : Bytes) : Kind × Bytes × Bytes :=
  if isHigh b then
    if utf8Len (b :: s) = 0 then run .binary isHigh b s
    else (.utf8, (b :: s).take (utf8Len (b :: s)), (b :: s).drop (utf8Len (b :: s)))
  else if b = 0x1b then escPiece s
  else if b = 0x00 then run .null (· == 0x00) b s
  else if b = 0x08 then run .backspace (· == 0x08) b s
  else if b = 0x09 then run .tab (· == 0x09) b s
  else if b = 0x0a then (.newline, [b], s)
  else if b = 0x0b then run .vertTab (· == 0x0b) b s
  else if b = 0x0c then run .formFeed (· == 0x0c) b s
  else if b = 0x0d then run .carrReturn (· == 0x0d) b s
  else if b = 0x20 then run .space (· == 0x20) b s
  else if b = 0x7f then run .delete (· == 0x7f) b s
  else if isCtrl b then run .ctrl isCtrl b s
  else run .printable isPrintable b s

/-- All pieces (fuel: at least the length). -/
def piecesAux : Nat → Bytes → List (Kind × Bytes)
  | 0, _ => []
  | _ + 1, [] => []
  | n + 1, b :: s => let q := piece b s; (q.1, q.2.1) :: piecesAux n q.2.2

/-- The pieces of a chunk of input. -/
def pieces (s : Bytes) : List (Kind × Bytes) := piecesAux s.length s

/-- The parameter string of a control sequence. -/
def csiParams (p : Bytes) : Bytes := (p.drop 2).takeWhile isParam

end Kolombos.Spec
