/-
Python values used by the model: bytes, strings, exceptions, slicing, integer
formatting.  Nothing here is specific to kolombos.
-/
namespace Kolombos

/-- One element of a python `bytes` object. -/
abbrev Byte := UInt8

/-- Python `bytes`. -/
abbrev Bytes := List Byte

/-- Python `str`.  Python strings may hold lone surrogates, Lean `Char`s may
not; no string of the modelled code contains one (the only decoding is UTF-8
with `errors='replace'` and ASCII with `errors='ignore'`). -/
abbrev Str := List Char

/-- The python exceptions that occur in the modelled code, as values. -/
inductive Err where
  | valueError
  | keyError
  | bufferError
  | runtimeError
  | typeError
  | osError
  | keyboardInterrupt
  deriving DecidableEq, Repr

/-- `s[:n]` for a python integer `n` (negative: counted from the end). -/
def pyTake {α : Type} (n : Int) (s : List α) : List α :=
  if 0 ≤ n then s.take n.toNat else s.take (s.length - (-n).toNat)

/-- `s[n:]` for a python integer `n` (negative: counted from the end). -/
def pyDrop {α : Type} (n : Int) (s : List α) : List α :=
  if 0 ≤ n then s.drop n.toNat else s.drop (s.length - (-n).toNat)

/-- `s * n` for a string `s` and a python integer `n`. -/
def pyRepeat (s : Str) (n : Int) : Str :=
  (List.replicate n.toNat s).flatten

/-- `str(n)` / `f'{n:d}'` for `n ≥ 0`. -/
def dec (n : Nat) : Str := Nat.toDigits 10 n

/-- `f'{n:x}'` for `n ≥ 0`. -/
def hex (n : Nat) : Str := Nat.toDigits 16 n

/-- `f'{n:0{w}x}'`. -/
def hexPad (w n : Nat) : Str := List.replicate (w - (hex n).length) '0' ++ hex n

/-- `f'{n:0{w}X}'`. -/
def hexPadUpper (w n : Nat) : Str :=
  List.replicate (w - (hex n).length) '0' ++ (hex n).map Char.toUpper

/-- `s.ljust(w, c)`. -/
def ljust (w : Nat) (c : Char) (s : Str) : Str := s ++ List.replicate (w - s.length) c

/-- `s.rjust(w, c)`. -/
def rjust (w : Nat) (c : Char) (s : Str) : Str := List.replicate (w - s.length) c ++ s

/-- `sep.join(parts)`. -/
def join (sep : Str) : List Str → Str
  | [] => []
  | [x] => x
  | x :: y :: r => x ++ sep ++ join sep (y :: r)

/-- `s.split(c)` for a single character separator (never returns an empty list). -/
def splitOn (c : Char) : Str → List Str
  | [] => [[]]
  | a :: r =>
    if a = c then [] :: splitOn c r
    else match splitOn c r with
      | [] => [[a]]
      | h :: t => (a :: h) :: t

/-- Decimal value of a digit string. -/
def digitsVal (s : Str) : Nat := s.foldl (fun n c => n * 10 + (c.toNat - 48)) 0

/-- `int(s)` restricted to strings over the bytes `30-3f` without `;` that the
caller passes: python accepts a non-empty digit string and raises `ValueError`
for anything else made of these characters (underscores, signs and blanks
cannot occur).  The 4300 digit limit of newer python versions is not modelled. -/
def pyInt (s : Str) : Except Err Nat :=
  if s ≠ [] ∧ s.all Char.isDigit then .ok (digitsVal s) else .error .valueError

/-- The `ascii` codec with `errors='ignore'`: bytes above `7f` are dropped. -/
def decodeAscii (b : Bytes) : Str :=
  (b.filter (fun x => x.toNat < 128)).map (fun x => Char.ofNat x.toNat)

end Kolombos
