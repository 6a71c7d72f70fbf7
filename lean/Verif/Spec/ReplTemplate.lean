import Verif.Spec.Filter
/-
How replacements are written, and where sequences are found in any text.
-/
namespace Kolombos.Spec

/-- A part of a replacement: a character, a part of what is replaced by its number (in two ways), a backslash, a line
feed or a tabulator, another control character by a letter, a character by its octal number (three digits, or less after a
zero), a backslash with a character that has no meaning. -/
inductive Repl where
  | char (c : Char)
  | part (n : Nat)
  | named (n : Nat)
  | backslash
  | newline
  | tab
  | control (letter c : Char)
  | octal (a b c : Nat)
  | octalDigit (n : Nat)
  | null
  | kept (c : Char)

/-- A part of a replacement as it is written. -/
def Repl.written : Repl → Str
  | .char c => [c]
  | .part n => '\\' :: dec n
  | .named n => '\\' :: 'g' :: '<' :: dec n ++ ['>']
  | .backslash => "\\\\".toList
  | .newline => "\\n".toList
  | .tab => "\\t".toList
  | .control l _ => ['\\', l]
  | .octal a b c => '\\' :: (dec a ++ dec b ++ dec c)
  | .octalDigit n => '\\' :: '0' :: dec n
  | .null => "\\0".toList
  | .kept c => ['\\', c]

/-- What a part of a replacement stands for, if `part` are the parts of what is replaced. -/
def Repl.meaning (part : Nat → Str) : Repl → Str
  | .char c => [c]
  | .part n => part n
  | .named n => part n
  | .backslash => ['\\']
  | .newline => ['\n']
  | .tab => ['\t']
  | .control _ c => [c]
  | .octal a b c => [Char.ofNat (64 * a + 8 * b + c)]
  | .octalDigit n => [Char.ofNat n]
  | .null => ['\x00']
  | .kept c => ['\\', c]

/-- Backslashes are written twice, there are these parts (number 0 is written in the second way), octal digits are octal digits, and
octal numbers are at most 255. -/
def Repl.Ok (groups : Nat) : Repl → Prop
  | .char c => c ≠ '\\'
  | .part n => 1 ≤ n ∧ n ≤ 9 ∧ n ≤ groups
  | .named n => n ≤ groups
  | .control l c => (l, c) ∈ [('a', '\x07'), ('b', '\x08'), ('f', '\x0c'), ('r', '\x0d'), ('v', '\x0b')]
  | .octal a b c => a ≤ 3 ∧ b ≤ 7 ∧ c ≤ 7
  | .octalDigit n => n ≤ 7
  | .kept c => c.isAlpha = false ∧ c.isDigit = false ∧ c ≠ '\\'
  | _ => True

/-- The characters that may follow: no digit follows the number of a part, no octal digit a short octal number. -/
def Repl.Before : Repl → Char → Prop
  | .part _, c => c.isDigit = false
  | .octalDigit _, c => ¬ ('0' ≤ c ∧ c ≤ '7')
  | .null, c => ¬ ('0' ≤ c ∧ c ≤ '7')
  | _, _ => True

/-- Well-formed replacements. -/
def Repl.Fine (groups : Nat) : List Repl → Prop
  | [] => True
  | x :: r => x.Ok groups ∧ (∀ c r', r = .char c :: r' → x.Before c) ∧ Repl.Fine groups r

/-- How a mistake in a replacement begins: a backslash at its end, the number of a part that does not exist (with one digit or two digits, or in
the second way), an octal number that is too big, a backslash before a letter without a meaning. -/
inductive BadRepl (groups : Nat) : Str → Prop
  | last : BadRepl groups ['\\']
  | part (n : Nat) (s : Str) : n ≤ 9 → groups < n → (∀ c ∈ s.head?, c.isDigit = false) → BadRepl groups ('\\' :: (dec n ++ s))
  | two (a b : Nat) (s : Str) : 1 ≤ a → a ≤ 9 → b ≤ 9 → groups < 10 * a + b →
    (a ≤ 7 → b ≤ 7 → ∀ c ∈ s.head?, ¬ ('0' ≤ c ∧ c ≤ '7')) → BadRepl groups ('\\' :: (dec a ++ dec b ++ s))
  | octal (a b c : Nat) (s : Str) : 4 ≤ a → a ≤ 7 → b ≤ 7 → c ≤ 7 → BadRepl groups ('\\' :: (dec a ++ dec b ++ dec c ++ s))
  | named (n : Nat) (s : Str) : groups < n → BadRepl groups ('\\' :: 'g' :: '<' :: (dec n ++ '>' :: s))
  | letter (c : Char) (s : Str) : c.isAlpha = true → c ∉ ['a', 'b', 'f', 'g', 'n', 'r', 't', 'v'] → BadRepl groups ('\\' :: c :: s)

/-- The sequences of a text, found from left to right: single characters are those at which no sequence begins. -/
def Leftmost (Seq : Str → Char → Prop) : List Bit → Prop
  | [] => True
  | .text s :: rest =>
    (∃ c, s = [c] ∧ ¬ ∃ ps f, Seq ps f ∧ Bit.written (.csi ps f) <+: c :: rest.flatMap Bit.written) ∧ Leftmost Seq rest
  | .csi ps f :: rest => Seq ps f ∧ Leftmost Seq rest

/-- Sequences the filter for control sequences looks for. -/
def CsiSeq (ps : Str) (f : Char) : Prop := (Bit.csi ps f).Usual

/-- Sequences the filter for colours and attributes looks for. -/
def SgrSeq (ps : Str) (f : Char) : Prop := (Bit.csi ps f).IsSgr

end Kolombos.Spec
