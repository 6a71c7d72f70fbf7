import Verif.Model.Run
/-
kolombos/byteio/reader.py
-/
namespace Kolombos

/-- What one `self._io.read(self._chunk_size)` does: return bytes or raise.  After
the last step of a list the end of the input is reached (`read` returns `b''`). -/
inductive IoStep where
  | data (b : Bytes)
  | raise (e : Err)
  deriving DecidableEq

namespace Reader

/-- Python truth value of an optional integer. -/
def truthy : Option Int → Bool
  | some n => n ≠ 0
  | none => false

/-- The `for line_break in re.finditer(b'\x0a', raw_input)` loop
(/repo/kolombos/byteio/reader.py:48-54): the input cropped before the line feed with
which the limit is reached, and the line counter. -/
def cropLines (maxLines : Int) : Bytes → Nat → Bytes × Nat
  | [], lines => ([], lines)
  | b :: s, lines =>
    if b = 0x0a then
      if ((lines + 1 : Nat) : Int) ≥ maxLines then ([], lines + 1)
      else let r := cropLines maxLines s (lines + 1); (b :: r.1, r.2)
    else let r := cropLines maxLines s lines; (b :: r.1, r.2)

/-- The `if max_lines:` part of the loop body. -/
def limitLines (maxLines : Option Int) (raw : Bytes) (lines : Nat) : Bytes × Nat :=
  match maxLines with
  | some n => if n ≠ 0 then cropLines n raw lines else (raw, lines)
  | none => (raw, lines)

/-- `max_bytes and self._offset + len(raw_input) > max_bytes`
(/repo/kolombos/byteio/reader.py:56). -/
def bytesExceeded (maxBytes : Option Int) (offset len : Nat) : Bool :=
  match maxBytes with
  | some n => decide (n ≠ 0) && decide (((offset + len : Nat) : Int) > n)
  | none => false

/-- The `break` condition after the callback (/repo/kolombos/byteio/reader.py:66-67). -/
def limitReached (maxBytes maxLines : Option Int) (offset lines : Nat) : Bool :=
  (match maxBytes with
    | some n => decide (n ≠ 0) && decide ((offset : Int) ≥ n)
    | none => false) ||
  (match maxLines with
    | some n => decide (n ≠ 0) && decide ((lines : Int) ≥ n)
    | none => false)

variable {σ : Type}

/-- The `try` block of `Reader.read` (/repo/kolombos/byteio/reader.py:43-71): `cb` is
`self._read_callback` acting on the state `σ`. -/
def loop (maxBytes maxLines : Option Int) (cb : σ → Bytes → Nat → Bool → Run σ) :
    List IoStep → Nat → Nat → σ → Run σ
  | [], offset, _, st => cb st [] offset true
  | .raise e :: _, _, _, _ => .fail e
  | .data raw :: rest, offset, lines, st =>
    if raw = [] then cb st [] offset true
    else
      let r := limitLines maxLines raw lines
      if bytesExceeded maxBytes offset r.1.length then
        cb st (pyTake (maxBytes.getD 0 - offset) r.1) offset true
      else
        (cb st r.1 offset false).bind fun st' =>
          let offset' := offset + r.1.length
          if limitReached maxBytes maxLines offset' r.2 then cb st' [] offset' true
          else loop maxBytes maxLines cb rest offset' r.2 st'

/-- Result of `Reader.read`: how the call ended, and whether the input is closed. -/
structure Outcome (σ : Type) where
  out : Str
  /-- `ok none`: the `KeyboardInterrupt` handler was taken, the state is not known -/
  res : Res (Option σ)
  closed : Bool

/-- `Reader.read` (/repo/kolombos/byteio/reader.py:34-76) with `except KeyboardInterrupt`
and `finally: self.close()`; `opened = none` stands for success of `_open`
(line 35, outside of the `try`). -/
def read (opened : Option Err) (maxBytes maxLines : Option Int)
    (cb : σ → Bytes → Nat → Bool → Run σ) (io : List IoStep) (st : σ) : Outcome σ :=
  match opened with
  | some e => ⟨[], .err e, false⟩
  | none =>
    let r := loop maxBytes maxLines cb io 0 0 st
    match r.res with
    | .ok st' => ⟨r.out, .ok (some st'), true⟩
    | .err .keyboardInterrupt => ⟨r.out, .ok none, true⟩
    | .err e => ⟨r.out, .err e, true⟩
    | .timeout => ⟨r.out, .timeout, false⟩

/-- `Reader._get_chunk_size` (/repo/kolombos/byteio/reader.py:86-91). -/
def chunkSize (buffer : Option Int) (debug : Nat) : Int :=
  match buffer with
  | some n => if n ≠ 0 then n else if debug > 0 then 128 else 4096
  | none => if debug > 0 then 128 else 4096

/-- The steps of reading a regular file with content `s` in chunks of `n > 0` bytes:
`BufferedReader.read(n)` returns `n` bytes except at the end (fuel: the length). -/
def fileStepsAux (n : Nat) : Nat → Bytes → List IoStep
  | 0, _ => []
  | _ + 1, [] => []
  | k + 1, b :: s => .data ((b :: s).take n) :: fileStepsAux n k ((b :: s).drop n)

/-- See `fileStepsAux`; a negative chunk size makes `read` return everything. -/
def fileSteps (size : Int) (s : Bytes) : List IoStep :=
  if size < 0 then (if s = [] then [] else [.data s])
  else fileStepsAux size.toNat s.length s

end Reader

end Kolombos
