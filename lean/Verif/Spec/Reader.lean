import Verif.Model.App
/-
Specification of what the reader delivers.
-/
set_option linter.unusedSimpArgs false

namespace Kolombos
open Reader

/-- One call of the reader's callback: data, offset, end of input. -/
structure ReadEvent where
  data : Bytes
  offset : Nat
  finish : Bool
  deriving DecidableEq

/-- The callback that only records its calls. -/
def record (l : List ReadEvent) (data : Bytes) (offset : Nat) (finish : Bool) : Run (List ReadEvent) :=
  .pure (l ++ [⟨data, offset, finish⟩])

/-- What can be read before the input ends (an empty read) . -/
def contentOf : List IoStep → Bytes
  | .data [] :: _ => []
  | .data (b :: s) :: r => b :: s ++ contentOf r
  | .raise _ :: _ => []
  | [] => []

/-- No read fails (before the end of the input). -/
def NoRaise (io : List IoStep) : Prop := ∀ e, IoStep.raise e ∉ io

/-! ### Specification of the limits -/

/-- `p` is the part of `s` before the `n`-th line feed (`s` if there are fewer). -/
def BeforeLf (n : Nat) (s p : Bytes) : Prop :=
  (p = s ∧ p.count 0x0a < n) ∨ (p ++ [0x0a] <+: s ∧ p.count 0x0a + 1 = n)

/-- A limit option: `none` and 0 mean no limit. -/
def limit : Option Nat → Option Nat
  | some (n + 1) => some (n + 1)
  | _ => none

/-- The option as a python value. -/
def optInt (o : Option Nat) : Option Int := o.map Int.ofNat

/-- `p` is what remains of `s` under the byte limit. -/
def UnderBytes (o : Option Nat) (s p : Bytes) : Prop :=
  match limit o with
  | some n => p = s.take n
  | none => p = s

/-- `p` is what remains of `s` under the line limit. -/
def UnderLines (o : Option Nat) (s p : Bytes) : Prop :=
  match limit o with
  | some n => BeforeLf n s p
  | none => p = s

/-! ### Calls of a callback -/

/-- The bytes handed to the callback in a list of calls. -/
def delivered (l : List ReadEvent) : Bytes := (l.map ReadEvent.data).flatten

/-- Calling a callback for a list of events, stopping at the first failure. -/
def playEvents {σ : Type} (cb : σ → Bytes → Nat → Bool → Run σ) : List ReadEvent → σ → Run σ
  | [], st => .pure st
  | e :: es, st => (cb st e.data e.offset e.finish).bind fun st' => playEvents cb es st'

/-- ... followed by the exception of a failed read. -/
def playAll {σ : Type} (cb : σ → Bytes → Nat → Bool → Run σ) (es : List ReadEvent × Option Err) (st : σ) : Run σ :=
  (playEvents cb es.1 st).bind fun st' =>
    match es.2 with
    | none => .pure st'
    | some e => .fail e

end Kolombos
