import Verif.Model.Base
/-
Effects: text written to stdout, exceptions, non-termination.
-/
namespace Kolombos

/-- How a computation ends. -/
inductive Res (α : Type) where
  | ok (a : α)
  | err (e : Err)
  /-- a `while True` loop was cut off after the given number of rounds -/
  | timeout
  deriving DecidableEq

/-- A computation that has written `out` to stdout. -/
structure Run (α : Type) where
  out : Str
  res : Res α
  deriving DecidableEq

namespace Run

/-- normal return without output -/
def pure {α : Type} (a : α) : Run α := ⟨[], .ok a⟩

/-- `raise` -/
def fail {α : Type} (e : Err) : Run α := ⟨[], .err e⟩

/-- `print(s, end='')`, then continue -/
def write {α : Type} (s : Str) (r : Run α) : Run α := ⟨s ++ r.out, r.res⟩

/-- sequential composition -/
def bind {α β : Type} (r : Run α) (f : α → Run β) : Run β :=
  match r.res with
  | .ok a => ⟨r.out ++ (f a).out, (f a).res⟩
  | .err e => ⟨r.out, .err e⟩
  | .timeout => ⟨r.out, .timeout⟩

/-- raise or return a value -/
def ofExcept {α : Type} : Except Err α → Run α
  | .ok a => pure a
  | .error e => fail e

end Run
end Kolombos
