/-
Which formatter is used for a time interval.
-/
import Verif.Model.TimeDelta

namespace Kolombos.Spec
open Kolombos

/-- Of the formatters registered, in this order, the one with the greatest
length that is allowed, and of several with this length the last. -/
structure Picked (fs : List TimeFormatter) (allowed : Nat → Prop) (f : TimeFormatter) (len : Nat) : Prop where
  fits : f.maxLen = some len ∧ allowed len
  longest : ∀ g ∈ fs, ∀ m, g.maxLen = some m → allowed m → m ≤ len
  last : ∃ before after, fs = before ++ f :: after ∧ ∀ g ∈ after, g.maxLen ≠ some len

/-- The lengths allowed by the argument: all if there is none. -/
def Allowed (maxLen : Option Int) (k : Nat) : Prop := ∀ n, maxLen = some n → (k : Int) ≤ n

end Kolombos.Spec
