import Verif.Model.Output
/-
Calls of `print` that may fail.
-/
namespace Kolombos.Spec
open Kolombos

/-- An output that takes everything. -/
def takesAll : Device := fun _ _ => none

/-- From call number `n` on, the texts are written. -/
def Passes (dev : Device) (n : Nat) (ts : List Str) : Prop := ∀ i t, ts[i]? = some t → dev (n + i) t = none

/-- From call number `n` on, `k` texts are written, then `print` raises `e` for the text `t`. -/
structure FailsAt (dev : Device) (n : Nat) (ts : List Str) (k : Nat) (t : Str) (e : Err) : Prop where
  text : ts[k]? = some t
  raised : dev (n + k) t = some e
  before : ∀ i u, i < k → ts[i]? = some u → dev (n + i) u = none

/-- An output with an encoding that knows some characters only. -/
def encoded (enc : Char → Bool) : Device := fun _ t => if t.all enc then none else some .valueError

/-- `Ctrl-C` at the call number `k`. -/
def interruptAt (k : Nat) : Device := fun j _ => if j = k then some .keyboardInterrupt else none

end Kolombos.Spec
