import Verif.Spec.Session
import Verif.Spec.Layout
import Verif.Spec.Args
import Verif.Spec.Keys
/-
What C107 says, apart from the code.
-/
namespace Kolombos.Spec
open Kolombos

/-- The first `n` bytes of an input that comes in the parts `cs`, in these parts. -/
def takeParts : Nat → List Bytes → List Bytes
  | 0, _ => []
  | _ + 1, [] => []
  | n + 1, c :: cs => c.take (n + 1) :: takeParts (n + 1 - c.length) cs

/-- `p` in parts of `B` bytes (the last one may be shorter); if `B` is negative, in one part. -/
def partsOf (B : Int) (p : Bytes) : List Bytes :=
  if B < 0 then [p] else slices B.toNat ((p.length + B.toNat - 1) / B.toNat) p

/-- The rows have `c` columns: `--columns` says so, or it is not given, the terminal keeps its width and
that is the number computed from it. -/
def RowsOf (args : List Arg) (w : World) (c : Int) : Prop :=
  lastInt .columns args = some c ∨
  (lastInt .columns args = none ∧ ∃ W, (∀ k, w.term k = W) ∧ c = autoColumns (decide (Arg.flag .decimalOffsets ∈ args)) W)

end Kolombos.Spec
