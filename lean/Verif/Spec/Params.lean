import Verif.Spec.Grammar
/-
Parameter strings of SGR sequences.
-/
namespace Kolombos.Spec
open Kolombos

/-- `q` is one of the parts of `ps` between semicolons. -/
def IsField (ps q : Bytes) : Prop :=
  ∃ a b, ps = a ++ q ++ b ∧ 0x3b ∉ q ∧ (a = [] ∨ a.getLast? = some 0x3b) ∧ (b = [] ∨ b.head? = some 0x3b)

/-- A decimal number, alone or followed by a colon and anything. -/
def IsNumberField (q : Bytes) : Prop :=
  ∃ d r, q = d ++ r ∧ d ≠ [] ∧ (∀ b ∈ d, Rng 0x30 0x39 b) ∧ (r = [] ∨ r.head? = some 0x3a)

/-- Some part of the parameter string is neither empty nor begins with a number. -/
def BadParams (ps : Bytes) : Prop := ∃ q, IsField ps q ∧ q ≠ [] ∧ ¬ IsNumberField q

end Kolombos.Spec
