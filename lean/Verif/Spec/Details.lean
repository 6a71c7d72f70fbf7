import Verif.Spec.Labels
/-
What C117 says, apart from the code.
-/
namespace Kolombos.Spec
open Kolombos

/-- What `--marker` adds to the display: everything underlined, the separators, and the dots between SGR codes, which are
on a colour. -/
def IsDetail (x : Char × Style) : Bool :=
  decide (x.2.underline ≠ 0) || IsSeparator x || decide (x.1 = '･' ∧ x.2.bg ≠ .dflt)

end Kolombos.Spec
