/-
Texts with sequences, the sequences made visible.
-/
import Verif.Spec.Filter

namespace Kolombos.Spec

/-- A text without escape characters, or a sequence that sets colours and other
attributes. -/
def Bit.Fine : Bit → Prop
  | .text s => '\x1b' ∉ s
  | .csi ps f => f = 'm' ∧ ∀ c ∈ ps, ('0' ≤ c ∧ c ≤ '9') ∨ c = ';'

/-- A sequence made visible: its parameters after a turned `e`, between bars. -/
def Bit.marked : Bit → Str
  | .text s => s
  | .csi ps _ => '|' :: 'ǝ' :: (ps ++ ['|'])

/-- The text alone. -/
def Bit.plain : Bit → Str
  | .text s => s
  | .csi _ _ => []

end Kolombos.Spec
