import Verif.Model.Terminal
/-
What C105 and C106 say, apart from the code.
-/
namespace Kolombos
namespace Spec

/-- The number that the environment variable `COLUMNS` asks for. -/
def WidthAsked (toInt : Str → Option Int) (e : Surroundings) (c : Int) : Prop :=
  0 < c ∧ ∃ t, e.varColumns = some t ∧ toInt t = some c

/-- `W` is the width of the terminal: what `COLUMNS` asks for; if it asks for nothing, the width of the terminal
the output goes to; if that is none, 80. -/
def IsWidth (toInt : Str → Option Int) (e : Surroundings) (W : Int) : Prop :=
  WidthAsked toInt e W ∨
  ((∀ c, ¬ WidthAsked toInt e c) ∧
    ((∃ c l : Nat, e.stdout = some (c, l) ∧ (c : Int) = W) ∨ (e.stdout = none ∧ W = 80)))

/-- The number of bytes in a row on a terminal of `W` columns: four for every 17 columns that are left
beside 31 (22 if the offsets are decimal). -/
def autoColumns (decimal : Bool) (W : Int) : Int := 4 * ((W - (if decimal then 22 else 31)) / 17)

/-- Neither line editing (bit 1) nor echo (bit 3) is on in `b`; everything else is as in `a`. -/
def OneKeyMode (a b : TermAttrs) : Prop :=
  b.iflag = a.iflag ∧ b.oflag = a.oflag ∧ b.cflag = a.cflag ∧ b.ispeed = a.ispeed ∧ b.ospeed = a.ospeed ∧ b.cc = a.cc ∧
  b.lflag.getLsbD 1 = false ∧ b.lflag.getLsbD 3 = false ∧
  ∀ i, i ≠ 1 → i ≠ 3 → b.lflag.getLsbD i = a.lflag.getLsbD i

end Spec
end Kolombos
