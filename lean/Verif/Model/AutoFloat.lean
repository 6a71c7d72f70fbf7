/-
pytermor/util/auto_float.py: numbers in a required number of characters.

Simplifications: numbers are rational and all arithmetic is exact (`log10` and
the division by a power of ten work on floats); infinities, NaN and the negative
zero are left out.  `none` is a `ValueError`.
-/
import Verif.Model.Base
import Verif.Model.TimeDelta
import Mathlib.Data.Int.Log

namespace Kolombos

/-- The nearest integer, ties to even, for `x ≥ 0`. -/
def roundEven (x : Rat) : Nat :=
  let f := ⌊x⌋
  let r := x - f
  (if r < 1 / 2 then f else if 1 / 2 < r then f + 1 else if f % 2 = 0 then f else f + 1).toNat

/-- `f'{x:.{d}f}'` for `x ≥ 0`: the format rounds the exact value. -/
def fixedText (x : Rat) (d : Nat) : Str :=
  let n := roundEven (x * 10 ^ d)
  dec (n / 10 ^ d) ++ (if d = 0 then [] else '.' :: rjust d '0' (dec (n % 10 ^ d)))

/-- A number with the width `w`; in `f'{x:{-1}.0f}'` the minus is the sign option
and the width is 1. -/
def padNumber (w : Int) (s : Str) : Str := rjust w.natAbs ' ' s

/-- The body of `format_auto_float` (pytermor/util/auto_float.py:60-151), with
the recursive call as a parameter. -/
def autoFloatBody (recur : Rat → Int → Option Str) (value : Rat) (reqLen : Int) (allow : Bool) : Option Str :=
  if reqLen < -1 then none
  else
    let sign : Str := if value < 0 then ['-'] else []
    let req := if value < 0 then reqLen - 1 else reqLen
    if req = 0 then some (pyRepeat ['!'] sign.length)
    else
      let a := |value|
      if a < 1 ∧ req = 1 then some (sign ++ ['0'])
      else if value = 0 then some (sign ++ padNumber req (fixedText 0 0))
      else
        let exponent := Int.log 10 a
        if (allow = true ∧ exponent < -2) ∨ exponent > req - 1 then
          if allow = false then none
          else
            let exponentLen : Int := (decInt exponent).length + 1
            if req < exponentLen then some (pyRepeat ['!'] (sign.length + req))
            else
              match recur (a / 10 ^ exponent) (req - exponentLen) with
              | none => some (rjust req.toNat ' ' (sign ++ 'e' :: decInt exponent))
              | some t => some (sign ++ t ++ 'e' :: decInt exponent)
        else
          let integerLen := max 1 (exponent + 1)
          if integerLen = req then
            let t := padNumber req (fixedText a 0)
            if (t.length : Int) > integerLen then some (sign ++ padNumber req (decInt ⌊a⌋))
            else some (sign ++ t)
          else
            let decimals := req - integerLen - 1
            if decimals < 0 then none
            else some (sign ++ padNumber req (fixedText a decimals.toNat))

/-- `format_auto_float` (pytermor/util/auto_float.py:19-151).  The recursive call
is made with `allow_exponent_notation=False`, and then there is none. -/
def formatAutoFloat (value : Rat) (reqLen : Int) (allow : Bool) : Option Str :=
  autoFloatBody (fun v n => autoFloatBody (fun _ _ => none) v n false) value reqLen allow

end Kolombos
