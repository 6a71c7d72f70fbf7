/-
pytermor/render.py: `distribute_padded`.

Simplification: the values are strings (python only needs `len` and `+`), and
the caller's list, which the python code changes in place when padding is asked
for, is not returned.
-/
import Verif.Model.Base

namespace Kolombos

/-- The loop of `distribute_padded` (pytermor/render.py:770-775): `gaps` and
`spaces` are its two counters. -/
def padLoop : List Str → Int → Int → Str
  | [], _, _ => []
  | v :: vs, gaps, spaces =>
    let gap := spaces / (if gaps = 0 then 1 else gaps)
    v ++ pyRepeat [' '] gap ++ padLoop vs (gaps - 1) (spaces - gap)

/-- `distribute_padded` (pytermor/render.py:756-777). -/
def distributePadded (values : List Str) (maxLen : Int) (padBefore padAfter : Bool) :
    Except Err Str :=
  let values := if padBefore then [] :: values else values
  let values := if padAfter then values ++ [[]] else values
  let gaps : Int := values.length - 1
  let spaces : Int := maxLen - ((values.map List.length).sum : Nat)
  if spaces < gaps then .error .valueError
  else .ok (padLoop values gaps spaces)

end Kolombos
