/-
The texts for time intervals, as a table: which units are named for which
interval.  Numbers are rounded down; a month has 30 days, a year 12 months.
-/
import Verif.Model.TimeDelta
import Mathlib.Data.Rat.Floor

namespace Kolombos

/-- Whole minutes, hours, ... in a number of seconds. -/
def minutesIn (t : Nat) : Nat := t / 60
def hoursIn (t : Nat) : Nat := t / 3600
def daysIn (t : Nat) : Nat := t / 86400
def monthsIn (t : Nat) : Nat := t / 2592000
def yearsIn (t : Nat) : Nat := t / 31104000

/-- A number and a word. -/
def amount (n : Nat) (unit : String) : Str := Nat.toDigits 10 n ++ unit.toList

/-- `many` for all numbers but one. -/
def amounts (n : Nat) (one many : String) : Str := Nat.toDigits 10 n ++ (if n = 1 then one else many).toList

/-- Three characters. -/
def timeText3 (t : Nat) : Str :=
  if t < 60 then amount t "s"
  else if t < 3600 then amount (minutesIn t) "m"
  else if t < 86400 then amount (hoursIn t) "h"
  else if t < 8640000 then amount (daysIn t) "d"
  else "ERR".toList

/-- Four characters. -/
def timeText4 (t : Nat) : Str :=
  if t < 60 then amount t " s"
  else if t < 3600 then amount (minutesIn t) " m"
  else if t < 86400 then amount (hoursIn t) " h"
  else if t < 2592000 then amount (daysIn t) " d"
  else if t < 31104000 then amount (monthsIn t) " M"
  else if t < 3110400000 then amount (yearsIn t) " y"
  else "ERRO".toList

/-- Six characters: two units below ten hours and below ten days. -/
def timeText6 (t : Nat) : Str :=
  if t < 60 then amount t " sec"
  else if t < 3600 then amount (minutesIn t) " min"
  else if t < 36000 then amount (hoursIn t) "h " ++ amount (minutesIn t % 60) "m"
  else if t < 86400 then amount (hoursIn t) " hr"
  else if t < 864000 then amount (daysIn t) "d " ++ amount (hoursIn t % 24) "h"
  else if t < 2592000 then amount (daysIn t) " day"
  else if t < 31104000 then amount (monthsIn t) " mon"
  else if t < 3110400000 then amount (yearsIn t) " yr"
  else "OVERFL".toList

/-- Ten characters without the sign: two units below a day and below ten
days. -/
def timeText10 (t : Nat) : Str :=
  if t < 60 then amounts t " sec" " secs"
  else if t < 3600 then amounts (minutesIn t) " min" " mins"
  else if t < 86400 then amount (hoursIn t) "h " ++ amount (minutesIn t % 60) "min"
  else if t < 864000 then amount (daysIn t) "d " ++ amount (hoursIn t % 24) "h"
  else if t < 2592000 then amounts (daysIn t) " day" " days"
  else if t < 31104000 then amounts (monthsIn t) " month" " months"
  else amounts (yearsIn t) " year" " years"

/-- What `format_time_delta` prints, by the longest of the four forms that fits.
Intervals below one second are zero up to a millisecond; only the long form
shows signs. -/
def timeText (seconds : Rat) (form : Nat) : Str :=
  let t := ⌊|seconds|⌋₊
  if form = 10 then
    if |seconds| < 1 then
      if seconds < 0 then "~0 secs".toList
      else if |seconds| ≤ 1 / 1000 then "0 secs".toList
      else "<1 sec".toList
    else if t < 31104000000 then (if seconds < 0 then ['-'] else []) ++ timeText10 t
    else "OVERFLOW".toList
  else
    let unit := if form = 3 then "s" else if form = 4 then " s" else " sec"
    if |seconds| < 1 then
      (if |seconds| ≤ 1 / 1000 then "0".toList else "<1".toList) ++ unit.toList
    else if form = 3 then timeText3 t
    else if form = 4 then timeText4 t
    else timeText6 t

/-- The form for a maximal length. -/
def timeForm (maxLen : Int) : Nat :=
  if maxLen < 4 then 3 else if maxLen < 6 then 4 else if maxLen < 10 then 6 else 10

end Kolombos
