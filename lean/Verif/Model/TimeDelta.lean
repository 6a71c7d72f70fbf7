/-
pytermor/util/time_delta.py: time intervals as short texts.

Simplifications: seconds are rational numbers and all arithmetic is exact (the
python code works on floats up to the first division and on integers after it);
`1e-03` and `1e-09` are the decimal fractions; unit names are not empty.
-/
import Verif.Model.Base
import Verif.Model.Sgr
import Mathlib.Data.Rat.Floor

namespace Kolombos

/-- `f'{n:d}'` for an integer. -/
def decInt (n : Int) : Str := if n < 0 then '-' :: dec (-n).toNat else dec n.toNat

/-- `math.isclose(a, b, abs_tol=t)` with the default relative tolerance. -/
def isClose (a b t : Rat) : Bool := decide (|a - b| ≤ max (1 / 1000000000 * max |a| |b|) t)

/-- `TimeUnit` (pytermor/util/time_delta.py:200-206). -/
structure TimeUnit where
  name : Str
  inNext : Option Nat := none
  customShort : Option Str := none
  collapsibleAfter : Option Nat := none
  overflowAfter : Option Nat := none
  deriving DecidableEq, Repr

/-- The constructor arguments of `TimeDeltaFormatter`
(pytermor/util/time_delta.py:77-85); the strings that may be `None` are only
used through their truth value. -/
structure TimeFormatter where
  units : List TimeUnit
  allowNegative : Bool
  unitSeparator : Str := []
  pluralSuffix : Str := []
  overflowMsg : Str := "OVERFLOW".toList
  deriving DecidableEq, Repr

/-- Is an optional integer `None` or 0?  Otherwise its value. -/
def truthyNat : Option Nat → Option Nat
  | some 0 => none
  | n => n

/-- The short name of a unit (pytermor/util/time_delta.py:147-149). -/
def TimeUnit.short (u : TimeUnit) : Str :=
  match u.customShort with
  | some s => if s ≠ [] then s else u.name.take 1
  | none => u.name.take 1

/-- The loop of `format_raw` (pytermor/util/time_delta.py:135-173), by recursion
on the remaining units: `none` is an overflow. -/
def timeLoop (f : TimeFormatter) (negative : Bool) :
    List TimeUnit → Rat → Str → Option Str
  | [], _, _ => some []
  | u :: us, num, prevFrac =>
    let sign : Str := if negative then ['-'] else []
    if (match truthyNat u.overflowAfter with | some o => decide (num > o) | none => false) then none
    else
      let suffixed := if f.pluralSuffix ≠ [] ∧ ⌊num⌋ ≠ 1 then u.name ++ f.pluralSuffix else u.name
      let short := u.short
      let sep := f.unitSeparator
      if |num| < 1 then
        if negative then some ("~0".toList ++ sep ++ suffixed)
        else if isClose num 0 (1 / 1000) then some ("0".toList ++ sep ++ suffixed)
        else some ("<1".toList ++ sep ++ u.name)
      else if (match u.collapsibleAfter with | some c => decide (num < c) | none => false) then
        some (sign ++ decInt ⌊num⌋ ++ short ++ sep ++ prevFrac)
      else
        match truthyNat u.inNext with
        | none => some (sign ++ decInt ⌊num⌋ ++ sep ++ suffixed)
        | some ratio =>
          if num < ratio then some (sign ++ decInt ⌊num⌋ ++ sep ++ suffixed)
          else
            let next := ⌊num / ratio⌋
            timeLoop f negative us next (decInt ⌊num - next * ratio⌋ ++ short)

/-- `TimeDeltaFormatter.format_raw` (pytermor/util/time_delta.py:118-175). -/
def TimeFormatter.formatRaw (f : TimeFormatter) (seconds : Rat) : Option Str :=
  timeLoop f (f.allowNegative && decide (seconds < 0)) f.units |seconds| []

/-- The loop of `_compute_max_len` (pytermor/util/time_delta.py:177-197).
`none` is an overflow at a tested value, for which the python code raises
because `_max_len` is not set yet. -/
def maxLenLoop (f : TimeFormatter) : List TimeUnit → Rat → Nat → Option Nat
  | [], _, maxLen => some maxLen
  | u :: us, coef, maxLen =>
    let test := match truthyNat u.inNext with
      | some n => some n
      | none => truthyNat u.overflowAfter
    match test with
    | none => maxLenLoop f us coef maxLen
    | some t =>
      match f.formatRaw (coef * (t - 1) * (if f.allowNegative then -1 else 1)) with
      | none => none
      | some r => maxLenLoop f us (coef * t) (max maxLen r.length)

/-- `TimeDeltaFormatter._compute_max_len`, the property `max_len`. -/
def TimeFormatter.maxLen (f : TimeFormatter) : Option Nat := maxLenLoop f f.units 1 0

/-- `TimeDeltaFormatter.format` (pytermor/util/time_delta.py:97-116) for a
formatter with the given `max_len`. -/
def TimeFormatter.format (f : TimeFormatter) (maxLen : Nat) (seconds : Rat)
    (alwaysMaxLen : Bool := false) : Str :=
  let result := match f.formatRaw seconds with
    | some r => r
    | none => f.overflowMsg.take maxLen
  if alwaysMaxLen then rjustSgr result maxLen ' ' else result

/-- The preset formatters (pytermor/util/time_delta.py:249-298). -/
def timeFormatter3 : TimeFormatter where
  units := [⟨"s".toList, some 60, none, none, none⟩, ⟨"m".toList, some 60, none, none, none⟩,
    ⟨"h".toList, some 24, none, none, none⟩, ⟨"d".toList, none, none, none, some 99⟩]
  allowNegative := false
  overflowMsg := "ERR".toList

def timeFormatter4 : TimeFormatter where
  units := [⟨"s".toList, some 60, none, none, none⟩, ⟨"m".toList, some 60, none, none, none⟩,
    ⟨"h".toList, some 24, none, none, none⟩, ⟨"d".toList, some 30, none, none, none⟩,
    ⟨"M".toList, some 12, none, none, none⟩, ⟨"y".toList, none, none, none, some 99⟩]
  allowNegative := false
  unitSeparator := [' ']
  overflowMsg := "ERRO".toList

def timeFormatter6 : TimeFormatter where
  units := [⟨"sec".toList, some 60, none, none, none⟩,
    ⟨"min".toList, some 60, none, none, none⟩,
    ⟨"hr".toList, some 24, none, some 10, none⟩, ⟨"day".toList, some 30, none, some 10, none⟩,
    ⟨"mon".toList, some 12, none, none, none⟩, ⟨"yr".toList, none, none, none, some 99⟩]
  allowNegative := false
  unitSeparator := [' ']

def timeFormatter10 : TimeFormatter where
  units := [⟨"sec".toList, some 60, none, none, none⟩,
    ⟨"min".toList, some 60, some "min".toList, none, none⟩,
    ⟨"hour".toList, some 24, none, some 24, none⟩,
    ⟨"day".toList, some 30, none, some 10, none⟩,
    ⟨"month".toList, some 12, none, none, none⟩, ⟨"year".toList, none, none, none, some 999⟩]
  allowNegative := true
  unitSeparator := [' ']
  pluralSuffix := ['s']

/-- `_TimeDeltaFormatterRegistry.register` (pytermor/util/time_delta.py:217-219):
the dictionary from maximal length to formatter, a later formatter of the same
length replaces an earlier one. -/
def registerTime (reg : List (Nat × TimeFormatter)) (f : TimeFormatter) :
    Option (List (Nat × TimeFormatter)) :=
  match f.maxLen with
  | none => none
  | some n =>
    if reg.any (fun e => e.1 == n) then
      some (reg.map (fun e => if e.1 == n then (n, f) else e))
    else some (reg ++ [(n, f)])

/-- The preset registry (pytermor/util/time_delta.py:249-298). -/
def timeRegistry : Option (List (Nat × TimeFormatter)) :=
  [timeFormatter3, timeFormatter4, timeFormatter6, timeFormatter10].foldlM registerTime []

/-- The largest number of a list. -/
def maxNat? : List Nat → Option Nat
  | [] => none
  | n :: ns => match maxNat? ns with
    | none => some n
    | some m => some (max n m)

/-- `get_by_max_len` (pytermor/util/time_delta.py:235-236). -/
def timeByLen (reg : List (Nat × TimeFormatter)) (n : Int) : Option (Nat × TimeFormatter) :=
  reg.find? (fun e => decide ((e.1 : Int) = n))

/-- `find_matching` (pytermor/util/time_delta.py:221-233): the formatter of that
length, or else of the largest length below. -/
def timeMatching (reg : List (Nat × TimeFormatter)) (n : Int) : Option (Nat × TimeFormatter) :=
  match timeByLen reg n with
  | some f => some f
  | none =>
    match maxNat? ((reg.map (·.1)).filter (fun (k : Nat) => decide ((k : Int) ≤ n))) with
    | none => none
    | some k => timeByLen reg k

/-- `get_longest` (pytermor/util/time_delta.py:241-242). -/
def timeLongest (reg : List (Nat × TimeFormatter)) : Option (Nat × TimeFormatter) :=
  match maxNat? (reg.map (·.1)) with
  | none => none
  | some k => timeByLen reg k

/-- `format_time_delta` (pytermor/util/time_delta.py:24-57) with the formatters
that are registered; `none` stands for an exception when one of them is created. -/
def formatTimeDeltaIn (registry : Option (List (Nat × TimeFormatter))) (seconds : Rat) (maxLen : Option Int) :
    Except Err Str :=
  match registry with
  | none => .error .runtimeError
  | some reg =>
    match (match maxLen with
      | none => timeLongest reg
      | some n => timeMatching reg n) with
    | none => .error .valueError
    | some (n, f) => .ok (f.format n seconds)

/-- `format_time_delta` (pytermor/util/time_delta.py:24-57) with the preset
formatters. -/
def formatTimeDelta (seconds : Rat) (maxLen : Option Int) : Except Err Str :=
  formatTimeDeltaIn timeRegistry seconds maxLen

/-- The same after `registry.register(*more)` (pytermor/util/time_delta.py:217-219). -/
def formatTimeDeltaAfter (more : List TimeFormatter) (seconds : Rat) (maxLen : Option Int) : Except Err Str :=
  formatTimeDeltaIn (timeRegistry.bind fun reg => more.foldlM registerTime reg) seconds maxLen

end Kolombos
