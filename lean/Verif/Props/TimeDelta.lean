/-
C49 (time deltas fit), C54 (what they say).
-/
import Verif.Spec.TimeDelta
import Mathlib.Tactic.Linarith
import Mathlib.Tactic.NormNum
import Mathlib.Tactic.Positivity

set_option linter.unusedSimpArgs false

namespace Kolombos

/-- The loop on a whole number, in natural number arithmetic. -/
def timeLoopN (f : TimeFormatter) (negative : Bool) : List TimeUnit → Nat → Str → Option Str
  | [], _, _ => some []
  | u :: us, num, prevFrac =>
    let sign : Str := if negative then ['-'] else []
    if (match truthyNat u.overflowAfter with | some o => decide (num > o) | none => false) then none
    else
      let suffixed := if f.pluralSuffix ≠ [] ∧ num ≠ 1 then u.name ++ f.pluralSuffix else u.name
      let short := u.short
      let sep := f.unitSeparator
      if (match u.collapsibleAfter with | some c => decide (num < c) | none => false) then
        some (sign ++ dec num ++ short ++ sep ++ prevFrac)
      else
        match truthyNat u.inNext with
        | none => some (sign ++ dec num ++ sep ++ suffixed)
        | some ratio =>
          if num < ratio then some (sign ++ dec num ++ sep ++ suffixed)
          else timeLoopN f negative us (num / ratio) (dec (num - num / ratio * ratio) ++ short)

theorem amount_eq (n : Nat) (u : String) : amount n u = dec n ++ u.toList := rfl

theorem amounts_eq (n : Nat) (u v : String) : amounts n u v = dec n ++ (if n = 1 then u else v).toList := rfl

theorem decInt_nat (n : Nat) : decInt (n : Int) = dec n := by
  unfold decInt
  rw [if_neg (by omega)]
  simp

theorem truthyNat_pos {o : Option Nat} {n : Nat} (h : truthyNat o = some n) : 0 < n := by
  unfold truthyNat at h
  split at h
  · simp at h
  · rename_i hne
    subst h
    rcases Nat.eq_zero_or_pos n with h0 | h0
    · subst h0; exact absurd rfl hne
    · exact h0

theorem timeLoop_nat (f : TimeFormatter) (negative : Bool) (us : List TimeUnit) (n : Nat)
    (hn : 1 ≤ n) (prev : Str) :
    timeLoop f negative us (n : Rat) prev = timeLoopN f negative us n prev := by
  induction us generalizing n prev with
  | nil => rfl
  | cons u us ih =>
    unfold timeLoop timeLoopN
    have h1 : ¬ |(n : Rat)| < 1 := by
      rw [abs_of_nonneg (by positivity)]
      have : (1 : Rat) ≤ n := by exact_mod_cast hn
      linarith
    have h2 : ⌊(n : Rat)⌋ = (n : Int) := Int.floor_natCast n
    simp only [if_neg h1, h2, decInt_nat]
    have h3 : ((n : Int) ≠ 1) = (n ≠ 1) := by simp
    simp only [h3]
    have h4 : ∀ o : Nat, decide ((n : Rat) > o) = decide (n > o) := by
      intro o; simp
    have h5 : ∀ o : Nat, decide ((n : Rat) < o) = decide (n < o) := by
      intro o; simp
    have h6 : ∀ o : Nat, ((n : Rat) < o) = (n < o) := by
      intro o; simp
    simp only [h4, h5, h6]
    cases hr : truthyNat u.inNext with
    | none => rfl
    | some ratio =>
      have hpos := truthyNat_pos hr
      simp only
      have e1 : ⌊(n : Rat) / (ratio : Rat)⌋ = ((n / ratio : Nat) : Int) := by
        rw [Rat.floor_natCast_div_natCast]; rfl
      rw [e1]
      by_cases hlt : n < ratio
      · simp only [if_pos hlt]
        rfl
      · simp only [if_neg hlt]
        have e2 : ⌊(n : Rat) - (((n / ratio : Nat) : Int) : Rat) * (ratio : Rat)⌋
            = ((n - n / ratio * ratio : Nat) : Int) := by
          have hle : n / ratio * ratio ≤ n := Nat.div_mul_le_self n ratio
          have : (n : Rat) - (((n / ratio : Nat) : Int) : Rat) * (ratio : Rat)
              = ((n - n / ratio * ratio : Nat) : Rat) := by
            push_cast [Nat.cast_sub hle]
            rfl
          rw [this, Int.floor_natCast]
        rw [e2, decInt_nat]
        have := ih (n / ratio) (Nat.div_pos (by omega) hpos)
          (dec (n - n / ratio * ratio) ++ u.short)
        simp only [Int.cast_natCast] at this ⊢
        rw [this]
        rfl

/-- The first unit of the presets: seconds, which may have a fraction. -/
theorem timeLoop_first (f : TimeFormatter) (negative : Bool) (name : Str) (us : List TimeUnit)
    (x : Rat) (hx : 1 ≤ x) :
    timeLoop f negative (⟨name, some 60, none, none, none⟩ :: us) x []
      = timeLoopN f negative (⟨name, some 60, none, none, none⟩ :: us) ⌊x⌋₊ [] := by
  have hx0 : 0 ≤ x := by linarith
  have h1 : ¬ |x| < 1 := by rw [abs_of_nonneg hx0]; linarith
  have h2 : ⌊x⌋ = ((⌊x⌋₊ : Nat) : Int) := (Int.natCast_floor_eq_floor hx0).symm
  have h3 : ∀ n : Nat, ((n : Int) ≠ 1) = (n ≠ 1) := by intro n; simp
  have h4 : (x < ((60 : Nat) : Rat)) = (⌊x⌋₊ < 60) := by
    rw [Nat.floor_lt hx0]
  unfold timeLoop timeLoopN
  simp only [truthyNat, if_neg h1, h2, decInt_nat, h3, h4, Bool.false_eq_true, if_false]
  by_cases hlt : ⌊x⌋₊ < 60
  · simp only [if_pos hlt]
  · simp only [if_neg hlt]
    have e1 : ⌊x / ((60 : Nat) : Rat)⌋ = ((⌊x⌋₊ / 60 : Nat) : Int) := by
      rw [Int.floor_div_natCast, h2]; rfl
    have e2 : ⌊x - (((⌊x⌋₊ / 60 : Nat) : Int) : Rat) * ((60 : Nat) : Rat)⌋
        = ((⌊x⌋₊ - ⌊x⌋₊ / 60 * 60 : Nat) : Int) := by
      have hle : ⌊x⌋₊ / 60 * 60 ≤ ⌊x⌋₊ := Nat.div_mul_le_self _ _
      have : x - (((⌊x⌋₊ / 60 : Nat) : Int) : Rat) * ((60 : Nat) : Rat)
          = x - ((⌊x⌋₊ / 60 * 60 : Nat) : Int) := by push_cast; rfl
      rw [this, Int.floor_sub_intCast, h2]
      omega
    rw [e1, e2, decInt_nat]
    have := timeLoop_nat f negative us (⌊x⌋₊ / 60) (by omega)
      (dec (⌊x⌋₊ - ⌊x⌋₊ / 60 * 60) ++ (⟨name, some 60, none, none, none⟩ : TimeUnit).short)
    simp only [Int.cast_natCast] at this ⊢
    rw [this]

theorem isClose_zero {x : Rat} (h0 : 0 ≤ x) : isClose x 0 (1 / 1000) = decide (x ≤ 1 / 1000) := by
  unfold isClose
  simp only [sub_zero, abs_zero, abs_of_nonneg h0, max_eq_left h0]
  congr 1
  apply propext
  constructor
  · intro h
    rcases le_max_iff.mp h with h | h
    · have : x = 0 := by linarith
      subst this; norm_num
    · exact h
  · intro h; exact le_max_of_le_right h

theorem raw_small (f : TimeFormatter) (negative : Bool) (name : Str) (us : List TimeUnit)
    (x : Rat) (h0 : 0 ≤ x) (hx : x < 1) :
    timeLoop f negative (⟨name, some 60, none, none, none⟩ :: us) x []
      = some (if negative then "~0".toList ++ f.unitSeparator
            ++ (if f.pluralSuffix ≠ [] then name ++ f.pluralSuffix else name)
          else if x ≤ 1 / 1000 then "0".toList ++ f.unitSeparator
            ++ (if f.pluralSuffix ≠ [] then name ++ f.pluralSuffix else name)
          else "<1".toList ++ f.unitSeparator ++ name) := by
  have h1 : |x| < 1 := by rw [abs_of_nonneg h0]; exact hx
  have h2 : ⌊x⌋ = 0 := Int.floor_eq_zero_iff.mpr ⟨h0, hx⟩
  unfold timeLoop
  simp only [truthyNat, if_pos h1, h2, isClose_zero h0, decide_eq_true_eq, Bool.false_eq_true,
    if_false]
  by_cases hn : negative = true
  · simp [hn]
  · by_cases hc : x ≤ 1 / 1000
    · simp only [if_neg hn, if_pos hc]; simp
    · simp only [if_neg hn, if_neg hc]

theorem rawN3 (t : Nat) :
    (timeLoopN timeFormatter3 false timeFormatter3.units t []).getD "ERR".toList
      = timeText3 t := by
  unfold timeText3 minutesIn hoursIn daysIn
  simp only [timeFormatter3, timeLoopN, truthyNat, Bool.false_eq_true, if_false, ne_eq,
    not_true_eq_false, false_and, List.nil_append, decide_eq_true_eq, List.append_nil]
  rw [show t / 60 / 60 = t / 3600 by omega, show t / 3600 / 24 = t / 86400 by omega]
  by_cases h1 : t < 60
  · simp [h1, amount_eq]
  · by_cases h2 : t < 3600
    · have : t / 60 < 60 := by omega
      simp [h1, h2, this, amount_eq]
    · have n2 : ¬ t / 60 < 60 := by omega
      by_cases h3 : t < 86400
      · have : t / 3600 < 24 := by omega
        simp [h1, h2, n2, h3, this, amount_eq]
      · have n3 : ¬ t / 3600 < 24 := by omega
        by_cases h4 : t < 8640000
        · have : ¬ t / 86400 > 99 := by omega
          simp only [if_neg h1, if_neg h2, if_neg n2, if_neg h3, if_neg n3, if_pos h4,
            if_neg this]
          rfl
        · have : t / 86400 > 99 := by omega
          simp only [if_neg h1, if_neg h2, if_neg n2, if_neg h3, if_neg n3, if_neg h4,
            if_pos this]
          rfl

theorem rawN4 (t : Nat) :
    (timeLoopN timeFormatter4 false timeFormatter4.units t []).getD "ERRO".toList
      = timeText4 t := by
  unfold timeText4 minutesIn hoursIn daysIn monthsIn yearsIn
  simp only [timeFormatter4, timeLoopN, truthyNat, Bool.false_eq_true, if_false, ne_eq,
    not_true_eq_false, false_and, List.nil_append, decide_eq_true_eq, List.append_nil]
  rw [show t / 60 / 60 = t / 3600 by omega, show t / 3600 / 24 = t / 86400 by omega,
    show t / 86400 / 30 = t / 2592000 by omega, show t / 2592000 / 12 = t / 31104000 by omega]
  by_cases h1 : t < 60
  · simp [h1, amount_eq]
  by_cases h2 : t < 3600
  · have : t / 60 < 60 := by omega
    simp [h1, h2, this, amount_eq]
  have n2 : ¬ t / 60 < 60 := by omega
  by_cases h3 : t < 86400
  · have : t / 3600 < 24 := by omega
    simp [h1, h2, n2, h3, this, amount_eq]
  have n3 : ¬ t / 3600 < 24 := by omega
  by_cases h4 : t < 2592000
  · have : t / 86400 < 30 := by omega
    simp [h1, h2, n2, h3, n3, h4, this, amount_eq]
  have n4 : ¬ t / 86400 < 30 := by omega
  by_cases h5 : t < 31104000
  · have : t / 2592000 < 12 := by omega
    simp [h1, h2, n2, h3, n3, h4, n4, h5, this, amount_eq]
  have n5 : ¬ t / 2592000 < 12 := by omega
  by_cases h6 : t < 3110400000
  · have : ¬ t / 31104000 > 99 := by omega
    simp only [if_neg h1, if_neg h2, if_neg n2, if_neg h3, if_neg n3, if_neg h4, if_neg n4,
      if_neg h5, if_neg n5, if_pos h6, if_neg this, amount_eq, Option.getD_some]
    simp
  · have : t / 31104000 > 99 := by omega
    simp only [if_neg h1, if_neg h2, if_neg n2, if_neg h3, if_neg n3, if_neg h4, if_neg n4,
      if_neg h5, if_neg n5, if_neg h6, if_pos this]
    rfl

theorem rawN6 (t : Nat) :
    (timeLoopN timeFormatter6 false timeFormatter6.units t []).getD "OVERFL".toList
      = timeText6 t := by
  unfold timeText6 minutesIn hoursIn daysIn monthsIn yearsIn
  simp only [timeFormatter6, timeLoopN, truthyNat, Bool.false_eq_true, if_false, ne_eq,
    not_true_eq_false, false_and, List.nil_append, decide_eq_true_eq, List.append_nil]
  rw [show t / 60 / 60 = t / 3600 by omega, show t / 3600 / 24 = t / 86400 by omega,
    show t / 86400 / 30 = t / 2592000 by omega, show t / 2592000 / 12 = t / 31104000 by omega,
    show t / 60 - t / 3600 * 60 = t / 60 % 60 by omega,
    show t / 3600 - t / 86400 * 24 = t / 3600 % 24 by omega]
  by_cases h1 : t < 60
  · simp [h1, amount_eq]
  by_cases h2 : t < 3600
  · have : t / 60 < 60 := by omega
    simp [h1, h2, this, amount_eq]
  have n2 : ¬ t / 60 < 60 := by omega
  by_cases h2' : t < 36000
  · have : t / 3600 < 10 := by omega
    simp [h1, h2, n2, h2', this, amount_eq, TimeUnit.short]
  have n2' : ¬ t / 3600 < 10 := by omega
  by_cases h3 : t < 86400
  · have : t / 3600 < 24 := by omega
    simp [h1, h2, n2, h2', n2', h3, this, amount_eq]
  have n3 : ¬ t / 3600 < 24 := by omega
  by_cases h3' : t < 864000
  · have : t / 86400 < 10 := by omega
    simp [h1, h2, n2, h2', n2', h3, n3, h3', this, amount_eq, TimeUnit.short]
  have n3' : ¬ t / 86400 < 10 := by omega
  by_cases h4 : t < 2592000
  · have : t / 86400 < 30 := by omega
    simp [h1, h2, n2, h2', n2', h3, n3, h3', n3', h4, this, amount_eq]
  have n4 : ¬ t / 86400 < 30 := by omega
  by_cases h5 : t < 31104000
  · have : t / 2592000 < 12 := by omega
    simp [h1, h2, n2, h2', n2', h3, n3, h3', n3', h4, n4, h5, this, amount_eq]
  have n5 : ¬ t / 2592000 < 12 := by omega
  by_cases h6 : t < 3110400000
  · have : ¬ t / 31104000 > 99 := by omega
    simp only [if_neg h1, if_neg h2, if_neg n2, if_neg h2', if_neg n2', if_neg h3, if_neg n3,
      if_neg h3', if_neg n3', if_neg h4, if_neg n4,
      if_neg h5, if_neg n5, if_pos h6, if_neg this, amount_eq, Option.getD_some]
    simp
  · have : t / 31104000 > 99 := by omega
    simp only [if_neg h1, if_neg h2, if_neg n2, if_neg h2', if_neg n2', if_neg h3, if_neg n3,
      if_neg h3', if_neg n3', if_neg h4, if_neg n4,
      if_neg h5, if_neg n5, if_neg h6, if_pos this]
    rfl

theorem rawN10 (t : Nat) (neg : Bool) :
    timeLoopN timeFormatter10 neg timeFormatter10.units t []
      = if t < 31104000000 then some ((if neg then ['-'] else []) ++ timeText10 t) else none := by
  unfold timeText10 minutesIn hoursIn daysIn monthsIn yearsIn
  simp only [amounts_eq]
  simp only [timeFormatter10, timeLoopN, truthyNat, Bool.false_eq_true, if_false, ne_eq,
    List.nil_append, decide_eq_true_eq, List.append_nil]
  generalize (if neg = true then ['-'] else []) = sg
  rw [show t / 60 / 60 = t / 3600 by omega, show t / 3600 / 24 = t / 86400 by omega,
    show t / 86400 / 30 = t / 2592000 by omega, show t / 2592000 / 12 = t / 31104000 by omega,
    show t / 60 - t / 3600 * 60 = t / 60 % 60 by omega,
    show t / 3600 - t / 86400 * 24 = t / 3600 % 24 by omega]
  by_cases h1 : t < 60
  · have h0 : t < 31104000000 := by omega
    by_cases ho : t = 1
    · subst ho; simp
    · simp [h1, h0, ho]
  by_cases h2 : t < 3600
  · have h0 : t < 31104000000 := by omega
    have : t / 60 < 60 := by omega
    by_cases ho : t / 60 = 1
    · simp [h1, h2, this, h0, ho]
    · simp [h1, h2, this, h0, ho]
  have n2 : ¬ t / 60 < 60 := by omega
  by_cases h3 : t < 86400
  · have h0 : t < 31104000000 := by omega
    have : t / 3600 < 24 := by omega
    simp [h1, h2, n2, h3, this, amount_eq, TimeUnit.short, h0]
  have n3 : ¬ t / 3600 < 24 := by omega
  by_cases h3' : t < 864000
  · have h0 : t < 31104000000 := by omega
    have : t / 86400 < 10 := by omega
    simp [h1, h2, n2, h3, n3, h3', this, amount_eq, TimeUnit.short, h0]
  have n3' : ¬ t / 86400 < 10 := by omega
  by_cases h4 : t < 2592000
  · have h0 : t < 31104000000 := by omega
    have : t / 86400 < 30 := by omega
    by_cases ho : t / 86400 = 1
    · omega
    · simp [h1, h2, n2, h3, n3, h3', n3', h4, this, h0, ho]
  have n4 : ¬ t / 86400 < 30 := by omega
  by_cases h5 : t < 31104000
  · have h0 : t < 31104000000 := by omega
    have : t / 2592000 < 12 := by omega
    by_cases ho : t / 2592000 = 1
    · simp [h1, h2, n2, h3, n3, h3', n3', h4, n4, h5, this, h0, ho]
    · simp [h1, h2, n2, h3, n3, h3', n3', h4, n4, h5, this, h0, ho]
  have n5 : ¬ t / 2592000 < 12 := by omega
  by_cases h6 : t < 31104000000
  · have : ¬ t / 31104000 > 999 := by omega
    simp only [if_neg h1, if_neg h2, if_neg n2, if_neg h3, if_neg n3,
      if_neg h3', if_neg n3', if_neg h4, if_neg n4,
      if_neg h5, if_neg n5, if_pos h6, if_neg this]
    by_cases ho : t / 31104000 = 1
    · simp [ho]
    · simp [ho]
  · have : t / 31104000 > 999 := by omega
    simp only [if_neg h1, if_neg h2, if_neg n2, if_neg h3, if_neg n3,
      if_neg h3', if_neg n3', if_neg h4, if_neg n4,
      if_neg h5, if_neg n5, if_neg h6, if_pos this]

theorem timeRegistry_eq : timeRegistry
    = some [(3, timeFormatter3), (4, timeFormatter4), (6, timeFormatter6),
        (10, timeFormatter10)] := by
  decide +kernel

theorem format_form3 (seconds : Rat) :
    timeFormatter3.format 3 seconds = timeText seconds 3 := by
  have h0 : 0 ≤ |seconds| := abs_nonneg _
  have e : timeFormatter3.formatRaw seconds
      = timeLoop timeFormatter3 false timeFormatter3.units |seconds| [] := rfl
  unfold TimeFormatter.format timeText
  simp only [e, Bool.false_eq_true, if_false]
  by_cases h1 : |seconds| < 1
  · have : timeLoop timeFormatter3 false timeFormatter3.units |seconds| [] = _ :=
      raw_small timeFormatter3 false "s".toList (timeFormatter3.units.drop 1) |seconds| h0 h1
    rw [this]
    by_cases h2 : |seconds| ≤ 1 / 1000
    · simp only [Bool.false_eq_true, if_false, if_pos h1, if_pos h2]; rfl
    · simp only [Bool.false_eq_true, if_false, if_pos h1, if_neg h2]; rfl
  · have : timeLoop timeFormatter3 false timeFormatter3.units |seconds| []
        = timeLoopN timeFormatter3 false timeFormatter3.units ⌊|seconds|⌋₊ [] :=
      timeLoop_first timeFormatter3 false "s".toList (timeFormatter3.units.drop 1)
        |seconds| (by linarith)
    rw [this]
    have r := rawN3 ⌊|seconds|⌋₊
    simp only [if_neg h1]
    have fin : timeText3 ⌊|seconds|⌋₊ = (match
        timeLoopN timeFormatter3 false timeFormatter3.units ⌊|seconds|⌋₊ [] with
        | some r => r
        | none => timeFormatter3.overflowMsg.take 3) := by
      rw [← r]
      cases timeLoopN timeFormatter3 false timeFormatter3.units ⌊|seconds|⌋₊ [] <;> rfl
    exact fin.symm

theorem format_form4 (seconds : Rat) :
    timeFormatter4.format 4 seconds = timeText seconds 4 := by
  have h0 : 0 ≤ |seconds| := abs_nonneg _
  have e : timeFormatter4.formatRaw seconds
      = timeLoop timeFormatter4 false timeFormatter4.units |seconds| [] := rfl
  unfold TimeFormatter.format timeText
  simp only [e, Bool.false_eq_true, if_false]
  by_cases h1 : |seconds| < 1
  · have : timeLoop timeFormatter4 false timeFormatter4.units |seconds| [] = _ :=
      raw_small timeFormatter4 false "s".toList (timeFormatter4.units.drop 1) |seconds| h0 h1
    rw [this]
    by_cases h2 : |seconds| ≤ 1 / 1000
    · simp only [Bool.false_eq_true, if_false, if_pos h1, if_pos h2]; rfl
    · simp only [Bool.false_eq_true, if_false, if_pos h1, if_neg h2]; rfl
  · have : timeLoop timeFormatter4 false timeFormatter4.units |seconds| []
        = timeLoopN timeFormatter4 false timeFormatter4.units ⌊|seconds|⌋₊ [] :=
      timeLoop_first timeFormatter4 false "s".toList (timeFormatter4.units.drop 1)
        |seconds| (by linarith)
    rw [this]
    have r := rawN4 ⌊|seconds|⌋₊
    simp only [if_neg h1]
    have fin : timeText4 ⌊|seconds|⌋₊ = (match
        timeLoopN timeFormatter4 false timeFormatter4.units ⌊|seconds|⌋₊ [] with
        | some r => r
        | none => timeFormatter4.overflowMsg.take 4) := by
      rw [← r]
      cases timeLoopN timeFormatter4 false timeFormatter4.units ⌊|seconds|⌋₊ [] <;> rfl
    exact fin.symm

theorem format_form6 (seconds : Rat) :
    timeFormatter6.format 6 seconds = timeText seconds 6 := by
  have h0 : 0 ≤ |seconds| := abs_nonneg _
  have e : timeFormatter6.formatRaw seconds
      = timeLoop timeFormatter6 false timeFormatter6.units |seconds| [] := rfl
  unfold TimeFormatter.format timeText
  simp only [e, Bool.false_eq_true, if_false]
  by_cases h1 : |seconds| < 1
  · have : timeLoop timeFormatter6 false timeFormatter6.units |seconds| [] = _ :=
      raw_small timeFormatter6 false "sec".toList (timeFormatter6.units.drop 1) |seconds| h0 h1
    rw [this]
    by_cases h2 : |seconds| ≤ 1 / 1000
    · simp only [Bool.false_eq_true, if_false, if_pos h1, if_pos h2]; rfl
    · simp only [Bool.false_eq_true, if_false, if_pos h1, if_neg h2]; rfl
  · have : timeLoop timeFormatter6 false timeFormatter6.units |seconds| []
        = timeLoopN timeFormatter6 false timeFormatter6.units ⌊|seconds|⌋₊ [] :=
      timeLoop_first timeFormatter6 false "sec".toList (timeFormatter6.units.drop 1)
        |seconds| (by linarith)
    rw [this]
    have r := rawN6 ⌊|seconds|⌋₊
    simp only [if_neg h1]
    have fin : timeText6 ⌊|seconds|⌋₊ = (match
        timeLoopN timeFormatter6 false timeFormatter6.units ⌊|seconds|⌋₊ [] with
        | some r => r
        | none => timeFormatter6.overflowMsg.take 6) := by
      rw [← r]
      cases timeLoopN timeFormatter6 false timeFormatter6.units ⌊|seconds|⌋₊ [] <;> rfl
    exact fin.symm

theorem format_form10 (seconds : Rat) :
    timeFormatter10.format 10 seconds = timeText seconds 10 := by
  have h0 : 0 ≤ |seconds| := abs_nonneg _
  have e : timeFormatter10.formatRaw seconds
      = timeLoop timeFormatter10 (decide (seconds < 0)) timeFormatter10.units |seconds| [] := rfl
  unfold TimeFormatter.format timeText
  simp only [e, Bool.false_eq_true, if_false, if_true]
  by_cases h1 : |seconds| < 1
  · have : timeLoop timeFormatter10 (decide (seconds < 0)) timeFormatter10.units |seconds| [] = _ :=
      raw_small timeFormatter10 (decide (seconds < 0)) "sec".toList
        (timeFormatter10.units.drop 1) |seconds| h0 h1
    rw [this]
    simp only [if_pos h1, decide_eq_true_eq]
    by_cases hn : seconds < 0
    · simp only [if_pos hn]; rfl
    · by_cases h2 : |seconds| ≤ 1 / 1000
      · simp only [if_neg hn, if_pos h2]; rfl
      · simp only [if_neg hn, if_neg h2]; rfl
  · have : timeLoop timeFormatter10 (decide (seconds < 0)) timeFormatter10.units |seconds| []
        = timeLoopN timeFormatter10 (decide (seconds < 0)) timeFormatter10.units ⌊|seconds|⌋₊ [] :=
      timeLoop_first timeFormatter10 (decide (seconds < 0)) "sec".toList
        (timeFormatter10.units.drop 1) |seconds| (by linarith)
    rw [this, rawN10]
    simp only [if_neg h1, decide_eq_true_eq]
    by_cases h2 : ⌊|seconds|⌋₊ < 31104000000
    · simp only [if_pos h2]
    · simp only [if_neg h2]
      rfl

/-- C54.  For every width from 3 on, a time delta is described by the longest
form that fits: its whole number of the largest unit that is at least one, in
the longer forms together with the next smaller unit, and an overflow message
from 100 days, 100 years or 1000 years on.  Without a width the longest form is
taken. -/
theorem C54_text (seconds : Rat) :
    (∀ n : Int, 3 ≤ n → formatTimeDelta seconds (some n) = .ok (timeText seconds (timeForm n)))
    ∧ formatTimeDelta seconds none = .ok (timeText seconds 10) := by
  unfold formatTimeDelta formatTimeDeltaIn
  rw [timeRegistry_eq]
  constructor
  · intro n hn
    have pick : timeMatching [(3, timeFormatter3), (4, timeFormatter4), (6, timeFormatter6),
        (10, timeFormatter10)] n
        = if n < 4 then some (3, timeFormatter3) else if n < 6 then some (4, timeFormatter4)
          else if n < 10 then some (6, timeFormatter6) else some (10, timeFormatter10) := by
      by_cases h1 : n < 10
      · obtain rfl | rfl | rfl | rfl | rfl | rfl | rfl : n = 3 ∨ n = 4 ∨ n = 5 ∨ n = 6 ∨ n = 7
            ∨ n = 8 ∨ n = 9 := by omega
        all_goals decide +kernel
      · rw [if_neg (by omega), if_neg (by omega), if_neg h1]
        by_cases h2 : n = 10
        · subst h2; decide +kernel
        · unfold timeMatching timeByLen
          have a3 : ¬ ((3 : Nat) : Int) = n := by omega
          have a4 : ¬ ((4 : Nat) : Int) = n := by omega
          have a6 : ¬ ((6 : Nat) : Int) = n := by omega
          have a10 : ¬ ((10 : Nat) : Int) = n := by omega
          have b3 : ((3 : Nat) : Int) ≤ n := by omega
          have b4 : ((4 : Nat) : Int) ≤ n := by omega
          have b6 : ((6 : Nat) : Int) ≤ n := by omega
          have b10 : ((10 : Nat) : Int) ≤ n := by omega
          simp only [List.find?, decide_eq_false a3, decide_eq_false a4, decide_eq_false a6,
            decide_eq_false a10, List.map, List.filter, decide_eq_true b3, decide_eq_true b4,
            decide_eq_true b6, decide_eq_true b10]
          decide +kernel
    simp only [pick]
    unfold timeForm
    by_cases h1 : n < 4
    · simp only [if_pos h1, format_form3]
    by_cases h2 : n < 6
    · simp only [if_neg h1, if_pos h2, format_form4]
    by_cases h3 : n < 10
    · simp only [if_neg h1, if_neg h2, if_pos h3, format_form6]
    · simp only [if_neg h1, if_neg h2, if_neg h3, format_form10]
  · have pick : timeLongest [(3, timeFormatter3), (4, timeFormatter4), (6, timeFormatter6),
        (10, timeFormatter10)] = some (10, timeFormatter10) := by decide +kernel
    simp only [pick, format_form10]

theorem dec_len {n : Nat} (k : Nat) (hk : 0 < k) (h : n < 10 ^ k) : (dec n).length ≤ k :=
  (Nat.length_toDigits_le_iff (by decide) hk).2 h

theorem amount_len {n : Nat} (k : Nat) (u : String) (hk : 0 < k) (h : n < 10 ^ k) :
    (amount n u).length ≤ k + u.toList.length := by
  rw [amount_eq]
  rw [List.length_append]
  have := dec_len k hk h
  omega

theorem amounts_len {n : Nat} (k : Nat) (u v : String) (hk : 0 < k) (h : n < 10 ^ k)
    (huv : u.toList.length ≤ v.toList.length) :
    (amounts n u v).length ≤ k + v.toList.length := by
  rw [amounts_eq]
  rw [List.length_append]
  have := dec_len k hk h
  split <;> omega

theorem timeText3_len (t : Nat) : (timeText3 t).length ≤ 3 := by
  unfold timeText3 minutesIn hoursIn daysIn
  repeat' split
  · exact amount_len 2 "s" (by decide) (by omega)
  · exact amount_len 2 "m" (by decide) (by omega)
  · exact amount_len 2 "h" (by decide) (by omega)
  · exact amount_len 2 "d" (by decide) (by omega)
  · decide

theorem timeText4_len (t : Nat) : (timeText4 t).length ≤ 4 := by
  unfold timeText4 minutesIn hoursIn daysIn monthsIn yearsIn
  repeat' split
  · exact amount_len 2 " s" (by decide) (by omega)
  · exact amount_len 2 " m" (by decide) (by omega)
  · exact amount_len 2 " h" (by decide) (by omega)
  · exact amount_len 2 " d" (by decide) (by omega)
  · exact amount_len 2 " M" (by decide) (by omega)
  · exact amount_len 2 " y" (by decide) (by omega)
  · decide

theorem timeText6_len (t : Nat) : (timeText6 t).length ≤ 6 := by
  unfold timeText6 minutesIn hoursIn daysIn monthsIn yearsIn
  repeat' split
  · exact amount_len 2 " sec" (by decide) (by omega)
  · exact amount_len 2 " min" (by decide) (by omega)
  · rw [List.length_append]
    have a := amount_len (n := t / 3600) 1 "h " (by decide) (by omega)
    have b := amount_len (n := t / 60 % 60) 2 "m" (by decide) (by omega)
    simp only [show "h ".toList.length = 2 from rfl, show "m".toList.length = 1 from rfl] at a b
    omega
  · have := amount_len (n := t / 3600) 2 " hr" (by decide) (by omega)
    simp only [show " hr".toList.length = 3 from rfl] at this
    omega
  · rw [List.length_append]
    have a := amount_len (n := t / 86400) 1 "d " (by decide) (by omega)
    have b := amount_len (n := t / 3600 % 24) 2 "h" (by decide) (by omega)
    simp only [show "d ".toList.length = 2 from rfl, show "h".toList.length = 1 from rfl] at a b
    omega
  · exact amount_len 2 " day" (by decide) (by omega)
  · exact amount_len 2 " mon" (by decide) (by omega)
  · have := amount_len (n := t / 31104000) 2 " yr" (by decide) (by omega)
    simp only [show " yr".toList.length = 3 from rfl] at this
    omega
  · decide

theorem timeText10_len (t : Nat) (h : t < 31104000000) : (timeText10 t).length ≤ 9 := by
  unfold timeText10 minutesIn hoursIn daysIn monthsIn yearsIn
  repeat' split
  · have := amounts_len (n := t) 2 " sec" " secs" (by decide) (by omega) (by decide)
    simp only [show " secs".toList.length = 5 from rfl] at this
    omega
  · have := amounts_len (n := t / 60) 2 " min" " mins" (by decide) (by omega) (by decide)
    simp only [show " mins".toList.length = 5 from rfl] at this
    omega
  · rw [List.length_append]
    have a := amount_len (n := t / 3600) 2 "h " (by decide) (by omega)
    have b := amount_len (n := t / 60 % 60) 2 "min" (by decide) (by omega)
    simp only [show "h ".toList.length = 2 from rfl, show "min".toList.length = 3 from rfl] at a b
    omega
  · rw [List.length_append]
    have a := amount_len (n := t / 86400) 1 "d " (by decide) (by omega)
    have b := amount_len (n := t / 3600 % 24) 2 "h" (by decide) (by omega)
    simp only [show "d ".toList.length = 2 from rfl, show "h".toList.length = 1 from rfl] at a b
    omega
  · have := amounts_len (n := t / 86400) 2 " day" " days" (by decide) (by omega) (by decide)
    simp only [show " days".toList.length = 5 from rfl] at this
    omega
  · have := amounts_len (n := t / 2592000) 2 " month" " months" (by decide) (by omega) (by decide)
    simp only [show " months".toList.length = 7 from rfl] at this
    omega
  · have := amounts_len (n := t / 31104000) 3 " year" " years" (by decide) (by omega) (by decide)
    simp only [show " years".toList.length = 6 from rfl] at this
    omega

theorem timeText_length (seconds : Rat) :
    (timeText seconds 3).length ≤ 3 ∧ (timeText seconds 4).length ≤ 4
      ∧ (timeText seconds 6).length ≤ 6 ∧ (timeText seconds 10).length ≤ 10 := by
  refine ⟨?_, ?_, ?_, ?_⟩
  · show List.length (if |seconds| < 1 then _ else timeText3 _) ≤ 3
    split
    · split <;> decide
    · exact timeText3_len _
  · show List.length (if |seconds| < 1 then _ else timeText4 _) ≤ 4
    split
    · split <;> decide
    · exact timeText4_len _
  · show List.length (if |seconds| < 1 then _ else timeText6 _) ≤ 6
    split
    · split <;> decide
    · exact timeText6_len _
  · show List.length (if |seconds| < 1 then _ else if _ then _ else _) ≤ 10
    split
    · split
      · decide
      · split <;> decide
    · split
      · rename_i h
        have := timeText10_len _ h
        rw [List.length_append]
        split
        · simp only [List.length_cons, List.length_nil]; omega
        · simp only [List.length_nil]; omega
      · decide

/-- C49.  The text of a time delta has at most the asked number of characters,
for every number of seconds and every width from 3 on; without a width it has
at most ten. -/
theorem C49_fits (seconds : Rat) :
    (∀ n : Int, 3 ≤ n → ∃ r, formatTimeDelta seconds (some n) = .ok r ∧ (r.length : Int) ≤ n)
    ∧ ∃ r, formatTimeDelta seconds none = .ok r ∧ r.length ≤ 10 := by
  obtain ⟨h1, h2⟩ := C54_text seconds
  obtain ⟨l3, l4, l6, l10⟩ := timeText_length seconds
  refine ⟨fun n hn => ⟨_, h1 n hn, ?_⟩, _, h2, l10⟩
  unfold timeForm
  split
  · omega
  · split
    · omega
    · split <;> omega

/-- C49.  Widths below 3 are refused. -/
theorem C49_short (seconds : Rat) (n : Int) (h : n < 3) :
    formatTimeDelta seconds (some n) = .error .valueError := by
  have pick : timeMatching [(3, timeFormatter3), (4, timeFormatter4), (6, timeFormatter6),
      (10, timeFormatter10)] n = none := by
    unfold timeMatching timeByLen
    have a3 : ¬ ((3 : Nat) : Int) = n := by omega
    have a4 : ¬ ((4 : Nat) : Int) = n := by omega
    have a6 : ¬ ((6 : Nat) : Int) = n := by omega
    have a10 : ¬ ((10 : Nat) : Int) = n := by omega
    have b3 : ¬ ((3 : Nat) : Int) ≤ n := by omega
    have b4 : ¬ ((4 : Nat) : Int) ≤ n := by omega
    have b6 : ¬ ((6 : Nat) : Int) ≤ n := by omega
    have b10 : ¬ ((10 : Nat) : Int) ≤ n := by omega
    simp only [List.find?, decide_eq_false a3, decide_eq_false a4, decide_eq_false a6,
      decide_eq_false a10, List.map, List.filter, decide_eq_false b3, decide_eq_false b4,
      decide_eq_false b6, decide_eq_false b10, maxNat?]
  unfold formatTimeDelta formatTimeDeltaIn
  rw [timeRegistry_eq]
  simp only [pick]

theorem okEq {x : Except Err Str} {r : Str}
    (h : (match x with | .ok a => some a | .error _ => none) = some r) : x = .ok r := by
  cases x with
  | ok a => simp at h; rw [h]
  | error e => simp at h

/-- Four hours and 17 minutes, in the four forms; the interval before and at an
overflow. -/
example : formatTimeDelta 15479 (some 3) = .ok "4h".toList
    ∧ formatTimeDelta 15479 (some 5) = .ok "4 h".toList
    ∧ formatTimeDelta 15479 (some 9) = .ok "4h 17m".toList
    ∧ formatTimeDelta (-15479) (some 10) = .ok "-4h 17min".toList
    ∧ formatTimeDelta (1 / 2) (some 4) = .ok "<1 s".toList
    ∧ formatTimeDelta 8639999 (some 3) = .ok "99d".toList
    ∧ formatTimeDelta 8640000 (some 3) = .ok "ERR".toList := by
  refine ⟨?_, ?_, ?_, ?_, ?_, ?_, ?_⟩ <;> exact okEq (by decide +kernel)

end Kolombos
