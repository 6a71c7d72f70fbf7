import Verif.Props.Units
import Verif.Props.Number
/-
C72: values out of the range of the prefixes.
-/
set_option linter.unusedSimpArgs false

namespace Kolombos
open Spec

theorem overflow_shown {F : PrefixedUnit} {k : Nat} (hk : F.maxPrefixLen = some k) (hsep : F.unitSeparator = [' ']) {N : Nat} (hN : F.maxValueLen = N) (hN2 : 2 ≤ N)
    {v c : Rat} (hv : v ≠ 0) (hc : 0 < c) (h : |v| / c < 10 ^ (N - (minusOf v).length)) :
    ∃ d t q, 1 ≤ d ∧ |v| / c < 10 ^ d ∧ (d = 1 ∨ 10 ^ (d - 1) ≤ |v| / c) ∧
      F.overflow (v / c) = some (minusOf v ++ t ++ ' ' :: pyStrip (List.replicate k '?' ++ F.unit)) ∧
      IsDecimal t q (lastUnit (N - (minusOf v).length) d) ∧ BestIn (N - (minusOf v).length) d (|v| / c) q := by
  have hml : (minusOf v).length ≤ 1 := by unfold minusOf; split <;> simp
  have ha : |v / c| = |v| / c := by rw [abs_div, abs_of_pos hc]
  obtain ⟨d, t, q, e1, e2, e3, e4, e5, e6, e7, _⟩ := fitting (div_ne_zero hv hc.ne') (n := N - (minusOf v).length) (by omega) (by rw [ha]; exact h)
  rw [minusOf_scaled hc] at e5
  obtain ⟨t', s1, s2, _⟩ := pyStrip_decimal e6 v
  rw [ha] at e2 e3 e7
  refine ⟨d, t', q, e1, e2, e3, ?_, s2, e7⟩
  unfold PrefixedUnit.overflow
  have hN' : F.maxValueLen = ((N - (minusOf v).length : Nat) : Int) + (minusOf v).length := by
    rw [hN]; omega
  rw [hN', e5, hk, hsep]
  simp [s1]

theorem overflow_none {F : PrefixedUnit} {N : Nat} (hN : F.maxValueLen = N) (hN2 : 2 ≤ N) {v c : Rat} (hc : 0 < c)
    (h : 10 ^ (N - (minusOf v).length) ≤ |v| / c) : F.overflow (v / c) = none := by
  have hml : (minusOf v).length ≤ 1 := by unfold minusOf; split <;> simp
  have ha : |v / c| = |v| / c := by rw [abs_div, abs_of_pos hc]
  have := (C70_total (v / c) N false (by omega)).2 ⟨rfl, by rw [minusOf_scaled hc]; omega, by rw [minusOf_scaled hc, ha]; exact h⟩
  unfold PrefixedUnit.overflow
  rw [hN, this]

theorem metric_above {v : Rat} (unit : Str) (h : 10 ^ 27 ≤ |v|) : formatSiMetric v unit = siMetric.overflow (v / 10 ^ 27) := by
  have e1 : siMetric.mcoef = 1000 := rfl
  have e2 : siMetric.prefixes.length - 8 = 9 := rfl
  have hf := format_above (F := siMetric) (unit := unit) (v := v) (by rw [e1]; norm_num) 8 rfl (by decide) (by rw [e1, e2]; norm_num at h ⊢; exact h)
  rw [e1, e2] at hf
  unfold formatSiMetric
  rw [hf]
  norm_num

theorem metric_below {v : Rat} (unit : Str) (h0 : v ≠ 0) (h : |v| ≤ 1 / 10 ^ 27) : formatSiMetric v unit = siMetric.overflow (v / (1 / 10 ^ 27)) := by
  have e1 : siMetric.mcoef = 1000 := rfl
  have hf := format_below (F := siMetric) (unit := unit) (v := v) (by rw [e1]; norm_num) 8 rfl (by decide) h0
    (by rw [e1]; norm_num at h ⊢; linarith)
  rw [e1] at hf
  unfold formatSiMetric
  rw [hf]
  congr 1
  norm_num [div_eq_mul_inv]

theorem binary_above {v : Rat} (unit : Str) (h : 1024 ^ 9 ≤ |v|) : formatSiBinary v unit = siBinary.overflow (v / 1024 ^ 9) := by
  have e1 : siBinary.mcoef = 1024 := rfl
  have e2 : siBinary.prefixes.length - 8 = 9 := rfl
  have hf := format_above (F := siBinary) (unit := unit) (v := v) (by rw [e1]; norm_num) 8 rfl (by decide) (by rw [e1, e2]; exact h)
  rw [e1, e2] at hf
  exact hf

theorem binary_below {v : Rat} (unit : Str) (h0 : v ≠ 0) (h : |v| ≤ 1 / 1024 ^ 9) : formatSiBinary v unit = siBinary.overflow (v / (1 / 1024 ^ 9)) := by
  have e1 : siBinary.mcoef = 1024 := rfl
  have hf := format_below (F := siBinary) (unit := unit) (v := v) (by rw [e1]; norm_num) 8 rfl (by decide) h0
    (by rw [e1]; rw [le_div_iff₀ (by norm_num)] at h; exact h)
  rw [e1] at hf
  unfold formatSiBinary
  rw [hf]
  congr 1
  norm_num [div_eq_mul_inv]

/-- A value out of the range of the prefixes, above (`c` is 1000⁹ or 1024⁹) or below (`c` is its inverse), is shown as a multiple of
`c` with a question mark for the prefix; the unit that was asked for is left out.  The theorem is about both formatters. -/
theorem C72_outside (v : Rat) (unit : Str) :
    (∀ c : Rat, (c = 10 ^ 27 ∧ c ≤ |v| ∧ |v| < c * 10 ^ (4 - (minusOf v).length)) ∨ (c = 1 / 10 ^ 27 ∧ v ≠ 0 ∧ |v| ≤ c) →
      ∃ d t q, 1 ≤ d ∧ |v| / c < 10 ^ d ∧ (d = 1 ∨ 10 ^ (d - 1) ≤ |v| / c) ∧ formatSiMetric v unit = some (minusOf v ++ t ++ " ?".toList) ∧
        IsDecimal t q (lastUnit (4 - (minusOf v).length) d) ∧ BestIn (4 - (minusOf v).length) d (|v| / c) q) ∧
    (∀ c : Rat, (c = 1024 ^ 9 ∧ c ≤ |v| ∧ |v| < c * 10 ^ (5 - (minusOf v).length)) ∨ (c = 1 / 1024 ^ 9 ∧ v ≠ 0 ∧ |v| ≤ c) →
      ∃ d t q, 1 ≤ d ∧ |v| / c < 10 ^ d ∧ (d = 1 ∨ 10 ^ (d - 1) ≤ |v| / c) ∧ formatSiBinary v unit = some (minusOf v ++ t ++ " ?b".toList) ∧
        IsDecimal t q (lastUnit (5 - (minusOf v).length) d) ∧ BestIn (5 - (minusOf v).length) d (|v| / c) q) := by
  have hml : (minusOf v).length ≤ 1 := by unfold minusOf; split <;> simp
  have small : ∀ (N : Nat) (c : Rat), 0 < c → 2 ≤ N → |v| ≤ c → |v| / c < 10 ^ (N - (minusOf v).length) := by
    intro N c hc hN h
    have h1 : |v| / c ≤ 1 := by rw [div_le_one hc]; exact h
    have h2 : (10 : Rat) ^ 1 ≤ 10 ^ (N - (minusOf v).length) := pow_le_pow_right₀ (by norm_num) (by omega)
    linarith
  constructor
  · rintro c (⟨rfl, h1, h2⟩ | ⟨rfl, h1, h2⟩)
    · have hv : v ≠ 0 := by rintro rfl; norm_num at h1
      rw [metric_above unit h1]
      exact overflow_shown (F := siMetric) (k := 1) (by decide) rfl (N := 4) rfl (by decide) hv (by norm_num) (by rw [div_lt_iff₀ (by norm_num), mul_comm]; exact h2)
    · rw [metric_below unit h1 h2]
      exact overflow_shown (F := siMetric) (k := 1) (by decide) rfl (N := 4) rfl (by decide) h1 (by norm_num) (small 4 _ (by norm_num) (by decide) h2)
  · rintro c (⟨rfl, h1, h2⟩ | ⟨rfl, h1, h2⟩)
    · have hv : v ≠ 0 := by rintro rfl; norm_num at h1
      rw [binary_above unit h1]
      exact overflow_shown (F := siBinary) (k := 1) (by decide) rfl (N := 5) rfl (by decide) hv (by norm_num) (by rw [div_lt_iff₀ (by norm_num), mul_comm]; exact h2)
    · rw [binary_below unit h1 h2]
      exact overflow_shown (F := siBinary) (k := 1) (by decide) rfl (N := 5) rfl (by decide) h1 (by norm_num) (small 5 _ (by norm_num) (by decide) h2)

example : formatSiMetric (1234 * 10 ^ 27) "m".toList = some "1234 ?".toList ∧ formatSiMetric (4 / 10 ^ 28) "m".toList = some "0.40 ?".toList ∧
    formatSiBinary (-1024 ^ 9 * 99) "m".toList = some "-99.0 ?b".toList := by decide +kernel

/-- `ValueError` is raised exactly for values that have more digits than there is room for even then. -/
theorem C72_refused (v : Rat) (unit : Str) (hu : UnitText unit) :
    (formatSiMetric v unit = none ↔ 10 ^ 27 * 10 ^ (4 - (minusOf v).length) ≤ |v|) ∧
    (formatSiBinary v unit = none ↔ 1024 ^ 9 * 10 ^ (5 - (minusOf v).length) ≤ |v|) := by
  have hml : (minusOf v).length ≤ 1 := by unfold minusOf; split <;> simp
  have big : ∀ (N : Nat) (c : Rat), 0 < c → c * 10 ^ (N - (minusOf v).length) ≤ |v| → c ≤ |v| := by
    intro N c hc h
    have : (1 : Rat) ≤ 10 ^ (N - (minusOf v).length) := one_le_pow₀ (by norm_num)
    nlinarith
  constructor
  · constructor
    · intro h
      refine Classical.byContradiction fun hlt => ?_
      rw [not_le] at hlt
      by_cases h0 : v = 0
      · subst h0; rw [(C72_zero unit hu).1] at h; cases h
      · by_cases h1 : 10 ^ 27 ≤ |v|
        · obtain ⟨d, t, q, _, _, _, e, _⟩ := (C72_outside v unit).1 _ (.inl ⟨rfl, h1, hlt⟩)
          rw [e] at h; cases h
        · by_cases h2 : |v| ≤ 1 / 10 ^ 27
          · obtain ⟨d, t, q, _, _, _, e, _⟩ := (C72_outside v unit).1 _ (.inr ⟨rfl, h0, h2⟩)
            rw [e] at h; cases h
          · obtain ⟨k, d, t, q, _, _, _, _, _, _, e, _⟩ := C72_metric v unit hu (not_le.1 h2) (not_le.1 h1)
            rw [e] at h; cases h
    · intro h
      rw [metric_above unit (big 4 _ (by norm_num) h)]
      exact overflow_none (F := siMetric) (N := 4) rfl (by decide) (by norm_num) (by rw [le_div_iff₀ (by norm_num), mul_comm]; exact h)
  · constructor
    · intro h
      refine Classical.byContradiction fun hlt => ?_
      rw [not_le] at hlt
      by_cases h0 : v = 0
      · subst h0; rw [(C72_zero unit hu).2] at h; cases h
      · by_cases h1 : 1024 ^ 9 ≤ |v|
        · obtain ⟨d, t, q, _, _, _, e, _⟩ := (C72_outside v unit).2 _ (.inl ⟨rfl, h1, hlt⟩)
          rw [e] at h; cases h
        · by_cases h2 : |v| ≤ 1 / 1024 ^ 9
          · obtain ⟨d, t, q, _, _, _, e, _⟩ := (C72_outside v unit).2 _ (.inr ⟨rfl, h0, h2⟩)
            rw [e] at h; cases h
          · by_cases hbig : |v| ≤ 1 / 1024 ∨ 1024 ≤ |v|
            · obtain ⟨k, d, t, q, _, _, _, _, _, _, _, e, _⟩ := C72_binary v unit hu (not_le.1 h2) (not_le.1 h1) hbig
              rw [e] at h; cases h
            · rw [not_or, not_le, not_le] at hbig
              have : ∃ z : Int, 0 ≤ v ∧ (z : Rat) ≤ v ∧ v < z + 1 ∨ v < 0 ∧ v ≤ z ∧ (z : Rat) < v + 1 := by
                by_cases hneg : v < 0
                · exact ⟨⌈v⌉, Or.inr ⟨hneg, Int.le_ceil v, Int.ceil_lt_add_one v⟩⟩
                · exact ⟨⌊v⌋, Or.inl ⟨not_lt.1 hneg, Int.floor_le v, Int.lt_floor_add_one v⟩⟩
              obtain ⟨z, hz⟩ := this
              rw [C72_bytes v unit hu (.inr hbig) z hz] at h; cases h
    · intro h
      rw [binary_above unit (big 5 _ (by norm_num) h)]
      exact overflow_none (F := siBinary) (N := 5) rfl (by decide) (by norm_num) (by rw [le_div_iff₀ (by norm_num), mul_comm]; exact h)

example : formatSiMetric (10 ^ 31) "m".toList = none ∧ formatSiMetric (10 ^ 31 - 1) "m".toList ≠ none := by decide +kernel

/-! ### C73 for the other values -/

/-- Sizes from one kilobyte on are shown with at least four digits: within a twentieth of a per cent, and negative ones within half a
per cent; smaller ones are off by less than one. -/
theorem C73_binary_partial (v : Rat) (unit : Str) (hu : UnitText unit) (hhi : |v| < 1024 ^ 9) :
    (1024 ≤ |v| → ∃ k t q u, formatSiBinary v unit = some (minusOf v ++ t ++ ' ' :: (siPrefix k ++ unit)) ∧ IsDecimal t q u ∧
      |q * 1024 ^ k - (|v|)| ≤ |v| / (if v < 0 then 200 else 2000)) ∧
    (1 / 1024 < |v| → |v| < 1024 → ∃ z : Int, formatSiBinary v unit = some (intText z ++ ' ' :: unit) ∧ |z - v| < 1 ∧ |(z : Rat)| ≤ |v|) := by
  constructor
  · intro hlo
    obtain ⟨k, d, t, q, k1, k2, k0, k3, d1, d2, d3, e1, e2, e3, _⟩ := C72_binary v unit hu
      (lt_of_lt_of_le (by norm_num) hlo) hhi (.inr hlo)
    have hpk : (0 : Rat) < 1024 ^ k := zpow_pos (by norm_num) _
    have hx : 1 ≤ |v| / 1024 ^ k := by
      rw [le_div_iff₀ hpk, one_mul]
      rcases k3 with ⟨_, h, _⟩ | ⟨rfl, _⟩ | ⟨hk, _, h⟩
      · exact h
      · exact absurd rfl k0
      · have : (1024 : Rat) ^ k < 1024 ^ (0 : Int) := zpow_lt_zpow_right₀ (by norm_num) hk
        rw [zpow_zero] at this
        linarith
    have hml : (minusOf v).length ≤ 1 := by unfold minusOf; split <;> simp
    have hc := bestIn_close d1 hx d2 d3 e3 (by omega)
    refine ⟨k, t, q, _, e1, e2, ?_⟩
    have ha : |q * 1024 ^ k - (|v|)| = |q - |v| / 1024 ^ k| * 1024 ^ k := by
      rw [show q * 1024 ^ k - (|v|) = (q - |v| / 1024 ^ k) * 1024 ^ k by field_simp, abs_mul, abs_of_pos hpk]
    rw [ha]
    have h5 := mul_le_mul_of_nonneg_right hc hpk.le
    have h6 : |v| / 1024 ^ k / 2 / 10 ^ (5 - (minusOf v).length - 2) * 1024 ^ k = |v| / (2 * 10 ^ (5 - (minusOf v).length - 2)) := by
      field_simp
    rw [h6] at h5
    refine le_trans h5 (le_of_eq ?_)
    congr 1
    unfold minusOf
    split <;> norm_num
  · intro h1 h2
    by_cases hneg : v < 0
    · have a1 := Int.le_ceil v
      have a2 := Int.ceil_lt_add_one v
      refine ⟨⌈v⌉, C72_bytes v unit hu (.inr ⟨h1, h2⟩) _ (.inr ⟨hneg, a1, a2⟩), ?_, ?_⟩
      · rw [abs_lt]; constructor <;> linarith
      · have h0 : (⌈v⌉ : Rat) ≤ 0 := by exact_mod_cast Int.ceil_le.2 (by simpa using hneg.le)
        rw [abs_of_nonpos h0, abs_of_neg hneg]; linarith
    · have hv := not_lt.1 hneg
      have a1 := Int.floor_le v
      have a2 := Int.lt_floor_add_one v
      refine ⟨⌊v⌋, C72_bytes v unit hu (.inr ⟨h1, h2⟩) _ (.inl ⟨hv, a1, a2⟩), ?_, ?_⟩
      · rw [abs_lt]; constructor <;> linarith
      · have h0 : (0 : Rat) ≤ ⌊v⌋ := by exact_mod_cast Int.floor_nonneg.2 hv
        rw [abs_of_nonneg h0, abs_of_nonneg hv]; exact a1

example : formatSiBinary 123456789 "b".toList = some "117.7 Mb".toList ∧ formatSiBinary (1999 / 2) "b".toList = some "999 b".toList := by decide +kernel

/-- Values below one: what is shown is off by less than the last digit, that is by five thousandths of the unit with its prefix (five
hundredths if negative). -/
theorem C73_small_partial (v : Rat) (unit : Str) (hu : UnitText unit) (hlo : 1 / 10 ^ 27 < |v|) (hhi : |v| < 1) :
    ∃ k t q u, -8 ≤ k ∧ k ≤ 0 ∧ formatSiMetric v unit = some (minusOf v ++ t ++ ' ' :: (siPrefix k ++ unit)) ∧ IsDecimal t q u ∧
      |q * 1000 ^ k - (|v|)| ≤ 1000 ^ k / (if v < 0 then 20 else 200) ∧ |v| ≤ 1000 ^ k := by
  obtain ⟨k, d, t, q, k1, k2, k3, d1, d2, d3, e1, e2, e3, _⟩ := C72_metric v unit hu hlo (lt_trans hhi (by norm_num))
  have hpk : (0 : Rat) < 1000 ^ k := zpow_pos (by norm_num) _
  have hk : k ≤ 0 ∧ |v| ≤ 1000 ^ k := by
    rcases k3 with ⟨h0, h, _⟩ | ⟨rfl, _⟩ | ⟨hk, _, h⟩
    · have : (1000 : Rat) ^ (0 : Int) < 1000 ^ k := zpow_lt_zpow_right₀ (by norm_num) h0
      rw [zpow_zero] at this
      linarith
    · exact ⟨le_refl _, by rw [zpow_zero]; exact hhi.le⟩
    · exact ⟨hk.le, h⟩
  have hx : |v| / 1000 ^ k ≤ 1 := by rw [div_le_one hpk]; exact hk.2
  have hd : d = 1 := by
    rcases d3 with h | h
    · exact h
    · refine Classical.byContradiction fun hne => ?_
      have : (10 : Rat) ^ 1 ≤ 10 ^ (d - 1) := pow_le_pow_right₀ (by norm_num) (by omega)
      linarith
  subst hd
  have hml : (minusOf v).length ≤ 1 := by unfold minusOf; split <;> simp
  refine ⟨k, t, q, _, k1, hk.1, e1, e2, ?_, hk.2⟩
  have ha : |q * 1000 ^ k - (|v|)| = |q - |v| / 1000 ^ k| * 1000 ^ k := by
    rw [show q * 1000 ^ k - (|v|) = (q - |v| / 1000 ^ k) * 1000 ^ k by field_simp, abs_mul, abs_of_pos hpk]
  have hq : |q - |v| / 1000 ^ k| ≤ lastUnit (4 - (minusOf v).length) 1 / 2 := by
    rcases e3 with h | ⟨h, _⟩
    · exact h
    · omega
  rw [ha]
  refine le_trans (mul_le_mul_of_nonneg_right hq hpk.le) (le_of_eq ?_)
  unfold lastUnit minusOf
  split <;> norm_num <;> ring

example : formatSiMetric (126 / 10 ^ 11) "m".toList = some "0.00 μm".toList ∧ formatSiMetric (-34 / 1000) "V".toList = some "-0.0 V".toList := by decide +kernel

end Kolombos
