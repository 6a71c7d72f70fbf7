import Verif.Lemmas.PrefixedUnit
/-
Numbers with unit prefixes.
-/
set_option linter.unusedSimpArgs false

namespace Kolombos
open Spec

/-- What is common to both formatters: everything about a value with a scale of its own. -/
theorem units_shown {F : PrefixedUnit} (hp : F.prefixes = prefixesSi) (hsep : F.unitSeparator = [' ']) (hz : F.prefixZeroIdx = 8)
    {b : Nat} (hb : 1 < b) (hF : F.mcoef = b) {unit : Str} (hu : UnitText unit) {N : Nat} (hN : F.maxValueLen = N) (hN2 : 2 ≤ N)
    (hbN : (b : Rat) ≤ 10 ^ (N - 1)) {v : Rat} (hv : v ≠ 0) {k : Int} (hk : InScale b k |v|) (h1 : -8 ≤ k) (h2 : k ≤ 8)
    (htr : F.truncateFrac = false ∨ k ≠ 0) :
    ∃ d t q, 1 ≤ d ∧ |v| / b ^ k < 10 ^ d ∧ (d = 1 ∨ 10 ^ (d - 1) ≤ |v| / b ^ k) ∧ d ≤ N - (minusOf v).length ∧
      F.format v unit = some (minusOf v ++ t ++ ' ' :: (siPrefix k ++ unit)) ∧
      IsDecimal t q (lastUnit (N - (minusOf v).length) d) ∧ BestIn (N - (minusOf v).length) d (|v| / b ^ k) q ∧
      (0 ≤ v → ' ' ∉ t) ∧ (minusOf v ++ t).length ≤ N + 1 ∧ ((10 ^ d - 1 / 20 ≤ |v| / b ^ k → False) → (minusOf v ++ t).length ≤ N) := by
  have hm : (1 : Rat) < b := by exact_mod_cast hb
  have hpk : (0 : Rat) < b ^ k := zpow_pos (by linarith) _
  have hlen : F.prefixes.length = 17 := by rw [hp]; rfl
  have hf := format_in (unit := unit) hb hF 8 hz (by omega) hk (by omega) (by omega)
  have hw : v / b ^ k ≠ 0 := div_ne_zero hv hpk.ne'
  obtain ⟨d, t, q, e1, e2, e3, e4, e5, e6, e7, e8, e9, e10⟩ :=
    shown_text hp hsep hz hu h1 h2 hN hN2 hw (lt_of_lt_of_le (scale_lt hm hk) hbN) htr
  rw [minusOf_scaled hpk] at *
  have ha : |v / b ^ k| = |v| / b ^ k := by rw [abs_div, abs_of_pos hpk]
  rw [ha] at e2 e3 e7 e10
  refine ⟨d, t, q, e1, e2, e3, e4, ?_, e6, e7, ?_, e9, e10⟩
  · rw [hf]; exact e5
  · intro h; exact e8 (div_nonneg h hpk.le)

/-! ### C72: values with prefixes -/

theorem C72_metric (v : Rat) (unit : Str) (hu : UnitText unit) (hlo : 1 / 10 ^ 27 < |v|) (hhi : |v| < 10 ^ 27) :
    ∃ k d t q, -8 ≤ k ∧ k ≤ 8 ∧ InScale 1000 k |v| ∧
      1 ≤ d ∧ |v| / 1000 ^ k < 10 ^ d ∧ (d = 1 ∨ 10 ^ (d - 1) ≤ |v| / 1000 ^ k) ∧
      formatSiMetric v unit = some (minusOf v ++ t ++ ' ' :: (siPrefix k ++ unit)) ∧
      IsDecimal t q (lastUnit (4 - (minusOf v).length) d) ∧ BestIn (4 - (minusOf v).length) d (|v| / 1000 ^ k) q ∧
      (0 ≤ v → ' ' ∉ t) := by
  have hv : v ≠ 0 := by rintro rfl; simp at hlo; linarith
  obtain ⟨k, k1, k2, k3⟩ := exists_scale (b := 1000) (by decide) 8 8 (a := |v|) (Or.inr (by norm_num at hlo ⊢; exact hlo)) (by norm_num at hhi ⊢; exact hhi)
  obtain ⟨d, t, q, e1, e2, e3, e4, e5, e6, e7, e8, _⟩ :=
    units_shown (F := siMetric) rfl rfl rfl (b := 1000) (by decide) (by unfold siMetric; norm_num) hu (N := 4) rfl (by decide) (by norm_num) hv k1 k2 k3 (Or.inl rfl)
  push_cast at *
  exact ⟨k, d, t, q, k2, k3, k1, e1, e2, e3, e5, e6, e7, e8⟩

example : UnitText "m".toList ∧ formatSiMetric 45200 "V".toList = some "45.2 kV".toList ∧ formatSiMetric (-5 / 10000) "m".toList = some "-0.5 mm".toList := by
  refine ⟨⟨'m', 'm', rfl, rfl, ?_⟩, by decide +kernel, by decide +kernel⟩
  rintro c (rfl | rfl) <;> decide

theorem C72_binary (v : Rat) (unit : Str) (hu : UnitText unit) (hlo : 1 / 1024 ^ 9 < |v|) (hhi : |v| < 1024 ^ 9) (hbig : |v| ≤ 1 / 1024 ∨ 1024 ≤ |v|) :
    ∃ k d t q, -8 ≤ k ∧ k ≤ 8 ∧ k ≠ 0 ∧ InScale 1024 k |v| ∧
      1 ≤ d ∧ |v| / 1024 ^ k < 10 ^ d ∧ (d = 1 ∨ 10 ^ (d - 1) ≤ |v| / 1024 ^ k) ∧
      formatSiBinary v unit = some (minusOf v ++ t ++ ' ' :: (siPrefix k ++ unit)) ∧
      IsDecimal t q (lastUnit (5 - (minusOf v).length) d) ∧ BestIn (5 - (minusOf v).length) d (|v| / 1024 ^ k) q ∧
      (0 ≤ v → ' ' ∉ t) := by
  have hv : v ≠ 0 := by rintro rfl; simp at hlo; linarith
  obtain ⟨k, k1, k2, k3⟩ := exists_scale (b := 1024) (by decide) 8 8 (a := |v|) (Or.inr (by norm_num at hlo ⊢; exact hlo)) (by norm_num at hhi ⊢; exact hhi)
  have hk0 : k ≠ 0 := by
    rintro rfl
    push_cast at k1
    rcases k1 with ⟨h, _⟩ | ⟨_, h⟩ | ⟨h, _⟩
    · omega
    · rcases h with h | ⟨h, h'⟩
      · exact hv (abs_eq_zero.1 h)
      · rcases hbig with hb | hb <;> linarith
    · omega
  obtain ⟨d, t, q, e1, e2, e3, e4, e5, e6, e7, e8, _⟩ :=
    units_shown (F := siBinary) rfl rfl rfl (b := 1024) (by decide) (by unfold siBinary; norm_num) hu (N := 5) rfl (by decide) (by norm_num) hv k1 k2 k3 (Or.inr hk0)
  push_cast at *
  exact ⟨k, d, t, q, k2, k3, hk0, k1, e1, e2, e3, e5, e6, e7, e8⟩

example : formatSiBinary 45200 "b".toList = some "44.14 kb".toList ∧ formatSiBinary 1258000 "bps".toList = some "1.200 Mbps".toList := by
  decide +kernel

theorem intText_small {z : Int} (hz : -1024 < z ∧ z < 1024) : (intText z).length ≤ 5 ∧ ∀ c ∈ intText z, isPySpace c = false := by
  have key : ∀ i : Fin 2048, (intText ((i.val : Int) - 1024)).length ≤ 5 ∧ (intText ((i.val : Int) - 1024)).all (fun c => !isPySpace c) = true := by
    decide +kernel
  have := key ⟨(z + 1024).toNat, by omega⟩
  have e : (((z + 1024).toNat : Nat) : Int) - 1024 = z := by omega
  simp only [e] at this
  exact ⟨this.1, by simpa using this.2⟩

/-- A number of bytes below a kilobyte is shown without its fraction. -/
theorem C72_bytes (v : Rat) (unit : Str) (hu : UnitText unit) (h : v = 0 ∨ 1 / 1024 < |v| ∧ |v| < 1024) (z : Int)
    (hz : 0 ≤ v ∧ (z : Rat) ≤ v ∧ v < z + 1 ∨ v < 0 ∧ v ≤ z ∧ (z : Rat) < v + 1) :
    formatSiBinary v unit = some (intText z ++ ' ' :: unit) := by
  have hk : InScale (1024 : Nat) 0 |v| := by
    refine Or.inr (Or.inl ⟨rfl, ?_⟩)
    push_cast
    rcases h with h | h
    · left; rw [h, abs_zero]
    · exact Or.inr h
  have hf := format_in (F := siBinary) (unit := unit) (b := 1024) (by decide) (by unfold siBinary; norm_num) 8 rfl (by decide) hk (by decide) (by decide)
  have hlt : |v| < 1024 := by
    rcases h with h | h
    · rw [h, abs_zero]; norm_num
    · exact h.2
  have htr : pyTrunc v = z := by
    unfold pyTrunc
    rcases hz with ⟨h1, h2, h3⟩ | ⟨h1, h2, h3⟩
    · rw [if_neg (not_lt.2 h1), Int.floor_eq_iff]; exact ⟨h2, h3⟩
    · rw [if_pos h1, Int.ceil_eq_iff]; exact ⟨by linarith, h2⟩
  have hzr : -1024 < z ∧ z < 1024 := by
    rw [abs_lt] at hlt
    have : (-1024 : Rat) < z ∧ (z : Rat) < 1024 := by
      rcases hz with ⟨h1, h2, h3⟩ | ⟨h1, h2, h3⟩
      · constructor <;> linarith
      · constructor <;> linarith
    exact_mod_cast this
  unfold formatSiBinary
  rw [hf]
  unfold PrefixedUnit.shown
  obtain ⟨u1, u2⟩ := unitText_strip hu (p := []) (by simp)
  have hp0 : ((siBinary.prefixes.getD (if ((8 : Nat) : Int) + 0 < 0 then ((8 : Nat) : Int) + 0 + siBinary.prefixes.length else ((8 : Nat) : Int) + 0).toNat none).getD []) = [] := by decide
  have hl := intText_small hzr
  simp only [hp0, u1, if_false, zpow_zero, div_one, htr, decInt_intText]
  rw [if_pos ⟨rfl, rfl⟩]
  have h5 : siBinary.maxValueLen.toNat = 5 := rfl
  rw [h5, List.take_of_length_le hl.1, Option.map_some, u2, pyStrip_none]
  · simp [siBinary]
  · intro c hc; exact hl.2 c (List.mem_of_head? hc)
  · intro c hc; exact hl.2 c (List.mem_of_getLast? hc)

example : formatSiBinary (-63199 / 100) "b".toList = some "-631 b".toList := by
  have h := C72_bytes (-63199 / 100) "b".toList ⟨'b', 'b', rfl, rfl, by rintro c (rfl | rfl) <;> decide⟩ (Or.inr (by decide +kernel)) (-631) (Or.inr (by norm_num))
  rw [h]; decide +kernel

theorem C72_zero (unit : Str) (hu : UnitText unit) :
    formatSiMetric 0 unit = some ('0' :: ' ' :: unit) ∧ formatSiBinary 0 unit = some ('0' :: ' ' :: unit) := by
  constructor
  · unfold formatSiMetric
    rw [format_in (F := siMetric) (b := 1000) (by decide) (by unfold siMetric; norm_num) 8 rfl (by decide) (k := 0) (Or.inr (Or.inl ⟨rfl, Or.inl abs_zero⟩)) (by decide) (by decide)]
    unfold PrefixedUnit.shown
    obtain ⟨u1, u2⟩ := unitText_strip hu (p := []) (by simp)
    have hp0 : ((siMetric.prefixes.getD (if ((8 : Nat) : Int) + 0 < 0 then ((8 : Nat) : Int) + 0 + siMetric.prefixes.length else ((8 : Nat) : Int) + 0).toNat none).getD []) = [] := by decide
    have hnum : formatAutoFloat 0 siMetric.maxValueLen false = some "   0".toList := by decide +kernel
    simp only [hp0, u1, if_false, zpow_zero, div_one, hnum]
    rw [if_neg (by decide), Option.map_some, u2]
    have : pyStrip "   0".toList = ['0'] := by decide
    rw [this]
    simp [siMetric]
  · exact C72_bytes 0 unit hu (Or.inl rfl) 0 (Or.inl (by norm_num))

example : formatSiMetric 0 "m".toList = some "0 m".toList := by decide +kernel

/-- Out of the range of the prefixes a question mark stands for the prefix; the unit is left out. -/
theorem C72_beyond (v : Rat) (unit : Str) (h : 10 ^ 27 ≤ |v|) (h2 : |v| < 10 ^ 30) :
    ∃ d t q, 1 ≤ d ∧ |v| / 10 ^ 27 < 10 ^ d ∧ (d = 1 ∨ 10 ^ (d - 1) ≤ |v| / 10 ^ 27) ∧
      formatSiMetric v unit = some (minusOf v ++ t ++ " ?".toList) ∧ IsDecimal t q (lastUnit (4 - (minusOf v).length) d) ∧
      BestIn (4 - (minusOf v).length) d (|v| / 10 ^ 27) q := by
  have hv : v ≠ 0 := by rintro rfl; norm_num at h
  have hf := format_above (F := siMetric) (unit := unit) (v := v) (by unfold siMetric; norm_num) 8 rfl (by decide)
    (by have : siMetric.mcoef = 1000 := rfl
        have e : siMetric.prefixes.length - 8 = 9 := rfl
        rw [this, e]; norm_num at h ⊢; exact h)
  have e : siMetric.mcoef ^ (siMetric.prefixes.length - 8) = 10 ^ 27 := by
    have : siMetric.mcoef = 1000 := rfl
    have e : siMetric.prefixes.length - 8 = 9 := rfl
    rw [this, e]; norm_num
  rw [e] at hf
  unfold formatSiMetric
  rw [hf]
  unfold PrefixedUnit.overflow
  have hpos : (0 : Rat) < 10 ^ 27 := by positivity
  have hml : (minusOf v).length ≤ 1 := by unfold minusOf; split <;> simp
  have ha : |v / 10 ^ 27| = |v| / 10 ^ 27 := by rw [abs_div, abs_of_pos hpos]
  have h3 : |v / 10 ^ 27| < 10 ^ (4 - (minusOf v).length) := by
    refine lt_of_lt_of_le (b := 10 ^ 3) ?_ (pow_le_pow_right₀ (by norm_num) (by omega))
    rw [ha, div_lt_iff₀ hpos]
    norm_num at h2 ⊢
    exact h2
  obtain ⟨d, t, q, e1, e2, e3, e4, e5, e6, e7, _⟩ := fitting (div_ne_zero hv hpos.ne') (by omega) h3
  rw [minusOf_scaled hpos] at e5
  obtain ⟨t', s1, s2, _⟩ := pyStrip_decimal e6 v
  rw [ha] at e2 e3 e7
  refine ⟨d, t', q, e1, e2, e3, ?_, s2, e7⟩
  have hN : siMetric.maxValueLen = ((4 - (minusOf v).length : Nat) : Int) + (minusOf v).length := by
    have : siMetric.maxValueLen = 4 := rfl
    rw [this]; omega
  rw [hN, e5, show siMetric.maxPrefixLen = some 1 by decide]
  simp only [s1]
  have : siMetric.unitSeparator ++ pyStrip (List.replicate 1 '?' ++ siMetric.unit) = " ?".toList := by decide
  rw [List.append_assoc, this]

example : formatSiMetric (5 * 10 ^ 27) "m".toList = some "5.00 ?".toList := by decide +kernel

/-! ### C73: significant digits -/

theorem bestIn_close {N d : Nat} {x q : Rat} (h0 : 1 ≤ d) (h1 : 1 ≤ x) (h2 : x < 10 ^ d) (h3 : d = 1 ∨ 10 ^ (d - 1) ≤ x)
    (h : BestIn N d x q) (hN : 2 ≤ N) : |q - x| ≤ x / 2 / 10 ^ (N - 2) := by
  have hx : (10 : Rat) ^ (d - 1) ≤ x := by
    rcases h3 with h3 | h3
    · subst h3; simpa using h1
    · exact h3
  have hp : (0 : Rat) < 10 ^ (N - 2) := by positivity
  rw [le_div_iff₀ hp]
  rcases h with h | ⟨rfl, ⟨h, rfl⟩ | ⟨h, _⟩⟩
  · unfold lastUnit at h
    have hp2 : (0 : Rat) < 10 ^ (N - d - 1) := by positivity
    rw [div_div, le_div_iff₀ (by positivity)] at h
    have h5 : (10 : Rat) ^ (N - 2) ≤ 10 ^ (d - 1) * 10 ^ (N - d - 1) := by
      rw [← pow_add]; exact pow_le_pow_right₀ (by norm_num) (by omega)
    have h6 : (10 : Rat) ^ (d - 1) * 10 ^ (N - d - 1) ≤ x * 10 ^ (N - d - 1) := mul_le_mul_of_nonneg_right hx hp2.le
    have h7 : |q - x| * 10 ^ (N - 2) ≤ |q - x| * (x * 10 ^ (N - d - 1)) := mul_le_mul_of_nonneg_left (by linarith) (abs_nonneg _)
    have h8 : x * (|q - x| * (10 ^ (N - d - 1) * 2)) ≤ x * 1 := mul_le_mul_of_nonneg_left h (by linarith)
    nlinarith
  · have hb : |(10 : Rat) ^ N - 1 - x| ≤ 1 := by rw [abs_le]; constructor <;> linarith
    have h5 : (10 : Rat) ^ N = 10 ^ (N - 2) * 100 := by
      rw [show (100 : Rat) = 10 ^ 2 by norm_num, ← pow_add]; congr 1; omega
    have h6 : |(10 : Rat) ^ N - 1 - x| * 10 ^ (N - 2) ≤ 1 * 10 ^ (N - 2) := mul_le_mul_of_nonneg_right hb hp.le
    have h7 : (1 : Rat) ≤ 10 ^ (N - 2) := one_le_pow₀ (by norm_num)
    linarith
  · linarith

/-- A value from 1 on is shown to at least three digits: within half a per cent, and a negative one
within five per cent. -/
theorem C73_metric_partial (v : Rat) (unit : Str) (hu : UnitText unit) (hlo : 1 ≤ |v|) (hhi : |v| < 10 ^ 27) :
    ∃ k t q u, formatSiMetric v unit = some (minusOf v ++ t ++ ' ' :: (siPrefix k ++ unit)) ∧ IsDecimal t q u ∧
      |q * 1000 ^ k - (|v|)| ≤ |v| / (if v < 0 then 20 else 200) := by
  obtain ⟨k, d, t, q, k1, k2, k3, d1, d2, d3, e1, e2, e3, _⟩ := C72_metric v unit hu (by linarith [show (1 : Rat) / 10 ^ 27 < 1 by norm_num]) hhi
  have hpk : (0 : Rat) < 1000 ^ k := zpow_pos (by norm_num) _
  have hx : 1 ≤ |v| / 1000 ^ k := by
    rw [le_div_iff₀ hpk, one_mul]
    rcases k3 with ⟨_, h, _⟩ | ⟨rfl, _⟩ | ⟨hk, _, h⟩
    · exact h
    · simpa using hlo
    · have : (1000 : Rat) ^ k < 1000 ^ (0 : Int) := zpow_lt_zpow_right₀ (by norm_num) hk
      rw [zpow_zero] at this
      linarith
  have hml : (minusOf v).length ≤ 1 := by unfold minusOf; split <;> simp
  have hc := bestIn_close d1 hx d2 d3 e3 (by omega)
  refine ⟨k, t, q, _, e1, e2, ?_⟩
  have ha : |q * 1000 ^ k - (|v|)| = |q - |v| / 1000 ^ k| * 1000 ^ k := by
    rw [show q * 1000 ^ k - (|v|) = (q - |v| / 1000 ^ k) * 1000 ^ k by field_simp, abs_mul, abs_of_pos hpk]
  rw [ha]
  have h5 := mul_le_mul_of_nonneg_right hc hpk.le
  have h6 : |v| / 1000 ^ k / 2 / 10 ^ (4 - (minusOf v).length - 2) * 1000 ^ k = |v| / (2 * 10 ^ (4 - (minusOf v).length - 2)) := by
    field_simp
  rw [h6] at h5
  refine le_trans h5 (le_of_eq ?_)
  congr 1
  unfold minusOf
  split <;> norm_num

example : formatSiMetric 98765 "m".toList = some "98.8 km".toList ∧ formatSiMetric (-98765) "m".toList = some "- 99 km".toList := by decide +kernel

/-- The documentation shows 1.26·10⁻⁹ m² as `1.26 nm²`, but it is shown as `0.00 μm²`: no digit but
noughts is left. -/
theorem C73_negation : ¬ ∀ (v : Rat) (unit s : Str), UnitText unit → 1 / 10 ^ 27 < |v| → |v| < 10 ^ 27 → formatSiMetric v unit = some s →
    ∃ c ∈ s, c ∈ "123456789".toList := by
  intro h
  have := h (126 / 10 ^ 11) "m²".toList "0.00 μm²".toList ⟨'m', '²', rfl, rfl, by rintro c (rfl | rfl) <;> decide⟩ (by decide +kernel) (by decide +kernel) (by decide +kernel)
  exact absurd this (by decide)

/-! ### C74: the length -/

/-- The text may be longer than promised: 99990 m is `100.0 km`. -/
theorem C74_negation : ¬ ∀ (v : Rat) (unit s : Str), UnitText unit → 1 / 10 ^ 27 < |v| → |v| < 10 ^ 27 → formatSiMetric v unit = some s →
    s.length ≤ 6 + unit.length := by
  intro h
  have := h 99990 "m".toList "100.0 km".toList ⟨'m', 'm', rfl, rfl, by rintro c (rfl | rfl) <;> decide⟩ (by decide +kernel) (by decide +kernel) (by decide +kernel)
  exact absurd this (by decide)

end Kolombos
