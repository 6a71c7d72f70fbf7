import Verif.Props.Number
/-
C70 and C76: when exactly a number takes one character more than required, and
when exactly there is a blank in it.
-/
set_option linter.unusedSimpArgs false

namespace Kolombos
open Spec

/-- A number is rounded up to a power of ten from half a unit below on: the tie goes to
the power of ten, which is even. -/
theorem roundEven_power {x : Rat} (hx : 0 ≤ x) {k : Nat} (hk : 1 ≤ k) (h : x < 10 ^ k) : roundEven x = 10 ^ k ↔ 10 ^ k - 1 / 2 ≤ x := by
  constructor
  · intro he
    have := (abs_le.1 (roundEven_near hx)).2
    rw [he] at this
    push_cast at this
    linarith
  · intro hge
    have hp : (1 : Int) ≤ 10 ^ k := by exact_mod_cast Nat.one_le_pow k 10 (by decide)
    have hfl : ⌊x⌋ = 10 ^ k - 1 := by
      rw [Int.floor_eq_iff]
      push_cast
      constructor <;> linarith
    have hodd : ((10 : Int) ^ k - 1) % 2 ≠ 0 := by
      obtain ⟨j, rfl⟩ : ∃ j, k = j + 1 := ⟨k - 1, by omega⟩
      rw [pow_succ]
      omega
    unfold roundEven
    simp only [hfl]
    rw [if_neg (by push_cast; linarith)]
    have h4 : (10 : Int) ^ k - 1 + 1 = ((10 ^ k : Nat) : Int) := by push_cast; ring
    split
    · rw [h4, Int.toNat_natCast]
    · first
      | rw [if_neg hodd, h4, Int.toNat_natCast]
      | rw [h4, Int.toNat_natCast]

/-- Whole digits of a number that is rounded to `d` decimals. -/
theorem whole_digits {a : Rat} (ha : 0 < a) {D d : Nat} (hD : 1 ≤ D) (h1 : a < 10 ^ D) (h2 : D = 1 ∨ 10 ^ (D - 1) ≤ a) :
    (dec (roundEven (a * 10 ^ d) / 10 ^ d)).length = if 10 ^ D - 1 / 10 ^ d / 2 ≤ a then D + 1 else D := by
  have hx : 0 ≤ a * 10 ^ d := by positivity
  have hp : (0 : Rat) < 10 ^ d := by positivity
  have hlt : a * 10 ^ d < 10 ^ (D + d) := by rw [pow_add]; exact mul_lt_mul_of_pos_right h1 hp
  have hr := roundEven_le (k := 10 ^ (D + d)) hx (by push_cast; exact hlt)
  have hiff := roundEven_power hx (by omega) hlt
  have hcond : (10 : Rat) ^ (D + d) - 1 / 2 ≤ a * 10 ^ d ↔ 10 ^ D - 1 / 10 ^ d / 2 ≤ a := by
    rw [pow_add]
    have e : (10 : Rat) ^ D * 10 ^ d - 1 / 2 = (10 ^ D - 1 / 10 ^ d / 2) * 10 ^ d := by field_simp
    rw [e]
    exact mul_le_mul_iff_left₀ hp
  rw [hcond] at hiff
  by_cases hc : (10 : Rat) ^ D - 1 / 10 ^ d / 2 ≤ a
  · rw [if_pos hc, hiff.2 hc, pow_add, Nat.mul_div_cancel _ (by positivity)]
    exact dec_length_eq (le_refl _) (Nat.pow_lt_pow_right (by decide) (by omega))
  · rw [if_neg hc]
    have hlt2 : roundEven (a * 10 ^ d) < 10 ^ (D + d) := by
      have := hiff.not.2 hc
      omega
    have h11 : roundEven (a * 10 ^ d) / 10 ^ d < 10 ^ D := by
      rw [Nat.div_lt_iff_lt_mul (by positivity), ← pow_add]
      exact hlt2
    have hu := (dec_length_le (n := roundEven (a * 10 ^ d) / 10 ^ d) (k := D) (by omega)).2 h11
    by_cases hD1 : D = 1
    · have := dec_length_pos (roundEven (a * 10 ^ d) / 10 ^ d); omega
    · have hge : ((10 ^ (D - 1 + d) : Nat) : Rat) ≤ a * 10 ^ d := by
        push_cast
        rw [pow_add]
        exact mul_le_mul_of_nonneg_right (h2.resolve_left hD1) hp.le
      have h5 : 10 ^ (D - 1) ≤ roundEven (a * 10 ^ d) / 10 ^ d := by
        rw [Nat.le_div_iff_mul_le (by positivity), ← pow_add]
        exact le_roundEven hx hge
      have := (dec_length_le (n := roundEven (a * 10 ^ d) / 10 ^ d) (k := D - 1) (by omega)).not.2 (by omega)
      omega

theorem rjust_blank {w : Nat} {s : Str} (h : ' ' ∉ s) : ' ' ∈ rjust w ' ' s ↔ s.length < w := by
  unfold rjust
  simp only [List.mem_append, List.mem_replicate, h, or_false, and_true]
  omega

theorem plainText_exact {a : Rat} (ha : 0 < a) {n D : Nat} (hD : 1 ≤ D) (h1 : a < 10 ^ D) (h2 : D = 1 ∨ 10 ^ (D - 1) ≤ a) (h3 : D ≤ n) {t : Str}
    (h : plainText a n = some t) :
    (t.length = if D + 2 ≤ n ∧ 10 ^ D - lastUnit n D / 2 ≤ a then n + 1 else n) ∧
    (' ' ∈ t ↔ n = D + 1 ∧ a < 10 ^ D - 1 / 2) := by
  unfold plainText at h
  rw [log_digits ha hD h1 h2] at h
  unfold lastUnit
  by_cases hn : D = n
  · subst hn
    rw [if_pos rfl] at h
    have hlen := whole_digits ha (d := 0) hD h1 h2
    simp only [pow_zero, mul_one, Nat.div_one, div_one] at hlen
    simp only [padNumber_nat, rjust_len_max, fixedText_length, pow_zero, mul_one, Nat.div_one, if_true, Nat.add_zero] at h
    rw [if_neg (by omega)]
    split at h
    · rename_i hgt
      cases h
      have hcond : (10 : Rat) ^ D - 1 / 2 ≤ a := by
        refine Classical.byContradiction fun hc => ?_
        rw [if_neg hc] at hlen
        omega
      have hfl : ⌊a⌋ = ((10 ^ D - 1 : Nat) : Int) := by
        have hp : 1 ≤ 10 ^ D := Nat.one_le_pow _ _ (by decide)
        rw [Int.floor_eq_iff]
        push_cast [Nat.cast_sub hp]
        constructor <;> linarith
      have hdec : decInt ⌊a⌋ = dec (10 ^ D - 1) := by rw [hfl]; exact decInt_nat _
      have hl2 : (dec (10 ^ D - 1)).length = D := by
        obtain ⟨j, rfl⟩ : ∃ j, D = j + 1 := ⟨D - 1, by omega⟩
        apply dec_length_eq
        · rw [pow_succ]
          have := Nat.one_le_pow j 10 (by decide)
          omega
        · have := Nat.one_le_pow (j + 1) 10 (by decide)
          omega
      rw [hdec]
      refine ⟨by rw [rjust_len_max]; omega, ?_⟩
      rw [rjust_blank (fun hc => absurd (dec_digit hc) (by decide))]
      omega
    · cases h
      have hD' : (dec (roundEven a)).length = D := by
        rename_i hle
        split at hlen <;> omega
      refine ⟨by rw [rjust_len_max, fixedText_length]; simp only [pow_zero, mul_one, Nat.div_one, if_true]; omega, ?_⟩
      rw [rjust_blank (fixedText_noBlank _ _), fixedText_length]
      simp only [pow_zero, mul_one, Nat.div_one, if_true]
      omega
  · rw [if_neg (by omega), if_neg (by omega)] at h
    have he : ((n : Int) - D - 1).toNat = n - D - 1 := by omega
    rw [he, padNumber_nat] at h
    cases h
    have hlen := whole_digits ha (d := n - D - 1) hD h1 h2
    have hl := fixedText_length a (n - D - 1)
    rw [hlen] at hl
    refine ⟨?_, ?_⟩
    · rw [rjust_len_max, hl]
      by_cases hc : (10 : Rat) ^ D - 1 / 10 ^ (n - D - 1) / 2 ≤ a <;> by_cases h2 : D + 2 ≤ n <;> simp only [hc, h2, and_true, and_false, if_true, if_false] <;> split <;> omega
    · rw [rjust_blank (fixedText_noBlank _ _), hl]
      by_cases hd : n = D + 1
      · subst hd
        have : D + 1 - D - 1 = 0 := by omega
        rw [this]
        simp only [pow_zero, div_one, if_true, true_and]
        by_cases hc : (10 : Rat) ^ D - 1 / 2 ≤ a
        · rw [if_pos hc]; constructor
          · intro _; omega
          · intro _; exact absurd hc (by linarith)
        · rw [if_neg hc]; constructor
          · intro _; linarith
          · intro _; omega
      · rw [if_neg (show ¬ n - D - 1 = 0 by omega)]
        constructor
        · intro hh; exfalso; split at hh <;> omega
        · intro hh; omega

theorem plain_exact {v : Rat} (hv : v ≠ 0) {n D : Nat} {allow : Bool} (hD : 1 ≤ D) (h1 : |v| < 10 ^ D)
    (h2 : D = 1 ∨ 10 ^ (D - 1) ≤ |v|) (h3 : D ≤ n) (h4 : allow = false ∨ 1 / 100 ≤ |v| ∨ n = 1) {s : Str}
    (h : formatAutoFloat v (n + (minusOf v).length) allow = some s) :
    ∃ t, s = minusOf v ++ t ∧ (t.length = if D + 2 ≤ n ∧ 10 ^ D - lastUnit n D / 2 ≤ |v| then n + 1 else n) ∧
      (' ' ∈ t ↔ n = D + 1 ∧ |v| < 10 ^ D - 1 / 2) := by
  have ha : 0 < |v| := abs_pos.2 hv
  rw [formatAutoFloat_eq, body_eq noExponent (by omega) hv (by omega)] at h
  by_cases h0 : |v| < 1 ∧ (n : Int) = 1
  · rw [if_pos h0] at h
    cases h
    refine ⟨['0'], rfl, ?_, ?_⟩
    · rw [if_neg (by omega)]; have := h0.2; simp; omega
    · constructor
      · intro hh; exact absurd hh (by decide)
      · intro hh; omega
  · rw [if_neg h0, if_neg] at h
    · obtain ⟨t, q, ht, _⟩ := plainText_spec ha hD h1 h2 h3
      rw [ht] at h
      cases h
      exact ⟨t, rfl, plainText_exact ha hD h1 h2 h3 ht⟩
    · unfold wantsExponent
      have hm := log_digits ha hD h1 h2
      rintro (⟨ht, hl⟩ | hl)
      · rcases h4 with h | h | h
        · rw [h] at ht; cases ht
        · have := (Int.zpow_le_iff_le_log (b := 10) (by decide) ha (x := -2)).1 (by norm_num; linarith)
          omega
        · refine h0 ⟨?_, by omega⟩
          have := (Int.lt_zpow_iff_log_lt (b := 10) (by decide) ha (x := -2)).2 hl
          norm_num at this
          linarith
      · omega

theorem exp_exact {v : Rat} (hv : v ≠ 0) {n m : Nat} {e : Int} (h1 : 10 ^ e ≤ |v|) (h2 : |v| < 10 ^ (e + 1))
    (h3 : (e < -2 ∧ 2 ≤ n) ∨ ((n : Int) ≤ e ∧ 1 ≤ n)) (hn : n = m + (intText e).length + 1) {s : Str}
    (h : formatAutoFloat v (n + (minusOf v).length) true = some s) :
    ∃ t, s = minusOf v ++ t ++ 'e' :: intText e ∧ (t.length = if 3 ≤ m ∧ (10 - lastUnit m 1 / 2) * 10 ^ e ≤ |v| then m + 1 else m) ∧
      (' ' ∈ t ↔ m = 2 ∧ |v| < (10 - 1 / 2) * 10 ^ e) := by
  have ha : 0 < |v| := abs_pos.2 hv
  have hlog : Int.log 10 |v| = e := by
    have a1 := (Int.zpow_le_iff_le_log (b := 10) (by decide) ha (x := e)).1 (by simpa using h1)
    have a2 := (Int.lt_zpow_iff_log_lt (b := 10) (by decide) ha (x := e + 1)).1 (by simpa using h2)
    omega
  obtain ⟨s1, s2⟩ := log_sig ha
  rw [hlog] at s1 s2
  have hw : wantsExponent |v| n true := by
    unfold wantsExponent
    rw [hlog]
    simp
    omega
  have h0 : ¬ (|v| < 1 ∧ (n : Int) = 1) := by
    rintro ⟨a1, a2⟩
    have := (Int.lt_zpow_iff_log_lt (b := 10) (by decide) ha (x := 0)).1 (by simpa using a1)
    omega
  have hp : (0 : Rat) < 10 ^ e := zpow_pos (by norm_num) e
  rw [formatAutoFloat_eq, body_eq noExponent (by omega) hv (by omega), if_neg h0, if_pos hw] at h
  unfold expText at h
  rw [if_neg (by decide), hlog, decInt_intText, if_neg (by omega)] at h
  by_cases hm : m = 0
  · subst hm
    rw [show (n : Int) - ((intText e).length + 1) = 0 by omega, noExponent_zero s1] at h
    cases h
    refine ⟨[], by simp, by simp, by simp⟩
  · rw [show (n : Int) - ((intText e).length + 1) = (m : Int) by omega, noExponent_sig s1 s2 (by omega)] at h
    have a1 : (0 : Rat) < |v| / 10 ^ e := by linarith
    have a2 : |v| / 10 ^ e < 10 ^ 1 := by simpa using s2
    obtain ⟨t, q, ht, _⟩ := plainText_spec a1 (D := 1) (by omega) a2 (Or.inl rfl) (by omega : 1 ≤ m)
    obtain ⟨b1, b2⟩ := plainText_exact a1 (D := 1) (by omega) a2 (Or.inl rfl) (by omega : 1 ≤ m) ht
    rw [ht] at h
    cases h
    simp only [pow_one, le_div_iff₀ hp] at b1
    rw [pow_one, div_lt_iff₀ hp] at b2
    exact ⟨t, rfl, b1, b2⟩

/-- The exact form of C70, for numbers without an exponent (`D` is the number of whole digits)
and with one (`m` is the room for the significand): there is one character too many exactly if there are
decimals and the number is at most half a unit of the last decimal below the next power of ten. -/
theorem C70_exact_partial (v : Rat) (n : Nat) (allow : Bool) (s : Str) (hv : v ≠ 0) (h : formatAutoFloat v (n + (minusOf v).length) allow = some s) :
    (∀ D : Nat, 1 ≤ D → |v| < 10 ^ D → (D = 1 ∨ 10 ^ (D - 1) ≤ |v|) → D ≤ n → (allow = false ∨ 1 / 100 ≤ |v| ∨ n = 1) →
      s.length = n + (minusOf v).length + if D + 2 ≤ n ∧ 10 ^ D - lastUnit n D / 2 ≤ |v| then 1 else 0) ∧
    (∀ (e : Int) (m : Nat), allow = true → 10 ^ e ≤ |v| → |v| < 10 ^ (e + 1) → (e < -2 ∧ 2 ≤ n ∨ (n : Int) ≤ e ∧ 1 ≤ n) → n = m + (intText e).length + 1 →
      s.length = n + (minusOf v).length + if 3 ≤ m ∧ (10 - lastUnit m 1 / 2) * 10 ^ e ≤ |v| then 1 else 0) := by
  refine ⟨fun D hD h1 h2 h3 h4 => ?_, fun e m hall h1 h2 h3 hn => ?_⟩
  · obtain ⟨t, rfl, ht, _⟩ := plain_exact hv hD h1 h2 h3 h4 h
    rw [List.length_append, ht]
    split <;> omega
  · subst hall
    obtain ⟨t, rfl, ht, _⟩ := exp_exact hv h1 h2 h3 hn h
    rw [List.length_append, List.length_append, List.length_cons, ht]
    split <;> omega

/-- The exact form of C76: there is a blank exactly if there is room for a single character after the
whole digits, or after the first digit of the significand, and the number is not rounded up to a power of ten. -/
theorem C76_exact_partial (v : Rat) (n : Nat) (allow : Bool) (s : Str) (hv : v ≠ 0) (h : formatAutoFloat v (n + (minusOf v).length) allow = some s) :
    (∀ D : Nat, 1 ≤ D → |v| < 10 ^ D → (D = 1 ∨ 10 ^ (D - 1) ≤ |v|) → D ≤ n → (allow = false ∨ 1 / 100 ≤ |v| ∨ n = 1) →
      (' ' ∈ s ↔ n = D + 1 ∧ |v| < 10 ^ D - 1 / 2)) ∧
    (∀ (e : Int) (m : Nat), allow = true → 10 ^ e ≤ |v| → |v| < 10 ^ (e + 1) → (e < -2 ∧ 2 ≤ n ∨ (n : Int) ≤ e ∧ 1 ≤ n) → n = m + (intText e).length + 1 →
      (' ' ∈ s ↔ m = 2 ∧ |v| < (10 - 1 / 2) * 10 ^ e)) := by
  have hm : ' ' ∉ minusOf v := by unfold minusOf; split <;> decide
  refine ⟨fun D hD h1 h2 h3 h4 => ?_, fun e m hall h1 h2 h3 hn => ?_⟩
  · obtain ⟨t, rfl, _, ht⟩ := plain_exact hv hD h1 h2 h3 h4 h
    rw [List.mem_append, ht]
    simp [hm]
  · subst hall
    obtain ⟨t, rfl, _, ht⟩ := exp_exact hv h1 h2 h3 hn h
    have hi : ' ' ∉ 'e' :: intText e := by
      have hd : ∀ n, ' ' ∉ Nat.toDigits 10 n := fun n hc => absurd (dec_digit hc) (by decide)
      unfold intText
      split
      · simp only [List.mem_cons, not_or]; exact ⟨by decide, by decide, hd _⟩
      · simp only [List.mem_cons, not_or]; exact ⟨by decide, hd _⟩
    rw [List.mem_append, List.mem_append, ht]
    simp [hm, hi]

/-- 9.995 in four characters is `9.99`+`5`, a tie that goes up, and 9.994 is below it; in two characters 9.5
becomes `10` while 9.4 is ` 9`. -/
example : (formatAutoFloat (9995 / 1000) 4 true).map List.length = some 5 ∧ (formatAutoFloat (9994 / 1000) 4 true).map List.length = some 4 ∧
    formatAutoFloat (95 / 10) 2 true = some "10".toList ∧ formatAutoFloat (94 / 10) 2 true = some " 9".toList := by decide +kernel

end Kolombos
