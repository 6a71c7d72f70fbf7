import Verif.Lemmas.Number
/-
Numbers in a required number of characters.
-/
set_option linter.unusedSimpArgs false

namespace Kolombos
open Spec

/-! ### C70: the required length -/

theorem C70_length_partial (v : Rat) (n : Nat) (allow : Bool) (s : Str) (h : formatAutoFloat v n allow = some s) :
    s.length ≤ n + 1 ∧ ((∀ k : Int, 199 / 200 * 10 ^ k ≤ |v| → 10 ^ k ≤ |v|) → s.length = n) := by
  by_cases hv : v = 0
  · subst hv
    by_cases hn : n = 0
    · subst hn
      have : formatAutoFloat 0 (0 : Nat) allow = some [] := by cases allow <;> decide
      rw [this] at h
      cases h
      exact ⟨by decide, fun _ => rfl⟩
    · rw [zero_text n allow (by omega)] at h
      cases h
      simp
      omega
  · by_cases hbig : (minusOf v).length < n
    · obtain ⟨m, rfl⟩ : ∃ m, n = m + (minusOf v).length := ⟨n - (minusOf v).length, by omega⟩
      rw [Int.natCast_add] at h
      rcases length_cases v m allow (by omega) hv with ⟨_, _, h'⟩ | ⟨_, s', h', l1, l2⟩
      · rw [h'] at h; cases h
      · rw [h'] at h; cases h; exact ⟨l1, l2⟩
    · by_cases heq : n = (minusOf v).length
      · have : formatAutoFloat v n allow = some (List.replicate n '!') := by
          rw [formatAutoFloat_eq]
          unfold autoFloatBody
          rw [if_neg (by omega)]
          by_cases hneg : v < 0
          · have : n = 1 := by rw [heq]; unfold minusOf; rw [if_pos hneg]; rfl
            subst this
            simp [hneg, pyRepeat]
          · have : n = 0 := by rw [heq]; unfold minusOf; rw [if_neg hneg]; rfl
            subst this
            simp [hneg, pyRepeat]
        rw [this] at h
        cases h
        simp
      · have hneg : v < 0 := by
          refine Classical.byContradiction fun hc => ?_
          unfold minusOf at hbig heq
          rw [if_neg hc] at hbig heq
          simp at hbig heq
          omega
        have hm : minusOf v = ['-'] := by unfold minusOf; rw [if_pos hneg]
        have hn : n = 0 := by rw [hm] at hbig heq; simp at hbig heq; omega
        subst hn
        have hb := body_eq noExponent (v := v) (n := -1) (allow := allow) (by decide) hv (by rw [hm]; decide)
        rw [hm] at hb
        rw [formatAutoFloat_eq] at h
        simp only [List.length_cons, List.length_nil] at hb
        rw [show ((-1 : Int) + ((0 + 1 : Nat) : Int)) = ((0 : Nat) : Int) by decide, h, if_neg (by rintro ⟨_, h⟩; omega)] at hb
        split at hb
        · unfold expText at hb
          split at hb
          · cases hb
          · rw [if_pos (by omega)] at hb
            cases hb
            exact ⟨by decide, fun _ => rfl⟩
        · unfold plainText at hb
          rw [if_neg (by omega), if_pos (by omega)] at hb
          cases hb

example : formatAutoFloat (12345 / 1000) 7 true = some "12.3450".toList ∧ formatAutoFloat (-12500000) 6 true = some "-1.2e7".toList := by
  decide +kernel

/-- The text may be longer than required: 9.999 in four characters is `10.00`, and 9.996·10¹⁰ in
seven characters is `10.00e10`. -/
theorem C70_negation : ¬ ∀ (v : Rat) (n : Nat) (allow : Bool) (s : Str), formatAutoFloat v n allow = some s → s.length = n := by
  intro h
  have := h (9999 / 1000) 4 true "10.00".toList (by decide +kernel)
  exact absurd this (by decide)

/-- An error is raised only without exponents, for numbers with more digits than there is room for. -/
theorem C70_total (v : Rat) (n : Nat) (allow : Bool) (hn : 1 ≤ n) :
    formatAutoFloat v n allow = none ↔ allow = false ∧ (minusOf v).length < n ∧ 10 ^ (n - (minusOf v).length) ≤ |v| := by
  by_cases hv : v = 0
  · subst hv
    rw [zero_text n allow hn]
    simp
  · by_cases hbig : (minusOf v).length < n
    · obtain ⟨m, rfl⟩ : ∃ m, n = m + (minusOf v).length := ⟨n - (minusOf v).length, by omega⟩
      rw [Int.natCast_add, Nat.add_sub_cancel]
      rcases length_cases v m allow (by omega) hv with ⟨h1, h2, h'⟩ | ⟨h1, s', h', _, _⟩
      · rw [h']; simp only [true_iff]; exact ⟨h1, hbig, h2⟩
      · rw [h']
        simp only [reduceCtorEq, false_iff]
        rintro ⟨a1, _, a2⟩
        rcases h1 with h | h
        · rw [h] at a1; cases a1
        · linarith
    · have hneg : v < 0 := by
        refine Classical.byContradiction fun hc => ?_
        unfold minusOf at hbig
        rw [if_neg hc] at hbig
        simp at hbig
        omega
      have hm : minusOf v = ['-'] := by unfold minusOf; rw [if_pos hneg]
      have : n = 1 := by rw [hm] at hbig; simp at hbig; omega
      subst this
      simp only [hm, List.length_singleton, lt_irrefl, false_and, and_false, iff_false]
      rw [formatAutoFloat_eq]
      unfold autoFloatBody
      simp [hneg]

example : formatAutoFloat (-123456) 6 false = none ∧ formatAutoFloat (-12345) 6 false = some "-12345".toList := by decide +kernel

/-! ### C71: the number that is shown -/

/-- Without an exponent. -/
theorem C71_plain (v : Rat) (n d : Nat) (allow : Bool) (hv : v ≠ 0) (hd : 1 ≤ d) (h1 : |v| < 10 ^ d)
    (h2 : d = 1 ∨ 10 ^ (d - 1) ≤ |v|) (h3 : d ≤ n) (h4 : allow = false ∨ 1 / 100 ≤ |v| ∨ n = 1) :
    ∃ t q, formatAutoFloat v (n + (minusOf v).length) allow = some (minusOf v ++ t) ∧ IsDecimal t q (lastUnit n d) ∧ BestIn n d |v| q := by
  obtain ⟨t, q, a, b, c, _⟩ := plain_decimal hv hd h1 h2 h3 h4
  exact ⟨t, q, a, b, c⟩

example : ∃ t q, formatAutoFloat (-1234567 / 1000) 7 true = some ('-' :: t) ∧ IsDecimal t q (1 / 10) ∧ |q - 1234567 / 1000| ≤ 1 / 20 := by
  have hm : minusOf (-1234567 / 1000) = ['-'] := by decide +kernel
  have habs : |(-1234567 / 1000 : Rat)| = 1234567 / 1000 := by decide +kernel
  have h := C71_plain (-1234567 / 1000) 6 4 true (by norm_num) (by decide) (by rw [habs]; norm_num) (by rw [habs]; norm_num) (by decide) (by rw [habs]; norm_num)
  rw [hm, habs] at h
  obtain ⟨t, q, a, b, c⟩ := h
  refine ⟨t, q, a, ?_, ?_⟩
  · simpa [lastUnit] using b
  · rcases c with c | ⟨c, _⟩
    · unfold lastUnit at c; norm_num at c ⊢; exact c
    · cases c

/-- With an exponent: the exponent is the true one, and the significand is the best one in the room that
is left. Without room for the significand it is left out, and without room for the exponent the whole field
is filled with exclamation marks. -/
theorem C71_exponent (v : Rat) (n : Nat) (e : Int) (hv : v ≠ 0) (h1 : 10 ^ e ≤ |v|) (h2 : |v| < 10 ^ (e + 1))
    (h3 : (e < -2 ∧ 2 ≤ n) ∨ ((n : Int) ≤ e ∧ 1 ≤ n)) :
    (n ≤ (intText e).length → formatAutoFloat v (n + (minusOf v).length) true = some (List.replicate (n + (minusOf v).length) '!')) ∧
    (n = (intText e).length + 1 → formatAutoFloat v (n + (minusOf v).length) true = some (minusOf v ++ 'e' :: intText e)) ∧
    (∀ m, 1 ≤ m → n = m + (intText e).length + 1 → ∃ t q, formatAutoFloat v (n + (minusOf v).length) true = some (minusOf v ++ t ++ 'e' :: intText e) ∧
      IsDecimal t q (lastUnit m 1) ∧ BestIn m 1 (|v| / 10 ^ e) q) := by
  obtain ⟨e1, e2, e3⟩ := exp_decimal hv h1 h2 h3
  refine ⟨e1, e2, fun m hm hn => ?_⟩
  obtain ⟨t, q, a, b, c, _⟩ := e3 m hm hn
  exact ⟨t, q, a, b, c⟩

example : (∃ t q, formatAutoFloat (1 / 7000) 8 true = some (t ++ "e-4".toList) ∧ IsDecimal t q (1 / 1000) ∧ |q - 10 / 7| ≤ 1 / 2000) ∧
    formatAutoFloat (1 / 7000) 8 true = some "1.429e-4".toList ∧ formatAutoFloat 123456 2 true = some "e5".toList ∧
    formatAutoFloat (10 ^ 20) 2 true = some "!!".toList := by
  refine ⟨?_, by decide +kernel, by decide +kernel, by decide +kernel⟩
  have hm : minusOf (1 / 7000) = [] := by decide +kernel
  have habs : |(1 / 7000 : Rat)| = 1 / 7000 := by decide +kernel
  have h := (C71_exponent (1 / 7000) 8 (-4) (by norm_num) (by rw [habs]; norm_num) (by rw [habs]; norm_num) (by omega)).2.2 5 (by decide) (by decide)
  rw [hm, habs] at h
  obtain ⟨t, q, a, b, c⟩ := h
  refine ⟨t, q, a, ?_, ?_⟩
  · unfold lastUnit at b; norm_num at b ⊢; exact b
  · rcases c with c | ⟨c, _⟩
    · unfold lastUnit at c; norm_num at c ⊢; exact c
    · cases c

/-- Nought. -/
theorem C71_zero (n : Nat) (allow : Bool) (hn : 1 ≤ n) : formatAutoFloat 0 n allow = some (List.replicate (n - 1) ' ' ++ ['0']) :=
  zero_text n allow hn

example : formatAutoFloat 0 5 true = some "    0".toList := C71_zero 5 true (by decide)

/-! ### C76: no blanks within a number -/

/-- A number has no blank, unless the room left after its integer digits, or after the first digit of its
significand, is a single character. -/
theorem C76_partial (v : Rat) (n : Nat) (allow : Bool) (s : Str) (hn : 1 ≤ n) (hv : v ≠ 0) (h : formatAutoFloat v (n + (minusOf v).length) allow = some s)
    (h1 : ∀ d, 1 ≤ d → |v| < 10 ^ d → (d = 1 ∨ 10 ^ (d - 1) ≤ |v|) → n ≠ d + 1)
    (h2 : ∀ e : Int, 10 ^ e ≤ |v| → |v| < 10 ^ (e + 1) → n ≠ (intText e).length + 3) : ' ' ∉ s := by
  have ha : 0 < |v| := abs_pos.2 hv
  have hm : ' ' ∉ minusOf v := by unfold minusOf; split <;> decide
  rw [formatAutoFloat_eq, body_eq noExponent (by omega) hv (by omega)] at h
  split at h
  · cases h
    simp only [List.mem_append, not_or]
    exact ⟨hm, by decide⟩
  · rename_i h0
    split at h
    · have hlow := Int.zpow_log_le_self (b := 10) (by decide) ha
      have hup := Int.lt_zpow_succ_log_self (b := 10) (by decide) |v|
      have hne := h2 _ (by simpa using hlow) (by simpa using hup)
      obtain ⟨s1, s2⟩ := log_sig ha
      have hi : ∀ e : Int, ' ' ∉ 'e' :: intText e := by
        intro e
        have hd : ∀ n, ' ' ∉ Nat.toDigits 10 n := fun n hc => absurd (dec_digit hc) (by decide)
        unfold intText
        split
        · simp only [List.mem_cons, not_or]; exact ⟨by decide, by decide, hd _⟩
        · simp only [List.mem_cons, not_or]; exact ⟨by decide, hd _⟩
      unfold expText at h
      rw [decInt_intText] at h
      split at h
      · cases h
      · split at h
        · cases h
          unfold pyRepeat
          simp
        · rename_i hroom
          obtain ⟨m, hmr⟩ : ∃ m : Nat, (n : Int) - ((intText (Int.log 10 |v|)).length + 1) = m := ⟨((n : Int) - ((intText (Int.log 10 |v|)).length + 1)).toNat, by omega⟩
          rw [hmr] at h
          by_cases hm0 : m = 0
          · subst hm0
            rw [show ((0 : Nat) : Int) = 0 from rfl, noExponent_zero s1] at h
            cases h
            simp only [List.mem_append, not_or]
            exact ⟨⟨hm, by simp⟩, hi _⟩
          · rw [noExponent_sig s1 s2 (by omega)] at h
            obtain ⟨t, q, ht, _⟩ := plainText_spec (a := |v| / 10 ^ Int.log 10 |v|) (by linarith) (n := m) (D := 1) (by omega) (by simpa using s2) (Or.inl rfl) (by omega)
            have hb := plainText_noBlank (a := |v| / 10 ^ Int.log 10 |v|) (by linarith) (n := m) (D := 1) (by omega) (by simpa using s2) (Or.inl rfl) (by omega) (by omega) ht
            rw [ht] at h
            cases h
            simp only [List.mem_append, not_or]
            exact ⟨⟨hm, hb⟩, hi _⟩
    · rename_i hw
      unfold wantsExponent at hw
      obtain ⟨D, d1, d2, d3, d4⟩ := exists_digits ha hn (by omega)
      obtain ⟨t, q, ht, _⟩ := plainText_spec ha d1 d2 d3 d4
      have hb := plainText_noBlank ha d1 d2 d3 d4 (h1 D d1 d2 d3) ht
      rw [ht] at h
      cases h
      simp only [List.mem_append, not_or]
      exact ⟨hm, hb⟩

example : formatAutoFloat (-12345 / 10) 5 true = some "-1234".toList ∧ formatAutoFloat (-12345 / 10) 7 true = some "-1234.5".toList := by decide +kernel

/-- The sign need not stand at the digits: -1234.5 in six characters is `- 1234`. -/
theorem C76_negation : ¬ ∀ (v : Rat) (n : Nat) (allow : Bool) (s : Str), formatAutoFloat v n allow = some s → '-' ∈ s → ' ' ∉ s := by
  intro h
  exact absurd (h (-12345 / 10) 6 true "- 1234".toList (by decide +kernel) (by decide)) (by decide)

end Kolombos
