import Verif.Model.PrefixedUnit
import Verif.Lemmas.Number
/-
Numbers with unit prefixes.
-/
set_option linter.unusedSimpArgs false

namespace Kolombos
open Spec

namespace PrefixedUnit

variable {F : PrefixedUnit} {unit : Str}

theorem one_div_lt {m : Rat} (hm : 1 < m) : 1 / m < 1 := by
  rw [div_lt_one (by linarith)]; exact hm

theorem loop_up (hm : 1 < F.mcoef) : ∀ (j fuel : Nat) (v : Rat) (idx : Int), F.mcoef ^ j ≤ |v| → |v| < F.mcoef ^ (j + 1) →
    0 ≤ idx → idx + j < F.prefixes.length → j < fuel → F.loop unit fuel v idx = F.shown unit (v / F.mcoef ^ j) (idx + j) := by
  intro j
  induction j with
  | zero =>
    intro fuel v idx h1 h2 h3 h4 h5
    obtain ⟨fuel, rfl⟩ : ∃ f, fuel = f + 1 := ⟨fuel - 1, by omega⟩
    simp only [pow_zero, zero_add, pow_one, div_one, Nat.cast_zero, add_zero] at *
    have := one_div_lt hm
    rw [loop, if_pos ⟨h3, h4⟩, if_neg (by rintro ⟨_, h⟩; linarith), if_neg (by linarith)]
  | succ j ih =>
    intro fuel v idx h1 h2 h3 h4 h5
    obtain ⟨fuel, rfl⟩ : ∃ f, fuel = f + 1 := ⟨fuel - 1, by omega⟩
    have hp : 0 < F.mcoef := by linarith
    have h0 := one_div_lt hm
    have hj : 1 ≤ F.mcoef ^ j := one_le_pow₀ hm.le
    have hge : F.mcoef ≤ |v| := by
      rw [pow_succ] at h1
      have := mul_le_mul_of_nonneg_right hj hp.le
      linarith
    rw [loop, if_pos ⟨h3, by omega⟩, if_neg (by rintro ⟨_, h⟩; linarith), if_pos hge]
    have ha : |v / F.mcoef| = |v| / F.mcoef := by rw [abs_div, abs_of_pos hp]
    rw [ih fuel (v / F.mcoef) (idx + 1) (by rw [ha, le_div_iff₀ hp, ← pow_succ]; exact h1)
      (by rw [ha, div_lt_iff₀ hp, ← pow_succ]; exact h2) (by omega) (by omega) (by omega)]
    congr 1
    · rw [div_div, ← pow_succ']
    · push_cast; ring

theorem loop_up_over (hm : 1 < F.mcoef) : ∀ (j fuel : Nat) (v : Rat) (idx : Int), F.mcoef ^ j ≤ |v| →
    0 ≤ idx → idx + j = F.prefixes.length → j < fuel → F.loop unit fuel v idx = F.overflow (v / F.mcoef ^ j) := by
  intro j
  induction j with
  | zero =>
    intro fuel v idx h1 h3 h4 h5
    obtain ⟨fuel, rfl⟩ : ∃ f, fuel = f + 1 := ⟨fuel - 1, by omega⟩
    rw [loop, if_neg (by omega)]
    simp
  | succ j ih =>
    intro fuel v idx h1 h3 h4 h5
    obtain ⟨fuel, rfl⟩ : ∃ f, fuel = f + 1 := ⟨fuel - 1, by omega⟩
    have hp : 0 < F.mcoef := by linarith
    have h0 := one_div_lt hm
    have hj : 1 ≤ F.mcoef ^ j := one_le_pow₀ hm.le
    have hge : F.mcoef ≤ |v| := by
      rw [pow_succ] at h1
      have := mul_le_mul_of_nonneg_right hj hp.le
      linarith
    rw [loop, if_pos ⟨h3, by omega⟩, if_neg (by rintro ⟨_, h⟩; linarith), if_pos hge]
    have ha : |v / F.mcoef| = |v| / F.mcoef := by rw [abs_div, abs_of_pos hp]
    rw [ih fuel (v / F.mcoef) (idx + 1) (by rw [ha, le_div_iff₀ hp, ← pow_succ]; exact h1) (by omega) (by omega) (by omega)]
    congr 1
    rw [div_div, ← pow_succ']

theorem loop_down (hm : 1 < F.mcoef) : ∀ (j fuel : Nat) (v : Rat) (idx : Int), 1 < |v| * F.mcoef ^ (j + 1) → |v| * F.mcoef ^ j ≤ 1 →
    j ≤ idx → idx < F.prefixes.length → j < fuel → F.loop unit fuel v idx = F.shown unit (v * F.mcoef ^ j) (idx - j) := by
  intro j
  induction j with
  | zero =>
    intro fuel v idx h1 h2 h3 h4 h5
    obtain ⟨fuel, rfl⟩ : ∃ f, fuel = f + 1 := ⟨fuel - 1, by omega⟩
    simp only [pow_zero, zero_add, pow_one, mul_one, Nat.cast_zero, sub_zero] at *
    have hp : 0 < F.mcoef := by linarith
    rw [loop, if_pos ⟨h3, h4⟩, if_neg, if_neg (by linarith)]
    rintro ⟨_, h⟩
    rw [le_div_iff₀ hp] at h
    linarith
  | succ j ih =>
    intro fuel v idx h1 h2 h3 h4 h5
    obtain ⟨fuel, rfl⟩ : ∃ f, fuel = f + 1 := ⟨fuel - 1, by omega⟩
    have hp : 0 < F.mcoef := by linarith
    have hj : 1 ≤ F.mcoef ^ j := one_le_pow₀ hm.le
    have hv : 0 < |v| := by
      rcases (abs_nonneg v).lt_or_eq with h | h
      · exact h
      · rw [← h] at h1; simp at h1; linarith
    have hle : |v| * F.mcoef ≤ 1 := by
      have : |v| * F.mcoef * 1 ≤ |v| * F.mcoef * F.mcoef ^ j := mul_le_mul_of_nonneg_left hj (by positivity)
      rw [pow_succ] at h2
      nlinarith
    have ha : |v * F.mcoef| = |v| * F.mcoef := by rw [abs_mul, abs_of_pos hp]
    rw [loop, if_pos ⟨by omega, by omega⟩, if_pos ⟨hv, by rw [le_div_iff₀ hp]; exact hle⟩, if_pos (by rw [ha]; exact hle)]
    rw [ih fuel (v * F.mcoef) (idx - 1) (by rw [ha, mul_assoc, ← pow_succ']; exact h1)
      (by rw [ha, mul_assoc, ← pow_succ']; exact h2) (by omega) (by omega) (by omega)]
    congr 1
    · rw [mul_assoc, ← pow_succ']
    · push_cast; ring

theorem loop_down_over (hm : 1 < F.mcoef) : ∀ (j fuel : Nat) (v : Rat) (idx : Int), 0 < |v| → |v| * F.mcoef ^ j ≤ 1 →
    j = idx + 1 → idx < F.prefixes.length → j < fuel → F.loop unit fuel v idx = F.overflow (v * F.mcoef ^ j) := by
  intro j
  induction j with
  | zero =>
    intro fuel v idx h1 h2 h3 h4 h5
    obtain ⟨fuel, rfl⟩ : ∃ f, fuel = f + 1 := ⟨fuel - 1, by omega⟩
    rw [loop, if_neg (by omega)]
    simp
  | succ j ih =>
    intro fuel v idx hv h2 h3 h4 h5
    obtain ⟨fuel, rfl⟩ : ∃ f, fuel = f + 1 := ⟨fuel - 1, by omega⟩
    have hp : 0 < F.mcoef := by linarith
    have hj : 1 ≤ F.mcoef ^ j := one_le_pow₀ hm.le
    have hle : |v| * F.mcoef ≤ 1 := by
      have : |v| * F.mcoef * 1 ≤ |v| * F.mcoef * F.mcoef ^ j := mul_le_mul_of_nonneg_left hj (by positivity)
      rw [pow_succ] at h2
      nlinarith
    have ha : |v * F.mcoef| = |v| * F.mcoef := by rw [abs_mul, abs_of_pos hp]
    rw [loop, if_pos ⟨by omega, by omega⟩, if_pos ⟨hv, by rw [le_div_iff₀ hp]; exact hle⟩, if_pos (by rw [ha]; exact hle)]
    rw [ih fuel (v * F.mcoef) (idx - 1) (by rw [ha]; positivity) (by rw [ha, mul_assoc, ← pow_succ']; exact h2) (by omega) (by omega) (by omega)]
    congr 1
    rw [mul_assoc, ← pow_succ']

theorem loop_zero (hm : 1 < F.mcoef) (fuel : Nat) {idx : Int} (h1 : 0 ≤ idx) (h2 : idx < F.prefixes.length) :
    F.loop unit (fuel + 1) 0 idx = F.shown unit 0 idx := by
  rw [loop, if_pos ⟨h1, h2⟩, if_neg (by simp), if_neg (by simp; linarith)]

end PrefixedUnit

theorem format_scale {F : PrefixedUnit} {unit : Str} {b : Rat} (hm' : 1 < b) (hF : F.mcoef = b) (z : Nat) (hz : F.prefixZeroIdx = z)
    (hzl : z < F.prefixes.length) {v : Rat} {k : Int} (hk : InScale b k |v|) (h1 : -z ≤ k) (h2 : z + k < F.prefixes.length) :
    F.format v unit = F.shown unit (v / b ^ k) (z + k) := by
  have hm : 1 < F.mcoef := by rw [hF]; exact hm'
  have hb0 : 0 < b := by linarith
  unfold PrefixedUnit.format
  rw [hz]
  rcases hk with ⟨h0, h3, h4⟩ | ⟨h0, h3⟩ | ⟨h0, h3, h4⟩
  · obtain ⟨j, rfl⟩ : ∃ j : Nat, k = j := ⟨k.toNat, by omega⟩
    rw [PrefixedUnit.loop_up hm j _ v z (by rw [hF]; exact_mod_cast h3) (by rw [hF]; exact_mod_cast h4) (by omega) (by omega) (by omega), hF, zpow_natCast]
  · subst h0
    rcases h3 with h3 | ⟨h3, h4⟩
    · rw [abs_eq_zero] at h3
      subst h3
      rw [PrefixedUnit.loop_zero hm _ (by omega) (by omega)]
      simp
    · by_cases h5 : 1 ≤ |v|
      · rw [PrefixedUnit.loop_up hm 0 _ v z (by simpa using h5) (by simpa [hF] using h4) (by omega) (by omega) (by omega)]
        simp
      · rw [PrefixedUnit.loop_down hm 0 _ v z (by rw [hF]; rw [div_lt_iff₀ (by linarith)] at h3; simpa using h3) (by simp; linarith) (by omega) (by omega) (by omega)]
        simp
  · obtain ⟨j, rfl⟩ : ∃ j : Nat, k = -(j : Int) := ⟨(-k).toNat, by omega⟩
    rw [zpow_neg, zpow_natCast] at h4
    rw [show (-(j : Int) - 1) = -((j + 1 : Nat) : Int) by push_cast; ring, zpow_neg, zpow_natCast] at h3
    have hp1 : (0 : Rat) < b ^ j := by positivity
    have hp2 : (0 : Rat) < b ^ (j + 1) := by positivity
    rw [PrefixedUnit.loop_down hm j _ v z ?_ ?_ (by omega) (by omega) (by omega), hF, zpow_neg, zpow_natCast, div_inv_eq_mul]
    · congr 1
    · rw [hF]
      rw [inv_lt_iff_one_lt_mul₀ hp2] at h3
      linarith
    · rw [hF]
      rw [← one_div, le_div_iff₀ hp1] at h4
      exact h4

theorem format_in {F : PrefixedUnit} {unit : Str} {b : Nat} (hb : 1 < b) (hF : F.mcoef = b) (z : Nat) (hz : F.prefixZeroIdx = z)
    (hzl : z < F.prefixes.length) {v : Rat} {k : Int} (hk : InScale b k |v|) (h1 : -z ≤ k) (h2 : z + k < F.prefixes.length) :
    F.format v unit = F.shown unit (v / b ^ k) (z + k) :=
  format_scale (by exact_mod_cast hb) hF z hz hzl hk h1 h2

/-- Every value within the range of the prefixes has a scale. -/
theorem exists_scale {b : Nat} (hb : 1 < b) {a : Rat} (lo hi : Nat) (h1 : a = 0 ∨ (b : Rat) ^ (-((lo + 1 : Nat) : Int)) < a) (h2 : a < (b : Rat) ^ (hi + 1)) :
    ∃ k : Int, InScale b k a ∧ -lo ≤ k ∧ k ≤ hi := by
  have hm : (1 : Rat) < b := by exact_mod_cast hb
  rcases h1 with h1 | h1
  · exact ⟨0, Or.inr (Or.inl ⟨rfl, Or.inl h1⟩), by omega, by omega⟩
  have ha : 0 < a := lt_trans (zpow_pos (by linarith) _) h1
  by_cases c1 : (b : Rat) ≤ a
  · have l1 := Int.zpow_log_le_self (b := b) hb ha
    have l2 := Int.lt_zpow_succ_log_self (b := b) hb a
    have l3 := (Int.zpow_le_iff_le_log (b := b) hb ha (x := 1)).1 (by simpa using c1)
    have l4 := (Int.lt_zpow_iff_log_lt (b := b) hb ha (x := ((hi + 1 : Nat) : Int))).1 (by rw [zpow_natCast]; exact h2)
    exact ⟨Int.log b a, Or.inl ⟨by omega, l1, l2⟩, by omega, by omega⟩
  · by_cases c2 : 1 / (b : Rat) < a
    · exact ⟨0, Or.inr (Or.inl ⟨rfl, Or.inr ⟨c2, by linarith⟩⟩), by omega, by omega⟩
    · have c3 : a ≤ (b : Rat) ^ (-1 : Int) := by rw [zpow_neg_one]; simpa using c2
      have l1 := Int.self_le_zpow_clog (b := b) hb a
      have l2 := Int.zpow_pred_clog_lt_self (b := b) hb ha
      have l3 := (Int.le_zpow_iff_clog_le (b := b) hb ha (x := -1)).1 c3
      have l4 := (Int.zpow_lt_iff_lt_clog (b := b) hb ha (x := -((lo + 1 : Nat) : Int))).1 h1
      exact ⟨Int.clog b a, Or.inr (Or.inr ⟨by omega, l2, l1⟩), by omega, by omega⟩

theorem format_above {F : PrefixedUnit} {unit : Str} (hm : 1 < F.mcoef) (z : Nat) (hz : F.prefixZeroIdx = z)
    (hzl : z < F.prefixes.length) {v : Rat} (h : F.mcoef ^ (F.prefixes.length - z) ≤ |v|) :
    F.format v unit = F.overflow (v / F.mcoef ^ (F.prefixes.length - z)) := by
  unfold PrefixedUnit.format
  rw [hz, PrefixedUnit.loop_up_over hm _ _ v z h (by omega) (by omega) (by omega)]

theorem format_below {F : PrefixedUnit} {unit : Str} (hm : 1 < F.mcoef) (z : Nat) (hz : F.prefixZeroIdx = z)
    (hzl : z < F.prefixes.length) {v : Rat} (h0 : v ≠ 0) (h : |v| * F.mcoef ^ (z + 1) ≤ 1) :
    F.format v unit = F.overflow (v * F.mcoef ^ (z + 1)) := by
  unfold PrefixedUnit.format
  rw [hz, PrefixedUnit.loop_down_over hm _ _ v z (abs_pos.2 h0) h (by omega) (by omega) (by omega)]

/-! ### Blanks -/

theorem digit_no_space {c : Char} {d : Nat} (h : digitVal c = some d) : isPySpace c = false ∧ c ≠ ' ' := by
  have key : 48 ≤ c.toNat ∧ c.toNat ≤ 102 := by
    unfold digitVal at h
    have e1 : ∀ a b : Char, a ≤ b ↔ a.toNat ≤ b.toNat := fun a b => Iff.rfl
    simp only [e1] at h
    split at h
    · rename_i hc
      have e2 : '0'.toNat = 48 := rfl
      have e3 : '9'.toNat = 57 := rfl
      omega
    · split at h
      · rename_i hc
        have e2 : 'a'.toNat = 97 := rfl
        have e3 : 'f'.toNat = 102 := rfl
        omega
      · cases h
  constructor
  · unfold isPySpace
    simp
    omega
  · rintro rfl
    have : ' '.toNat = 32 := rfl
    omega

theorem readDigits_no_space : ∀ {t : Str} {acc n : Nat}, readDigits 10 acc t = some n → ∀ c ∈ t, isPySpace c = false ∧ c ≠ ' ' := by
  intro t
  induction t with
  | nil => intro _ _ _ c hc; cases hc
  | cons a t ih =>
    intro acc n h c hc
    rw [readDigits] at h
    cases hd : digitVal a with
    | none => rw [hd] at h; cases h
    | some d =>
      rw [hd] at h
      simp only at h
      split at h
      · rcases List.mem_cons.1 hc with rfl | hc
        · exact digit_no_space hd
        · exact ih h c hc
      · cases h

theorem dropWhile_none {p : Char → Bool} {t : Str} (h : ∀ c, t.head? = some c → p c = false) : t.dropWhile p = t := by
  cases t with
  | nil => rfl
  | cons a t => rw [List.dropWhile_cons, h a rfl]; rfl

theorem pyStrip_none {t : Str} (h1 : ∀ c, t.head? = some c → isPySpace c = false) (h2 : ∀ c, t.getLast? = some c → isPySpace c = false) :
    pyStrip t = t := by
  unfold pyStrip
  rw [dropWhile_none h1, dropWhile_none (by rw [List.head?_reverse]; exact h2), List.reverse_reverse]

theorem dropWhile_blanks (n : Nat) (t : Str) : (List.replicate n ' ' ++ t).dropWhile isPySpace = t.dropWhile isPySpace := by
  induction n with
  | zero => rfl
  | succ n ih => rw [List.replicate_succ, List.cons_append, List.dropWhile_cons]; exact ih

theorem pyStrip_blanks (n : Nat) (t : Str) : pyStrip (List.replicate n ' ' ++ t) = pyStrip t := by
  unfold pyStrip; rw [dropWhile_blanks]

/-- The numeral without the blanks. -/
theorem decimal_bare {t : Str} {q u : Rat} (h : IsDecimal t q u) :
    ∃ (n : Nat) (t' : Str), t = List.replicate n ' ' ++ t' ∧ t' ≠ [] ∧ (∀ c ∈ t', isPySpace c = false ∧ c ≠ ' ') ∧ IsDecimal t' q u := by
  obtain ⟨n, i, f, m, h1, h2, h3, h4, h5⟩ := h
  refine ⟨n, i ++ (if f = [] then [] else '.' :: f), by rw [h2, List.append_assoc], by simp [h1], ?_, 0, i, f, m, h1, by simp, h3, h4, h5⟩
  intro c hc
  have hno := readDigits_no_space h3
  rcases List.mem_append.1 hc with hc | hc
  · exact hno c (List.mem_append_left _ hc)
  · split at hc
    · cases hc
    · rcases List.mem_cons.1 hc with rfl | hc
      · decide
      · exact hno c (List.mem_append_right _ hc)

theorem pyStrip_decimal {t : Str} {q u : Rat} (h : IsDecimal t q u) (v : Rat) :
    ∃ t', pyStrip (minusOf v ++ t) = minusOf v ++ t' ∧ IsDecimal t' q u ∧ t'.length ≤ t.length ∧ (0 ≤ v → ' ' ∉ t') := by
  obtain ⟨n, t', h1, h2, h3, h4⟩ := decimal_bare h
  have last : ∀ (x : Str) c, (x ++ t').getLast? = some c → isPySpace c = false := by
    intro x c hc
    rw [List.getLast?_append_of_ne_nil _ h2] at hc
    exact (h3 c (List.mem_of_getLast? hc)).1
  by_cases hv : v < 0
  · have hm : minusOf v = ['-'] := by unfold minusOf; rw [if_pos hv]
    refine ⟨t, ?_, h, le_refl _, fun hc => absurd hv (not_lt.2 hc)⟩
    rw [hm]
    apply pyStrip_none
    · intro c hc; cases hc; decide
    · rw [h1, ← List.append_assoc]; exact last _
  · have hm : minusOf v = [] := by unfold minusOf; rw [if_neg hv]
    refine ⟨t', ?_, h4, by rw [h1]; simp, fun _ hc => (h3 ' ' hc).2 rfl⟩
    rw [hm, List.nil_append, List.nil_append, h1, pyStrip_blanks]
    apply pyStrip_none
    · intro c hc; exact (h3 c (List.mem_of_head? hc)).1
    · exact last []

theorem unitText_strip {unit : Str} (h : UnitText unit) {p : Str} (hp : ∀ c ∈ p, isPySpace c = false) : unit ≠ [] ∧ pyStrip (p ++ unit) = p ++ unit := by
  obtain ⟨a, z, h1, h2, h3⟩ := h
  have hs : ∀ c, c = a ∨ c = z → isPySpace c = false := by
    intro c hc
    have := h3 c hc
    unfold isPySpace
    simp
    omega
  have hne : unit ≠ [] := by rintro rfl; cases h1
  refine ⟨hne, pyStrip_none ?_ ?_⟩
  · intro c hc
    cases p with
    | nil => rw [List.nil_append, h1] at hc; cases hc; exact hs _ (Or.inl rfl)
    | cons x p => cases hc; exact hp _ (by simp)
  · intro c hc
    rw [List.getLast?_append_of_ne_nil _ hne, h2] at hc
    cases hc
    exact hs _ (Or.inr rfl)

theorem scale_lt {m : Rat} (hm : 1 < m) {k : Int} {v : Rat} (h : InScale m k |v|) : |v / m ^ k| < m := by
  have hp : 0 < m ^ k := zpow_pos (by linarith) _
  rw [abs_div, abs_of_pos hp, div_lt_iff₀ hp]
  rcases h with ⟨_, _, h⟩ | ⟨rfl, h⟩ | ⟨_, _, h⟩
  · rw [zpow_add_one₀ (by linarith)] at h; linarith
  · rw [zpow_zero, mul_one]
    rcases h with h | h
    · rw [h]; linarith
    · exact h.2
  · have : 1 * m ^ k < m * m ^ k := mul_lt_mul_of_pos_right hm hp
    linarith

/-- A value that fits. -/
theorem fitting {w : Rat} (hw : w ≠ 0) {n : Nat} (hn : 1 ≤ n) (h : |w| < 10 ^ n) :
    ∃ d t q, 1 ≤ d ∧ |w| < 10 ^ d ∧ (d = 1 ∨ 10 ^ (d - 1) ≤ |w|) ∧ d ≤ n ∧
      formatAutoFloat w (n + (minusOf w).length) false = some (minusOf w ++ t) ∧ IsDecimal t q (lastUnit n d) ∧
      BestIn n d |w| q ∧ t.length ≤ n + 1 ∧ ((10 ^ d - 1 / 20 ≤ |w| → False) → t.length = n) := by
  have ha := abs_pos.2 hw
  have hl := (Int.lt_zpow_iff_log_lt (b := 10) (by decide) ha (x := n)).1 (by simpa using h)
  obtain ⟨d, d1, d2, d3, d4⟩ := exists_digits ha hn (by omega)
  obtain ⟨t, q, e1, e2, e3, e4, e5, e6⟩ := plain_decimal hw (allow := false) d1 d2 d3 d4 (Or.inl rfl)
  exact ⟨d, t, q, d1, d2, d3, d4, e1, e2, e3, e5, e6⟩

theorem minusOf_scaled {v x : Rat} (hx : 0 < x) : minusOf (v / x) = minusOf v := by
  unfold minusOf
  by_cases h : v < 0
  · rw [if_pos h, if_pos (div_neg_of_neg_of_pos h hx)]
  · rw [if_neg h, if_neg (not_lt.2 (div_nonneg (not_lt.1 h) hx.le))]

theorem siPrefix_table : ∀ i : Fin 17, (prefixesSi.getD i.val none).getD [] = siPrefix ((i.val : Int) - 8) ∧ (siPrefix ((i.val : Int) - 8)).all (fun c => !isPySpace c) = true ∧
    (siPrefix ((i.val : Int) - 8)).length ≤ 1 := by
  decide +kernel

theorem siPrefix_get {k : Int} (h1 : -8 ≤ k) (h2 : k ≤ 8) :
    (prefixesSi.getD (if 8 + k < 0 then 8 + k + (prefixesSi.length : Int) else 8 + k).toNat none).getD [] = siPrefix k ∧ (∀ c ∈ siPrefix k, isPySpace c = false) ∧
    (siPrefix k).length ≤ 1 := by
  rw [if_neg (by omega)]
  have h := siPrefix_table ⟨(8 + k).toNat, by omega⟩
  have e : (((8 + k).toNat : Nat) : Int) - 8 = k := by omega
  simp only [e] at h
  exact ⟨h.1, by simpa using h.2.1, h.2.2⟩

theorem shown_text {F : PrefixedUnit} (hp : F.prefixes = prefixesSi) (hsep : F.unitSeparator = [' ']) (hz : F.prefixZeroIdx = 8)
    {unit : Str} (hu : UnitText unit) {k : Int} (h1 : -8 ≤ k) (h2 : k ≤ 8) {N : Nat} (hN : F.maxValueLen = N) (hN2 : 2 ≤ N) {w : Rat} (hw : w ≠ 0)
    (hlt : |w| < 10 ^ (N - 1)) (htr : F.truncateFrac = false ∨ k ≠ 0) :
    ∃ d t q, 1 ≤ d ∧ |w| < 10 ^ d ∧ (d = 1 ∨ 10 ^ (d - 1) ≤ |w|) ∧ d ≤ N - (minusOf w).length ∧
      F.shown unit w (8 + k) = some (minusOf w ++ t ++ ' ' :: (siPrefix k ++ unit)) ∧
      IsDecimal t q (lastUnit (N - (minusOf w).length) d) ∧ BestIn (N - (minusOf w).length) d |w| q ∧
      (0 ≤ w → ' ' ∉ t) ∧ (minusOf w ++ t).length ≤ N + 1 ∧ ((10 ^ d - 1 / 20 ≤ |w| → False) → (minusOf w ++ t).length ≤ N) := by
  have hml : (minusOf w).length ≤ 1 := by unfold minusOf; split <;> simp
  have hlt' : |w| < 10 ^ (N - (minusOf w).length) :=
    lt_of_lt_of_le hlt (pow_le_pow_right₀ (by norm_num) (by omega))
  obtain ⟨d, t, q, e1, e2, e3, e4, e5, e6, e7, e8, e9⟩ := fitting hw (by omega) hlt'
  obtain ⟨t', s1, s2, s3, s4⟩ := pyStrip_decimal e6 w
  obtain ⟨p1, p2, _⟩ := siPrefix_get h1 h2
  obtain ⟨u1, u2⟩ := unitText_strip hu p2
  refine ⟨d, t', q, e1, e2, e3, e4, ?_, s2, e7, s4, ?_, ?_⟩
  · unfold PrefixedUnit.shown
    simp only [hp, hz, hsep, hN, p1, u1, if_false]
    have hno : ¬ (F.truncateFrac = true ∧ 8 + k = 8) := by
      rintro ⟨h, h'⟩
      rcases htr with h'' | h''
      · rw [h''] at h; cases h
      · omega
    rw [if_neg hno]
    rw [show (N : Int) = ((N - (minusOf w).length : Nat) : Int) + (minusOf w).length by omega, e5]
    simp only [Option.map_some, s1, u2]
    simp
  · rw [List.length_append]; omega
  · intro h; rw [List.length_append]; have := e9 h; omega

end Kolombos
