import Verif.Props.UnitsRange
import Verif.Props.NumberExact
import Verif.Spec.UnitsLen
/-
C74: the length of values with prefixes, and when exactly it is greater than promised.
C110: the maximum length that a formatter with prefixes promises.
-/
set_option linter.unusedSimpArgs false
namespace Kolombos
open Spec

theorem pyStrip_length (s : Str) : (pyStrip s).length ≤ s.length := by
  unfold pyStrip
  have h1 := (List.dropWhile_sublist isPySpace (l := s)).length_le
  have h2 := (List.dropWhile_sublist isPySpace (l := (s.dropWhile isPySpace).reverse)).length_le
  simp only [List.length_reverse] at h2 ⊢
  omega

theorem foldl_max_ge (l : List Nat) (a : Nat) : a ≤ l.foldl max a ∧ ∀ x ∈ l, x ≤ l.foldl max a := by
  induction l generalizing a with
  | nil => simp
  | cons b l ih =>
    obtain ⟨h1, h2⟩ := ih (max a b)
    simp only [List.foldl_cons, List.mem_cons]
    refine ⟨by omega, ?_⟩
    rintro x (rfl | hx)
    · omega
    · exact h2 x hx

theorem prefix_le {F : PrefixedUnit} {k : Nat} (h : F.maxPrefixLen = some k) (p : Option Str) (hp : p ∈ F.prefixes) : (p.getD []).length ≤ k := by
  unfold PrefixedUnit.maxPrefixLen at h
  by_cases he : p.getD [] = []
  · rw [he]; simp
  · have hm : (p.getD []).length ∈ F.prefixes.filterMap fun p => if p.getD [] = [] then none else some (p.getD []).length :=
      List.mem_filterMap.2 ⟨p, hp, by rw [if_neg he]⟩
    generalize (F.prefixes.filterMap fun p => if p.getD [] = [] then none else some (p.getD []).length) = l at h hm
    cases l with
    | nil => cases hm
    | cons a l =>
      simp only [Option.some.injEq] at h
      rw [← h]
      exact (foldl_max_ge _ 0).2 _ hm

/-- The number of a text with a prefix has one character more than there is room for exactly if it is just below a power of ten. -/
theorem number_room {w : Rat} (hw : w ≠ 0) {N : Nat} (hN : 2 ≤ N) {t0 : Str} (h : formatAutoFloat w N false = some t0) :
    (pyStrip t0).length = t0.length ∧ t0.length = N + 1 ∧ JustBelow N w ∨ (pyStrip t0).length ≤ N ∧ ¬ JustBelow N w := by
  have hml : (minusOf w).length ≤ 1 := by unfold minusOf; split <;> simp
  have hlt : |w| < 10 ^ (N - (minusOf w).length) := by
    refine Classical.byContradiction fun hc => ?_
    rw [(C70_total w N false (by omega)).2 ⟨rfl, by omega, not_lt.1 hc⟩] at h
    cases h
  have hN' : (N : Int) = ((N - (minusOf w).length : Nat) : Int) + (minusOf w).length := by omega
  obtain ⟨d, t, q, e1, e2, e3, e4, e5, e6, -⟩ := fitting hw (by omega) hlt
  rw [hN'] at h
  obtain ⟨t', ht', hl, hb⟩ := plain_exact hw e1 e2 e3 e4 (Or.inl rfl) h
  rw [e5] at h
  cases h
  have := List.append_cancel_left ht'
  subst this
  by_cases hc : d + 2 ≤ N - (minusOf w).length ∧ 10 ^ d - lastUnit (N - (minusOf w).length) d / 2 ≤ |w|
  · left
    rw [if_pos hc] at hl
    have hno : ' ' ∉ t := by rw [hb]; omega
    obtain ⟨n, t', h1, h2, h3, -⟩ := decimal_bare e6
    have hn0 : n = 0 := by
      cases n with
      | zero => rfl
      | succ n => exact absurd (by rw [h1, List.replicate_succ]; simp) hno
    subst hn0
    simp only [List.replicate_zero, List.nil_append] at h1
    subst h1
    refine ⟨?_, by rw [List.length_append]; omega, d, e1, hc.1, hc.2, e2⟩
    rw [pyStrip_none]
    · intro c hc
      by_cases hv : w < 0
      · have hm : minusOf w = ['-'] := by unfold minusOf; rw [if_pos hv]
        rw [hm] at hc
        cases hc
        decide
      · have hm : minusOf w = [] := by unfold minusOf; rw [if_neg hv]
        rw [hm] at hc
        exact (h3 c (List.mem_of_head? hc)).1
    · intro c hc
      rw [List.getLast?_append_of_ne_nil _ h2] at hc
      exact (h3 c (List.mem_of_getLast? hc)).1
  · right
    rw [if_neg hc] at hl
    refine ⟨?_, ?_⟩
    · have := pyStrip_length (minusOf w ++ t)
      rw [List.length_append] at this
      omega
    · rintro ⟨D, d1, d2, d3, d4⟩
      have lu : lastUnit (N - (minusOf w).length) D ≤ 1 := by
        unfold lastUnit
        rw [div_le_one (by positivity)]
        exact one_le_pow₀ (by norm_num)
      have a1 : d ≤ D := by
        rcases e3 with e3 | e3
        · omega
        · have := (pow_lt_pow_iff_right₀ (by norm_num : (1 : Rat) < 10)).1 (lt_of_le_of_lt e3 d4)
          omega
      have a2 : D ≤ d := by
        by_cases hD : D = 1
        · omega
        · have hp : (10 : Rat) ^ D = 10 * 10 ^ (D - 1) := by rw [← pow_succ']; congr 1; omega
          have h1 : (1 : Rat) ≤ 10 ^ (D - 1) := one_le_pow₀ (by norm_num)
          have := (pow_lt_pow_iff_right₀ (by norm_num : (1 : Rat) < 10)).1 (lt_of_le_of_lt (b := |w|) (by linarith) e2 : (10 : Rat) ^ (D - 1) < 10 ^ d)
          omega
      have : D = d := by omega
      subst this
      exact hc ⟨d2, d3⟩

theorem number_room_zero {N : Nat} (hN : 2 ≤ N) {t0 : Str} (h : formatAutoFloat 0 N false = some t0) : (pyStrip t0).length ≤ N := by
  rw [C71_zero N false (by omega)] at h
  cases h
  refine le_trans (pyStrip_length _) ?_
  simp
  omega

theorem not_justBelow_zero (N : Nat) : ¬ JustBelow N 0 := by
  rintro ⟨D, d1, -, d3, -⟩
  have lu : ∀ n, lastUnit n D ≤ 1 := by
    intro n
    unfold lastUnit
    rw [div_le_one (by positivity)]
    exact one_le_pow₀ (by norm_num)
  have h1 : (1 : Rat) ≤ 10 ^ D := one_le_pow₀ (by norm_num)
  have := lu (N - (minusOf 0).length)
  simp only [abs_zero] at d3
  linarith

/-- The length of the number. -/
theorem number_length {w : Rat} {N : Nat} (hN : 2 ≤ N) {t0 : Str} (h : formatAutoFloat w N false = some t0) :
    (pyStrip t0).length ≤ N + 1 ∧ ((pyStrip t0).length ≤ N ↔ ¬ JustBelow N w) := by
  by_cases hw : w = 0
  · subst hw
    have := number_room_zero hN h
    exact ⟨by omega, fun _ => not_justBelow_zero N, fun _ => this⟩
  · rcases number_room hw hN h with ⟨h1, h2, h3⟩ | ⟨h1, h2⟩
    · exact ⟨by omega, fun h => by omega, fun h => absurd h3 h⟩
    · exact ⟨by omega, fun _ => h2, fun _ => h1⟩

/-! ### C74 -/

theorem units_length {F : PrefixedUnit} (hp : F.prefixes = prefixesSi) (hsep : F.unitSeparator = [' ']) (hz : F.prefixZeroIdx = 8)
    {b : Nat} (hb : 1 < b) (hF : F.mcoef = b) {unit : Str} (hu : UnitText unit) {N : Nat} (hN : F.maxValueLen = N) (hN2 : 2 ≤ N)
    {v : Rat} {k : Int} (hk : InScale b k |v|) (h1 : -8 ≤ k) (h2 : k ≤ 8) (htr : F.truncateFrac = false ∨ k ≠ 0) {s : Str}
    (h : F.format v unit = some s) :
    s.length ≤ N + 1 + (1 + (siPrefix k).length + unit.length) ∧
    (s.length ≤ N + (1 + (siPrefix k).length + unit.length) ↔ ¬ JustBelow N (v / b ^ k)) := by
  have hlen : F.prefixes.length = 17 := by rw [hp]; rfl
  rw [format_in (unit := unit) hb hF 8 hz (by omega) hk (by omega) (by omega)] at h
  obtain ⟨p1, p2, _⟩ := siPrefix_get h1 h2
  obtain ⟨u1, u2⟩ := unitText_strip hu p2
  unfold PrefixedUnit.shown at h
  have hno : ¬ (F.truncateFrac = true ∧ (8 : Int) + k = 8) := by
    rintro ⟨h, h'⟩
    rcases htr with h'' | h''
    · rw [h''] at h; cases h
    · omega
  push_cast at h
  simp only [hp, hz, hsep, hN, p1, u1, if_false] at h
  rw [if_neg hno] at h
  simp only [Option.map_eq_some_iff] at h
  obtain ⟨t0, ht0, rfl⟩ := h
  obtain ⟨n1, n2⟩ := number_length hN2 ht0
  rw [u2]
  simp only [List.length_append, List.length_singleton]
  exact ⟨by omega, by rw [← n2]; omega⟩

/-- C74: one character more than 4, besides the separator, the prefix and the unit, is used exactly if the value at its scale is just below
a power of ten; never more. -/
theorem C74_metric_partial (v : Rat) (unit s : Str) (hu : UnitText unit) (hlo : 1 / 10 ^ 27 < |v|) (hhi : |v| < 10 ^ 27) (h : formatSiMetric v unit = some s) :
    ∃ k : Int, InScale 1000 k |v| ∧ -8 ≤ k ∧ k ≤ 8 ∧ s.length ≤ 5 + (1 + (siPrefix k).length + unit.length) ∧
      (s.length ≤ 4 + (1 + (siPrefix k).length + unit.length) ↔ ¬ JustBelow 4 (v / 1000 ^ k)) := by
  obtain ⟨k, k1, k2, k3⟩ := exists_scale (b := 1000) (by decide) 8 8 (a := |v|) (Or.inr (by norm_num at hlo ⊢; exact hlo)) (by norm_num at hhi ⊢; exact hhi)
  have := units_length (F := siMetric) rfl rfl rfl (b := 1000) (by decide) (by unfold siMetric; norm_num) hu (N := 4) rfl (by decide) k1 k2 k3 (Or.inl rfl) h
  push_cast at *
  exact ⟨k, k1, k2, k3, this.1, this.2⟩

/-- C74: the same for binary sizes of a kilobyte or more, and fractions of a byte; sizes below a kilobyte take at most 5 characters. -/
theorem C74_binary_partial (v : Rat) (unit s : Str) (hu : UnitText unit) (hlo : 1 / 1024 ^ 9 < |v|) (hhi : |v| < 1024 ^ 9) (h : formatSiBinary v unit = some s) :
    ∃ k : Int, InScale 1024 k |v| ∧ -8 ≤ k ∧ k ≤ 8 ∧ s.length ≤ 6 + (1 + (siPrefix k).length + unit.length) ∧
      (s.length ≤ 5 + (1 + (siPrefix k).length + unit.length) ↔ ¬ (k ≠ 0 ∧ JustBelow 5 (v / 1024 ^ k))) := by
  have hv : v ≠ 0 := by rintro rfl; simp at hlo; linarith
  obtain ⟨k, k1, k2, k3⟩ := exists_scale (b := 1024) (by decide) 8 8 (a := |v|) (Or.inr (by norm_num at hlo ⊢; exact hlo)) (by norm_num at hhi ⊢; exact hhi)
  refine ⟨k, by exact_mod_cast k1, k2, k3, ?_⟩
  by_cases hk0 : k = 0
  · subst hk0
    have hsmall : 1 / 1024 < |v| ∧ |v| < 1024 := by
      push_cast at k1
      rcases k1 with ⟨h, _⟩ | ⟨_, h⟩ | ⟨h, _⟩
      · omega
      · exact h.resolve_left fun h => hv (abs_eq_zero.1 h)
      · omega
    have hlt := abs_lt.1 hsmall.2
    obtain ⟨z, hz, hzr⟩ : ∃ z : Int, (0 ≤ v ∧ (z : Rat) ≤ v ∧ v < z + 1 ∨ v < 0 ∧ v ≤ z ∧ (z : Rat) < v + 1) ∧ (-1024 : Rat) < z ∧ (z : Rat) < 1024 := by
      by_cases hneg : v < 0
      · have a1 := Int.le_ceil v
        have a2 := Int.ceil_lt_add_one v
        exact ⟨⌈v⌉, Or.inr ⟨hneg, a1, a2⟩, by linarith, by linarith⟩
      · have a1 := Int.floor_le v
        have a2 := Int.lt_floor_add_one v
        exact ⟨⌊v⌋, Or.inl ⟨not_lt.1 hneg, a1, a2⟩, by linarith, by linarith⟩
    rw [C72_bytes v unit hu (Or.inr hsmall) z hz] at h
    cases h
    have := (intText_small (z := z) (by exact_mod_cast hzr)).1
    simp only [List.length_append, List.length_cons]
    refine ⟨by omega, fun _ hc => hc.1 rfl, fun _ => by omega⟩
  · have := units_length (F := siBinary) rfl rfl rfl (b := 1024) (by decide) (by unfold siBinary; norm_num) hu (N := 5) rfl (by decide) k1 k2 k3 (Or.inr hk0) h
    push_cast at this
    refine ⟨this.1, this.2.trans ?_⟩
    simp [hk0]

/-- Both cases occur: 9.994 km has 4 characters, 9.995 km has 5. -/
example : formatSiMetric 9994 "m".toList = some "9.99 km".toList ∧ formatSiMetric 9995 "m".toList = some "10.00 km".toList ∧ JustBelow 4 (9995 / 1000) ∧
    formatSiBinary (9999996 * 1024 / 10 ^ 6) "b".toList = some "10.000 kb".toList ∧ formatSiBinary (-1023 * 1024) "b".toList = some "-1023 kb".toList := by
  refine ⟨by decide +kernel, by decide +kernel, ⟨1, by decide, by decide +kernel, ?_, ?_⟩, by decide +kernel, by decide +kernel⟩
  · decide +kernel
  · decide +kernel

/-! ### C110 -/

theorem shown_length {F : PrefixedUnit} {N k : Nat} (hn : F.maxValueLen = N) (hN : 2 ≤ N) (hk : F.maxPrefixLen = some k) {unit : Str} {v : Rat} {i : Int} {s : Str}
    (h : F.shown unit v i = some s) :
    s.length ≤ N + 1 + F.unitSeparator.length + k + max F.unit.length unit.length ∧
    (¬ JustBelow N v → s.length ≤ N + F.unitSeparator.length + k + max F.unit.length unit.length) := by
  unfold PrefixedUnit.shown at h
  simp only [Option.map_eq_some_iff] at h
  obtain ⟨t, ht, rfl⟩ := h
  have h1 : (pyStrip t).length ≤ N + 1 ∧ (¬ JustBelow N v → (pyStrip t).length ≤ N) := by
    split at ht
    · simp only [Option.some.injEq] at ht
      subst ht
      have e : F.maxValueLen.toNat = N := by omega
      have := pyStrip_length ((decInt (pyTrunc v)).take F.maxValueLen.toNat)
      rw [List.length_take, e] at this
      rw [e]
      exact ⟨by omega, fun _ => by omega⟩
    · rw [hn] at ht
      obtain ⟨a, b⟩ := number_length hN ht
      exact ⟨a, b.2⟩
  generalize hj : (if i < 0 then i + (F.prefixes.length : Int) else i).toNat = j
  have h3 : ((F.prefixes.getD j none).getD []).length ≤ k := by
    by_cases hjl : j < F.prefixes.length
    · rw [List.getD_eq_getElem?_getD, List.getElem?_eq_getElem hjl]
      exact prefix_le hk _ (List.getElem_mem hjl)
    · rw [List.getD_eq_getElem?_getD, List.getElem?_eq_none (by omega)]
      simp
  have h4 := pyStrip_length ((F.prefixes.getD j none).getD [] ++ (if unit = [] then F.unit else unit))
  have h5 : (if unit = [] then F.unit else unit).length ≤ max F.unit.length unit.length := by
    split <;> omega
  simp only [List.length_append] at h4 ⊢
  refine ⟨by omega, fun hc => ?_⟩
  have := h1.2 hc
  omega

theorem overflow_length {F : PrefixedUnit} {N k : Nat} (hn : F.maxValueLen = N) (hN : 2 ≤ N) (hk : F.maxPrefixLen = some k) {v : Rat} {s : Str}
    (h : F.overflow v = some s) :
    s.length ≤ N + 1 + F.unitSeparator.length + k + F.unit.length ∧
    (¬ JustBelow N v → s.length ≤ N + F.unitSeparator.length + k + F.unit.length) := by
  unfold PrefixedUnit.overflow at h
  rw [hk] at h
  cases ht : formatAutoFloat v F.maxValueLen false with
  | none => rw [ht] at h; cases h
  | some t =>
    rw [ht] at h
    simp only [Option.some.injEq] at h
    subst h
    rw [hn] at ht
    obtain ⟨h1, h1'⟩ := number_length hN ht
    have h3 := pyStrip_length (List.replicate k '?' ++ F.unit)
    simp only [List.length_append, List.length_replicate] at h3 ⊢
    refine ⟨by omega, fun hc => ?_⟩
    have := h1'.2 hc
    omega

theorem loop_length {F : PrefixedUnit} {N k : Nat} (hn : F.maxValueLen = N) (hN : 2 ≤ N) (hk : F.maxPrefixLen = some k) {unit : Str} :
    ∀ (fuel : Nat) (v : Rat) (i : Int) (s : Str), F.loop unit fuel v i = some s →
    s.length ≤ N + 1 + F.unitSeparator.length + k + max F.unit.length unit.length := by
  have over : ∀ (v : Rat) (s : Str), F.overflow v = some s → s.length ≤ N + 1 + F.unitSeparator.length + k + max F.unit.length unit.length := by
    intro v s h
    have := (overflow_length hn hN hk h).1
    omega
  intro fuel
  induction fuel with
  | zero => intro v i s h; exact over v s h
  | succ fuel ih =>
    intro v i s h
    rw [PrefixedUnit.loop] at h
    split at h
    · split at h
      · split at h
        · exact ih _ _ _ h
        · exact (shown_length hn hN hk h).1
      · split at h
        · exact ih _ _ _ h
        · exact (shown_length hn hN hk h).1
    · exact over v s h

/-- C110: for any formatter, a value takes at most one character more than `max_len`, plus those by which the unit is longer than the one of
the formatter. -/
theorem C110_length_partial (F : PrefixedUnit) (N : Nat) (hn : F.maxValueLen = N) (hN : 2 ≤ N) (M : Int) (hM : F.maxLen = some M)
    (v : Rat) (unit s : Str) (h : F.format v unit = some s) :
    (s.length : Int) ≤ M + (unit.length - F.unit.length : Nat) + 1 := by
  unfold PrefixedUnit.maxLen at hM
  simp only [Option.map_eq_some_iff] at hM
  obtain ⟨k, hk, rfl⟩ := hM
  have := loop_length hn hN hk _ _ _ _ h
  omega

/-- C110: this one character is used only if the value at its scale is just below a power of ten. -/
theorem C110_scale_partial (F : PrefixedUnit) (N : Nat) (hn : F.maxValueLen = N) (hN : 2 ≤ N) (hm : 1 < F.mcoef) (z : Nat) (hz : F.prefixZeroIdx = z)
    (hzl : z < F.prefixes.length) (M : Int) (hM : F.maxLen = some M) (v w : Rat) (hw : AtScale F.mcoef z F.prefixes.length v w) (hj : ¬ JustBelow N w)
    (unit s : Str) (h : F.format v unit = some s) : (s.length : Int) ≤ M + (unit.length - F.unit.length : Nat) := by
  unfold PrefixedUnit.maxLen at hM
  simp only [Option.map_eq_some_iff] at hM
  obtain ⟨k, hk, rfl⟩ := hM
  rcases hw with ⟨i, h1, h2, h3, rfl⟩ | ⟨h1, rfl⟩ | ⟨h0, h1, rfl⟩
  · rw [format_scale hm rfl z hz hzl h1 h2 h3] at h
    have := (shown_length hn hN hk h).2 hj
    omega
  · rw [format_above hm z hz hzl h1] at h
    have := (overflow_length hn hN hk h).2 hj
    omega
  · rw [format_below hm z hz hzl h0 h1] at h
    have := (overflow_length hn hN hk h).2 hj
    omega

/-- C110: `max_len` is known exactly if the formatter has a prefix that is not empty. -/
theorem C110_defined (F : PrefixedUnit) : (∃ M, F.maxLen = some M) ↔ ∃ p, some p ∈ F.prefixes ∧ p ≠ [] := by
  unfold PrefixedUnit.maxLen PrefixedUnit.maxPrefixLen
  constructor
  · rintro ⟨M, h⟩
    simp only [Option.map_eq_some_iff] at h
    obtain ⟨k, h, -⟩ := h
    cases hl : F.prefixes.filterMap fun p => if p.getD [] = [] then none else some (p.getD []).length with
    | nil => rw [hl] at h; cases h
    | cons a l =>
      have : a ∈ F.prefixes.filterMap fun p => if p.getD [] = [] then none else some (p.getD []).length := by rw [hl]; simp
      obtain ⟨p, hp, hpa⟩ := List.mem_filterMap.1 this
      by_cases he : p.getD [] = []
      · rw [if_pos he] at hpa; cases hpa
      · cases p with
        | none => exact absurd rfl he
        | some p => exact ⟨p, hp, he⟩
  · rintro ⟨p, hp, he⟩
    have : p.length ∈ F.prefixes.filterMap fun p => if p.getD [] = [] then none else some (p.getD []).length :=
      List.mem_filterMap.2 ⟨_, hp, by simp [he]⟩
    cases hl : F.prefixes.filterMap fun p => if p.getD [] = [] then none else some (p.getD []).length with
    | nil => rw [hl] at this; cases this
    | cons a l => exact ⟨_, rfl⟩

/-- C110: the promise is broken by the formatters of the library: 99990 is `100.0 k`. -/
theorem C110_negation : ¬ ∀ (v : Rat) (s : Str) (M : Int), siMetric.maxLen = some M → siMetric.format v [] = some s → (s.length : Int) ≤ M := by
  intro h
  have := h 99990 "100.0 k".toList 6 (by decide) (by decide +kernel)
  revert this
  decide

/-- A formatter with longer prefixes, and a value at its scale. -/
def ibiBytes : PrefixedUnit := ⟨3, false, ['B'], [], 1024, [none, some "Ki".toList, some "Mi".toList], 0⟩

example : ibiBytes.maxLen = some 6 ∧ ibiBytes.format 123456 [] = some "121KiB".toList ∧ ibiBytes.format (996 * 1024 / 100) [] = some "10.0KiB".toList := by
  refine ⟨?_, ?_, ?_⟩ <;> decide +kernel

example : AtScale ibiBytes.mcoef 0 ibiBytes.prefixes.length 123456 (123456 / 1024 ^ (1 : Int)) ∧ ¬ JustBelow 3 (123456 / 1024 ^ (1 : Int)) := by
  refine ⟨Or.inl ⟨1, Or.inl ⟨by decide, ?_, ?_⟩, by decide, by decide, rfl⟩, ?_⟩
  · decide +kernel
  · decide +kernel
  · rintro ⟨D, d1, d2, d3, d4⟩
    have hm : (minusOf (123456 / 1024 ^ (1 : Int))).length = 0 := by decide +kernel
    rw [hm] at d2
    have : D = 1 := by omega
    subst this
    revert d4
    decide +kernel

example : (PrefixedUnit.mk 3 false ['B'] [] 1024 [none] 0).maxLen = none := by decide

end Kolombos
