import Verif.Model.AutoFloat
import Verif.Spec.Number
import Verif.Lemmas.Lines
import Mathlib.Tactic.Linarith
import Mathlib.Tactic.Positivity
import Mathlib.Tactic.FieldSimp
import Mathlib.Tactic.Ring
/-
Numbers in a required number of characters.
-/
set_option linter.unusedSimpArgs false

namespace Kolombos
open Spec

/-! ### Rounding -/

theorem roundEven_near {x : Rat} (hx : 0 ≤ x) : |(roundEven x : Rat) - x| ≤ 1 / 2 := by
  unfold roundEven
  simp only
  have h0 : 0 ≤ ⌊x⌋ := Int.floor_nonneg.2 hx
  have h1 := Int.floor_le x
  have h2 := Int.lt_floor_add_one x
  have key : ∀ z : Int, 0 ≤ z → ((z.toNat : Nat) : Rat) = z := by
    intro z hz
    have : ((z.toNat : Int) : Rat) = z := by rw [Int.toNat_of_nonneg hz]
    exact_mod_cast this
  rw [abs_le]
  split
  · rw [key _ h0]; constructor <;> linarith
  · split
    · rw [key _ (by omega)]; push_cast; constructor <;> linarith
    · split
      · rw [key _ h0]; constructor <;> linarith
      · rw [key _ (by omega)]; push_cast; constructor <;> linarith

theorem roundEven_le {x : Rat} (hx : 0 ≤ x) {k : Nat} (h : x < k) : roundEven x ≤ k := by
  have := abs_le.1 (roundEven_near hx)
  have h3 : (roundEven x : Rat) < k + 1 := by linarith
  have h4 : roundEven x < k + 1 := by exact_mod_cast h3
  omega

theorem le_roundEven {x : Rat} (hx : 0 ≤ x) {k : Nat} (h : (k : Rat) ≤ x) : k ≤ roundEven x := by
  have := abs_le.1 (roundEven_near hx)
  have h3 : (k : Rat) < roundEven x + 1 := by linarith
  have h4 : k < roundEven x + 1 := by exact_mod_cast h3
  omega

/-! ### Digits -/

theorem dec_length_le {n k : Nat} (hk : 0 < k) : (dec n).length ≤ k ↔ n < 10 ^ k :=
  Nat.length_toDigits_le_iff (by decide) hk

theorem dec_length_pos (n : Nat) : 0 < (dec n).length := List.length_pos_iff.2 (dec_ne_nil n)

theorem dec_length_eq {n k : Nat} (h1 : 10 ^ k ≤ n) (h2 : n < 10 ^ (k + 1)) : (dec n).length = k + 1 := by
  have h3 := (dec_length_le (n := n) (k := k + 1) (by omega)).2 h2
  by_cases hk : k = 0
  · have := dec_length_pos n; omega
  · have := (dec_length_le (n := n) (k := k) (by omega)).not.2 (by omega)
    omega

theorem rjust_len_max (w : Nat) (c : Char) (s : Str) : (rjust w c s).length = max w s.length := by
  unfold rjust; simp; omega

theorem readDigits_acc {a : Str} : ∀ {acc n : Nat}, readDigits 10 0 a = some n → readDigits 10 acc a = some (acc * 10 ^ a.length + n) := by
  induction a with
  | nil => intro acc n h; simp [readDigits] at h ⊢; omega
  | cons c a ih =>
    intro acc n h
    rw [readDigits] at h ⊢
    cases hd : digitVal c with
    | none => rw [hd] at h; cases h
    | some d =>
      rw [hd] at h
      simp only at h ⊢
      split at h
      · rename_i hlt
        rw [if_pos hlt]
        have hrec : ∃ m, readDigits 10 0 a = some m := by
          have : ∀ (a : Str) (x y n : Nat), readDigits 10 x a = some n → ∃ m, readDigits 10 y a = some m := by
            intro a
            induction a with
            | nil => intro x y n _; exact ⟨y, rfl⟩
            | cons c a ih =>
              intro x y n h
              rw [readDigits] at h ⊢
              cases hd : digitVal c with
              | none => rw [hd] at h; cases h
              | some d =>
                rw [hd] at h
                simp only at h ⊢
                split at h
                · rename_i hl; rw [if_pos hl]; exact ih _ _ _ h
                · cases h
          exact this a _ _ _ h
        obtain ⟨m, hm⟩ := hrec
        rw [ih hm] at h ⊢
        simp only [Option.some.injEq, List.length_cons] at h ⊢
        rw [← h, pow_succ]
        ring
      · cases h

theorem readDigits_pad {d m : Nat} (h : m < 10 ^ d) : readDigits 10 0 (rjust d '0' (dec m)) = some m := by
  unfold rjust
  rw [readDigits_append, readDigits_zeros 10 _ (by decide)]
  exact readDigits_toDigits (by decide) (by decide) m

theorem fixedText_decimal (x : Rat) (d : Nat) (w : Nat) :
    IsDecimal (rjust w ' ' (fixedText x d)) ((roundEven (x * 10 ^ d) : Rat) * (1 / 10 ^ d)) (1 / 10 ^ d) := by
  unfold fixedText
  simp only
  generalize roundEven (x * 10 ^ d) = n
  refine ⟨w - (dec (n / 10 ^ d) ++ (if d = 0 then [] else '.' :: rjust d '0' (dec (n % 10 ^ d)))).length, dec (n / 10 ^ d), if d = 0 then [] else rjust d '0' (dec (n % 10 ^ d)), n, dec_ne_nil _, ?_, ?_, ?_, ?_⟩
  · unfold rjust
    by_cases hd : d = 0
    · simp [hd]
    · have hne : List.replicate (d - (dec (n % 10 ^ d)).length) '0' ++ dec (n % 10 ^ d) ≠ [] := by simp [dec_ne_nil]
      simp only [hd, if_false, hne, List.append_assoc]
  · rw [readDigits_append]
    have h1 : readDigits 10 0 (dec (n / 10 ^ d)) = some (n / 10 ^ d) := readDigits_toDigits (by decide) (by decide) _
    rw [h1]
    simp only [Option.bind_some]
    by_cases hd : d = 0
    · simp [hd, readDigits]
    · rw [if_neg hd]
      have hlt : n % 10 ^ d < 10 ^ d := Nat.mod_lt _ (by positivity)
      rw [readDigits_acc (readDigits_pad hlt), rjust_len_max]
      have : (dec (n % 10 ^ d)).length ≤ d := (dec_length_le (by omega)).2 hlt
      rw [Nat.max_eq_left this, Nat.div_add_mod']
  · by_cases hd : d = 0
    · simp [hd]
    · rw [if_neg hd, rjust_len_max]
      have : (dec (n % 10 ^ d)).length ≤ d := (dec_length_le (by omega)).2 (Nat.mod_lt _ (by positivity))
      rw [Nat.max_eq_left this]
  · rfl

theorem fixedText_length (x : Rat) (d : Nat) :
    (fixedText x d).length = (dec (roundEven (x * 10 ^ d) / 10 ^ d)).length + (if d = 0 then 0 else d + 1) := by
  unfold fixedText
  simp only [List.length_append]
  split
  · rfl
  · rw [List.length_cons, rjust_len_max]
    have : (dec (roundEven (x * 10 ^ d) % 10 ^ d)).length ≤ d := (dec_length_le (by omega)).2 (Nat.mod_lt _ (by positivity))
    omega

theorem fixedText_near {x : Rat} (hx : 0 ≤ x) (d : Nat) : |(roundEven (x * 10 ^ d) : Rat) * (1 / 10 ^ d) - x| ≤ (1 / 10 ^ d) / 2 := by
  have hp : (0 : Rat) < 10 ^ d := by positivity
  have h := roundEven_near (x := x * 10 ^ d) (by positivity)
  have e : ((roundEven (x * 10 ^ d) : Rat) * (1 / 10 ^ d)) - x = ((roundEven (x * 10 ^ d) : Rat) - x * 10 ^ d) * (1 / 10 ^ d) := by
    field_simp
  rw [e, abs_mul, abs_of_pos (by positivity : (0 : Rat) < 1 / 10 ^ d)]
  have := mul_le_mul_of_nonneg_right h (by positivity : (0 : Rat) ≤ 1 / 10 ^ d)
  linarith

/-- The part of the function that does without exponents, for at least one character. -/
def plainText (a : Rat) (req : Int) : Option Str :=
  if max 1 (Int.log 10 a + 1) = req then
    if ((padNumber req (fixedText a 0)).length : Int) > max 1 (Int.log 10 a + 1) then some (padNumber req (decInt ⌊a⌋))
    else some (padNumber req (fixedText a 0))
  else if req - max 1 (Int.log 10 a + 1) - 1 < 0 then none
  else some (padNumber req (fixedText a (req - max 1 (Int.log 10 a + 1) - 1).toNat))

theorem log_digits {a : Rat} (ha : 0 < a) {D : Nat} (hD : 1 ≤ D) (h1 : a < 10 ^ D) (h2 : D = 1 ∨ 10 ^ (D - 1) ≤ a) :
    max 1 (Int.log 10 a + 1) = (D : Int) := by
  have hu : Int.log 10 a < D := (Int.lt_zpow_iff_log_lt (by decide) ha).1 (by simpa using h1)
  rcases h2 with h | h
  · omega
  · have : ((D - 1 : Nat) : Int) ≤ Int.log 10 a := (Int.zpow_le_iff_le_log (by decide) ha).1 (by simpa using h)
    omega

theorem decInt_nat (n : Nat) : decInt (n : Int) = dec n := by
  unfold decInt
  rw [if_neg (by omega), Int.toNat_natCast]

theorem padNumber_nat (n : Nat) (s : Str) : padNumber (n : Int) s = rjust n ' ' s := by
  unfold padNumber; simp

theorem plainText_spec {a : Rat} (ha : 0 < a) {n D : Nat} (hD : 1 ≤ D) (h1 : a < 10 ^ D) (h2 : D = 1 ∨ 10 ^ (D - 1) ≤ a) (h3 : D ≤ n) :
    ∃ t q, plainText a n = some t ∧ IsDecimal t q (lastUnit n D) ∧ BestIn n D a q ∧ n ≤ t.length ∧ t.length ≤ n + 1 ∧
      ((10 ^ D - 1 / 20 ≤ a → False) → t.length = n) := by
  unfold plainText BestIn lastUnit
  rw [log_digits ha hD h1 h2]
  have hm : (a < ((10 ^ D : Nat) : Rat)) := by exact_mod_cast h1
  by_cases hn : D = n
  · subst hn
    rw [if_pos rfl]
    simp only [padNumber_nat, rjust_len_max, fixedText_length, pow_zero, mul_one, Nat.div_one, if_true, Nat.add_zero]
    have hu : D - D - 1 = 0 := by omega
    have hr : roundEven a ≤ 10 ^ D := roundEven_le ha.le hm
    split
    · rename_i hgt
      have hlen : D < (dec (roundEven a)).length := by
        have : (dec (roundEven a)).length ≤ (dec (roundEven a)).length := le_refl _
        omega
      have hge : 10 ^ D ≤ roundEven a := by
        have := (dec_length_le (n := roundEven a) (k := D) (by omega)).not.1 (by omega)
        omega
      have heq : roundEven a = 10 ^ D := by omega
      have hnear := abs_le.1 (roundEven_near ha.le)
      rw [heq] at hnear
      push_cast at hnear
      have hfl : ⌊a⌋ = ((10 ^ D - 1 : Nat) : Int) := by
        have hp : 1 ≤ 10 ^ D := Nat.one_le_pow _ _ (by decide)
        rw [Int.floor_eq_iff]
        push_cast [Nat.cast_sub hp]
        constructor <;> linarith
      have hdec : decInt ⌊a⌋ = dec (10 ^ D - 1) := by rw [hfl]; exact decInt_nat _
      have hl2 : (dec (10 ^ D - 1)).length ≤ D := (dec_length_le (by omega)).2 (by have := Nat.one_le_pow D 10 (by decide); omega)
      refine ⟨_, ((10 ^ D - 1 : Nat) : Rat), rfl, ?_, ?_, ?_, ?_, ?_⟩
      · rw [hdec, hu]
        refine ⟨D - (dec (10 ^ D - 1)).length, dec (10 ^ D - 1), [], 10 ^ D - 1, dec_ne_nil _, ?_, ?_, ?_, ?_⟩
        · unfold rjust; simp
        · rw [List.append_nil]; exact readDigits_toDigits (by decide) (by decide) _
        · simp
        · simp
      · right
        refine ⟨trivial, Or.inl ⟨by linarith, ?_⟩⟩
        have hp : 1 ≤ 10 ^ D := Nat.one_le_pow _ _ (by decide)
        push_cast [Nat.cast_sub hp]
        rfl
      · rw [rjust_len_max]; omega
      · rw [rjust_len_max, hdec]; omega
      · intro _; rw [rjust_len_max, hdec]; omega
    · rename_i hle
      have hd := fixedText_decimal a 0 D
      have hnr := fixedText_near ha.le 0
      refine ⟨_, (roundEven (a * 10 ^ 0) : Rat) * (1 / 10 ^ 0), rfl, ?_, Or.inl ?_, ?_, ?_, ?_⟩
      · rw [hu]; exact hd
      · rw [hu]; exact hnr
      · rw [rjust_len_max]; omega
      · rw [rjust_len_max, fixedText_length]; simp only [pow_zero, mul_one, Nat.div_one, if_true]; omega
      · intro _; rw [rjust_len_max, fixedText_length]; simp only [pow_zero, mul_one, Nat.div_one, if_true]; omega
  · rw [if_neg (by omega), if_neg (by omega)]
    have he : ((n : Int) - D - 1).toNat = n - D - 1 := by omega
    rw [he]
    generalize hd : n - D - 1 = d
    have hx : 0 ≤ a * 10 ^ d := by positivity
    have hp : (0 : Rat) < 10 ^ d := by positivity
    have hlt : a * 10 ^ d < ((10 ^ (D + d) : Nat) : Rat) := by
      push_cast
      rw [pow_add]
      exact mul_lt_mul_of_pos_right h1 hp
    have hr := roundEven_le hx hlt
    have hint : roundEven (a * 10 ^ d) / 10 ^ d ≤ 10 ^ D := by
      apply Nat.div_le_of_le_mul
      rw [← pow_add, Nat.add_comm d D]
      exact hr
    have hlen1 : (dec (roundEven (a * 10 ^ d) / 10 ^ d)).length ≤ D + 1 := by
      apply (dec_length_le (by omega)).2
      rw [pow_succ]
      have := Nat.one_le_pow D 10 (by decide)
      omega
    have hlenD : D ≤ (dec (roundEven (a * 10 ^ d) / 10 ^ d)).length := by
      rcases h2 with h | h
      · rw [h]; exact dec_length_pos _
      · by_cases hD1 : D = 1
        · rw [hD1]; exact dec_length_pos _
        · have hge : ((10 ^ (D - 1 + d) : Nat) : Rat) ≤ a * 10 ^ d := by
            push_cast
            rw [pow_add]
            exact mul_le_mul_of_nonneg_right h hp.le
          have := le_roundEven hx hge
          have h5 : 10 ^ (D - 1) ≤ roundEven (a * 10 ^ d) / 10 ^ d := by
            rw [Nat.le_div_iff_mul_le (by positivity), ← pow_add]
            exact this
          refine Classical.byContradiction fun hc => ?_
          have := (dec_length_le (n := roundEven (a * 10 ^ d) / 10 ^ d) (k := D - 1) (by omega)).1 (by omega)
          omega
    refine ⟨_, (roundEven (a * 10 ^ d) : Rat) * (1 / 10 ^ d), rfl, ?_, Or.inl (fixedText_near ha.le d), ?_, ?_, ?_⟩
    · rw [padNumber_nat]; exact fixedText_decimal a d n
    · rw [padNumber_nat, rjust_len_max]; omega
    · rw [padNumber_nat, rjust_len_max, fixedText_length]; split <;> omega
    · intro hnot
      rw [padNumber_nat, rjust_len_max, fixedText_length]
      split
      · omega
      · rename_i hd0
        have hlt2 : roundEven (a * 10 ^ d) < 10 ^ (D + d) := by
          refine Classical.byContradiction fun hc => hnot ?_
          have hnr := abs_le.1 (roundEven_near hx)
          have h6 : ((10 ^ (D + d) : Nat) : Rat) ≤ roundEven (a * 10 ^ d) := by exact_mod_cast (by omega : 10 ^ (D + d) ≤ roundEven (a * 10 ^ d))
          push_cast at h6
          rw [pow_add] at h6
          have h7 : (10 : Rat) ≤ 10 ^ d := by
            have := pow_le_pow_right₀ (by norm_num : (1 : Rat) ≤ 10) (by omega : 1 ≤ d)
            simpa using this
          have h8 : ((10 : Rat) ^ D - a) * 10 ^ d ≤ 1 / 2 := by linarith
          have h9 : (10 : Rat) ^ D - a ≤ 1 / 20 := by
            refine Classical.byContradiction fun hh => ?_
            have h10 : 1 / 20 < (10 : Rat) ^ D - a := by linarith
            have := mul_lt_mul'' h10 (by linarith : (9.99 : Rat) < 10 ^ d) (by norm_num) (by norm_num)
            nlinarith
          linarith
        have h11 : roundEven (a * 10 ^ d) / 10 ^ d < 10 ^ D := by
          rw [Nat.div_lt_iff_lt_mul (by positivity), ← pow_add]
          exact hlt2
        have := (dec_length_le (n := roundEven (a * 10 ^ d) / 10 ^ d) (k := D) (by omega)).2 h11
        omega

theorem fixedText_noBlank (x : Rat) (d : Nat) : ' ' ∉ fixedText x d := by
  have hd : ∀ n, ' ' ∉ dec n := fun n hc => absurd (dec_digit hc) (by decide)
  unfold fixedText rjust
  simp only [List.mem_append, not_or]
  refine ⟨hd _, ?_⟩
  split
  · simp
  · simp only [List.mem_cons, List.mem_append, List.mem_replicate, not_or]
    exact ⟨by decide, by rintro ⟨_, h⟩; exact absurd h (by decide), hd _⟩

theorem rjust_noBlank {w : Nat} {s : Str} (h : ' ' ∉ s) (hw : w ≤ s.length) : ' ' ∉ rjust w ' ' s := by
  unfold rjust
  rw [Nat.sub_eq_zero_of_le hw]
  simpa using h

theorem plainText_noBlank {a : Rat} (ha : 0 < a) {n D : Nat} (hD : 1 ≤ D) (h1 : a < 10 ^ D) (h2 : D = 1 ∨ 10 ^ (D - 1) ≤ a) (h3 : D ≤ n)
    (h4 : n ≠ D + 1) {t : Str} (ht : plainText a n = some t) : ' ' ∉ t := by
  unfold plainText at ht
  rw [log_digits ha hD h1 h2] at ht
  have low : ∀ d : Nat, D ≤ (dec (roundEven (a * 10 ^ d) / 10 ^ d)).length := by
    intro d
    have hx : 0 ≤ a * 10 ^ d := by positivity
    rcases h2 with h | h
    · rw [h]; exact dec_length_pos _
    · by_cases hD1 : D = 1
      · rw [hD1]; exact dec_length_pos _
      · have hge : ((10 ^ (D - 1 + d) : Nat) : Rat) ≤ a * 10 ^ d := by
          push_cast
          rw [pow_add]
          exact mul_le_mul_of_nonneg_right h (by positivity)
        have := le_roundEven hx hge
        have h5 : 10 ^ (D - 1) ≤ roundEven (a * 10 ^ d) / 10 ^ d := by
          rw [Nat.le_div_iff_mul_le (by positivity), ← pow_add]
          exact this
        refine Classical.byContradiction fun hc => ?_
        have := (dec_length_le (n := roundEven (a * 10 ^ d) / 10 ^ d) (k := D - 1) (by omega)).1 (by omega)
        omega
  by_cases hn : D = n
  · subst hn
    rw [if_pos rfl] at ht
    simp only [padNumber_nat] at ht
    split at ht
    · cases ht
      have hfl : ∃ k : Nat, ⌊a⌋ = k := ⟨⌊a⌋.toNat, (Int.toNat_of_nonneg (Int.floor_nonneg.2 ha.le)).symm⟩
      obtain ⟨k, hk⟩ := hfl
      rw [hk, decInt_nat]
      apply rjust_noBlank (fun hc => absurd (dec_digit hc) (by decide))
      rcases h2 with h | h
      · rw [h]; exact dec_length_pos _
      · by_cases hD1 : D = 1
        · rw [hD1]; exact dec_length_pos _
        · have h6 : ((10 ^ (D - 1) : Nat) : Int) ≤ ⌊a⌋ := by rw [Int.le_floor]; push_cast; exact h
          rw [hk] at h6
          have h7 : 10 ^ (D - 1) ≤ k := by exact_mod_cast h6
          refine Classical.byContradiction fun hc => ?_
          have := (dec_length_le (n := k) (k := D - 1) (by omega)).1 (by omega)
          omega
    · cases ht
      apply rjust_noBlank (fixedText_noBlank _ _)
      rw [fixedText_length]
      have := low 0
      omega
  · rw [if_neg (by omega), if_neg (by omega)] at ht
    cases ht
    rw [padNumber_nat]
    apply rjust_noBlank (fixedText_noBlank _ _)
    have he : ((n : Int) - D - 1).toNat = n - D - 1 := by omega
    rw [he, fixedText_length, if_neg (by omega)]
    have := low (n - D - 1)
    omega

/-- Whether there has to be an exponent. -/
def wantsExponent (a : Rat) (req : Int) (allow : Bool) : Prop := (allow = true ∧ Int.log 10 a < -2) ∨ Int.log 10 a > req - 1

instance (a : Rat) (req : Int) (allow : Bool) : Decidable (wantsExponent a req allow) := by unfold wantsExponent; infer_instance

/-- The part of the function that shows an exponent. -/
def expText (recur : Rat → Int → Option Str) (sign : Str) (a : Rat) (req : Int) (allow : Bool) : Option Str :=
  if allow = false then none
  else if req < (decInt (Int.log 10 a)).length + 1 then some (pyRepeat ['!'] (sign.length + req))
  else
    match recur (a / 10 ^ Int.log 10 a) (req - ((decInt (Int.log 10 a)).length + 1)) with
    | none => some (rjust req.toNat ' ' (sign ++ 'e' :: decInt (Int.log 10 a)))
    | some t => some (sign ++ t ++ 'e' :: decInt (Int.log 10 a))

theorem body_eq (recur : Rat → Int → Option Str) {v : Rat} {n : Int} {allow : Bool} (hn : n ≠ 0) (hv : v ≠ 0)
    (hge : -1 ≤ n + (minusOf v).length) :
    autoFloatBody recur v (n + (minusOf v).length) allow =
      if |v| < 1 ∧ n = 1 then some (minusOf v ++ ['0'])
      else if wantsExponent |v| n allow then expText recur (minusOf v) |v| n allow
      else (plainText |v| n).map (minusOf v ++ ·) := by
  unfold autoFloatBody
  rw [if_neg (by omega)]
  have hreq : (if v < 0 then n + ((minusOf v).length : Int) - 1 else n + (minusOf v).length) = n := by
    unfold minusOf; split <;> simp
  have hs : (if v < 0 then ['-'] else []) = minusOf v := rfl
  simp only [hreq, hs, hn, if_false, hv]
  split
  · rfl
  · by_cases hw : wantsExponent |v| n allow
    · rw [if_pos hw]
      unfold wantsExponent at hw
      rw [if_pos hw]
      unfold expText
      rfl
    · rw [if_neg hw]
      unfold wantsExponent at hw
      rw [if_neg hw]
      unfold plainText
      split
      · split <;> rfl
      · split <;> rfl

theorem log_sig {a : Rat} (ha : 0 < a) : 1 ≤ a / 10 ^ Int.log 10 a ∧ a / 10 ^ Int.log 10 a < 10 := by
  have h1 := Int.zpow_log_le_self (b := 10) (by decide) ha
  have h2 := Int.lt_zpow_succ_log_self (b := 10) (by decide) a
  push_cast at h1 h2
  have hp : (0 : Rat) < 10 ^ Int.log 10 a := zpow_pos (by norm_num) _
  rw [zpow_add_one₀ (by norm_num)] at h2
  rw [le_div_iff₀ hp, div_lt_iff₀ hp]
  constructor <;> linarith

theorem decInt_intText (e : Int) : decInt e = intText e := by
  unfold decInt intText
  split
  · rw [show (-e).toNat = e.natAbs by omega]; rfl
  · rw [show e.toNat = e.natAbs by omega]; rfl

/-- The recursive call of `format_auto_float`. -/
def noExponent (v : Rat) (n : Int) : Option Str := autoFloatBody (fun _ _ => none) v n false

theorem formatAutoFloat_eq (v : Rat) (n : Int) (allow : Bool) : formatAutoFloat v n allow = autoFloatBody noExponent v n allow := rfl

theorem minusOf_nonneg {v : Rat} (h : 0 ≤ v) : minusOf v = [] := by
  unfold minusOf; rw [if_neg (not_lt.2 h)]

theorem noExponent_zero {x : Rat} (hx : 1 ≤ x) : noExponent x 0 = some [] := by
  unfold noExponent autoFloatBody
  have : ¬ x < 0 := by linarith
  simp [this, pyRepeat]

theorem noExponent_sig {x : Rat} (h1 : 1 ≤ x) (h2 : x < 10) {n : Nat} (hn : 1 ≤ n) : noExponent x n = plainText x n := by
  have hp : 0 < x := by linarith
  have hb := body_eq (fun _ _ => none) (v := x) (n := n) (allow := false) (by omega) (ne_of_gt hp) (by omega)
  rw [minusOf_nonneg hp.le] at hb
  simp only [List.length_nil, Nat.cast_zero, add_zero, abs_of_pos hp, List.nil_append] at hb
  unfold noExponent
  rw [hb, if_neg (by intro h; linarith [h.1]), if_neg]
  · cases plainText x n <;> rfl
  · unfold wantsExponent
    have := log_digits hp (D := 1) (by omega) (by simpa using h2) (Or.inl rfl)
    simp
    omega

theorem plain_decimal {v : Rat} (hv : v ≠ 0) {n D : Nat} {allow : Bool} (hD : 1 ≤ D) (h1 : |v| < 10 ^ D)
    (h2 : D = 1 ∨ 10 ^ (D - 1) ≤ |v|) (h3 : D ≤ n) (h4 : allow = false ∨ 1 / 100 ≤ |v| ∨ n = 1) :
    ∃ t q, formatAutoFloat v (n + (minusOf v).length) allow = some (minusOf v ++ t) ∧ IsDecimal t q (lastUnit n D) ∧
      BestIn n D |v| q ∧ n ≤ t.length ∧ t.length ≤ n + 1 ∧ ((10 ^ D - 1 / 20 ≤ |v| → False) → t.length = n) := by
  have ha : 0 < |v| := abs_pos.2 hv
  rw [formatAutoFloat_eq, body_eq noExponent (by omega) hv (by omega)]
  by_cases h0 : |v| < 1 ∧ (n : Int) = 1
  · rw [if_pos h0]
    have hn : n = 1 := by omega
    have hD' : D = 1 := by omega
    subst hn hD'
    refine ⟨['0'], 0, rfl, ?_, Or.inr ⟨rfl, Or.inr ⟨h0.1, rfl⟩⟩, by decide, by decide, fun _ => rfl⟩
    exact ⟨0, ['0'], [], 0, by decide, rfl, by decide, by simp [lastUnit], by simp⟩
  · rw [if_neg h0, if_neg]
    · obtain ⟨t, q, ht, h⟩ := plainText_spec ha hD h1 h2 h3
      exact ⟨t, q, by rw [ht]; rfl, h⟩
    · unfold wantsExponent
      have hm := log_digits ha hD h1 h2
      rintro (⟨ht, hl⟩ | hl)
      · rcases h4 with h | h | h
        · rw [h] at ht; cases ht
        · have := (Int.zpow_le_iff_le_log (b := 10) (by decide) ha (x := -2)).1 (by norm_num; linarith)
          omega
        · refine h0 ⟨?_, by omega⟩
          have := (Int.lt_zpow_iff_log_lt (b := 10) (by decide) ha (x := -2)).2 hl
          norm_num at this
          linarith
      · omega

theorem exp_decimal {v : Rat} (hv : v ≠ 0) {n : Nat} {e : Int} (h1 : 10 ^ e ≤ |v|) (h2 : |v| < 10 ^ (e + 1))
    (h3 : (e < -2 ∧ 2 ≤ n) ∨ ((n : Int) ≤ e ∧ 1 ≤ n)) :
    (n ≤ (intText e).length → formatAutoFloat v (n + (minusOf v).length) true = some (List.replicate (n + (minusOf v).length) '!')) ∧
    (n = (intText e).length + 1 → formatAutoFloat v (n + (minusOf v).length) true = some (minusOf v ++ 'e' :: intText e)) ∧
    (∀ m, 1 ≤ m → n = m + (intText e).length + 1 → ∃ t q, formatAutoFloat v (n + (minusOf v).length) true = some (minusOf v ++ t ++ 'e' :: intText e) ∧
      IsDecimal t q (lastUnit m 1) ∧ BestIn m 1 (|v| / 10 ^ e) q ∧ m ≤ t.length ∧ t.length ≤ m + 1 ∧
        ((10 - 1 / 20 ≤ |v| / 10 ^ e → False) → t.length = m)) := by
  have ha : 0 < |v| := abs_pos.2 hv
  have hlog : Int.log 10 |v| = e := by
    have a1 := (Int.zpow_le_iff_le_log (b := 10) (by decide) ha (x := e)).1 (by simpa using h1)
    have a2 := (Int.lt_zpow_iff_log_lt (b := 10) (by decide) ha (x := e + 1)).1 (by simpa using h2)
    omega
  obtain ⟨s1, s2⟩ := log_sig ha
  rw [hlog] at s1 s2
  have hw : wantsExponent |v| n true := by
    unfold wantsExponent
    rw [hlog]
    simp
    omega
  have h0 : ¬ (|v| < 1 ∧ (n : Int) = 1) := by
    rintro ⟨a1, a2⟩
    have := (Int.lt_zpow_iff_log_lt (b := 10) (by decide) ha (x := 0)).1 (by simpa using a1)
    omega
  have key : formatAutoFloat v (n + (minusOf v).length) true = expText noExponent (minusOf v) |v| n true := by
    rw [formatAutoFloat_eq, body_eq noExponent (by omega) hv (by omega), if_neg h0, if_pos hw]
  rw [key]
  unfold expText
  rw [if_neg (by decide), hlog, decInt_intText]
  refine ⟨?_, ?_, ?_⟩
  · intro hn
    rw [if_pos (by omega)]
    congr 1
    have : ((minusOf v).length : Int) + n = ((n + (minusOf v).length : Nat) : Int) := by push_cast; ring
    rw [this]
    unfold pyRepeat
    rw [Int.toNat_natCast]
    simp
  · intro hn
    rw [if_neg (by omega), show (n : Int) - ((intText e).length + 1) = 0 by omega, noExponent_zero s1]
    simp
  · intro m hm hn
    rw [if_neg (by omega), show (n : Int) - ((intText e).length + 1) = (m : Int) by omega, noExponent_sig s1 s2 hm]
    obtain ⟨t, q, ht, h⟩ := plainText_spec (a := |v| / 10 ^ e) (by linarith) (D := 1) (by omega) (by simpa using s2) (Or.inl rfl) hm
    rw [ht]
    refine ⟨t, q, rfl, ?_⟩
    simpa using h

theorem zero_text (n : Nat) (allow : Bool) (hn : 1 ≤ n) : formatAutoFloat 0 n allow = some (List.replicate (n - 1) ' ' ++ ['0']) := by
  rw [formatAutoFloat_eq]
  unfold autoFloatBody
  rw [if_neg (by omega)]
  simp only [lt_irrefl, if_false, if_true]
  rw [if_neg (by omega)]
  split
  · rename_i h
    rw [show n = 1 by omega]
    rfl
  · rw [padNumber_nat]
    have : fixedText 0 0 = ['0'] := by decide +kernel
    rw [this]
    rfl

/-- No power of ten lies just above the number. -/
def NotBelowPower (v : Rat) : Prop := ∀ k : Int, 199 / 200 * 10 ^ k ≤ |v| → 10 ^ k ≤ |v|

theorem exists_digits {a : Rat} (ha : 0 < a) {n : Nat} (hn : 1 ≤ n) (h : Int.log 10 a ≤ n - 1) :
    ∃ D : Nat, 1 ≤ D ∧ a < 10 ^ D ∧ (D = 1 ∨ 10 ^ (D - 1) ≤ a) ∧ D ≤ n := by
  obtain ⟨D, hD⟩ : ∃ D : Nat, (D : Int) = max 1 (Int.log 10 a + 1) := ⟨_, Int.toNat_of_nonneg (by omega)⟩
  refine ⟨D, by omega, ?_, ?_, by omega⟩
  · have := (Int.lt_zpow_iff_log_lt (b := 10) (by decide) ha (x := (D : Int))).2 (by omega)
    simpa using this
  · by_cases h0 : Int.log 10 a ≤ 0
    · left; omega
    · right
      have := (Int.zpow_le_iff_le_log (b := 10) (by decide) ha (x := ((D - 1 : Nat) : Int))).2 (by omega)
      rw [zpow_natCast] at this
      exact_mod_cast this

theorem length_cases (v : Rat) (n : Nat) (allow : Bool) (hn : 1 ≤ n) (hv : v ≠ 0) :
    (allow = false ∧ 10 ^ n ≤ |v| ∧ formatAutoFloat v (n + (minusOf v).length) allow = none) ∨
    ((allow = true ∨ |v| < 10 ^ n) ∧ ∃ s, formatAutoFloat v (n + (minusOf v).length) allow = some s ∧ s.length ≤ n + (minusOf v).length + 1 ∧
      (NotBelowPower v → s.length = n + (minusOf v).length)) := by
  have ha : 0 < |v| := abs_pos.2 hv
  have hlow := Int.zpow_log_le_self (b := 10) (by decide) ha
  have hup := Int.lt_zpow_succ_log_self (b := 10) (by decide) |v|
  have plain : Int.log 10 |v| ≤ n - 1 → (allow = false ∨ 1 / 100 ≤ |v| ∨ n = 1) →
      ∃ s, formatAutoFloat v (n + (minusOf v).length) allow = some s ∧ s.length ≤ n + (minusOf v).length + 1 ∧
      (NotBelowPower v → s.length = n + (minusOf v).length) := by
    intro h h4
    obtain ⟨D, d1, d2, d3, d4⟩ := exists_digits ha hn h
    obtain ⟨t, q, ht, _, _, l1, l2, l3⟩ := plain_decimal hv d1 d2 d3 d4 h4
    refine ⟨_, ht, by rw [List.length_append]; omega, fun hnb => ?_⟩
    have := l3 (fun hc => by
      have hp : (10 : Rat) ≤ 10 ^ D := by
        have := pow_le_pow_right₀ (by norm_num : (1 : Rat) ≤ 10) d1
        simpa using this
      have := hnb D (by rw [zpow_natCast]; linarith)
      rw [zpow_natCast] at this
      linarith)
    rw [List.length_append]; omega
  have exponent : allow = true → (Int.log 10 |v| < -2 ∧ 2 ≤ n) ∨ ((n : Int) ≤ Int.log 10 |v| ∧ 1 ≤ n) →
      ∃ s, formatAutoFloat v (n + (minusOf v).length) allow = some s ∧ s.length ≤ n + (minusOf v).length + 1 ∧
      (NotBelowPower v → s.length = n + (minusOf v).length) := by
    intro hal h
    subst hal
    obtain ⟨e1, e2, e3⟩ := exp_decimal hv (by simpa using hlow) (by simpa using hup) h
    generalize hL : (intText (Int.log 10 |v|)).length = L at e1 e2 e3
    by_cases c1 : n ≤ L
    · exact ⟨_, e1 c1, by simp, fun _ => by simp⟩
    · by_cases c2 : n = L + 1
      · refine ⟨_, e2 c2, ?_, fun _ => ?_⟩ <;> simp <;> omega
      · obtain ⟨t, q, ht, _, _, l1, l2, l3⟩ := e3 (n - L - 1) (by omega) (by omega)
        refine ⟨_, ht, by simp; omega, fun hnb => ?_⟩
        have := l3 (fun hc => by
          have hp : (0 : Rat) < 10 ^ Int.log 10 |v| := zpow_pos (by norm_num) _
          rw [le_div_iff₀ hp] at hc
          have hup' : |v| < 10 ^ (Int.log 10 |v| + 1) := by simpa using hup
          have := hnb (Int.log 10 |v| + 1) (by rw [zpow_add_one₀ (by norm_num)]; linarith)
          linarith)
        simp
        omega
  by_cases hbig : Int.log 10 |v| ≤ n - 1
  · have hlt : |v| < 10 ^ n := by
      have := (Int.lt_zpow_iff_log_lt (b := 10) (by decide) ha (x := n)).2 (by omega)
      simpa using this
    by_cases h4 : allow = false ∨ 1 / 100 ≤ |v| ∨ n = 1
    · exact Or.inr ⟨Or.inr hlt, plain hbig h4⟩
    · simp only [not_or, Bool.not_eq_false] at h4
      obtain ⟨hal, h5, h6⟩ := h4
      have hl2 := (Int.lt_zpow_iff_log_lt (b := 10) (by decide) ha (x := -2)).1 (by norm_num; linarith)
      exact Or.inr ⟨Or.inl hal, exponent hal (Or.inl ⟨hl2, by omega⟩)⟩
  · cases hal : allow with
    | true =>
      subst hal
      exact Or.inr ⟨Or.inl rfl, exponent rfl (Or.inr ⟨by omega, hn⟩)⟩
    | false =>
      have hge : 10 ^ n ≤ |v| := by
        have := (Int.zpow_le_iff_le_log (b := 10) (by decide) ha (x := n)).2 (by omega)
        simpa using this
      refine Or.inl ⟨rfl, hge, ?_⟩
      rw [formatAutoFloat_eq, body_eq noExponent (by omega) hv (by omega), if_neg, if_pos]
      · rfl
      · unfold wantsExponent; omega
      · rintro ⟨a1, _⟩
        have := one_le_pow₀ (by norm_num : (1 : Rat) ≤ 10) (n := n)
        linarith

end Kolombos
