import Verif.Props.Binary
/-
C20: the exact bounds of the labels.
-/
namespace Kolombos
open Spec

theorem readDigits_rest {base acc n m : Nat} {a b : Str} (ha : readDigits base acc a = some n) (h : readDigits base acc (a ++ b) = some m) :
    readDigits base n b = some m := by
  induction a generalizing acc with
  | nil => simp only [readDigits, Option.some.injEq] at ha; subst ha; exact h
  | cons c a ih =>
    simp only [List.cons_append, readDigits] at ha h
    split at ha
    · split at ha
      · rename_i hd hlt
        simp only [hd, hlt, if_true] at h
        exact ih ha h
      · cases ha
    · cases ha

theorem readDigits_ge {base acc m : Nat} {b : Str} (h : readDigits base acc b = some m) : acc * base ^ b.length ≤ m := by
  induction b generalizing acc with
  | nil => simp only [readDigits, Option.some.injEq] at h; simp [h]
  | cons c b ih =>
    simp only [readDigits] at h
    split at h
    · split at h
      · have := ih h
        refine Nat.le_trans ?_ this
        rw [List.length_cons, Nat.pow_succ, Nat.mul_comm (base ^ b.length), ← Nat.mul_assoc]
        exact Nat.mul_le_mul_right _ (Nat.le_add_right _ _)
      · cases h
    · cases h

/-- A part of a numeral does not denote the same number, unless it is nought. -/
theorem denotes_part {base n : Nat} (hb : 2 ≤ base) (hn : 0 < n) {a b : Str} (ha : readDigits base 0 a = some n)
    (h : readDigits base 0 (a ++ b) = some n) : b = [] := by
  have h1 := readDigits_ge (readDigits_rest ha h)
  refine Classical.byContradiction fun hne => ?_
  have h2 : 1 ≤ b.length := by
    cases b with
    | nil => exact absurd rfl hne
    | cons c b => simp
  have h3 : 2 ≤ base ^ b.length := Nat.le_trans hb (Nat.le_self_pow (by omega) base)
  have h4 : n * 2 ≤ n := Nat.le_trans (Nat.mul_le_mul_left n h3) h1
  omega

theorem label_cut {d : Bool} {n k : Nat} (hn : 0 < n) (hk : 2 ≤ k) {t : Str} (h : IsOffsetLabel d n t) (h' : IsOffsetLabel d n (t.take k)) : t.length ≤ k := by
  have key : ∀ {base : Nat} {t : Str} {k : Nat}, 2 ≤ base → Denotes base t n → Denotes base (t.take k) n → t.length ≤ k := by
    intro base t k hb h1 h2
    have h3 := h1.2
    rw [← List.take_append_drop k t] at h3
    have := denotes_part hb hn h2.2 h3
    simpa using this
  unfold IsOffsetLabel at h h'
  split at h
  · rename_i hd
    rw [if_pos hd] at h'
    exact key (by decide) h h'
  · rename_i hd
    rw [if_neg hd] at h'
    obtain ⟨ds, rfl, h1⟩ := h
    obtain ⟨ds', e, h2⟩ := h'
    obtain ⟨k, rfl⟩ : ∃ j, k = j + 2 := ⟨k - 2, by omega⟩
    simp only [List.take_succ_cons, List.cons.injEq, true_and] at e
    rw [← e] at h2
    have := key (by decide) h1 h2
    simp only [List.length_cons]
    omega

/-- C20: the bounds of `C20_label_partial` are exact: from there on the label does not denote the offset. -/
theorem C20_exact_partial (s : Settings) (n : Nat) (f : Sgr) (hf : f = [32] ∨ f = [36]) :
    (∃ lab, IsOffsetLabel s.decimalOffsets n lab ∧ visible (Console.formatPrefixWithOffset s n f) = alignRight 8 lab ++ ['│']) ↔
      n < if s.decimalOffsets then 100000000 else 1000000 := by
  refine ⟨?_, C20_label_partial s n f hf⟩
  rintro ⟨lab, h1, h2⟩
  have hv : visible (Console.formatPrefixWithOffset s n f) = alignRight 8 ((Console.offsetLabel s n).take 8) ++ ['│'] := by
    rcases hf with rfl | rfl
    · rw [(shows_prefix s 32 n (.inl rfl)).visible, prefixLayout_text]
    · rw [(shows_prefix s 36 n (.inr rfl)).visible, prefixLayout_text]
  rw [hv] at h2
  have hd := offsetLabel_denotes s n
  have e := alignRight_inj (fun h => isOffsetLabel_noBlank hd (List.mem_of_mem_take h)) (isOffsetLabel_noBlank h1) (List.append_cancel_right h2)
  subst e
  refine Classical.byContradiction fun hlt => ?_
  have hn : 0 < n := by
    split at hlt <;> omega
  have hl := label_cut hn (by decide) hd h1
  unfold Console.offsetLabel at hl
  split at hl
  · rename_i hdec
    rw [if_pos hdec] at hlt
    have := (Nat.length_toDigits_le_iff (b := 10) (n := n) (k := 8) (by decide) (by decide)).1 hl
    omega
  · rename_i hdec
    rw [if_neg hdec] at hlt
    simp only [List.length_cons, hexPad, List.length_append, List.length_replicate] at hl
    have h6 : (dec n).length ≤ 6 := by omega
    have := (Nat.length_toDigits_le_iff (b := 10) (n := n) (k := 6) (by decide) (by decide)).1 h6
    omega

/-- One case on either side. -/
example : (999999 < if ({} : Settings).decimalOffsets then 100000000 else 1000000) ∧
    ¬ (1000000 < if ({} : Settings).decimalOffsets then 100000000 else 1000000) := by decide

end Kolombos
