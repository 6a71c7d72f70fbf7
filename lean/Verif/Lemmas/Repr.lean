/-
Facts about representations.
-/
import Verif.Model.Repr
import Verif.Spec.Repr
import Verif.Lemmas.Tmux
import Verif.Lemmas.BinFmt
import Verif.Lemmas.Html
import Verif.Lemmas.Sgr
set_option linter.unusedSimpArgs false

namespace Kolombos
open Kolombos.Spec

theorem hexNumber_append (s : Str) (c : Char) : hexNumber (s ++ [c]) = 16 * hexNumber s + (hexValue c).getD 0 := by
  simp [hexNumber]

theorem hexNumber_hex (n : Nat) : hexNumber (hex n) = n := by
  induction n using Nat.strongRecOn with
  | ind n ih =>
    unfold hex at ih ⊢
    by_cases h : n < 16
    · rw [Nat.toDigits_of_lt_base h]
      simp [hexNumber, hexValue_digit h]
    · rw [Nat.toDigits_of_base_le (by decide) (by omega), hexNumber_append, ih _ (by omega),
        hexValue_digit (Nat.mod_lt _ (by decide))]
      simp only [Option.getD_some]
      omega

theorem hexNumber_zeros (k : Nat) (s : Str) : hexNumber (List.replicate k '0' ++ s) = hexNumber s := by
  induction k with
  | zero => simp
  | succ k ih =>
    rw [← ih]
    simp [hexNumber, List.replicate_succ, show hexValue '0' = some 0 by decide]

theorem hexNumber_pad (w n : Nat) : hexNumber (hexPad w n) = n := by
  unfold hexPad
  rw [hexNumber_zeros, hexNumber_hex]

theorem hexPad_inj {w m n : Nat} (h : hexPad w m = hexPad w n) : m = n := by
  rw [← hexNumber_pad w m, h, hexNumber_pad]

theorem hexRepr_length {n : Nat} (h : n < 16777216) : (hex n).length ≤ 6 := by
  have : ∀ k n : Nat, n < 16 ^ (k + 1) → (hex n).length ≤ k + 1 := by
    intro k
    induction k with
    | zero =>
      intro n h
      unfold hex
      rw [Nat.toDigits_of_lt_base (by omega)]
      simp
    | succ k ih =>
      intro n h
      by_cases h16 : n < 16
      · unfold hex
        rw [Nat.toDigits_of_lt_base h16]
        simp
      · have := ih (n / 16) (by rw [Nat.pow_succ] at h; omega)
        unfold hex at this ⊢
        rw [Nat.toDigits_of_base_le (by decide) (by omega), List.length_append, List.length_singleton]
        omega
  exact this 5 n (by omega)

theorem hexPad_text (h : Nat) : HexText (hexPad 6 h) h where
  digits := by
    intro c hc
    obtain ⟨d, hd, rfl⟩ := hexPad_digits 6 h c hc
    have : ∀ d : Fin 16, ('0' ≤ hexDigit d.1 ∧ hexDigit d.1 ≤ '9') ∨ ('a' ≤ hexDigit d.1 ∧ hexDigit d.1 ≤ 'f') := by decide
    exact this ⟨d, hd⟩
  value := hexNumber_pad 6 h
  six := by unfold hexPad; simp; omega
  short := by
    intro hh
    have := hexRepr_length hh
    unfold hexPad
    simp
    omega

theorem hexPad_not {w n : Nat} {c : Char} (h : hexValue c = none) : c ∉ hexPad w n := by
  intro hc
  obtain ⟨d, hd, rfl⟩ := hexPad_digits w n c hc
  have : ∀ d : Fin 16, hexValue (hexDigit d.1) ≠ none := by decide
  exact this ⟨d, hd⟩ h

theorem dec_not {n : Nat} {c : Char} (h : c.isDigit = false) : c ∉ dec n := by
  intro hc
  have := dec_digit hc
  rw [h] at this
  cases this

/-- Values without the first character of the separator can be told apart after joining. -/
theorem join_sep_inj {c : Char} {sep : Str} : ∀ {l m : List Str}, l ≠ [] → m ≠ [] → (∀ x ∈ l, c ∉ x) → (∀ x ∈ m, c ∉ x) →
    join (c :: sep) l = join (c :: sep) m → l = m
  | [], _, hl, _, _, _, _ => absurd rfl hl
  | _ :: _, [], _, hm, _, _, _ => absurd rfl hm
  | [a], [b], _, _, _, _, h => by rw [join_one, join_one] at h; rw [h]
  | [a], b :: d :: m, _, _, na, _, h => by
    rw [join_one, join_cons_cons] at h
    exact absurd (by rw [h]; simp) (na a (by simp))
  | a :: d :: l, [b], _, _, _, nb, h => by
    rw [join_one, join_cons_cons] at h
    exact absurd (by rw [← h]; simp) (nb b (by simp))
  | a :: d :: l, b :: e :: m, _, _, na, nb, h => by
    rw [join_cons_cons, join_cons_cons, List.cons_append, List.cons_append] at h
    obtain ⟨h1, h2⟩ := sgr_split_at (na a (by simp)) (nb b (by simp)) h
    rw [h1, join_sep_inj (l := d :: l) (m := e :: m) (by simp) (by simp) (fun x hx => na x (by simp [hx])) (fun x hx => nb x (by simp [hx]))
      (List.append_cancel_left h2)]

theorem reprNat_inj {a b : Option Nat} (h : reprNat a = reprNat b) : a = b := by
  have no : ∀ n, dec n ≠ chars% "None" := by
    intro n e
    have : 'N' ∉ dec n := dec_not (by decide)
    rw [e] at this
    simp at this
  cases a with
  | none =>
    cases b with
    | none => rfl
    | some n => exact absurd h.symm (no n)
  | some m =>
    cases b with
    | none => exact absurd h (no m)
    | some n => rw [dec_inj h]

theorem reprNat_comma (a : Option Nat) : ',' ∉ reprNat a := by
  cases a with
  | none => decide
  | some n => exact dec_not (by decide)

theorem formatValue_inj {a b : PColor} {p : Option Str} {l : Str} (hl : ∀ h, p.getD [] ++ hexPad 6 h ≠ l)
    (h : a.formatValue p l = b.formatValue p l) : a.hex = b.hex := by
  unfold PColor.formatValue at h
  cases ha : a.hex with
  | none =>
    cases hb : b.hex with
    | none => rfl
    | some n => rw [ha, hb] at h; exact absurd h.symm (hl n)
  | some m =>
    cases hb : b.hex with
    | none => rw [ha, hb] at h; exact absurd h (hl m)
    | some n =>
      rw [ha, hb] at h
      rw [hexPad_inj (List.append_cancel_left h)]

theorem formatValue_default_inj {a b : PColor} (h : a.formatValue = b.formatValue) : a.hex = b.hex :=
  formatValue_inj (by intro n e; simp at e) h

theorem formatValue_congr {a b : PColor} (p : Option Str) (l : Str) (h : a.hex = b.hex) : a.formatValue p l = b.formatValue p l := by
  unfold PColor.formatValue
  rw [h]

theorem formatValue_comma (a : PColor) {p : Option Str} {l : Str} (hp : ',' ∉ p.getD []) (hl : ',' ∉ l) : ',' ∉ a.formatValue p l := by
  unfold PColor.formatValue
  cases a.hex with
  | none => exact hl
  | some n =>
    simp only [List.mem_append, not_or]
    exact ⟨hp, hexPad_not (by decide)⟩

theorem sgrRepr_inj {a b : Sgr} (h : Sgr.repr a = Sgr.repr b) : a = b := by
  unfold Sgr.repr at h
  simp only [List.append_assoc, List.append_cancel_left_eq] at h
  have h := List.append_cancel_right h
  have no : ∀ l : List Nat, join [';'] (l.map dec) ≠ ['~'] := by
    intro l e
    have : isSgrParam '~' = true := join_sgrParam l '~' (by rw [e]; simp)
    exact absurd this (by decide)
  by_cases ha : a.length = 0
  · by_cases hb : b.length = 0
    · rw [List.length_eq_zero_iff.1 ha, List.length_eq_zero_iff.1 hb]
    · rw [if_pos ha, if_neg hb] at h; exact absurd h.symm (no b)
  · by_cases hb : b.length = 0
    · rw [if_neg ha, if_pos hb] at h; exact absurd h (no a)
    · rw [if_neg ha, if_neg hb] at h
      exact join_dec_inj (fun e => ha (by simp [e])) (fun e => hb (by simp [e])) h

theorem sgrRepr_comma (a : Sgr) : ',' ∉ Sgr.repr a := by
  unfold Sgr.repr
  by_cases h : a.length = 0
  · simp only [h, if_true]; decide
  · simp only [h, if_false, List.mem_append, not_or]
    exact ⟨⟨⟨by decide, by decide⟩, fun e => absurd (join_sgrParam a ',' e) (by decide)⟩, by decide⟩

/-- The names of the attributes that are on. -/
def onNames (s : PStyle) : List Str := s.dir.filterMap fun e => if e.2 == some true then some e.1 else none

theorem onNames_comma (s : PStyle) : ∀ x ∈ onNames s, ',' ∉ x := by
  intro x hx
  unfold onNames at hx
  simp only [List.mem_filterMap] at hx
  obtain ⟨e, he, hx⟩ := hx
  have : x = e.1 := by
    by_cases h : (e.2 == some true) = true
    · rw [if_pos h] at hx; cases hx; rfl
    · rw [if_neg h] at hx; cases hx
  subst this
  simp only [PStyle.dir, List.mem_cons, List.not_mem_nil, or_false] at he
  rcases he with rfl | rfl | rfl | rfl | rfl | rfl | rfl | rfl | rfl <;> simp

theorem onNames_mem (s : PStyle) (x : Str) : x ∈ onNames s ↔ (x, some true) ∈ s.dir := by
  unfold onNames
  simp only [List.mem_filterMap]
  constructor
  · rintro ⟨e, he, h⟩
    by_cases ht : (e.2 == some true) = true
    · rw [if_pos ht] at h
      cases h
      have : e.2 = some true := by simpa using ht
      rw [← this]
      exact he
    · rw [if_neg ht] at h; cases h
  · intro h
    exact ⟨_, h, by simp⟩

theorem styleRepr_eq (s : PStyle) : s.repr = chars% "Style[" ++ join (chars% ", ")
    (s.fg.formatValue (some (chars% "fg=")) (chars% "no fg") :: s.bg.formatValue (some (chars% "bg=")) (chars% "no bg") :: onNames s) ++ [']'] := rfl

end Kolombos
