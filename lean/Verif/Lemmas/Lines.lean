import Verif.Spec.Lines
import Verif.Lemmas.BinLoop
/-
Reading printed lines back.
-/
set_option linter.unusedSimpArgs false

namespace Kolombos
open Spec

theorem linesOf_line {a : Str} (h : '\n' ∉ a) (t : Str) : linesOf (a ++ '\n' :: t) = a :: linesOf t := by
  induction a with
  | nil => simp [linesOf]
  | cons c a ih =>
    have hc : c ≠ '\n' := fun e => h (by simp [e])
    rw [List.cons_append, linesOf, if_neg hc, ih fun hm => h (by simp [hm])]

theorem linesOf_flat {ls : List Str} (h : ∀ l ∈ ls, '\n' ∉ l) : linesOf (ls.flatMap fun l => l ++ ['\n']) = ls := by
  induction ls with
  | nil => rfl
  | cons l ls ih =>
    rw [List.flatMap_cons, List.append_assoc]
    show linesOf (l ++ '\n' :: _) = _
    rw [linesOf_line (h l (by simp))]
    exact congrArg _ (ih fun x hx => h x (by simp [hx]))

theorem digitVal_hexDigit {d : Nat} (h : d < 16) : digitVal (hexDigit d) = some d := by
  have : ∀ d : Fin 16, digitVal (hexDigit d.1) = some d.1 := by decide
  exact this ⟨d, h⟩

theorem readDigits_append (base : Nat) (a b : Str) (acc : Nat) :
    readDigits base acc (a ++ b) = (readDigits base acc a).bind fun n => readDigits base n b := by
  induction a generalizing acc with
  | nil => rfl
  | cons c a ih =>
    rw [List.cons_append, readDigits, readDigits]
    cases digitVal c with
    | none => rfl
    | some d =>
      simp only
      split
      · exact ih _
      · rfl

theorem readDigits_one {base d : Nat} (hb : base ≤ 16) (h : d < base) (acc : Nat) :
    readDigits base acc [d.digitChar] = some (acc * base + d) := by
  rw [digitChar_eq (by omega), readDigits, digitVal_hexDigit (by omega)]
  simp [h, readDigits]

theorem readDigits_toDigits {base : Nat} (h1 : 1 < base) (h16 : base ≤ 16) (n : Nat) :
    readDigits base 0 (Nat.toDigits base n) = some n := by
  induction n using Nat.strongRecOn with
  | ind n ih =>
    by_cases h : n < base
    · rw [Nat.toDigits_of_lt_base h, readDigits_one h16 h]; simp
    · have hlt : n / base < n := Nat.div_lt_self (by omega) h1
      rw [Nat.toDigits_of_base_le h1 (by omega), readDigits_append, ih _ hlt]
      simp only [Option.bind_some]
      rw [readDigits_one h16 (Nat.mod_lt _ (by omega)), Nat.mul_comm, Nat.div_add_mod]

theorem readDigits_zeros (base k : Nat) (hb : 0 < base) : readDigits base 0 (List.replicate k '0') = some 0 := by
  induction k with
  | zero => rfl
  | succ k ih =>
    rw [List.replicate_succ, readDigits, show digitVal '0' = some 0 by decide]
    simp [hb, ih]

theorem toDigits_ne_nil (base n : Nat) (h : 1 < base) : Nat.toDigits base n ≠ [] := by
  by_cases hn : n < base
  · rw [Nat.toDigits_of_lt_base hn]; simp
  · rw [Nat.toDigits_of_base_le h (by omega)]; simp

theorem denotes_dec (n : Nat) : Denotes 10 (dec n) n :=
  ⟨toDigits_ne_nil 10 n (by decide), readDigits_toDigits (by decide) (by decide) n⟩

theorem denotes_hexPad (w n : Nat) : Denotes 16 (hexPad w n) n := by
  have h2 : hexPad w n = List.replicate (w - (hex n).length) '0' ++ Nat.toDigits 16 n := rfl
  refine ⟨?_, ?_⟩
  · rw [h2]
    intro h
    exact toDigits_ne_nil 16 n (by decide) (List.append_eq_nil_iff.1 h).2
  · rw [h2, readDigits_append, readDigits_zeros _ _ (by decide)]
    exact readDigits_toDigits (by decide) (by decide) n

/-- The label before it is cut denotes the offset. -/
theorem offsetLabel_denotes (s : Settings) (n : Nat) : IsOffsetLabel s.decimalOffsets n (Console.offsetLabel s n) := by
  unfold IsOffsetLabel Console.offsetLabel
  split
  · exact denotes_dec n
  · exact ⟨_, rfl, denotes_hexPad _ n⟩

theorem ofNat_digits (b : Byte) : UInt8.ofNat (16 * (b.toNat / 16) + b.toNat % 16) = b := by
  rw [Nat.div_add_mod]; simp

/-- Reading the hex column. -/
theorem readBytes_cells (cells : List Cell) {t : Str} (ht : readBytes t = []) :
    readBytes ((cells.flatMap Cell.hex).map Prod.fst ++ t) = cells.map Cell.byte := by
  induction cells with
  | nil => exact ht
  | cons c cells ih =>
    rw [List.flatMap_cons, List.map_append, List.append_assoc]
    have : c.hex.map Prod.fst = [' ', hexDigit (c.byte.toNat / 16), hexDigit (c.byte.toNat % 16)] := by
      simp [Cell.hex, inStyle]
    rw [this]
    simp only [List.cons_append, List.nil_append]
    have h1 : c.byte.toNat / 16 < 16 := by have := c.byte.toNat_lt; omega
    have h2 : c.byte.toNat % 16 < 16 := by omega
    rw [readBytes, digitVal_hexDigit h1, digitVal_hexDigit h2]
    simp only [List.map_cons]
    rw [ih, ofNat_digits]

end Kolombos
